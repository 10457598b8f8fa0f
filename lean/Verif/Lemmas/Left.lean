import Verif.Model.Into
import Verif.Lemmas.UpdateReads
import Verif.Lemmas.OpenReads
import Verif.Spec.Left

/-! # What a decode leaves in the message object -/

namespace Zbgp

open Spec

attribute [-simp] List.length_flatMap List.length_flatten

/-- the result with the object, if there is a result -/
def fin {β σ : Type} (x : Res β × σ) : Res (β × σ) := x.1 >>= fun b => .ok (b, x.2)

theorem fin_leave {α β σ : Type} (s : σ) (r : Res α) (f : α → Res β × σ) : fin (leave s r f) = r >>= fun a => fin (f a) := by
  cases r <;> rfl

theorem fin_leave_pair {α β σ : Type} (x : Res α × σ) (f : α → σ → Res β × σ) :
    fin (leave x.2 x.1 fun a => f a x.2) = fin x >>= fun y => fin (f y.1 y.2) := by
  obtain ⟨r, s⟩ := x
  cases r <;> rfl

theorem leave_snd {α β σ : Type} {s : σ} {r : Res α} {f : α → Res β × σ} (h : ∀ a, r ≠ .ok a) : (leave s r f).2 = s := by
  cases r <;> first | rfl | exact absurd rfl (h _)

namespace BgpUpdateMessage

theorem attrLoop_round (p : BgpSessionParams) (buf : Bytes) (stop fuel pos : Nat) (h : pos < stop) :
    attrLoop p buf stop (fuel + 1) pos = attrRound p buf stop pos >>= fun y =>
      attrLoop p buf stop fuel y.2 >>= fun z => .ok (y.1 :: z.1, z.2) := by
  rw [attrLoop, if_pos h]
  simp only [attrRound, bind_assoc]
  congr 1; funext flags
  congr 1; funext tc
  congr 1; funext y
  split
  · rfl
  · simp only [bind_assoc, Res.ok_bind]

theorem fin_attrLoop (p : BgpSessionParams) (buf : Bytes) (stop fuel pos : Nat) (self : BgpUpdateMessage) :
    fin (attrLoopInto p buf stop fuel pos self) =
      attrLoop p buf stop fuel pos >>= fun y => .ok (y.2, { self with attrs := self.attrs ++ y.1 }) := by
  induction fuel generalizing pos self with
  | zero =>
    rw [attrLoopInto, attrLoop]
    split
    · rfl
    · simp [fin]
  | succ fuel ih =>
    by_cases h : pos < stop
    · rw [attrLoop_round _ _ _ _ _ h, attrLoopInto, if_pos h, fin_leave, bind_assoc]
      congr 1; funext y
      obtain ⟨x, e⟩ := y
      simp only
      rw [ih]
      simp only [bind_assoc, Res.ok_bind, List.append_assoc, List.singleton_append]
    · rw [attrLoopInto, attrLoop, if_neg h, if_neg h]
      simp [fin]

theorem fin_decodeInto (self : BgpUpdateMessage) (p : BgpSessionParams) (buf : Bytes) :
    fin (self.decodeInto p buf) = self.decodeFrom p buf >>= fun m => .ok ((), m) := by
  unfold decodeInto decodeFrom
  simp only [fin_leave, bind_assoc]
  congr 1; funext s
  congr 1; funext n
  split
  · rfl
  simp only [fin_leave, bind_assoc]
  congr 1; funext s
  congr 1; funext n
  congr 1; funext s
  congr 1; funext n
  split
  · rfl
  rw [fin_leave_pair (f := fun a (s : BgpUpdateMessage) => leave s (do decodeNlri p (← sliceE buf a buf.length)) fun updates =>
    (.ok (), { s with updates := updates })), fin_attrLoop]
  simp only [fin_leave, bind_assoc, Res.ok_bind]
  rfl

end BgpUpdateMessage

namespace BgpUpdateMessage

/-- a round over an attribute that is there -/
theorem attrRound_raw (p : BgpSessionParams) (pre t : Bytes) (r : RawAttr) (hr : RawWF r) (stop : Nat)
    (hs : pre.length + (rawWire r).length ≤ stop) :
    attrRound p (pre ++ (rawWire r ++ t)) stop pre.length =
      BgpAttrItem.decodeFrom p r.code r.flags r.value.length r.value >>= fun x => .ok (x, pre.length + (rawWire r).length) := by
  have hl := rawWire_length r
  have hx := extended_iff r.flags
  unfold RawWF maxValue at hr
  unfold attrRound
  cases he : extended r.flags <;> rw [he] at hx hl hr
  · simp only [Bool.false_eq_true, iff_false] at hx hr
    simp only [Bool.false_eq_true, ↓reduceIte] at hl hr
    have e : pre ++ (rawWire r ++ t) =
        pre ++ (r.flags :: r.code :: BitVec.ofNat 8 r.value.length :: (r.value ++ t)) := by
      simp [rawWire, attrHeader, he, be_one]
    rw [e]
    rw [idx_append_right (by omega), idx_append_right (by omega), idx_append_right (by omega)]
    simp only [Nat.sub_self, show pre.length + 1 - pre.length = 1 by omega,
      show pre.length + 3 - 1 - pre.length = 2 by omega, idx_cons_zero, idx_cons_succ, Res.ok_bind, if_neg hx]
    rw [BitVec.toNat_ofNat, Nat.mod_eq_of_lt (show r.value.length < 2 ^ 8 by omega)]
    rw [if_neg (by omega)]
    rw [show pre ++ (r.flags :: r.code :: BitVec.ofNat 8 r.value.length :: (r.value ++ t)) =
      (pre ++ [r.flags, r.code, BitVec.ofNat 8 r.value.length]) ++ (r.value ++ t) by simp]
    rw [sliceE_append_mid _ _ _ _ _ (by simp) (by simp), Res.ok_bind]
    rw [show pre.length + 3 + r.value.length = pre.length + (rawWire r).length by omega]
  · simp only [iff_true] at hx
    simp only [↓reduceIte] at hl hr
    have e : pre ++ (rawWire r ++ t) =
        pre ++ (r.flags :: r.code :: (be 2 r.value.length ++ (r.value ++ t))) := by
      simp [rawWire, attrHeader, he]
    rw [e]
    rw [idx_append_right (by omega), idx_append_right (by omega)]
    simp only [Nat.sub_self, show pre.length + 1 - pre.length = 1 by omega, idx_cons_zero, idx_cons_succ, Res.ok_bind,
      if_pos hx]
    rw [show pre ++ (r.flags :: r.code :: (be 2 r.value.length ++ (r.value ++ t))) =
      (pre ++ [r.flags, r.code]) ++ (be 2 r.value.length ++ (r.value ++ t)) by simp]
    rw [sliceE_append_mid _ _ _ _ _ (by simp) (by simp)]
    simp only [Res.ok_bind, getn16_two]
    rw [BitVec.toNat_ofNat, Nat.mod_eq_of_lt (show r.value.length < 2 ^ 16 by omega)]
    rw [if_neg (by omega)]
    rw [show (pre ++ [r.flags, r.code]) ++ (be 2 r.value.length ++ (r.value ++ t)) =
      (pre ++ [r.flags, r.code] ++ be 2 r.value.length) ++ (r.value ++ t) by simp]
    rw [sliceE_append_mid _ _ _ _ _ (by simp) (by simp), Res.ok_bind]
    rw [show pre.length + 4 + r.value.length = pre.length + (rawWire r).length by omega]

/-- if a round succeeds there is an attribute -/
theorem attrRound_inv {p : BgpSessionParams} {pre rest : Bytes} {stop : Nat} {x : BgpAttrItem} {e : Nat}
    (hs : stop ≤ (pre ++ rest).length) (h : attrRound p (pre ++ rest) stop pre.length = .ok (x, e)) :
    ∃ r t, rest = rawWire r ++ t ∧ RawWF r ∧ pre.length + (rawWire r).length ≤ stop ∧ ValueRead p r.code r.flags r.value x := by
  have key : ∃ r t, rest = rawWire r ++ t ∧ RawWF r ∧ pre.length + (rawWire r).length ≤ stop := by
    by_cases hlt : pre.length < stop
    · rcases attrLoop_cases p pre rest stop 0 hlt hs with hc | he | h'
      · have := cut_attrLoop p pre rest hc stop 0 hlt
        rw [attrLoop_round _ _ _ _ _ hlt, h] at this
        simp only [Res.ok_bind] at this
        exfalso
        revert this
        unfold attrLoop
        split <;> simp
      · rw [attrLoop_round _ _ _ _ _ hlt, h] at he
        simp only [Res.ok_bind] at he
        exfalso
        revert he
        unfold attrLoop
        split <;> simp [Res.IsErr]
      · exact h'
    · exfalso
      unfold attrRound at h
      obtain ⟨f, _, h⟩ := Res.bind_eq_ok.1 h
      obtain ⟨c, _, h⟩ := Res.bind_eq_ok.1 h
      obtain ⟨⟨q, n⟩, hq, h⟩ := Res.bind_eq_ok.1 h
      have : pre.length < q := by
        split at hq
        · obtain ⟨_, _, hq⟩ := Res.bind_eq_ok.1 hq
          obtain ⟨_, _, hq⟩ := Res.bind_eq_ok.1 hq
          cases hq; omega
        · obtain ⟨_, _, hq⟩ := Res.bind_eq_ok.1 hq
          cases hq; omega
      simp only at h
      rw [if_pos (by omega)] at h
      cases h
  obtain ⟨r, t, rfl, hr, hf⟩ := key
  rw [attrRound_raw p pre t r hr stop hf] at h
  obtain ⟨y, hy, h⟩ := Res.bind_eq_ok.1 h
  cases h
  exact ⟨r, t, rfl, hr, hf, (value_ok_iff p _ _ _ _).1 hy⟩

theorem attrLoopInto_first (p : BgpSessionParams) (stop : Nat) (a : Bytes) (l : List BgpAttrItem)
    (ha : AttrsRead (ValueRead p) a l) (pre t : Bytes) (fuel : Nat) (self : BgpUpdateMessage)
    (hs : stop ≤ (pre ++ (a ++ t)).length) (hf : pre.length + a.length ≤ stop) (hu : stop ≤ pre.length + fuel)
    (hn : ¬ ∃ r t' x, t = rawWire r ++ t' ∧ RawWF r ∧ pre.length + a.length + (rawWire r).length ≤ stop ∧
      ValueRead p r.code r.flags r.value x) :
    (attrLoopInto p (pre ++ (a ++ t)) stop fuel pre.length self).2 = { self with attrs := self.attrs ++ l } := by
  induction ha generalizing pre fuel self with
  | nil =>
    simp only [List.nil_append, List.append_nil, List.length_nil, Nat.add_zero] at *
    cases fuel with
    | zero => rw [attrLoopInto, if_neg (by omega)]
    | succ fuel =>
      rw [attrLoopInto]
      split
      · rw [leave_snd]
        rintro ⟨x, e⟩ h
        obtain ⟨r, t', h1, h2, h3, h4⟩ := attrRound_inv hs h
        exact hn ⟨r, t', x, h1, h2, h3, h4⟩
      · rfl
  | cons r x b l hr hx hl ih =>
    have hlen := rawWire_length r
    simp only [List.length_append] at hf
    have h3 : 3 ≤ (rawWire r).length := by split at hlen <;> omega
    cases fuel with
    | zero => omega
    | succ fuel =>
      rw [attrLoopInto, if_pos (by omega), List.append_assoc, attrRound_raw p pre (b ++ t) r hr stop (by omega),
        (value_ok_iff p _ _ _ _).2 hx]
      simp only [Res.ok_bind, leave]
      have := ih (pre ++ rawWire r) fuel { self with attrs := self.attrs ++ [x] } (by simpa using hs)
        (by simp; omega) (by simp; omega) (by
          simp only [List.length_append] at hn ⊢
          rintro ⟨r', t', x', h1, h2, h3, h4⟩
          exact hn ⟨r', t', x', h1, h2, by omega, h4⟩)
      simp only [List.append_assoc, List.length_append, List.singleton_append] at this
      exact this

end BgpUpdateMessage

/-- there always is a longest run of attributes -/
theorem exists_firstAttrs (p : BgpSessionParams) (n : Nat) (b : Bytes) : ∃ l, FirstAttrs p n b l := by
  induction n using Nat.strongRecOn generalizing b with
  | ind n ih =>
    by_cases h : ∃ r t' x, b = rawWire r ++ t' ∧ RawWF r ∧ (rawWire r).length ≤ n ∧ ValueRead p r.code r.flags r.value x
    · obtain ⟨r, t', x, rfl, hr, hf, hx⟩ := h
      have hlen := rawWire_length r
      have h3 : 3 ≤ (rawWire r).length := by split at hlen <;> omega
      obtain ⟨l, a, t, rfl, h1, h2, h4⟩ := ih (n - (rawWire r).length) (by omega) t'
      refine ⟨x :: l, rawWire r ++ a, t, by simp, by simp; omega, .cons r x a l hr hx h2, ?_⟩
      rintro ⟨r', t', x', g1, g2, g3, g4⟩
      simp only [List.length_append] at g3
      exact h4 ⟨r', t', x', g1, g2, by omega, g4⟩
    · exact ⟨[], [], b, rfl, by simp, .nil, by simpa using h⟩

namespace BgpUpdateMessage

/-- `decode_from` from the size of the attributes on -/
def intoTail (self : BgpUpdateMessage) (p : BgpSessionParams) (buf : Bytes) (wEnd : Nat) : Res Unit × BgpUpdateMessage :=
  leave self (do getn16 (← sliceE buf wEnd (wEnd + 2))) fun pathattrLen =>
  if wEnd + 2 + pathattrLen.toNat > buf.length then (.err .protocolError, self) else
  let y := attrLoopInto p buf (wEnd + 2 + pathattrLen.toNat) (wEnd + 2 + pathattrLen.toNat) (wEnd + 2) self
  leave y.2 y.1 fun curpos =>
  leave y.2 (do decodeNlri p (← sliceE buf curpos buf.length)) fun updates => (.ok (), { y.2 with updates := updates })

theorem decodeInto_head (self : BgpUpdateMessage) (p : BgpSessionParams) (w rest : Bytes) (hw : w.length ≤ 65535)
    (hr : rest ≠ []) :
    self.decodeInto p (be 2 w.length ++ w ++ rest) = leave self (decodeNlri p w) fun wd =>
      intoTail { self with withdraws := wd } p (be 2 w.length ++ w ++ rest) (2 + w.length) := by
  unfold decodeInto
  have : 0 < rest.length := List.length_pos_iff.2 hr
  have e : sliceE (be 2 w.length ++ w ++ rest) 0 2 = .ok (be 2 w.length) := by
    rw [List.append_assoc, sliceE_be_hit]
  have e2 : sliceE (be 2 w.length ++ w ++ rest) 2 (2 + w.length) = .ok w := by
    rw [List.append_assoc, sliceE_append_mid _ _ _ _ _ (by simp) (by simp)]
  rw [e]
  simp only [Res.ok_bind, getn16_two]
  simp only [leave, BitVec.toNat_ofNat]
  rw [Nat.mod_eq_of_lt (by omega), if_neg (by simp only [List.length_append, be_length]; omega), e2]
  simp only [Res.ok_bind]
  rfl

/-- a message without a size of withdrawn prefixes leaves the object alone -/
theorem decodeInto_noHead (self : BgpUpdateMessage) (p : BgpSessionParams) (buf : Bytes)
    (h : ¬ ∃ w rest, Withdrawn buf w rest) : (self.decodeInto p buf).2 = self := by
  unfold decodeInto
  cases hn : (do getn16 (← sliceE buf 0 2) : Res U16) with
  | ok n =>
    simp only [leave]
    split
    · rfl
    · rename_i hlt
      exfalso
      apply h
      obtain ⟨s, hs, hn⟩ := Res.bind_eq_ok.1 hn
      obtain ⟨a, b, rest, rfl⟩ := exists_cons2 (l := buf) (by omega)
      have hs : s = [a, b] := by simpa [sliceE] using hs.symm
      subst hs
      rw [getn16_ok (by simp)] at hn
      have hn : n.toNat = a.toNat * 256 + b.toNat := by
        have := Res.ok.inj hn
        subst this
        simp only [List.take_succ_cons, List.take_zero, unbe_two]
      simp only [List.length_cons] at hlt
      have ha := a.isLt
      have hb := b.isLt
      refine ⟨rest.take n.toNat, rest.drop n.toNat, ?_, ?_, ?_⟩
      · rw [List.length_take, Nat.min_eq_left (by omega), hn, be_two_unbe]; simp
      · rw [List.length_take]; omega
      · intro e
        have := congrArg List.length e
        simp at this
        omega
  | err e => rfl
  | panic => rfl
  | hang => rfl

theorem decodeNlri_iff (p : BgpSessionParams) (w : Bytes) (x : BgpAddrs) : decodeNlri p w = .ok x ↔ NlriIs p w x := by
  rw [← nlriDec_iff, decodeNlri_eq]
  unfold NlriDec
  constructor
  · intro h
    obtain ⟨⟨y, n⟩, h1, h2⟩ := Res.bind_eq_ok.1 h
    cases h2
    exact ⟨n, h1⟩
  · rintro ⟨n, h⟩
    rw [h]; rfl

theorem intoTail_noSize (self : BgpUpdateMessage) (p : BgpSessionParams) (pre rest : Bytes)
    (h : ¬ ∃ n rest', SizedAttrs rest n rest') : (intoTail self p (pre ++ rest) pre.length).2 = self := by
  unfold intoTail
  by_cases hl : 2 ≤ rest.length
  · obtain ⟨a, b, rest, rfl⟩ := exists_cons2 (l := rest) hl
    rw [show pre ++ a :: b :: rest = pre ++ ([a, b] ++ rest) by simp, sliceE_append_mid _ _ _ _ _ (by simp) (by simp)]
    rw [Res.ok_bind, getn16_ok (by simp)]
    simp only [leave, List.take_succ_cons, List.take_zero, unbe_two]
    split
    · rfl
    · rename_i hlt
      exfalso
      apply h
      have ha := a.isLt
      have hb := b.isLt
      refine ⟨a.toNat * 256 + b.toNat, rest, ?_, by omega, ?_⟩
      · rw [be_two_unbe]; rfl
      · simp only [BitVec.toNat_ofNat, List.length_append, List.length_cons, List.length_nil] at hlt; omega
  · have : sliceE (pre ++ rest) pre.length (pre.length + 2) = .err .insufficientBufferSize := by
      unfold sliceE
      rw [if_neg (by simp; omega)]
    rw [this]
    rfl

theorem intoTail_attrs (self : BgpUpdateMessage) (p : BgpSessionParams) (pre : Bytes) (n : Nat) (a t : Bytes)
    (l : List BgpAttrItem) (hn : n ≤ 65535) (hle : n ≤ (a ++ t).length) (ha : a.length ≤ n) (hr : AttrsRead (ValueRead p) a l)
    (hno : ¬ ∃ r t' x, t = rawWire r ++ t' ∧ RawWF r ∧ a.length + (rawWire r).length ≤ n ∧ ValueRead p r.code r.flags r.value x)
    (hfail : (intoTail self p (pre ++ (be 2 n ++ (a ++ t))) pre.length).1 ≠ .ok ()) :
    (intoTail self p (pre ++ (be 2 n ++ (a ++ t))) pre.length).2 = { self with attrs := self.attrs ++ l } := by
  have hl : (intoTail self p (pre ++ (be 2 n ++ (a ++ t))) pre.length) = 
    leave (attrLoopInto p (pre ++ (be 2 n ++ (a ++ t))) (pre.length + 2 + n) (pre.length + 2 + n) (pre.length + 2) self).2
      (attrLoopInto p (pre ++ (be 2 n ++ (a ++ t))) (pre.length + 2 + n) (pre.length + 2 + n) (pre.length + 2) self).1 fun curpos =>
    leave (attrLoopInto p (pre ++ (be 2 n ++ (a ++ t))) (pre.length + 2 + n) (pre.length + 2 + n) (pre.length + 2) self).2 (do decodeNlri p (← sliceE (pre ++ (be 2 n ++ (a ++ t))) curpos (pre ++ (be 2 n ++ (a ++ t))).length)) fun updates => (.ok (), { (attrLoopInto p (pre ++ (be 2 n ++ (a ++ t))) (pre.length + 2 + n) (pre.length + 2 + n) (pre.length + 2) self).2 with updates := updates }) := by
    unfold intoTail
    rw [sliceE_append_mid _ _ _ _ _ (by simp) (by simp), Res.ok_bind, getn16_two]
    simp only [leave, BitVec.toNat_ofNat]
    rw [Nat.mod_eq_of_lt (show n < 2 ^ 16 by omega), if_neg (by simp only [List.length_append, be_length] at *; omega)]
  have hst := attrLoopInto_first p (pre.length + 2 + n) a l hr (pre ++ be 2 n) t (pre.length + 2 + n) self
    (by simp only [List.length_append, be_length] at *; omega) (by simp; omega) (by simp)
    (by simp only [List.length_append, be_length] at *
        rintro ⟨r', t', x', h1, h2, h3, h4⟩
        exact hno ⟨r', t', x', h1, h2, by omega, h4⟩)
  simp only [List.append_assoc, List.length_append, be_length] at hst
  rw [hl] at hfail ⊢
  rw [hst] at hfail ⊢
  revert hfail
  generalize (attrLoopInto p (pre ++ (be 2 n ++ (a ++ t))) (pre.length + 2 + n) (pre.length + 2 + n) (pre.length + 2) self).1 = r
  intro hfail
  cases r with
  | ok e =>
    simp only [leave] at hfail ⊢
    split at hfail
    · exact absurd rfl hfail
    all_goals rfl
  | err e => rfl
  | panic => rfl
  | hang => rfl

/-- the object after a failure is the one that `UpdateLeft` says -/
theorem left_of (self : BgpUpdateMessage) (p : BgpSessionParams) (buf : Bytes) (m : BgpUpdateMessage)
    (h : UpdateLeft p self buf m) (hfail : (self.decodeInto p buf).1 ≠ .ok ()) : (self.decodeInto p buf).2 = m := by
  cases h with
  | untouched h =>
    by_cases hw : ∃ w rest, Withdrawn buf w rest
    · obtain ⟨w, rest, hw⟩ := hw
      have hn : ∀ x, decodeNlri p w ≠ .ok x := fun x hx => h ⟨w, rest, x, hw, (decodeNlri_iff p w x).1 hx⟩
      obtain ⟨rfl, h1, h2⟩ := hw
      rw [decodeInto_head _ _ _ _ h1 h2, leave_snd hn]
    · exact decodeInto_noHead _ _ _ hw
  | withdraws w rest wd hw hd h =>
    obtain ⟨rfl, h1, h2⟩ := hw
    rw [decodeInto_head _ _ _ _ h1 h2, (decodeNlri_iff p w wd).2 hd]
    have := intoTail_noSize { self with withdraws := wd } p (be 2 w.length ++ w) rest h
    simpa [leave] using this
  | attrs w rest wd n rest' l hw hd hs ha =>
    obtain ⟨rfl, h1, h2⟩ := hw
    obtain ⟨rfl, h3, h4⟩ := hs
    obtain ⟨a, t, rfl, h5, h6, h7⟩ := ha
    rw [decodeInto_head _ _ _ _ h1 h2, (decodeNlri_iff p w wd).2 hd] at hfail ⊢
    have := intoTail_attrs { self with withdraws := wd } p (be 2 w.length ++ w) n a t l h3 h4 h5 h6 h7
    simp only [List.length_append, be_length, leave] at this hfail ⊢
    exact this hfail

theorem exists_left (self : BgpUpdateMessage) (p : BgpSessionParams) (buf : Bytes) : ∃ m, UpdateLeft p self buf m := by
  by_cases h : ∃ w rest wd, Withdrawn buf w rest ∧ NlriIs p w wd
  · obtain ⟨w, rest, wd, hw, hd⟩ := h
    by_cases h : ∃ n rest', SizedAttrs rest n rest'
    · obtain ⟨n, rest', hs⟩ := h
      obtain ⟨l, hl⟩ := exists_firstAttrs p n rest'
      exact ⟨_, .attrs w rest wd n rest' l hw hd hs hl⟩
    · exact ⟨_, .withdraws w rest wd hw hd h⟩
  · exact ⟨_, .untouched h⟩

theorem left_iff (self : BgpUpdateMessage) (p : BgpSessionParams) (buf : Bytes) (m : BgpUpdateMessage)
    (hfail : (self.decodeInto p buf).1 ≠ .ok ()) : (self.decodeInto p buf).2 = m ↔ UpdateLeft p self buf m := by
  constructor
  · rintro rfl
    obtain ⟨m, hm⟩ := exists_left self p buf
    rw [left_of self p buf m hm hfail]
    exact hm
  · exact fun h => left_of self p buf m h hfail

end BgpUpdateMessage

namespace BgpOpenMessage

theorem fin_caps (fuel : Nat) (rest : Bytes) (optlen : Nat) (self : BgpOpenMessage) :
    fin (decodeCapsInto fuel rest optlen self) =
      decodeCaps fuel rest optlen >>= fun y => .ok (y.2, { self with caps := self.caps ++ y.1 }) := by
  induction fuel generalizing rest optlen self with
  | zero => rfl
  | succ fuel ih =>
    rw [decodeCapsInto, decodeCaps]
    split
    · simp [fin]
    · simp only [fin_leave, bind_assoc]
      congr 1; funext s
      congr 1; funext y
      congr 1; funext n
      rw [ih]
      rcases y with ⟨c | c, m⟩ <;> simp only [bind_assoc] <;> congr 1 <;> funext z <;>
        simp [Res.ok_bind]

theorem fin_params (fuel : Nat) (rest : Bytes) (self : BgpOpenMessage) :
    fin (decodeParamsInto fuel rest self) =
      decodeParams fuel rest >>= fun y => .ok ((), { self with caps := self.caps ++ y }) := by
  induction fuel generalizing rest self with
  | zero => rfl
  | succ fuel ih =>
    rw [decodeParamsInto, decodeParams]
    split
    · simp only [fin_leave, bind_assoc]
      congr 1; funext t
      split
      · rfl
      rw [fin_leave]
      simp only [bind_assoc]
      congr 1; funext n
      rw [fin_leave_pair (f := fun a s => decodeParamsInto fuel a s), fin_caps]
      simp only [bind_assoc, Res.ok_bind, ih, List.append_assoc]
    · simp [fin]

theorem fin_decodeInto (self : BgpOpenMessage) (buf : Bytes) :
    fin (self.decodeInto buf) = self.decodeFrom buf >>= fun m => .ok ((), m) := by
  unfold decodeInto decodeFrom
  split
  · rfl
  simp only [fin_leave, bind_assoc]
  congr 1; funext v
  split
  · rfl
  simp only [fin_leave, bind_assoc, fin_params, Res.ok_bind]

end BgpOpenMessage

theorem BgpNotificationMessage.fin_decodeInto (self : BgpNotificationMessage) (buf : Bytes) :
    fin (self.decodeInto buf) = self.decodeFrom buf >>= fun m => .ok ((), m) := by
  match buf with
  | [] => rfl
  | [a] => rfl
  | [a, b] => rfl
  | [a, b, c] => rfl
  | a :: b :: c :: d :: t =>
    unfold decodeInto decodeFrom
    rw [if_neg (by simp), if_neg (by simp)]
    simp [leave, fin]

theorem fin_eq_ok {β σ : Type} {x : Res β × σ} {b : β} {s : σ} (h : fin x = .ok (b, s)) : x = (.ok b, s) := by
  obtain ⟨r, t⟩ := x
  cases r <;> cases h
  rfl

namespace BgpOpenMessage

theorem capsInto_read (fuel : Nat) (body rest : Bytes) (l : List BgpCapability) (self : BgpOpenMessage) (hf : body.length < fuel)
    (h : CapsRead body l) :
    decodeCapsInto fuel (body ++ rest) body.length self = (.ok rest, { self with caps := self.caps ++ l }) := by
  apply fin_eq_ok
  rw [fin_caps, (caps_iff fuel body rest hf l rest).2 ⟨h, rfl⟩]
  rfl

theorem capsInto_first (fuel : Nat) (b t rest : Bytes) (l : List BgpCapability) (self : BgpOpenMessage)
    (hf : (b ++ t).length < fuel) (h : CapsRead b l) (ht : t ≠ [])
    (hno : ¬ ∃ (code : U8) (data rest : Bytes) (o : Option BgpCapability), t = tlv code.toNat data ++ rest ∧ data.length ≤ 255 ∧
      CapRead code data o) :
    (∀ r, (decodeCapsInto fuel ((b ++ t) ++ rest) (b ++ t).length self).1 ≠ .ok r) ∧
      (decodeCapsInto fuel ((b ++ t) ++ rest) (b ++ t).length self).2 = { self with caps := self.caps ++ l } := by
  induction h generalizing fuel self with
  | done =>
    have hl : 0 < t.length := List.length_pos_iff.2 ht
    cases fuel with
    | zero => simp at hf
    | succ fuel =>
      rw [decodeCapsInto, if_neg (by simp; omega)]
      have hs : sliceE (([] ++ t) ++ rest) 0 ([] ++ t).length = .ok t := by
        have := sliceE_append_mid [] t rest 0 t.length rfl (by simp)
        simpa using this
      rw [hs, Res.ok_bind]
      cases hc : BgpCapability.fromBuffer t with
      | ok y =>
        exfalso
        obtain ⟨c, n⟩ := y
        obtain ⟨code, data, B', rfl, hl, rfl⟩ := exists_tlv hc
        rw [fromBuffer_dec _ _ _ hl] at hc
        obtain ⟨o, ho, hc⟩ := Res.bind_eq_ok.1 hc
        exact hno ⟨code, data, B', o, rfl, hl, (cap_iff _ _ _).1 ho⟩
      | err e => simp [leave]
      | panic => simp [leave]
      | hang => simp [leave]
  | cap code data B o l hl h hr ih =>
    cases fuel with
    | zero => simp at hf
    | succ fuel =>
      have htl := tlv_length code.toNat data
      rw [decodeCapsInto, if_neg (by simp [htl])]
      have hs : sliceE (((tlv code.toNat data ++ B) ++ t) ++ rest) 0 ((tlv code.toNat data ++ B) ++ t).length =
          .ok (tlv code.toNat data ++ (B ++ t)) := by
        have := sliceE_append_mid [] ((tlv code.toNat data ++ B) ++ t) rest 0 ((tlv code.toNat data ++ B) ++ t).length rfl (by simp)
        simpa using this
      rw [hs, Res.ok_bind, fromBuffer_dec _ _ _ hl, (cap_iff _ _ _).2 h]
      have hsub : subN ((tlv code.toNat data ++ B) ++ t).length (2 + data.length) = .ok (B ++ t).length := by
        rw [subN, if_pos (by simp only [List.length_append, htl]; omega)]
        congr 1
        simp only [List.length_append, htl]; omega
      have hd : (((tlv code.toNat data ++ B) ++ t) ++ rest).drop (2 + data.length) = (B ++ t) ++ rest := by
        rw [List.append_assoc, List.append_assoc, List.drop_left' (tlv_length _ _)]; simp
      cases o with
      | some c =>
        simp only [Res.ok_bind, leave, hsub, hd]
        have := ih fuel { self with caps := self.caps ++ [c] } (by simp [htl] at hf ⊢; omega)
        simpa using this
      | none =>
        simp only [Res.ok_bind, leave, hsub, hd]
        have := ih fuel self (by simp [htl] at hf ⊢; omega)
        simpa using this

theorem capParam_eq (body : Bytes) : capParam body = 2 :: BitVec.ofNat 8 body.length :: body := by
  rw [capParam, show (2 : Nat) = (2 : U8).toNat from rfl, tlv_u8]

theorem paramsInto_left (fuel : Nat) (b : Bytes) (l : List BgpCapability) (self : BgpOpenMessage) (hf : b.length < fuel)
    (h : ParamsLeft b l) : (decodeParamsInto fuel b self).2 = { self with caps := self.caps ++ l } := by
  induction h generalizing fuel self with
  | done b h =>
    cases fuel with
    | zero => simp at hf
    | succ fuel => rw [decodeParamsInto, if_neg (by omega)]; simp
  | other t n rest h =>
    cases fuel with
    | zero => simp at hf
    | succ fuel =>
      rw [decodeParamsInto, if_pos (by simp)]
      have : (t != 2) = true := by
        simp only [bne_iff_ne, ne_eq]
        rintro rfl
        exact h rfl
      simp only [leave, idx_cons_zero]
      rw [if_pos this]
      simp
  | cut n rest h =>
    cases fuel with
    | zero => simp at hf
    | succ fuel =>
      rw [decodeParamsInto, if_pos (by simp)]
      simp only [leave, idx_cons_zero, idx_cons_succ]
      rw [if_neg (by decide)]
      simp only [List.drop_succ_cons, List.drop_zero, List.length_cons]
      rw [decodeCapsInto, if_neg (by omega)]
      have : sliceE rest 0 n.toNat = .err .insufficientBufferSize := by
        unfold sliceE
        rw [if_neg (by omega)]
      rw [this]
      simp [leave]
  | param body rest l l' hl h hr ih =>
    cases fuel with
    | zero => simp at hf
    | succ fuel =>
      rw [capParam_eq] at hf ⊢
      rw [decodeParamsInto, if_pos (by simp)]
      have hn : (BitVec.ofNat 8 body.length).toNat = body.length := by simp; omega
      simp only [leave, List.cons_append, idx_cons_zero, idx_cons_succ, List.drop_succ_cons, List.drop_zero, hn]
      rw [if_neg (by decide), capsInto_read _ _ _ _ _ (by simp; omega) h]
      simp only
      rw [ih fuel _ (by simp at hf; omega)]
      simp
  | part body rest l hl h =>
    obtain ⟨b, t, rfl, h1, h2, h3⟩ := h
    cases fuel with
    | zero => simp at hf
    | succ fuel =>
      rw [capParam_eq] at hf ⊢
      rw [decodeParamsInto, if_pos (by simp)]
      have hn : (BitVec.ofNat 8 (b ++ t).length).toNat = (b ++ t).length := by
        rw [BitVec.toNat_ofNat, Nat.mod_eq_of_lt (by omega)]
      simp only [leave, List.cons_append, idx_cons_zero, idx_cons_succ, List.drop_succ_cons, List.drop_zero, hn]
      rw [if_neg (by decide)]
      have := capsInto_first ((BitVec.ofNat 8 (b ++ t).length :: (b ++ t ++ rest)).length + 1 + 1) b t rest l self
        (by simp; omega) h1 h2 h3
      obtain ⟨g1, g2⟩ := this
      rw [← g2]
      exact leave_snd g1

theorem exists_firstCaps (body : Bytes) : (∃ l, CapsRead body l) ∨ ∃ l, FirstCaps body l := by
  induction h : body.length using Nat.strongRecOn generalizing body with
  | ind n ih =>
    subst h
    by_cases hb : body = []
    · subst hb; exact .inl ⟨[], .done⟩
    by_cases hx : ∃ (code : U8) (data rest : Bytes) (o : Option BgpCapability), body = tlv code.toNat data ++ rest ∧
        data.length ≤ 255 ∧ CapRead code data o
    · obtain ⟨code, data, rest, o, rfl, hl, ho⟩ := hx
      rcases ih rest.length (by simp only [List.length_append, tlv_length]; omega) rest rfl with ⟨l, h⟩ | ⟨l, b, t, rfl, h1, h2, h3⟩
      · exact .inl ⟨_, .cap code data rest o l hl ho h⟩
      · exact .inr ⟨o.toList ++ l, tlv code.toNat data ++ b, t, by simp, .cap code data b o l hl ho h1, h2, h3⟩
    · exact .inr ⟨[], [], body, rfl, .done, hb, hx⟩

theorem exists_paramsLeft (b : Bytes) : ∃ l, ParamsLeft b l := by
  induction h : b.length using Nat.strongRecOn generalizing b with
  | ind n ih =>
    subst h
    match b with
    | [] => exact ⟨[], .done _ (by simp)⟩
    | [x] => exact ⟨[], .done _ (by simp)⟩
    | t :: n :: rest =>
      by_cases ht : t.toNat = 2
      swap
      · exact ⟨[], .other t n rest ht⟩
      have ht : t = 2 := BitVec.eq_of_toNat_eq ht
      subst ht
      by_cases hn : rest.length < n.toNat
      · exact ⟨[], .cut n rest hn⟩
      obtain ⟨body, rest, rfl, hn, -⟩ := exists_split n.toNat (show n.toNat ≤ rest.length by omega)
      have hlt := n.isLt
      have e : (2 : U8) :: n :: (body ++ rest) = capParam body ++ rest := by
        rw [capParam_eq, hn]; simp
      rw [e]
      rcases exists_firstCaps body with ⟨l, h⟩ | ⟨l, h⟩
      · obtain ⟨l', h'⟩ := ih rest.length (by simp; omega) rest rfl
        exact ⟨_, .param body rest l l' (by omega) h h'⟩
      · exact ⟨l, .part body rest l (by omega) h⟩

theorem decodeInto_open (self : BgpOpenMessage) (as hold rid : Nat) (len : U8) (params : Bytes) (h1 : as < 65536) :
    self.decodeInto (be 1 4 ++ (be 2 as ++ (be 2 hold ++ (be 4 rid ++ (len :: params))))) =
      decodeParamsInto (params.length + 11) params ⟨BitVec.ofNat 32 as, BitVec.ofNat 16 hold, BitVec.ofNat 32 rid, []⟩ := by
  have e : (be 1 4 ++ (be 2 as ++ (be 2 hold ++ (be 4 rid ++ (len :: params)))) : Bytes) =
      [4, BitVec.ofNat 8 (as / 256), BitVec.ofNat 8 as, BitVec.ofNat 8 (hold / 256), BitVec.ofNat 8 hold,
        BitVec.ofNat 8 (rid / 256 ^ 3), BitVec.ofNat 8 (rid / 256 ^ 2), BitVec.ofNat 8 (rid / 256), BitVec.ofNat 8 rid, len] ++ params := by
    simp [be]
  rw [e]
  unfold decodeInto
  rw [if_neg (by simp)]
  have hs : ∀ (a : U8) (t : Bytes), sliceE (a :: t) 1 (a :: t).length = .ok t := by
    intro a t; simp [sliceE]
  simp only [List.cons_append, List.nil_append, idx_cons_zero, Res.ok_bind, idx_cons_succ, hs, leave]
  rw [if_neg (by decide)]
  simp only [ntoh16_load]
  have u16 : ∀ n : Nat, BitVec.ofNat 16 (unbe [BitVec.ofNat 8 (n / 256), BitVec.ofNat 8 n]) = BitVec.ofNat 16 n := by
    intro n
    apply BitVec.eq_of_toNat_eq
    rw [show ([BitVec.ofNat 8 (n / 256), BitVec.ofNat 8 n] : Bytes) = be 2 n by simp [be], unbe_be]
    simp
  have u32 : BitVec.ofNat 32 (unbe [BitVec.ofNat 8 (rid / 256 ^ 3), BitVec.ofNat 8 (rid / 256 ^ 2), BitVec.ofNat 8 (rid / 256), BitVec.ofNat 8 rid]) =
      BitVec.ofNat 32 rid := by
    apply BitVec.eq_of_toNat_eq
    rw [show ([BitVec.ofNat 8 (rid / 256 ^ 3), BitVec.ofNat 8 (rid / 256 ^ 2), BitVec.ofNat 8 (rid / 256), BitVec.ofNat 8 rid] : Bytes) = be 4 rid by
      simp [be], unbe_be]
    simp
  rw [u16, u16, u32]
  have ea : (BitVec.ofNat 16 as).setWidth 32 = BitVec.ofNat 32 as := by
    apply BitVec.eq_of_toNat_eq
    simp
    omega
  rw [ea]
  simp only [List.drop_succ_cons, List.drop_zero, List.length_cons]

theorem left_of (self : BgpOpenMessage) (buf : Bytes) (m : BgpOpenMessage) (h : OpenLeft self buf m) :
    (self.decodeInto buf).2 = m := by
  cases h with
  | untouched h =>
    unfold decodeInto
    split
    · rfl
    · match buf, h with
      | [], _ => simp at *
      | v :: t, h =>
        have : (v != 4) = true := by
          rcases h with h | h
          · omega
          · simpa using h
        simp only [leave, idx_cons_zero]
        rw [if_pos this]
  | params as hold rid len params caps hb hc =>
    subst hb
    rw [decodeInto_open _ _ _ _ _ _ as.isLt, paramsInto_left _ _ _ _ (by omega) hc]
    simp

theorem exists_left (self : BgpOpenMessage) (buf : Bytes) : ∃ m, OpenLeft self buf m := by
  by_cases h : buf.length < 10 ∨ buf.head? ≠ some 4
  · exact ⟨_, .untouched h⟩
  · have hb : 10 ≤ buf.length := by
      apply Classical.byContradiction
      intro hx
      exact h (.inl (by omega))
    have hv : buf.head? = some 4 := Classical.byContradiction fun hx => h (.inr hx)
    obtain ⟨v, as, ho, rid, len, params, rfl, hv', ha, hh, hr⟩ := exists_open hb
    have h4 : v = 4 := by
      simp [be] at hv
      have := congrArg BitVec.toNat hv
      simp at this
      omega
    subst h4
    obtain ⟨caps, hc⟩ := exists_paramsLeft params
    refine ⟨_, .params (BitVec.ofNat 16 as) (BitVec.ofNat 16 ho) (BitVec.ofNat 32 rid) len params caps ?_ hc⟩
    rw [show (BitVec.ofNat 16 as).toNat = as by simp; omega, show (BitVec.ofNat 16 ho).toNat = ho by simp; omega,
        show (BitVec.ofNat 32 rid).toNat = rid by simp; omega]

theorem left_iff (self : BgpOpenMessage) (buf : Bytes) (m : BgpOpenMessage) :
    (self.decodeInto buf).2 = m ↔ OpenLeft self buf m := by
  constructor
  · rintro rfl
    obtain ⟨m, hm⟩ := exists_left self buf
    rw [left_of self buf m hm]
    exact hm
  · exact left_of self buf m

end BgpOpenMessage

theorem of_fin {σ : Type} {x : Res Unit × σ} {r : Res σ} (h : fin x = r >>= fun m => .ok ((), m)) :
    r = x.1 >>= fun _ => .ok x.2 := by
  obtain ⟨a, s⟩ := x
  cases r with
  | ok m =>
    have := fin_eq_ok (x := (a, s)) (b := ()) (s := m) h
    cases this
    rfl
  | err e => cases a <;> cases h <;> rfl
  | panic => cases a <;> cases h <;> rfl
  | hang => cases a <;> cases h <;> rfl

end Zbgp
