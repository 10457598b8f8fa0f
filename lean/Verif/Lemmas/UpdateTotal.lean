import Verif.Lemmas.Update

/-! # When decoding an UPDATE does not return -/

namespace Zbgp

open Spec

attribute [-simp] List.length_flatMap

theorem cut_attrLoop (p : BgpSessionParams) (pre t : Bytes) (h : CutHeader t) (stop fuel : Nat) (hs : pre.length < stop) :
    BgpUpdateMessage.attrLoop p (pre ++ t) stop (fuel + 1) pre.length = .panic := by
  rw [BgpUpdateMessage.attrLoop, if_pos hs]
  simp only
  obtain ⟨flags, rfl | ⟨code, rfl, hx⟩⟩ := h
  · rw [idx_append_right (by omega), idx_append_right (by omega)]
    simp only [Nat.sub_self, show pre.length + 1 - pre.length = 1 by omega, idx_cons_zero, idx_cons_succ, Res.ok_bind]
    rfl
  · have hx' := extended_iff flags
    rw [hx] at hx'
    simp only [Bool.false_eq_true, iff_false] at hx'
    rw [idx_append_right (by omega), idx_append_right (by omega), idx_append_right (by omega)]
    simp only [Nat.sub_self, show pre.length + 1 - pre.length = 1 by omega,
      show pre.length + 3 - 1 - pre.length = 2 by omega, idx_cons_zero, idx_cons_succ, Res.ok_bind, if_neg hx']
    rfl

/-- one round: the message ends within the header, or the round fails, or the attribute is there -/
theorem attrLoop_cases (p : BgpSessionParams) (pre rest : Bytes) (stop fuel : Nat) (hlt : pre.length < stop)
    (hs : stop ≤ (pre ++ rest).length) :
    CutHeader rest ∨ (BgpUpdateMessage.attrLoop p (pre ++ rest) stop (fuel + 1) pre.length).IsErr ∨
      ∃ r t, rest = rawWire r ++ t ∧ RawWF r ∧ pre.length + (rawWire r).length ≤ stop := by
  rw [List.length_append] at hs
  match rest with
  | [] => simp at hs; omega
  | [f] => exact .inl ⟨f, .inl rfl⟩
  | f :: c :: rest =>
    have hx := extended_iff f
    rw [BgpUpdateMessage.attrLoop, if_pos hlt]
    simp only
    rw [idx_append_right (by omega), idx_append_right (by omega)]
    simp only [Nat.sub_self, show pre.length + 1 - pre.length = 1 by omega, idx_cons_zero, idx_cons_succ, Res.ok_bind]
    cases he : extended f <;> rw [he] at hx
    · simp only [Bool.false_eq_true, iff_false] at hx
      match rest with
      | [] => exact .inl ⟨f, .inr ⟨c, rfl, he⟩⟩
      | b :: rest =>
        refine .inr ?_
        rw [if_neg hx, idx_append_right (by omega)]
        simp only [show pre.length + 3 - 1 - pre.length = 2 by omega, idx_cons_zero, idx_cons_succ, Res.ok_bind]
        split
        · exact .inl trivial
        · rename_i hfit
          simp only [List.length_cons] at hs
          refine .inr ⟨⟨c, f, rest.take b.toNat⟩, rest.drop b.toNat, ?_, ?_, ?_⟩
          · simp only [rawWire, attrHeader, he, List.length_take]
            rw [Nat.min_eq_left (by omega)]
            simp [be_one]
          · simp only [RawWF, maxValue, he, List.length_take]
            have := b.isLt
            simp; omega
          · rw [rawWire_length]
            simp only [he, List.length_take]
            simp; omega
    · simp only [iff_true] at hx
      refine .inr ?_
      rw [if_pos hx]
      by_cases hl : 2 ≤ rest.length
      · obtain ⟨a, b, rest, rfl⟩ := exists_cons2 (l := rest) hl
        rw [show pre ++ f :: c :: a :: b :: rest = (pre ++ [f, c]) ++ ([a, b] ++ rest) by simp,
          sliceE_append_mid _ _ _ _ _ (by simp) (by simp)]
        simp only [Res.ok_bind]
        rw [getn16_ok (by simp)]
        simp only [Res.ok_bind, List.take_succ_cons, List.take_zero, unbe_two]
        split
        · exact .inl trivial
        · rename_i hfit
          simp only [List.length_cons] at hs
          refine .inr ⟨⟨c, f, rest.take (a.toNat * 256 + b.toNat)⟩, rest.drop (a.toNat * 256 + b.toNat), ?_, ?_, ?_⟩
          · simp only [rawWire, attrHeader, he, List.length_take]
            rw [Nat.min_eq_left (by omega)]
            simp [be_two_unbe]
          · simp only [RawWF, maxValue, he, List.length_take]
            have := a.isLt
            have := b.isLt
            simp; omega
          · rw [rawWire_length]
            simp only [he, List.length_take]
            simp; omega
      · refine .inl ?_
        have : sliceE (pre ++ f :: c :: rest) (pre.length + 4 - 2) (pre.length + 4) = .err .insufficientBufferSize := by
          unfold sliceE
          rw [if_neg (by simp; omega)]
        rw [this]
        trivial

theorem not_returns_bind {α β : Type} {r : Res α} {f : α → Res β} (h : ¬ (r >>= f).Returns) :
    ¬ r.Returns ∨ ∃ a, r = .ok a ∧ ¬ (f a).Returns := by
  cases r with
  | ok a => exact .inr ⟨a, rfl, h⟩
  | err e => exact absurd trivial h
  | panic => exact .inl id
  | hang => exact .inl id

theorem isErr_returns {α : Type} {r : Res α} (h : r.IsErr) : r.Returns := by
  cases r <;> first | trivial | exact h.elim

theorem not_returns_left {α β : Type} {r : Res α} {f : α → Res β} (h : ¬ r.Returns) : ¬ (r >>= f).Returns := by
  cases r with
  | ok a => exact absurd trivial h
  | err e => exact absurd trivial h
  | panic => exact id
  | hang => exact id

/-- what the attribute loop meets when it does not return -/
def LoopCrash (p : BgpSessionParams) (room : Nat) (rest : Bytes) : Prop :=
  ∃ raws l t, rest = raws.flatMap rawWire ++ t ∧ (∀ r ∈ raws, RawWF r) ∧ AttrsDec p raws l ∧
    (((raws.flatMap rawWire).length < room ∧ CutHeader t) ∨
      ∃ r t', t = rawWire r ++ t' ∧ RawWF r ∧ (raws.flatMap rawWire).length + (rawWire r).length ≤ room ∧
        ¬ (BgpAttrItem.decodeFrom p r.code r.flags r.value.length r.value).Returns)

theorem attrLoop_crash (p : BgpSessionParams) (stop fuel : Nat) (pre rest : Bytes) (hs : stop ≤ (pre ++ rest).length)
    (hp : pre.length ≤ stop) (hf : stop ≤ pre.length + fuel)
    (h : ¬ (BgpUpdateMessage.attrLoop p (pre ++ rest) stop fuel pre.length).Returns) :
    LoopCrash p (stop - pre.length) rest := by
  induction fuel generalizing pre rest with
  | zero =>
    rw [BgpUpdateMessage.attrLoop, if_neg (by omega)] at h
    exact absurd trivial h
  | succ fuel ih =>
    by_cases hlt : pre.length < stop
    swap
    · rw [BgpUpdateMessage.attrLoop, if_neg hlt] at h
      exact absurd trivial h
    rcases attrLoop_cases p pre rest stop fuel hlt hs with hc | he | ⟨r, t, rfl, hwf, hfit⟩
    · exact ⟨[], [], rest, by simp, by simp, rfl, .inl ⟨by simp; omega, hc⟩⟩
    · exact absurd (isErr_returns he) h
    · rw [attrLoop_raw p pre t r hwf stop fuel _ rfl hfit] at h
      rcases not_returns_bind h with h | ⟨x, hx, h⟩
      · exact ⟨[], [], _, by simp, by simp, rfl, .inr ⟨r, t, rfl, hwf, by simp; omega, h⟩⟩
      · rcases not_returns_bind h with h | ⟨_, _, h⟩
        · have hl := rawWire_length r
          rw [← List.append_assoc, ← List.length_append] at h
          obtain ⟨raws, l, t', rfl, h1, h2, h3⟩ := ih (pre ++ rawWire r) t (by simpa using hs) (by simpa using hfit)
            (by rw [List.length_append]; split at hl <;> omega) h
          refine ⟨r :: raws, x :: l, t', by simp, ?_, ?_, ?_⟩
          · intro r' hr'
            rcases List.mem_cons.1 hr' with rfl | hr'
            · exact hwf
            · exact h1 r' hr'
          · unfold AttrsDec at h2 ⊢
            rw [List.map_cons, List.map_cons, hx, h2]
          · simp only [List.length_append, List.flatMap_cons] at h3 ⊢
            rcases h3 with ⟨h3, hc⟩ | ⟨r', t'', e, h4, h5, h6⟩
            · exact .inl ⟨by omega, hc⟩
            · exact .inr ⟨r', t'', e, h4, by omega, h6⟩
        · exact absurd trivial h

theorem crash_attrLoop (p : BgpSessionParams) (stop fuel : Nat) (pre rest : Bytes)
    (hf : stop ≤ pre.length + fuel) (h : LoopCrash p (stop - pre.length) rest) :
    ¬ (BgpUpdateMessage.attrLoop p (pre ++ rest) stop fuel pre.length).Returns := by
  obtain ⟨raws, l, t, rfl, h1, h2, h3⟩ := h
  induction raws generalizing pre fuel l with
  | nil =>
    simp only [List.flatMap_nil, List.nil_append, List.length_nil, Nat.zero_add] at h3 ⊢
    rcases h3 with ⟨h3, hc⟩ | ⟨r', t'', rfl, h4, h5, h6⟩
    · obtain ⟨fuel, rfl⟩ : ∃ k, fuel = k + 1 := ⟨fuel - 1, by omega⟩
      rw [cut_attrLoop p pre t hc stop fuel (by omega)]
      exact id
    · have hl := rawWire_length r'
      obtain ⟨fuel, rfl⟩ : ∃ k, fuel = k + 1 := ⟨fuel - 1, by split at hl <;> omega⟩
      rw [attrLoop_raw p pre t'' r' h4 stop fuel _ rfl (by split at hl <;> omega)]
      exact not_returns_left h6
  | cons r raws ih =>
    have hl := rawWire_length r
    unfold AttrsDec at h2
    cases l with
    | nil => simp at h2
    | cons x l =>
      simp only [List.map_cons, List.cons.injEq] at h2
      simp only [List.flatMap_cons, List.length_append] at h3
      have hfit : pre.length + (rawWire r).length ≤ stop := by
        rcases h3 with ⟨h3, hc⟩ | ⟨r', t'', e, h4, h5, h6⟩
        · omega
        · split at hl <;> omega
      obtain ⟨fuel, rfl⟩ : ∃ k, fuel = k + 1 := ⟨fuel - 1, by split at hl <;> omega⟩
      simp only [List.flatMap_cons, List.append_assoc]
      rw [attrLoop_raw p pre _ r (h1 r (by simp)) stop fuel _ rfl hfit, h2.1]
      simp only [Res.ok_bind]
      apply not_returns_left
      rw [← List.append_assoc, ← List.length_append]
      refine ih fuel (pre ++ rawWire r) (by rw [List.length_append]; split at hl <;> omega) l
        (fun r' hr' => h1 r' (by simp [hr'])) h2.2 ?_
      rw [List.length_append]
      rcases h3 with ⟨h3, hc⟩ | ⟨r', t'', e, h4, h5, h6⟩
      · exact .inl ⟨by omega, hc⟩
      · exact .inr ⟨r', t'', e, h4, by omega, h6⟩

theorem decodeNlri_returns (p : BgpSessionParams) (b : Bytes) : (BgpUpdateMessage.decodeNlri p b).Returns ↔
    (BgpAddrs.decodeFrom p (familyCode (sessionFamily p)).1 (familyCode (sessionFamily p)).2 b).Returns := by
  rw [decodeNlri_eq]
  cases BgpAddrs.decodeFrom p (familyCode (sessionFamily p)).1 (familyCode (sessionFamily p)).2 b <;> exact Iff.rfl

/-- the head of the message, up to the attributes -/
theorem update_head (self : BgpUpdateMessage) (p : BgpSessionParams) (w rest : Bytes) (hw : w.length ≤ 65535)
    (hr : rest ≠ []) :
    self.decodeFrom p (be 2 w.length ++ w ++ rest) = (do
      let wd ← BgpUpdateMessage.decodeNlri p w
      let n ← (do getn16 (← sliceE (be 2 w.length ++ w ++ rest) (2 + w.length) (2 + w.length + 2)) : Res U16)
      if 2 + w.length + 2 + n.toNat > (be 2 w.length ++ w ++ rest).length then .err .protocolError
      else
        let (attrs, curpos) ← BgpUpdateMessage.attrLoop p (be 2 w.length ++ w ++ rest) (2 + w.length + 2 + n.toNat)
          (2 + w.length + 2 + n.toNat) (2 + w.length + 2)
        let up ← BgpUpdateMessage.decodeNlri p
          (← sliceE (be 2 w.length ++ w ++ rest) curpos (be 2 w.length ++ w ++ rest).length)
        .ok ⟨up, wd, self.attrs ++ attrs⟩) := by
  unfold BgpUpdateMessage.decodeFrom
  have : 0 < rest.length := List.length_pos_iff.2 hr
  have e : sliceE (be 2 w.length ++ w ++ rest) 0 2 = .ok (be 2 w.length) := by
    rw [List.append_assoc, sliceE_be_hit]
  have e2 : sliceE (be 2 w.length ++ w ++ rest) 2 (2 + w.length) = .ok w := by
    rw [List.append_assoc, sliceE_append_mid _ _ _ _ _ (by simp) (by simp)]
  rw [e]
  simp only [Res.ok_bind, getn16_two]
  rw [BitVec.toNat_ofNat, Nat.mod_eq_of_lt (by omega), if_neg (by simp only [List.length_append, be_length]; omega), e2]
  simp only [Res.ok_bind, bind_assoc]

theorem update_crash_iff (self : BgpUpdateMessage) (p : BgpSessionParams) (buf : Bytes) :
    ¬ (self.decodeFrom p buf).Returns ↔ UpdatePanics p buf := by
  constructor
  · intro h
    have hshape : ∃ w rest, buf = be 2 w.length ++ w ++ rest ∧ w.length ≤ 65535 ∧ rest ≠ [] := by
      unfold BgpUpdateMessage.decodeFrom at h
      rcases not_returns_bind h with h | ⟨s, h1, h⟩
      · exact absurd (sliceE_returns _ _ _) h
      obtain ⟨-, hl1, -⟩ := sliceE_eq_ok.1 h1
      obtain ⟨v, hv, e⟩ := exists_be (l := buf) 2 hl1
      rw [e, sliceE_be_hit] at h1
      simp only [Res.ok.injEq] at h1
      subst h1
      rw [getn16_two] at h
      simp only [Res.ok_bind] at h
      rw [BitVec.toNat_ofNat, Nat.mod_eq_of_lt (by omega)] at h
      split at h
      · exact absurd trivial h
      rename_i hlen
      refine ⟨(buf.drop 2).take v, (buf.drop 2).drop v, ?_, ?_, ?_⟩
      · have : ((buf.drop 2).take v).length = v := by simp; omega
        rw [this, List.append_assoc, List.take_append_drop]
        exact e
      · simp; omega
      · intro hn
        have := congrArg List.length hn
        simp at this; omega
    obtain ⟨w, rest, rfl, hw, hr⟩ := hshape
    refine ⟨w, rest, rfl, hw, hr, ?_⟩
    rw [update_head self p w rest hw hr] at h
    rcases not_returns_bind h with h | ⟨wd, h1, h⟩
    · exact .inl (by rwa [decodeNlri_returns] at h)
    refine .inr ⟨wd, ?_⟩
    rcases not_returns_bind h with h | ⟨n, h2, h⟩
    · rcases not_returns_bind h with h | ⟨s, h2, h⟩
      · exact absurd (sliceE_returns _ _ _) h
      · obtain ⟨_, h3, h4⟩ := sliceE_eq_ok.1 h2
        exact absurd (getn16_returns.2 (by rw [h4]; simp at h3 ⊢; omega)) h
    obtain ⟨s, h2, h3⟩ := Res.bind_eq_ok.1 h2
    have hl2 := (sliceE_eq_ok.1 h2).2.1
    simp only [List.length_append, be_length] at hl2
    obtain ⟨v, hv, e⟩ := exists_be (l := rest) 2 (by omega)
    generalize rest.drop 2 = rest' at e
    subst e
    rw [sliceE_append_mid (be 2 w.length ++ w) (be 2 v) rest' _ _ (by simp) (by simp)] at h2
    simp only [Res.ok.injEq] at h2
    subst h2
    rw [getn16_two] at h3
    simp only [Res.ok.injEq] at h3
    subst h3
    rw [BitVec.toNat_ofNat, Nat.mod_eq_of_lt (by omega)] at h
    split at h
    · exact absurd trivial h
    rename_i hlen
    simp only [List.length_append, be_length] at hlen
    refine ⟨v, rest', decodeNlri_ok.1 h1, rfl, by omega, by omega, ?_⟩
    have hpre : 2 + w.length + 2 = (be 2 w.length ++ w ++ be 2 v).length := by simp; omega
    rw [← List.append_assoc, hpre] at h
    rcases not_returns_bind h with h | ⟨⟨l, e⟩, h4, h⟩
    · have := attrLoop_crash p _ _ _ _ (by rw [← hpre]; simp; omega) (by simp) (by omega) h
      rw [Nat.add_sub_cancel_left] at this
      obtain ⟨raws, l, t, e, h5, h6, h7⟩ := this
      exact ⟨raws, l, t, e, h5, h6, .inr h7⟩
    · obtain ⟨rfl, raws, t, rfl, h5, h6, h7⟩ := attrLoop_ok p _ _ _ _ l e (by rw [← hpre]; simp; omega) (by simp) h4
      refine ⟨raws, l, t, rfl, h6, h7, .inl ⟨by omega, ?_⟩⟩
      simp only at h
      rw [sliceE_ok (by rw [← hpre]; simp; omega) (by simp), List.take_length] at h
      rw [show (be 2 w.length ++ w ++ be 2 v ++ (raws.flatMap rawWire ++ t)).drop
          ((be 2 w.length ++ w ++ be 2 v).length + v) = t by
        rw [← List.append_assoc, List.drop_left' (by simp only [List.length_append]; omega)]] at h
      rw [Res.ok_bind] at h
      rcases not_returns_bind h with h | ⟨_, _, h⟩
      · rwa [decodeNlri_returns] at h
      · exact absurd trivial h
  · rintro ⟨w, rest, rfl, hw, hr, h⟩
    rw [update_head self p w rest hw hr]
    rcases h with h | ⟨wd, n, rest', h1, rfl, hn, hn2, raws, l, t, rfl, h2, h3, h⟩
    · exact not_returns_left (by rwa [decodeNlri_returns])
    rw [decodeNlri_ok.2 h1]
    simp only [Res.ok_bind]
    rw [sliceE_append_mid (be 2 w.length ++ w) (be 2 n) _ _ _ (by simp) (by simp)]
    simp only [Res.ok_bind, getn16_two]
    rw [BitVec.toNat_ofNat, Nat.mod_eq_of_lt (by omega),
      if_neg (by simp only [List.length_append, be_length] at hn2 ⊢; omega)]
    have hpre : 2 + w.length + 2 = (be 2 w.length ++ w ++ be 2 n).length := by simp; omega
    rw [← List.append_assoc, hpre]
    rcases h with ⟨rfl, h⟩ | h
    · rw [attrLoop_raws p raws h2 l h3 _ t _ _ _ rfl rfl (by have := raws_length raws; omega)]
      simp only [Res.ok_bind]
      rw [sliceE_ok (by rw [← hpre]; simp; omega) (by simp), List.take_length]
      rw [show (be 2 w.length ++ w ++ be 2 (raws.flatMap rawWire).length ++ (raws.flatMap rawWire ++ t)).drop
          ((be 2 w.length ++ w ++ be 2 (raws.flatMap rawWire).length).length + (raws.flatMap rawWire).length) = t by
        rw [← List.append_assoc, List.drop_left' (by simp only [List.length_append])]]
      rw [Res.ok_bind]
      exact not_returns_left (by rwa [decodeNlri_returns])
    · refine not_returns_left (crash_attrLoop p _ _ _ _ (by omega) ?_)
      rw [Nat.add_sub_cancel_left]
      exact ⟨raws, l, t, rfl, h2, h3, h⟩

attribute [-simp] List.length_flatten

/-- the attribute loop over whole attributes ends at the end of the last one, or with an error -/
theorem attrLoop_returns (p : BgpSessionParams) (raws : List RawAttr) (hr : ∀ r ∈ raws, RawWF r)
    (hv : ∀ r ∈ raws, (BgpAttrItem.decodeFrom p r.code r.flags r.value.length r.value).Returns) (pre t : Bytes)
    (stop fuel pos : Nat) (hp : pos = pre.length) (hs : stop = pos + (raws.flatMap rawWire).length)
    (hf : raws.length ≤ fuel) :
    (BgpUpdateMessage.attrLoop p (pre ++ (raws.flatMap rawWire ++ t)) stop fuel pos).Returns ∧
      ∀ l e, BgpUpdateMessage.attrLoop p (pre ++ (raws.flatMap rawWire ++ t)) stop fuel pos = .ok (l, e) → e = stop := by
  induction raws generalizing pre pos fuel with
  | nil =>
    have hs' : stop = pos := by simpa using hs
    have e : BgpUpdateMessage.attrLoop p (pre ++ (([] : List RawAttr).flatMap rawWire ++ t)) stop fuel pos = .ok ([], pos) := by
      cases fuel <;> rw [BgpUpdateMessage.attrLoop, if_neg (by omega)]
    rw [e]
    refine ⟨trivial, fun l e h => ?_⟩
    simp only [Res.ok.injEq, Prod.mk.injEq] at h
    omega
  | cons r raws ih =>
    simp only [List.length_cons] at hf
    simp only [List.flatMap_cons, List.length_append] at hs
    obtain ⟨fuel, rfl⟩ : ∃ k, fuel = k + 1 := ⟨fuel - 1, by omega⟩
    simp only [List.flatMap_cons, List.append_assoc]
    rw [attrLoop_raw p pre _ r (hr r (by simp)) stop fuel pos hp (by omega)]
    obtain ⟨i1, i2⟩ := ih (fun r hr' => hr r (by simp [hr'])) (fun r hr' => hv r (by simp [hr'])) (pre ++ rawWire r) fuel
      (pos + (rawWire r).length) (by simp [hp]) (by omega) (by omega)
    simp only [List.append_assoc] at i1 i2
    refine ⟨Res.returns_bind (hv r (by simp)) fun _ _ => Res.returns_bind i1 fun _ _ => trivial, fun l e h => ?_⟩
    obtain ⟨x, -, h⟩ := Res.bind_eq_ok.1 h
    obtain ⟨⟨l', e'⟩, h', h⟩ := Res.bind_eq_ok.1 h
    simp only [Res.ok.injEq, Prod.mk.injEq] at h
    rw [← h.2]
    exact i2 _ _ h'

/-- a message of whole sections of which every part is decoded or rejected -/
theorem update_returns (self : BgpUpdateMessage) (p : BgpSessionParams) (w u : Bytes) (raws : List RawAttr)
    (hw : w.length ≤ 65535) (ha : (raws.flatMap rawWire).length ≤ 65535) (hr : ∀ r ∈ raws, RawWF r)
    (h1 : (BgpUpdateMessage.decodeNlri p w).Returns)
    (h2 : ∀ r ∈ raws, (BgpAttrItem.decodeFrom p r.code r.flags r.value.length r.value).Returns)
    (h3 : (BgpUpdateMessage.decodeNlri p u).Returns) :
    (self.decodeFrom p (updateBytes w (raws.flatMap rawWire) u)).Returns := by
  unfold BgpUpdateMessage.decodeFrom updateBytes
  simp only [List.append_assoc]
  rw [sliceE_be_hit]
  simp only [Res.ok_bind, getn16_two]
  rw [BitVec.toNat_ofNat, Nat.mod_eq_of_lt (by omega), if_neg (by simp)]
  rw [sliceE_append_mid _ _ _ _ _ (by simp) (by simp), Res.ok_bind]
  refine Res.returns_bind h1 fun wd _ => ?_
  rw [← List.append_assoc (be 2 w.length) w]
  rw [sliceE_append_mid (be 2 w.length ++ w) (be 2 (raws.flatMap rawWire).length) _ _ _ (by simp) (by simp), Res.ok_bind,
    getn16_two, Res.ok_bind]
  rw [BitVec.toNat_ofNat, Nat.mod_eq_of_lt (by omega), if_neg (by simp only [List.length_append, be_length]; omega)]
  rw [← List.append_assoc (be 2 w.length ++ w)]
  obtain ⟨i1, i2⟩ := attrLoop_returns p raws hr h2 (be 2 w.length ++ w ++ be 2 (raws.flatMap rawWire).length) u
    (2 + w.length + 2 + (raws.flatMap rawWire).length) (2 + w.length + 2 + (raws.flatMap rawWire).length)
    (2 + w.length + 2) (by simp; omega) rfl (by have := raws_length raws; omega)
  refine Res.returns_bind i1 fun r hl => ?_
  obtain ⟨l, e⟩ := r
  have := i2 _ _ hl
  subst this
  simp only
  rw [sliceE_ok (by simp only [List.length_append, be_length]; omega) (by simp), List.take_length]
  rw [show (be 2 w.length ++ w ++ be 2 (raws.flatMap rawWire).length ++ (raws.flatMap rawWire ++ u)).drop
      (2 + w.length + 2 + (raws.flatMap rawWire).length) = u by
    rw [← List.append_assoc, List.drop_left' (by simp only [List.length_append, be_length])]]
  rw [Res.ok_bind]
  exact Res.returns_bind h3 fun _ _ => trivial

/-! ## The octets have one reading -/

theorem updateBytes_inj {w a u w' a' u' : Bytes} (hw : w.length ≤ 65535) (ha : a.length ≤ 65535)
    (hw' : w'.length ≤ 65535) (ha' : a'.length ≤ 65535) (h : updateBytes w a u = updateBytes w' a' u') :
    w = w' ∧ a = a' ∧ u = u' := by
  unfold updateBytes at h
  simp only [List.append_assoc] at h
  obtain ⟨h1, h⟩ := List.append_inj h (by simp)
  have e1 := be_inj (by omega) (by omega) h1
  obtain ⟨h2, h⟩ := List.append_inj h e1
  obtain ⟨h3, h⟩ := List.append_inj h (by simp)
  have e2 := be_inj (by omega) (by omega) h3
  obtain ⟨h4, h5⟩ := List.append_inj h e2
  exact ⟨h2, h4, h5⟩

theorem rawWire_inj {r r' : RawAttr} {t t' : Bytes} (hr : RawWF r) (hr' : RawWF r')
    (h : rawWire r ++ t = rawWire r' ++ t') : r = r' ∧ t = t' := by
  obtain ⟨c, f, v⟩ := r
  obtain ⟨c', f', v'⟩ := r'
  unfold RawWF maxValue at hr hr'
  unfold rawWire attrHeader at h
  simp only [List.cons_append, List.append_assoc, List.cons.injEq, List.nil_append] at h hr hr'
  obtain ⟨rfl, rfl, h⟩ := h
  cases hx : extended f <;> simp only [hx, if_true, if_false, Bool.false_eq_true] at h hr hr'
  · obtain ⟨h1, h⟩ := List.append_inj h (by simp)
    have e := be_inj (by omega) (by omega) h1
    obtain ⟨rfl, h'⟩ := List.append_inj h e
    exact ⟨rfl, h'⟩
  · obtain ⟨h1, h⟩ := List.append_inj h (by simp)
    have e := be_inj (by omega) (by omega) h1
    obtain ⟨rfl, h'⟩ := List.append_inj h e
    exact ⟨rfl, h'⟩

theorem raws_inj {raws raws' : List RawAttr} (hr : ∀ r ∈ raws, RawWF r) (hr' : ∀ r ∈ raws', RawWF r)
    (h : raws.flatMap rawWire = raws'.flatMap rawWire) : raws = raws' := by
  induction raws generalizing raws' with
  | nil =>
    cases raws' with
    | nil => rfl
    | cons r' raws' =>
      have h1 := congrArg List.length h
      have h2 := rawWire_length r'
      simp only [List.flatMap_nil, List.flatMap_cons, List.length_append, List.length_nil] at h1
      split at h2 <;> omega
  | cons r raws ih =>
    cases raws' with
    | nil =>
      have h1 := congrArg List.length h
      have h2 := rawWire_length r
      simp only [List.flatMap_nil, List.flatMap_cons, List.length_append, List.length_nil] at h1
      split at h2 <;> omega
    | cons r' raws' =>
      simp only [List.flatMap_cons] at h
      obtain ⟨rfl, h'⟩ := rawWire_inj (hr r (by simp)) (hr' r' (by simp)) h
      rw [ih (fun r h => hr r (by simp [h])) (fun r h => hr' r (by simp [h])) h']

end Zbgp
