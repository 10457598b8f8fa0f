import Verif.Lemmas.AttrTotal
import Verif.Lemmas.Frame
import Verif.Lemmas.Decoded

/-! # UPDATE messages -/

namespace Zbgp

open Spec

attribute [-simp] List.length_flatMap List.length_flatten

theorem decodeNlri_eq (p : BgpSessionParams) (b : Bytes) : BgpUpdateMessage.decodeNlri p b =
    (BgpAddrs.decodeFrom p (familyCode (sessionFamily p)).1 (familyCode (sessionFamily p)).2 b >>= fun r => .ok r.1) := by
  unfold BgpUpdateMessage.decodeNlri sessionFamily
  cases p.peerMode <;> rfl

theorem decodeNlri_ok {p : BgpSessionParams} {b : Bytes} {x : BgpAddrs} :
    BgpUpdateMessage.decodeNlri p b = .ok x ↔ NlriDec p b x := by
  rw [decodeNlri_eq, Res.bind_eq_ok]
  unfold NlriDec
  constructor
  · rintro ⟨⟨y, n⟩, h1, h2⟩
    simp only [Res.ok.injEq] at h2
    exact ⟨n, by rw [h1, h2]⟩
  · rintro ⟨n, h⟩
    exact ⟨_, h, rfl⟩

theorem rawWire_length (r : RawAttr) : (rawWire r).length = (if extended r.flags then 4 else 3) + r.value.length := by
  simp [rawWire, attrHeader_length]

theorem unbe_two (a b : U8) : BitVec.toNat (BitVec.ofNat 16 (unbe [a, b])) = a.toNat * 256 + b.toNat := by
  have h1 := a.isLt
  have h2 := b.isLt
  simp [unbe]
  omega

theorem be_two_unbe (a b : U8) : be 2 (a.toNat * 256 + b.toNat) = [a, b] := by
  have h1 := a.isLt
  have h2 := b.isLt
  have := be_unbe [a, b]
  simpa [unbe] using this

/-- one round of the attribute loop over an attribute that is there -/
theorem attrLoop_raw (p : BgpSessionParams) (pre t : Bytes) (r : RawAttr) (hr : RawWF r) (stop fuel pos : Nat)
    (hp : pos = pre.length) (hs : pos + (rawWire r).length ≤ stop) :
    BgpUpdateMessage.attrLoop p (pre ++ (rawWire r ++ t)) stop (fuel + 1) pos =
      (do
        let x ← BgpAttrItem.decodeFrom p r.code r.flags r.value.length r.value
        let (l, e) ← BgpUpdateMessage.attrLoop p (pre ++ (rawWire r ++ t)) stop fuel (pos + (rawWire r).length)
        .ok (x :: l, e)) := by
  have hl := rawWire_length r
  have hx := extended_iff r.flags
  unfold RawWF maxValue at hr
  rw [BgpUpdateMessage.attrLoop, if_pos (by split at hl <;> omega)]
  simp only
  subst hp
  cases he : extended r.flags <;> rw [he] at hx hl hr
  · simp only [Bool.false_eq_true, iff_false] at hx hr
    simp only [Bool.false_eq_true, ↓reduceIte] at hl hr
    have e : pre ++ (rawWire r ++ t) =
        pre ++ (r.flags :: r.code :: BitVec.ofNat 8 r.value.length :: (r.value ++ t)) := by
      simp [rawWire, attrHeader, he, be_one]
    rw [e]
    rw [idx_append_right (by omega), idx_append_right (by omega), idx_append_right (by omega)]
    simp only [Nat.sub_self, show pre.length + 1 - pre.length = 1 by omega,
      show pre.length + 3 - 1 - pre.length = 2 by omega, idx_cons_zero, idx_cons_succ, Res.ok_bind, if_neg hx]
    rw [BitVec.toNat_ofNat, Nat.mod_eq_of_lt (show r.value.length < 2 ^ 8 by omega)]
    rw [if_neg (by omega)]
    rw [show pre ++ (r.flags :: r.code :: BitVec.ofNat 8 r.value.length :: (r.value ++ t)) =
      (pre ++ [r.flags, r.code, BitVec.ofNat 8 r.value.length]) ++ (r.value ++ t) by simp]
    rw [sliceE_append_mid _ _ _ _ _ (by simp) (by simp), Res.ok_bind]
    rw [show pre.length + 3 + r.value.length = pre.length + (rawWire r).length by omega]
  · simp only [iff_true] at hx
    simp only [↓reduceIte] at hl hr
    have e : pre ++ (rawWire r ++ t) =
        pre ++ (r.flags :: r.code :: (be 2 r.value.length ++ (r.value ++ t))) := by
      simp [rawWire, attrHeader, he]
    rw [e]
    rw [idx_append_right (by omega), idx_append_right (by omega)]
    simp only [Nat.sub_self, show pre.length + 1 - pre.length = 1 by omega, idx_cons_zero, idx_cons_succ, Res.ok_bind,
      if_pos hx]
    rw [show pre ++ (r.flags :: r.code :: (be 2 r.value.length ++ (r.value ++ t))) =
      (pre ++ [r.flags, r.code]) ++ (be 2 r.value.length ++ (r.value ++ t)) by simp]
    rw [sliceE_append_mid _ _ _ _ _ (by simp) (by simp)]
    simp only [Res.ok_bind, getn16_two]
    rw [BitVec.toNat_ofNat, Nat.mod_eq_of_lt (show r.value.length < 2 ^ 16 by omega)]
    rw [if_neg (by omega)]
    rw [show (pre ++ [r.flags, r.code]) ++ (be 2 r.value.length ++ (r.value ++ t)) =
      (pre ++ [r.flags, r.code] ++ be 2 r.value.length) ++ (r.value ++ t) by simp]
    rw [sliceE_append_mid _ _ _ _ _ (by simp) (by simp), Res.ok_bind]
    rw [show pre.length + 4 + r.value.length = pre.length + (rawWire r).length by omega]

theorem attrLoop_raws (p : BgpSessionParams) (raws : List RawAttr) (hr : ∀ r ∈ raws, RawWF r) (l : List BgpAttrItem)
    (h : AttrsDec p raws l) (pre t : Bytes) (stop fuel pos : Nat) (hp : pos = pre.length)
    (hs : stop = pos + (raws.flatMap rawWire).length) (hf : raws.length ≤ fuel) :
    BgpUpdateMessage.attrLoop p (pre ++ (raws.flatMap rawWire ++ t)) stop fuel pos = .ok (l, stop) := by
  induction raws generalizing pre pos fuel l with
  | nil =>
    have : l = [] := by simpa [AttrsDec] using h
    subst this
    have hs' : stop = pos := by simpa using hs
    cases fuel <;> rw [BgpUpdateMessage.attrLoop, if_neg (by omega), hs']
  | cons r raws ih =>
    unfold AttrsDec at h
    cases l with
    | nil => simp at h
    | cons x l =>
      simp only [List.map_cons, List.cons.injEq] at h
      simp only [List.length_cons] at hf
      simp only [List.flatMap_cons, List.length_append] at hs
      obtain ⟨fuel, rfl⟩ : ∃ k, fuel = k + 1 := ⟨fuel - 1, by omega⟩
      simp only [List.flatMap_cons, List.append_assoc]
      rw [attrLoop_raw p pre _ r (hr r (by simp)) stop fuel pos hp (by omega), h.1]
      simp only [Res.ok_bind]
      have := ih (fun r hr' => hr r (by simp [hr'])) l h.2 (pre ++ rawWire r) fuel (pos + (rawWire r).length)
        (by simp [hp]) (by omega) (by omega)
      simp only [List.append_assoc] at this
      rw [this]
      rfl

/-- what the attribute loop accepted is a sequence of attributes that ends at `stop` -/
theorem attrLoop_ok (p : BgpSessionParams) (stop fuel : Nat) (pre rest : Bytes) (l : List BgpAttrItem) (e : Nat)
    (hs : stop ≤ (pre ++ rest).length) (hp : pre.length ≤ stop)
    (h : BgpUpdateMessage.attrLoop p (pre ++ rest) stop fuel pre.length = .ok (l, e)) :
    e = stop ∧ ∃ raws t, rest = raws.flatMap rawWire ++ t ∧ stop = pre.length + (raws.flatMap rawWire).length ∧
      (∀ r ∈ raws, RawWF r) ∧ AttrsDec p raws l := by
  induction fuel generalizing pre rest l with
  | zero =>
    rw [BgpUpdateMessage.attrLoop] at h
    split at h
    · cases h
    · simp only [Res.ok.injEq, Prod.mk.injEq] at h
      obtain ⟨rfl, rfl⟩ := h
      exact ⟨by omega, [], rest, by simp, by simp; omega, by simp, rfl⟩
  | succ fuel ih =>
    by_cases hlt : pre.length < stop
    swap
    · rw [BgpUpdateMessage.attrLoop, if_neg hlt] at h
      simp only [Res.ok.injEq, Prod.mk.injEq] at h
      obtain ⟨rfl, rfl⟩ := h
      exact ⟨by omega, [], rest, by simp, by simp; omega, by simp, rfl⟩
    · -- the header is there and the value fits, otherwise the round fails
      have key : ∃ r t, rest = rawWire r ++ t ∧ RawWF r ∧ pre.length + (rawWire r).length ≤ stop := by
        rw [BgpUpdateMessage.attrLoop, if_pos hlt] at h
        simp only at h
        obtain ⟨flags, h1, h⟩ := Res.bind_eq_ok.1 h
        obtain ⟨code, h2, h⟩ := Res.bind_eq_ok.1 h
        obtain ⟨⟨q, n⟩, h3, h⟩ := Res.bind_eq_ok.1 h
        simp only at h
        have hx := extended_iff flags
        rw [idx_append_right (by omega), Nat.sub_self] at h1
        rw [idx_append_right (by omega), show pre.length + 1 - pre.length = 1 by omega] at h2
        obtain ⟨f, rest, rfl⟩ := List.exists_cons_of_length_pos (l := rest) (by
          rw [List.length_append] at hs; omega)
        rw [idx_cons_zero] at h1
        simp only [Res.ok.injEq] at h1
        subst h1
        rw [idx_cons_succ] at h2
        cases rest with
        | nil => cases h2
        | cons c rest =>
        rw [idx_cons_zero] at h2
        simp only [Res.ok.injEq] at h2
        subst h2
        cases he : extended f <;> rw [he] at hx
        · simp only [Bool.false_eq_true, iff_false] at hx
          rw [if_neg hx] at h3
          obtain ⟨b, h4, h3⟩ := Res.bind_eq_ok.1 h3
          simp only [Res.ok.injEq, Prod.mk.injEq] at h3
          obtain ⟨rfl, rfl⟩ := h3
          rw [idx_append_right (by omega), show pre.length + 3 - 1 - pre.length = 2 by omega, idx_cons_succ,
            idx_cons_succ] at h4
          cases rest with
          | nil => cases h4
          | cons b' rest =>
          rw [idx_cons_zero] at h4
          simp only [Res.ok.injEq] at h4
          subst h4
          split at h
          · cases h
          · rename_i hfit
            simp only [List.length_append, List.length_cons] at hs
            refine ⟨⟨c, f, rest.take b'.toNat⟩, rest.drop b'.toNat, ?_, ?_, ?_⟩
            · simp only [rawWire, attrHeader, he, List.length_take]
              rw [Nat.min_eq_left (by omega)]
              simp [be_one]
            · simp only [RawWF, maxValue, he, List.length_take]
              have := b'.isLt
              simp; omega
            · rw [rawWire_length]
              simp only [he, List.length_take]
              simp; omega
        · simp only [iff_true] at hx
          rw [if_pos hx] at h3
          obtain ⟨sl, h4, h3⟩ := Res.bind_eq_ok.1 h3
          obtain ⟨v, h5, h3⟩ := Res.bind_eq_ok.1 h3
          simp only [Res.ok.injEq, Prod.mk.injEq] at h3
          obtain ⟨rfl, rfl⟩ := h3
          rw [sliceE_eq_ok] at h4
          obtain ⟨-, h6, h7⟩ := h4
          simp only [List.length_append, List.length_cons] at hs h6
          obtain ⟨a, b, rest, rfl⟩ := exists_cons2 (l := rest) (by omega)
          have e7 : sl = [a, b] := by
            rw [h7, show pre ++ f :: c :: a :: b :: rest = (pre ++ [f, c]) ++ ([a, b] ++ rest) by simp,
              List.take_append, List.drop_append]
            simp
          subst e7
          rw [getn16_ok (by simp)] at h5
          simp only [Res.ok.injEq, List.take_succ_cons, List.take_zero] at h5
          subst h5
          rw [unbe_two] at h
          split at h
          · cases h
          · rename_i hfit
            simp only [List.length_cons] at hs
            refine ⟨⟨c, f, rest.take (a.toNat * 256 + b.toNat)⟩, rest.drop (a.toNat * 256 + b.toNat), ?_, ?_, ?_⟩
            · simp only [rawWire, attrHeader, he, List.length_take]
              rw [Nat.min_eq_left (by omega)]
              simp [be_two_unbe]
            · simp only [RawWF, maxValue, he, List.length_take]
              have := a.isLt
              have := b.isLt
              simp; omega
            · rw [rawWire_length]
              simp only [he, List.length_take]
              simp; omega
      obtain ⟨r, t, rfl, hwf, hfit⟩ := key
      rw [attrLoop_raw p pre t r hwf stop fuel _ rfl hfit] at h
      obtain ⟨x, hx, h⟩ := Res.bind_eq_ok.1 h
      obtain ⟨⟨l', e'⟩, h2, h⟩ := Res.bind_eq_ok.1 h
      simp only [Res.ok.injEq, Prod.mk.injEq] at h
      obtain ⟨rfl, rfl⟩ := h
      have := ih (pre ++ rawWire r) t l' (by simpa using hs) (by simpa using hfit) (by simpa using h2)
      obtain ⟨rfl, raws, t', rfl, h5, h6, h7⟩ := this
      refine ⟨rfl, r :: raws, t', by simp, ?_, ?_, ?_⟩
      · simp only [List.flatMap_cons, List.length_append] at h5 ⊢; omega
      · intro r' hr'
        rcases List.mem_cons.1 hr' with rfl | hr'
        · exact hwf
        · exact h6 r' hr'
      · unfold AttrsDec at h7 ⊢
        rw [List.map_cons, List.map_cons, hx, h7]

theorem raws_length (raws : List RawAttr) : raws.length ≤ (raws.flatMap rawWire).length := by
  induction raws with
  | nil => simp
  | cons r raws ih =>
    have := rawWire_length r
    simp only [List.flatMap_cons, List.length_append, List.length_cons]
    split at this <;> omega

/-- what an UPDATE decodes to, by sections -/
theorem update_decode (self : BgpUpdateMessage) (p : BgpSessionParams) (w u : Bytes) (raws : List RawAttr)
    (hw : w.length ≤ 65535) (ha : (raws.flatMap rawWire).length ≤ 65535) (hr : ∀ r ∈ raws, RawWF r) {wd up : BgpAddrs}
    {l : List BgpAttrItem} (h1 : NlriDec p w wd) (h2 : AttrsDec p raws l) (h3 : NlriDec p u up) :
    self.decodeFrom p (updateBytes w (raws.flatMap rawWire) u) = .ok ⟨up, wd, self.attrs ++ l⟩ := by
  unfold BgpUpdateMessage.decodeFrom updateBytes
  simp only [List.append_assoc]
  rw [sliceE_be_hit]
  simp only [Res.ok_bind, getn16_two]
  rw [BitVec.toNat_ofNat, Nat.mod_eq_of_lt (by omega), if_neg (by simp)]
  rw [sliceE_append_mid _ _ _ _ _ (by simp) (by simp), Res.ok_bind, decodeNlri_ok.2 h1, Res.ok_bind]
  rw [← List.append_assoc (be 2 w.length) w]
  rw [sliceE_append_mid (be 2 w.length ++ w) (be 2 (raws.flatMap rawWire).length) _ _ _ (by simp) (by simp), Res.ok_bind,
    getn16_two, Res.ok_bind]
  rw [BitVec.toNat_ofNat, Nat.mod_eq_of_lt (by omega), if_neg (by simp only [List.length_append, be_length]; omega)]
  rw [← List.append_assoc (be 2 w.length ++ w)]
  rw [attrLoop_raws p raws hr l h2 _ u _ _ _ (by simp; omega) rfl (by have := raws_length raws; omega)]
  simp only [Res.ok_bind]
  rw [sliceE_ok (by simp only [List.length_append, be_length]; omega) (by simp), List.take_length]
  rw [show (be 2 w.length ++ w ++ be 2 (raws.flatMap rawWire).length ++ (raws.flatMap rawWire ++ u)).drop
      (2 + w.length + 2 + (raws.flatMap rawWire).length) = u by
    rw [← List.append_assoc, List.drop_left' (by simp only [List.length_append, be_length])]]
  rw [Res.ok_bind, decodeNlri_ok.2 h3]
  rfl

/-- every UPDATE that decodes is of that form -/
theorem update_decode_inv {self : BgpUpdateMessage} {p : BgpSessionParams} {buf : Bytes} {m : BgpUpdateMessage}
    (h : self.decodeFrom p buf = .ok m) :
    ∃ w raws u l, buf = updateBytes w (raws.flatMap rawWire) u ∧ w.length ≤ 65535 ∧
      (raws.flatMap rawWire).length ≤ 65535 ∧ (∀ r ∈ raws, RawWF r) ∧ NlriDec p w m.withdraws ∧ AttrsDec p raws l ∧
      NlriDec p u m.updates ∧ m.attrs = self.attrs ++ l := by
  unfold BgpUpdateMessage.decodeFrom at h
  obtain ⟨s1, h1, h⟩ := Res.bind_eq_ok.1 h
  obtain ⟨wl, h2, h⟩ := Res.bind_eq_ok.1 h
  obtain ⟨-, hl1, -⟩ := sliceE_eq_ok.1 h1
  obtain ⟨v, hv, e⟩ := exists_be (l := buf) 2 hl1
  rw [e, sliceE_be_hit] at h1
  simp only [Res.ok.injEq] at h1
  subst h1
  rw [getn16_two] at h2
  simp only [Res.ok.injEq] at h2
  subst h2
  rw [BitVec.toNat_ofNat, Nat.mod_eq_of_lt (by omega)] at h
  generalize buf.drop 2 = rest at e
  subst e
  simp only at h
  split at h
  · cases h
  rename_i hlen
  simp only [List.length_append, be_length] at hlen
  obtain ⟨w, rest, rfl, hw, -⟩ := exists_split (buf := rest) v (by omega)
  subst hw
  rw [sliceE_append_mid _ _ _ _ _ (by simp) (by simp), Res.ok_bind] at h
  obtain ⟨wd, h3, h⟩ := Res.bind_eq_ok.1 h
  obtain ⟨s2, h4, h⟩ := Res.bind_eq_ok.1 h
  obtain ⟨al, h5, h⟩ := Res.bind_eq_ok.1 h
  obtain ⟨-, hl2, -⟩ := sliceE_eq_ok.1 h4
  simp only [List.length_append, be_length] at hl2 hlen
  obtain ⟨a, ha, e⟩ := exists_be (l := rest) 2 (by omega)
  generalize rest.drop 2 = rest' at e
  subst e
  rw [← List.append_assoc] at h4
  rw [sliceE_append_mid (be 2 w.length ++ w) (be 2 a) rest' _ _ (by simp) (by simp)] at h4
  simp only [Res.ok.injEq] at h4
  subst h4
  rw [getn16_two] at h5
  simp only [Res.ok.injEq] at h5
  subst h5
  rw [BitVec.toNat_ofNat, Nat.mod_eq_of_lt (by omega)] at h
  split at h
  · cases h
  rename_i hlen2
  simp only [List.length_append, be_length] at hlen2
  obtain ⟨⟨l, e⟩, h6, h⟩ := Res.bind_eq_ok.1 h
  simp only at h
  rw [← List.append_assoc, ← List.append_assoc] at h6 h
  have hpre : 2 + w.length + 2 = (be 2 w.length ++ w ++ be 2 a).length := by simp; omega
  rw [hpre] at h6
  obtain ⟨rfl, raws, t, rfl, h7, h8, h9⟩ := attrLoop_ok p _ _ _ _ l e (by simp; omega) (by simp) h6
  obtain rfl : a = (raws.flatMap rawWire).length := by
    simp only [List.length_append, be_length] at h7; omega
  obtain ⟨s3, h10, h⟩ := Res.bind_eq_ok.1 h
  obtain ⟨up, h11, h⟩ := Res.bind_eq_ok.1 h
  simp only [Res.ok.injEq] at h
  subst h
  obtain ⟨-, -, h12⟩ := sliceE_eq_ok.1 h10
  rw [List.take_length, ← List.append_assoc, List.drop_left' (by simp; omega)] at h12
  subst h12
  refine ⟨w, raws, s3, l, by simp [updateBytes], by omega, by omega, h8, decodeNlri_ok.1 h3, h9, decodeNlri_ok.1 h11, rfl⟩


/-! ## Encoding -/

theorem nlriEncoder_eq (p : BgpSessionParams) (x : BgpAddrs) : BgpUpdateMessage.nlriEncoder p x =
    if InSession p x then some (x.encodeTo p) else none := by
  obtain ⟨_, _, mode, _, _, _, _⟩ := p
  cases mode <;> cases x <;> rfl

theorem framed_out {f : Enc} [hf : Framed id f] {b b' : Bytes} {n : Nat} (h : f b = .ok (b', n)) :
    ∃ w, w.length = n ∧ n ≤ b.length ∧ b' = w ++ b.drop n := by
  obtain ⟨h1, h2, h3⟩ := hf.post b _ h
  simp only [id] at h1 h2 h3
  refine ⟨b'.take n, by simp; omega, h1, ?_⟩
  have : b'.drop n = b.drop n := by
    apply List.ext_getElem?
    intro k
    simp only [List.getElem?_drop]
    exact h3 _ (by omega)
  rw [← this, List.take_append_drop]

theorem emits_of {f : Enc} [hf : Framed id f] {b b' : Bytes} {n : Nat} (h : f b = .ok (b', n)) :
    ∃ w, w.length = n ∧ n ≤ b.length ∧ b' = w ++ b.drop n ∧ Emits f w := by
  obtain ⟨w, h1, h2, h3⟩ := framed_out h
  exact ⟨w, h1, h2, h3, b, by omega, by rw [h, h3, h1]⟩

theorem framed_session {p : BgpSessionParams} {x : BgpAddrs} (h : InSession p x) : Framed id (x.encodeTo p) := by
  apply framed_addrs <;> rintro v rfl <;> (unfold InSession sessionFamily at h; cases hm : p.peerMode <;> simp [hm, kindOf] at h)

theorem emits_nil (p : BgpSessionParams) : AttrsEmit p [] [] := ⟨rfl, by simp⟩

/-- what the attribute loop of `encode_to` has written -/
theorem encodeAttrs_ok (p : BgpSessionParams) (lp : Nat) (l : List BgpAttrItem) (h : ∀ a ∈ l, AttrFramed a)
    (pre t b' : Bytes) (e : Nat)
    (he : BgpUpdateMessage.encodeAttrs p lp l (pre ++ t) pre.length = .ok (b', e)) :
    ∃ ws, AttrsEmit p l ws ∧ ws.flatten.length ≤ t.length ∧ b' = pre ++ (ws.flatten ++ t.drop ws.flatten.length) ∧
      e = pre.length + ws.flatten.length := by
  induction l generalizing pre t with
  | nil =>
    simp only [BgpUpdateMessage.encodeAttrs, Res.ok.injEq, Prod.mk.injEq] at he
    obtain ⟨rfl, rfl⟩ := he
    exact ⟨[], emits_nil p, by simp, by simp, by simp⟩
  | cons a l ih =>
    rw [BgpUpdateMessage.encodeAttrs] at he
    split at he
    · cases he
    rw [onSliceE_tail pre t _ _ _ rfl (by simp)] at he
    obtain ⟨⟨b1, n⟩, h1, he⟩ := Res.bind_eq_ok.1 he
    obtain ⟨⟨t1, n'⟩, h2, h1⟩ := Res.bind_eq_ok.1 h1
    simp only [Res.ok.injEq, Prod.mk.injEq] at h1
    obtain ⟨rfl, rfl⟩ := h1
    have := framed_attr a p (h a (by simp))
    obtain ⟨w, hw, hle, rfl, hem⟩ := emits_of h2
    subst hw
    simp only at he
    rw [← List.append_assoc, ← List.length_append] at he
    obtain ⟨ws, h3, h4, h5, h6⟩ := ih (fun a ha => h a (by simp [ha])) _ _ he
    simp only [List.length_drop] at h4
    refine ⟨w :: ws, ⟨by simp [h3.1], ?_⟩, ?_, ?_, ?_⟩
    · intro q hq
      simp only [List.zip_cons_cons, List.mem_cons] at hq
      rcases hq with rfl | hq
      · exact hem
      · exact h3.2 q hq
    · simp only [List.flatten_cons, List.length_append]; omega
    · rw [h5, List.drop_drop]
      simp
    · simp only [List.flatten_cons, List.length_append] at h6 ⊢; omega

theorem setn16_cons2 (v : U16) (a b : U8) (t : Bytes) : setn16 v (a :: b :: t) = .ok (be 2 v.toNat ++ t) := by
  rw [setn16_ok _ (by simp)]
  rfl

/-- what `encode_to` has written -/
theorem update_encode_ok (p : BgpSessionParams) (x : BgpUpdateMessage) (h : ∀ a ∈ x.attrs, AttrFramed a)
    (buf b' : Bytes) (n : Nat) (he : x.encodeTo p buf = .ok (b', n)) :
    ∃ w ws u, SectionEmits p x.withdraws w ∧ AttrsEmit p x.attrs ws ∧ SectionEmits p x.updates u ∧
      w.length ≤ 65535 ∧ n = (updateBytes w ws.flatten u).length ∧ n ≤ buf.length ∧
      b' = updateBytes w ws.flatten u ++ buf.drop n := by
  unfold BgpUpdateMessage.encodeTo at he
  obtain ⟨⟨b1, lp⟩, h1, he⟩ := Res.bind_eq_ok.1 he
  simp only at he
  have key : ∃ w t, SectionEmits p x.withdraws w ∧ w.length ≤ 65535 ∧ lp = 2 + w.length ∧
      b1 = be 2 w.length ++ w ++ t ∧ t = buf.drop lp ∧ lp ≤ buf.length := by
    unfold BgpUpdateMessage.encodeWithdraws at h1
    rw [nlriEncoder_eq] at h1
    by_cases hi : InSession p x.withdraws
    · simp only [if_pos hi] at h1
      obtain ⟨⟨b2, wl⟩, h2, h1⟩ := Res.bind_eq_ok.1 h1
      simp only at h1
      split at h1
      · cases h1
      rename_i hwl
      obtain ⟨⟨b3, u⟩, h3, h1⟩ := Res.bind_eq_ok.1 h1
      simp only [Res.ok.injEq, Prod.mk.injEq] at h1
      obtain ⟨rfl, rfl⟩ := h1
      by_cases hb : 2 ≤ buf.length
      · obtain ⟨c, d, r, rfl⟩ := exists_cons2 (l := buf) hb
        rw [show c :: d :: r = [c, d] ++ r from rfl, onSliceE_tail _ _ _ _ _ (by simp) (by simp; omega)] at h2
        obtain ⟨⟨r', wl'⟩, h4, h2⟩ := Res.bind_eq_ok.1 h2
        simp only [Res.ok.injEq, Prod.mk.injEq] at h2
        obtain ⟨rfl, rfl⟩ := h2
        have := framed_session hi
        obtain ⟨w, hw, hle, rfl, hem⟩ := emits_of h4
        subst hw
        rw [show ([c, d] ++ (w ++ r.drop w.length) : Bytes) = [] ++ ([c, d] ++ (w ++ r.drop w.length)) from rfl,
          onSliceE_tail _ _ _ _ _ (by simp) (by simp)] at h3
        simp only [List.cons_append, List.nil_append, setn16_cons2, Res.ok_bind, Res.ok.injEq, Prod.mk.injEq] at h3
        obtain ⟨rfl, -⟩ := h3
        refine ⟨w, r.drop w.length, ?_, by omega, rfl, ?_, ?_, ?_⟩
        · unfold SectionEmits; rw [if_pos hi]; exact hem
        · rw [BitVec.toNat_ofNat, Nat.mod_eq_of_lt (by omega)]; simp
        · rw [show 2 + w.length = w.length + 1 + 1 by omega]; simp
        · simp only [List.length_cons]; omega
      · unfold onSliceE at h2
        split at h2
        · omega
        · cases h2
    · simp only [if_neg hi] at h1
      obtain ⟨b2, h2, h1⟩ := Res.bind_eq_ok.1 h1
      simp only [Res.ok.injEq, Prod.mk.injEq] at h1
      obtain ⟨rfl, rfl⟩ := h1
      by_cases hb : 2 ≤ buf.length
      · obtain ⟨c, d, r, rfl⟩ := exists_cons2 (l := buf) hb
        rw [setn16_cons2] at h2
        simp only [Res.ok.injEq] at h2
        subst h2
        refine ⟨[], r, ?_, by simp, rfl, ?_, ?_, ?_⟩
        · unfold SectionEmits; rw [if_neg hi]
        · simp
        · simp
        · simp
      · have := (instFillsOfNatNatSetn16 0).post buf b2 h2
        omega
  obtain ⟨w, t, hws, hwl, rfl, rfl, ht, hlp⟩ := key
  obtain ⟨⟨b2, cp⟩, h2, he⟩ := Res.bind_eq_ok.1 he
  simp only at he
  by_cases ht2 : 2 ≤ t.length
  swap
  · exfalso
    have hlen : (be 2 w.length ++ w ++ t).length < 2 + w.length + 2 := by simp; omega
    cases hl : x.attrs with
    | nil =>
      rw [hl] at h2
      simp only [BgpUpdateMessage.encodeAttrs, Res.ok.injEq, Prod.mk.injEq] at h2
      obtain ⟨rfl, rfl⟩ := h2
      rw [onSliceE, if_neg (by omega)] at he
      cases he
    | cons a l =>
      rw [hl, BgpUpdateMessage.encodeAttrs] at h2
      split at h2
      · cases h2
      rw [onSliceE, if_neg (by omega)] at h2
      cases h2
  obtain ⟨c, d, r, rfl⟩ := exists_cons2 (l := t) ht2
  rw [show be 2 w.length ++ w ++ c :: d :: r = (be 2 w.length ++ w ++ [c, d]) ++ r by simp,
    show 2 + w.length + 2 = (be 2 w.length ++ w ++ [c, d]).length by simp; omega] at h2
  obtain ⟨ws, hae, hal, rfl, rfl⟩ := encodeAttrs_ok p _ _ h _ _ _ _ h2
  obtain ⟨⟨b3, u0⟩, h3, he⟩ := Res.bind_eq_ok.1 he
  simp only at he
  rw [show be 2 w.length ++ w ++ [c, d] ++ (ws.flatten ++ r.drop ws.flatten.length) =
    (be 2 w.length ++ w) ++ ([c, d] ++ (ws.flatten ++ r.drop ws.flatten.length)) by simp,
    onSliceE_append _ _ _ _ _ _ (by simp) (by simp)] at h3
  simp only [setn16_cons2, Res.ok_bind, Res.ok.injEq, Prod.mk.injEq, List.append_nil] at h3
  obtain ⟨rfl, -⟩ := h3
  rw [show (be 2 w.length ++ w ++ [c, d]).length + ws.flatten.length - (2 + w.length) - 2 = ws.flatten.length by
    simp; omega] at he
  have e2 : be 2 (BitVec.ofNat 16 ws.flatten.length).toNat = be 2 ws.flatten.length := by
    rw [BitVec.toNat_ofNat]
    exact be_congr_mod 2 _
  rw [e2] at he
  have hr : r = buf.drop (2 + w.length + 2) := by
    have := congrArg (List.drop 2) ht
    simpa [List.drop_drop] using this
  have hbl : r.length + (2 + w.length + 2) = buf.length := by
    have := congrArg List.length ht
    simp at this; omega
  rw [nlriEncoder_eq] at he
  have e3 : be 2 w.length ++ w ++ (be 2 ws.flatten.length ++ (ws.flatten ++ r.drop ws.flatten.length)) =
      (be 2 w.length ++ w ++ be 2 ws.flatten.length ++ ws.flatten) ++ r.drop ws.flatten.length := by simp
  by_cases hi : InSession p x.updates
  · simp only [if_pos hi] at he
    rw [e3, onSliceE_tail _ _ _ _ _ (by simp; omega) (by simp; omega)] at he
    obtain ⟨⟨b4, m⟩, h4, he⟩ := Res.bind_eq_ok.1 he
    obtain ⟨⟨b5, m'⟩, h5, h4⟩ := Res.bind_eq_ok.1 h4
    simp only [Res.ok.injEq, Prod.mk.injEq] at he h4
    obtain ⟨rfl, rfl⟩ := he
    obtain ⟨rfl, rfl⟩ := h4
    have := framed_session hi
    obtain ⟨u, hu, hle, rfl, hem⟩ := emits_of h5
    subst hu
    simp only [List.length_drop] at hle
    refine ⟨w, ws, u, hws, hae, ?_, hwl, ?_, ?_, ?_⟩
    · unfold SectionEmits; rw [if_pos hi]; exact hem
    · simp [updateBytes]; omega
    · simp; omega
    · unfold updateBytes
      rw [hr, List.drop_drop, List.drop_drop]
      simp only [List.append_assoc, List.length_append, be_length, List.length_cons, List.length_nil]
      congr 6
      omega
  · simp only [if_neg hi] at he
    simp only [Res.ok.injEq, Prod.mk.injEq] at he
    obtain ⟨rfl, rfl⟩ := he
    refine ⟨w, ws, [], hws, hae, ?_, hwl, ?_, ?_, ?_⟩
    · unfold SectionEmits; rw [if_neg hi]
    · simp [updateBytes]; omega
    · simp; omega
    · unfold updateBytes
      rw [hr, List.drop_drop]
      simp only [List.append_assoc, List.length_append, be_length, List.length_cons, List.length_nil, List.nil_append]
      congr 5

/-! ## Messages of parts that round trip -/

theorem section_in {p : BgpSessionParams} {x : BgpAddrs} (h : SectionOk p x) :
    (InSession p x ∧ Writes (x.encodeTo p) (addrsWire x)) ∨ (¬ InSession p x ∧ addrsWire x = []) := by
  rcases h with rfl | ⟨⟨ap, hk⟩, hw, -⟩
  · exact .inr ⟨by simp [InSession, kindOf], rfl⟩
  · exact .inl ⟨by simp [InSession, hk], addrs_writes x p hw⟩

theorem section_reads {p : BgpSessionParams} {x : BgpAddrs} (h : SectionOk p x) :
    NlriDec p (addrsWire x) (sectionReceived p x) := by
  rcases h with rfl | ⟨⟨ap, hk⟩, hw, hf⟩
  · have e : ∀ f, AddPathExpected p f [] = ReceivesAddPath p.caps f := by
      intro f; simp [AddPathExpected, LooksAddPath]
    obtain ⟨_, _, mode, _, _, caps, _⟩ := p
    refine ⟨0, ?_⟩
    cases mode
    · simp only [sectionReceived, sessionFamily, familyCode, BgpAddrs.decodeFrom, addrsWire]
      show BgpAddrs.decodeAddpath _ 1 1 _ _ _ = _
      rw [decodeAddpath_eq, e]
      cases ReceivesAddPath caps (1, 1) <;> rfl
    · simp only [sectionReceived, sessionFamily, familyCode, BgpAddrs.decodeFrom, addrsWire]
      show BgpAddrs.decodeAddpath _ 2 1 _ _ _ = _
      rw [decodeAddpath_eq, e]
      cases ReceivesAddPath caps (2, 1) <;> rfl
  · have := addrs_reads x p hw hf
    rw [addrs_code x hk] at this
    refine ⟨addrsTaken x, ?_⟩
    rw [this]
    cases x <;> first | rfl | cases hk

theorem encodeAttrs_writes (p : BgpSessionParams) (lp : Nat) (l : List BgpAttrItem)
    (h : ∀ a ∈ l, AttrOk p a ∧ (valueWire p.hasAs32bit a).length ≤ maxValue (attrCode a).2) (pre t : Bytes)
    (hfit : ∀ a b c, l = a ++ b :: c → pre.length + (attrsWire p a).length - lp ≤ 65535)
    (ht : (attrsWire p l).length ≤ t.length) :
    BgpUpdateMessage.encodeAttrs p lp l (pre ++ t) pre.length =
      .ok (pre ++ (attrsWire p l ++ t.drop (attrsWire p l).length), pre.length + (attrsWire p l).length) := by
  induction l generalizing pre t with
  | nil => simp [BgpUpdateMessage.encodeAttrs, attrsWire]
  | cons a l ih =>
    have h0 := hfit [] a l rfl
    simp only [attrsWire, List.flatMap_nil, List.length_nil, Nat.add_zero] at h0
    simp only [attrsWire, List.flatMap_cons, List.length_append] at ht
    rw [BgpUpdateMessage.encodeAttrs, if_neg (by omega), onSliceE_tail pre t _ _ _ rfl (by simp),
      attr_writes p a (h a (by simp)).1 (h a (by simp)).2 t (by omega)]
    simp only [Res.ok_bind]
    rw [← List.append_assoc, ← List.length_append]
    rw [ih (fun b hb => h b (by simp [hb])) (pre ++ attrWire p.hasAs32bit a) _ ?_ ?_]
    · simp only [attrsWire, List.flatMap_cons, List.length_append, List.drop_drop, List.append_assoc]
      rw [Nat.add_assoc]
    · intro x y z hl
      have := hfit (a :: x) y z (by simp [hl])
      simp only [attrsWire, List.flatMap_cons, List.length_append] at this ⊢
      omega
    · simp only [attrsWire, List.length_drop]; omega

/-- an attribute too many is refused -/
theorem encodeAttrs_full (p : BgpSessionParams) (lp : Nat) (l : List BgpAttrItem)
    (h : ∀ a ∈ l, AttrOk p a ∧ (valueWire p.hasAs32bit a).length ≤ maxValue (attrCode a).2) (pre t : Bytes)
    (x : List BgpAttrItem) (y : BgpAttrItem) (z : List BgpAttrItem) (hl : l = x ++ y :: z)
    (hbig : 65535 < pre.length + (attrsWire p x).length - lp)
    (ht : (attrsWire p l).length ≤ t.length) :
    BgpUpdateMessage.encodeAttrs p lp l (pre ++ t) pre.length = .err .static := by
  induction l generalizing pre t x with
  | nil => cases x <;> cases hl
  | cons a l ih =>
    simp only [attrsWire, List.flatMap_cons, List.length_append] at ht
    rw [BgpUpdateMessage.encodeAttrs]
    split
    · rfl
    rename_i hle
    rw [onSliceE_tail pre t _ _ _ rfl (by simp), attr_writes p a (h a (by simp)).1 (h a (by simp)).2 t (by omega)]
    simp only [Res.ok_bind]
    rw [← List.append_assoc, ← List.length_append]
    cases x with
    | nil => simp only [attrsWire, List.flatMap_nil, List.length_nil, Nat.add_zero] at hbig; omega
    | cons b x =>
      simp only [List.cons_append, List.cons.injEq] at hl
      obtain ⟨rfl, rfl⟩ := hl
      refine ih (fun b hb => h b (by simp [hb])) _ _ x rfl ?_ ?_
      · simp only [attrsWire, List.flatMap_cons, List.length_append] at hbig ⊢; omega
      · simp only [attrsWire, List.length_drop]; omega

theorem encodeWithdraws_writes (p : BgpSessionParams) (x : BgpUpdateMessage) (h : SectionOk p x.withdraws)
    (hl : (addrsWire x.withdraws).length ≤ 65535) (buf : Bytes) (hb : 2 + (addrsWire x.withdraws).length ≤ buf.length) :
    x.encodeWithdraws p buf =
      .ok (be 2 (addrsWire x.withdraws).length ++ addrsWire x.withdraws ++ buf.drop (2 + (addrsWire x.withdraws).length),
        2 + (addrsWire x.withdraws).length) := by
  obtain ⟨c, d, r, rfl⟩ := exists_cons2 (l := buf) (by omega)
  simp only [List.length_cons] at hb
  unfold BgpUpdateMessage.encodeWithdraws
  rw [nlriEncoder_eq]
  rcases section_in h with ⟨hi, hw⟩ | ⟨hi, hw⟩
  · simp only [if_pos hi]
    rw [show c :: d :: r = [c, d] ++ r from rfl, onSliceE_tail _ _ _ _ _ (by simp) (by simp; omega), hw r (by omega)]
    simp only [Res.ok_bind]
    rw [if_neg (by omega)]
    generalize hd : addrsWire x.withdraws = w at *
    rw [show ([c, d] ++ (w ++ r.drop w.length) : Bytes) = [] ++ ([c, d] ++ (w ++ r.drop w.length)) from rfl,
      onSliceE_tail _ _ _ _ _ (by simp) (by simp)]
    simp only [List.cons_append, List.nil_append, setn16_cons2, Res.ok_bind]
    rw [BitVec.toNat_ofNat, Nat.mod_eq_of_lt (by omega), show 2 + w.length = w.length + 1 + 1 by omega]
    simp
  · simp only [if_neg hi]
    rw [setn16_cons2, hw]
    simp

theorem encodeWithdraws_full (p : BgpSessionParams) (x : BgpUpdateMessage) (h : SectionOk p x.withdraws)
    (hl : 65535 < (addrsWire x.withdraws).length) (buf : Bytes) (hb : 2 + (addrsWire x.withdraws).length ≤ buf.length) :
    x.encodeWithdraws p buf = .err .tooManyData := by
  obtain ⟨c, d, r, rfl⟩ := exists_cons2 (l := buf) (by omega)
  simp only [List.length_cons] at hb
  unfold BgpUpdateMessage.encodeWithdraws
  rw [nlriEncoder_eq]
  rcases section_in h with ⟨hi, hw⟩ | ⟨hi, hw⟩
  · simp only [if_pos hi]
    rw [show c :: d :: r = [c, d] ++ r from rfl, onSliceE_tail _ _ _ _ _ (by simp) (by simp; omega), hw r (by omega)]
    simp only [Res.ok_bind]
    rw [if_pos (by omega)]
  · rw [hw] at hl; simp at hl

/-- what `encode_to` writes -/
theorem update_writes (p : BgpSessionParams) (x : BgpUpdateMessage) (h : PartsOk p x)
    (hw : (addrsWire x.withdraws).length ≤ 65535)
    (hfit : ∀ a b c, x.attrs = a ++ b :: c → (attrsWire p a).length ≤ 65533) :
    Writes (x.encodeTo p) (updateWire p x) := by
  obtain ⟨h1, h2, h3⟩ := h
  intro buf hb
  have hlen : (updateWire p x).length = 4 + (addrsWire x.withdraws).length + (attrsWire p x.attrs).length +
      (addrsWire x.updates).length := by simp [updateWire, updateBytes]; omega
  unfold BgpUpdateMessage.encodeTo
  rw [encodeWithdraws_writes p x h1 hw buf (by omega)]
  simp only [Res.ok_bind]
  have hd : (buf.drop (2 + (addrsWire x.withdraws).length)).length = buf.length - (2 + (addrsWire x.withdraws).length) := by
    simp
  obtain ⟨c, d, r, hr⟩ := exists_cons2 (l := buf.drop (2 + (addrsWire x.withdraws).length)) (by rw [hd]; omega)
  have hr2 : buf.drop (2 + (addrsWire x.withdraws).length + 2) = r := by
    have := congrArg (List.drop 2) hr
    simpa [List.drop_drop] using this
  rw [hr] at hd ⊢
  simp only [List.length_cons] at hd
  unfold updateWire updateBytes at *
  generalize addrsWire x.withdraws = w at *
  rw [show be 2 w.length ++ w ++ c :: d :: r = (be 2 w.length ++ w ++ [c, d]) ++ r by simp,
    show 2 + w.length + 2 = (be 2 w.length ++ w ++ [c, d]).length by simp; omega]
  rw [encodeAttrs_writes p _ _ h3 _ _ (by
    intro a b c' e
    have := hfit a b c' e
    simp only [List.length_append, be_length, List.length_cons, List.length_nil]
    omega) (by omega)]
  simp only [Res.ok_bind]
  generalize attrsWire p x.attrs = a at *
  rw [show be 2 w.length ++ w ++ [c, d] ++ (a ++ r.drop a.length) =
    (be 2 w.length ++ w) ++ ([c, d] ++ (a ++ r.drop a.length)) by simp,
    onSliceE_append _ _ _ _ _ _ (by simp) (by simp; omega)]
  simp only [setn16_cons2, Res.ok_bind, List.append_nil]
  rw [show (be 2 w.length ++ w ++ [c, d]).length + a.length - (2 + w.length) - 2 = a.length by simp; omega]
  have e2 : be 2 (BitVec.ofNat 16 a.length).toNat = be 2 a.length := by
    rw [BitVec.toNat_ofNat]
    exact be_congr_mod 2 _
  rw [e2, nlriEncoder_eq]
  have e3 : be 2 w.length ++ w ++ (be 2 a.length ++ (a ++ r.drop a.length)) =
      (be 2 w.length ++ w ++ be 2 a.length ++ a) ++ r.drop a.length := by simp
  have e4 : ∀ k, buf.drop (2 + w.length + 2 + k) = r.drop k := by
    intro k; rw [← hr2, List.drop_drop]
  rcases section_in h2 with ⟨hi, hw⟩ | ⟨hi, hw⟩
  · simp only [if_pos hi]
    rw [e3, onSliceE_tail _ _ _ _ _ (by simp; omega) (by simp; omega), hw _ (by simp; omega)]
    simp only [Res.ok_bind, hlen, List.drop_drop]
    rw [show 4 + w.length + a.length + (addrsWire x.updates).length =
      2 + w.length + 2 + (a.length + (addrsWire x.updates).length) by omega, e4]
    simp only [List.append_assoc, List.length_append, be_length, List.length_cons, List.length_nil, Res.ok.injEq,
      Prod.mk.injEq, true_and]
    omega
  · simp only [if_neg hi]
    rw [hw] at hlen ⊢
    rw [hlen]
    simp only [List.length_nil, Nat.add_zero, List.append_nil]
    rw [show 4 + w.length + a.length = 2 + w.length + 2 + a.length by omega, e4]
    simp only [List.append_assoc, List.length_append, be_length, List.length_cons, List.length_nil, Res.ok.injEq,
      Prod.mk.injEq, true_and]
    omega

theorem attrs_raw (p : BgpSessionParams) (l : List BgpAttrItem) : attrsWire p l =
    (l.map fun a => (⟨(attrCode a).1, (attrCode a).2, valueWire p.hasAs32bit a⟩ : RawAttr)).flatMap rawWire := by
  simp only [attrsWire, List.flatMap_map]
  rfl

theorem update_reads (p : BgpSessionParams) (x self : BgpUpdateMessage) (h : PartsOk p x)
    (hw : (addrsWire x.withdraws).length ≤ 65535) (ha : (attrsWire p x.attrs).length ≤ 65535) :
    self.decodeFrom p (updateWire p x) =
      .ok ⟨sectionReceived p x.updates, sectionReceived p x.withdraws, self.attrs ++ x.attrs.map attrReceived⟩ := by
  obtain ⟨h1, h2, h3⟩ := h
  unfold updateWire
  rw [attrs_raw] at ha ⊢
  refine update_decode self p _ _ _ hw ha ?_ (section_reads h1) ?_ (section_reads h2)
  · intro r hr
    obtain ⟨a, ha, rfl⟩ := List.mem_map.1 hr
    exact (h3 a ha).2
  · unfold AttrsDec
    rw [List.map_map, List.map_map]
    apply List.map_congr_left
    intro a ha
    exact value_reads p a (h3 a ha).1

end Zbgp
