import Verif.Lemmas.NoHang
import Verif.Lemmas.UpdateTotal
import Verif.Spec.AttrValues

/-! # Values of single attributes -/

namespace Zbgp

open Spec

attribute [-simp] List.length_flatMap

/-! ## Attribute sets -/

/-- one round of the attribute set loop over an attribute that is there -/
theorem setLoop_raw (dec : AttrDec) (pre t : Bytes) (r : RawAttr) (hr : RawWF r) (fuel pos : Nat)
    (hp : pos = pre.length) :
    BgpAttrSet.loop dec (pre ++ (rawWire r ++ t)) (fuel + 1) pos =
      (do
        let x ← dec r.code r.flags r.value.length r.value
        let l ← BgpAttrSet.loop dec (pre ++ (rawWire r ++ t)) fuel (pos + (rawWire r).length)
        .ok (x :: l)) := by
  have hl := rawWire_length r
  have hx := extended_iff r.flags
  unfold RawWF maxValue at hr
  rw [BgpAttrSet.loop, if_pos (by simp only [List.length_append]; split at hl <;> omega)]
  simp only
  subst hp
  cases he : extended r.flags <;> rw [he] at hx hl hr
  · simp only [Bool.false_eq_true, iff_false] at hx hr
    simp only [Bool.false_eq_true, ↓reduceIte] at hl hr
    have e : pre ++ (rawWire r ++ t) =
        pre ++ (r.flags :: r.code :: BitVec.ofNat 8 r.value.length :: (r.value ++ t)) := by
      simp [rawWire, attrHeader, he, be_one]
    rw [e]
    rw [idx_append_right (by omega), idx_append_right (by omega), idx_append_right (by omega)]
    simp only [Nat.sub_self, show pre.length + 1 - pre.length = 1 by omega,
      show pre.length + 3 - 1 - pre.length = 2 by omega, idx_cons_zero, idx_cons_succ, Res.ok_bind, if_neg hx]
    rw [BitVec.toNat_ofNat, Nat.mod_eq_of_lt (show r.value.length < 2 ^ 8 by omega)]
    rw [if_neg (by simp; omega)]
    rw [show pre ++ (r.flags :: r.code :: BitVec.ofNat 8 r.value.length :: (r.value ++ t)) =
      (pre ++ [r.flags, r.code, BitVec.ofNat 8 r.value.length]) ++ (r.value ++ t) by simp]
    rw [rslice_append_mid _ _ _ _ _ (by simp) (by simp), Res.ok_bind]
    rw [show pre.length + 3 + r.value.length = pre.length + (rawWire r).length by omega]
  · simp only [iff_true] at hx
    simp only [↓reduceIte] at hl hr
    have e : pre ++ (rawWire r ++ t) =
        pre ++ (r.flags :: r.code :: (be 2 r.value.length ++ (r.value ++ t))) := by
      simp [rawWire, attrHeader, he]
    rw [e]
    rw [idx_append_right (by omega), idx_append_right (by omega)]
    simp only [Nat.sub_self, show pre.length + 1 - pre.length = 1 by omega, idx_cons_zero, idx_cons_succ, Res.ok_bind,
      if_pos hx]
    rw [show pre ++ (r.flags :: r.code :: (be 2 r.value.length ++ (r.value ++ t))) =
      (pre ++ [r.flags, r.code]) ++ (be 2 r.value.length ++ (r.value ++ t)) by simp]
    rw [rslice_append_mid _ _ _ _ _ (by simp) (by simp)]
    simp only [Res.ok_bind, getn16_two]
    rw [BitVec.toNat_ofNat, Nat.mod_eq_of_lt (show r.value.length < 2 ^ 16 by omega)]
    rw [if_neg (by simp; omega)]
    rw [show (pre ++ [r.flags, r.code]) ++ (be 2 r.value.length ++ (r.value ++ t)) =
      (pre ++ [r.flags, r.code] ++ be 2 r.value.length) ++ (r.value ++ t) by simp]
    rw [rslice_append_mid _ _ _ _ _ (by simp) (by simp), Res.ok_bind]
    rw [show pre.length + 4 + r.value.length = pre.length + (rawWire r).length by omega]

theorem setLoop_nil (dec : AttrDec) (pre : Bytes) (fuel : Nat) :
    BgpAttrSet.loop dec (pre ++ []) fuel pre.length = .ok [] := by
  rw [List.append_nil]
  cases fuel <;> rw [BgpAttrSet.loop, if_neg (by omega)]

/-- a header that is cut off -/
theorem setLoop_cut (dec : AttrDec) (pre t : Bytes) (h : CutAttr t) (fuel : Nat) :
    BgpAttrSet.loop dec (pre ++ t) (fuel + 1) pre.length = .panic := by
  have ht : 0 < t.length := by
    obtain ⟨f, rfl⟩ | ⟨f, c, rfl⟩ | ⟨f, c, a, rfl, -⟩ := h <;> simp
  rw [BgpAttrSet.loop, if_pos (by simp; omega)]
  simp only
  obtain ⟨flags, rfl⟩ | ⟨flags, code, rfl⟩ | ⟨flags, code, a, rfl, hx⟩ := h
  · rw [idx_append_right (by omega), idx_append_right (by omega)]
    simp only [Nat.sub_self, show pre.length + 1 - pre.length = 1 by omega, idx_cons_zero, idx_cons_succ, Res.ok_bind]
    rfl
  · rw [idx_append_right (by omega), idx_append_right (by omega), idx_append_right (by omega),
      rslice_append_right (by omega) (by omega)]
    simp only [Nat.sub_self, show pre.length + 1 - pre.length = 1 by omega,
      show pre.length + 3 - 1 - pre.length = 2 by omega, show pre.length + 4 - 2 - pre.length = 2 by omega,
      show pre.length + 4 - pre.length = 4 by omega, idx_cons_zero, idx_cons_succ, Res.ok_bind]
    split <;> rfl
  · have hx' := extended_iff flags
    rw [hx] at hx'
    simp only [iff_true] at hx'
    rw [idx_append_right (by omega), idx_append_right (by omega), rslice_append_right (by omega) (by omega)]
    simp only [Nat.sub_self, show pre.length + 1 - pre.length = 1 by omega,
      show pre.length + 4 - 2 - pre.length = 2 by omega,
      show pre.length + 4 - pre.length = 4 by omega, idx_cons_zero, idx_cons_succ, Res.ok_bind, if_pos hx']
    rfl

/-- one round: the header is cut off, or the round fails, or the attribute is there -/
theorem setLoop_cases (dec : AttrDec) (pre rest : Bytes) (fuel : Nat) (hne : rest ≠ []) :
    CutAttr rest ∨ (BgpAttrSet.loop dec (pre ++ rest) (fuel + 1) pre.length).IsErr ∨
      ∃ r t, rest = rawWire r ++ t ∧ RawWF r := by
  match rest with
  | [] => exact absurd rfl hne
  | [f] => exact .inl (.inl ⟨f, rfl⟩)
  | [f, c] => exact .inl (.inr (.inl ⟨f, c, rfl⟩))
  | f :: c :: b :: rest =>
    have hx := extended_iff f
    rw [BgpAttrSet.loop, if_pos (by simp)]
    simp only
    rw [idx_append_right (by omega), idx_append_right (by omega)]
    simp only [Nat.sub_self, show pre.length + 1 - pre.length = 1 by omega, idx_cons_zero, idx_cons_succ, Res.ok_bind]
    cases he : extended f <;> rw [he] at hx
    · simp only [Bool.false_eq_true, iff_false] at hx
      refine .inr ?_
      rw [if_neg hx, idx_append_right (by omega)]
      simp only [show pre.length + 3 - 1 - pre.length = 2 by omega, idx_cons_zero, idx_cons_succ, Res.ok_bind]
      split
      · exact .inl trivial
      · rename_i hfit
        simp only [List.length_append, List.length_cons] at hfit
        refine .inr ⟨⟨c, f, rest.take b.toNat⟩, rest.drop b.toNat, ?_, ?_⟩
        · simp only [rawWire, attrHeader, he, List.length_take]
          rw [Nat.min_eq_left (by omega)]
          simp [be_one]
        · simp only [RawWF, maxValue, he, List.length_take]
          have := b.isLt
          simp; omega
    · simp only [iff_true] at hx
      match rest with
      | [] => exact .inl (.inr (.inr ⟨f, c, b, rfl, he⟩))
      | b' :: rest =>
      refine .inr ?_
      rw [if_pos hx]
      rw [show pre ++ f :: c :: b :: b' :: rest = (pre ++ [f, c]) ++ ([b, b'] ++ rest) by simp,
        rslice_append_mid _ _ _ _ _ (by simp) (by simp)]
      simp only [Res.ok_bind]
      rw [getn16_ok (by simp)]
      simp only [Res.ok_bind, List.take_succ_cons, List.take_zero, unbe_two]
      split
      · exact .inl trivial
      · rename_i hfit
        simp only [List.length_append, List.length_cons, List.length_nil] at hfit
        refine .inr ⟨⟨c, f, rest.take (b.toNat * 256 + b'.toNat)⟩, rest.drop (b.toNat * 256 + b'.toNat), ?_, ?_⟩
        · simp only [rawWire, attrHeader, he, List.length_take]
          rw [Nat.min_eq_left (by omega)]
          simp [be_two_unbe]
        · simp only [RawWF, maxValue, he, List.length_take]
          have := b.isLt
          have := b'.isLt
          simp; omega

/-- the loop depends on the decoder only at values shorter than the buffer -/
theorem setLoop_congr (dec dec' : AttrDec) (buf : Bytes) (fuel pos : Nat) (h0 : 0 < pos)
    (h : ∀ tc fl n b, b.length < buf.length → dec tc fl n b = dec' tc fl n b) :
    BgpAttrSet.loop dec buf fuel pos = BgpAttrSet.loop dec' buf fuel pos := by
  induction fuel generalizing pos with
  | zero => rw [BgpAttrSet.loop, BgpAttrSet.loop]
  | succ fuel ih =>
    rw [BgpAttrSet.loop, BgpAttrSet.loop]
    split
    · refine congrArg _ (funext fun fl => congrArg _ (funext fun tc => ?_))
      cases hq : (if fl &&& 16 > 0 then do
            .ok (pos + 4, (← getn16 (← rslice buf (pos + 4 - 2) (pos + 4))).toNat)
          else do
            .ok (pos + 3, (← idx buf (pos + 3 - 1)).toNat) : Res (Nat × Nat)) with
      | err e => rfl
      | panic => rfl
      | hang => rfl
      | ok q =>
        obtain ⟨c, n⟩ := q
        have hc : pos + 3 ≤ c := by
          split at hq <;> simp only [Res.bind_eq_ok, Res.ok.injEq, Prod.mk.injEq] at hq
          · obtain ⟨_, _, _, _, rfl, _⟩ := hq; omega
          · obtain ⟨_, _, rfl, _⟩ := hq; omega
        simp only [Res.ok_bind]
        split
        · rfl
        · rename_i hfit
          rw [rslice_ok (by omega) (by omega)]
          simp only [Res.ok_bind]
          rw [h _ _ _ _ (by simp; omega), ih _ (by omega)]
    · rfl

/-- the nesting allowed does not matter as long as it is enough for the length -/
theorem decodeN_fuel (p : BgpSessionParams) (k : Nat) : ∀ (tc fl : U8) (n : Nat) (buf : Bytes) (f f' : Nat),
    buf.length ≤ k → buf.length < f → buf.length < f' →
    BgpAttrItem.decodeN p f tc fl n buf = BgpAttrItem.decodeN p f' tc fl n buf := by
  induction k with
  | zero =>
    intro tc fl n buf f f' hk hf hf'
    obtain ⟨f, rfl⟩ : ∃ g, f = g + 1 := ⟨f - 1, by omega⟩
    obtain ⟨f', rfl⟩ : ∃ g, f' = g + 1 := ⟨f' - 1, by omega⟩
    rw [BgpAttrItem.decodeN, BgpAttrItem.decodeN]
    have : buf.length < 4 := by omega
    unfold BgpAttrSet.decodeFrom
    simp only [if_pos this]
  | succ k ih =>
    intro tc fl n buf f f' hk hf hf'
    obtain ⟨f, rfl⟩ : ∃ g, f = g + 1 := ⟨f - 1, by omega⟩
    obtain ⟨f', rfl⟩ : ∃ g, f' = g + 1 := ⟨f' - 1, by omega⟩
    rw [BgpAttrItem.decodeN, BgpAttrItem.decodeN]
    unfold BgpAttrSet.decodeFrom
    rw [setLoop_congr (BgpAttrItem.decodeN p f) (BgpAttrItem.decodeN p f') buf buf.length 4 (by omega)
      fun tc fl n b hb => ih tc fl n b f f' (by omega) (by omega) (by omega)]

theorem attrSet_eq (p : BgpSessionParams) (fl : U8) (n : Nat) (buf : Bytes) :
    BgpAttrItem.decodeFrom p 128 fl n buf = BgpAttrSet.decodeFrom (BgpAttrItem.decodeFrom p) p buf := by
  change BgpAttrSet.decodeFrom (BgpAttrItem.decodeN p buf.length) p buf = _
  unfold BgpAttrSet.decodeFrom
  rw [setLoop_congr (BgpAttrItem.decodeN p buf.length) (BgpAttrItem.decodeFrom p) buf buf.length 4 (by omega)
    fun tc fl n b hb => decodeN_fuel p b.length tc fl n b _ _ (by omega) (by omega) (by omega)]

theorem setLoop_raws (p : BgpSessionParams) (raws : List RawAttr) (hr : ∀ r ∈ raws, RawWF r) (l : List BgpAttrItem)
    (h : AttrsDec p raws l) (pre t : Bytes) (fuel : Nat) (hf : raws.length ≤ fuel) :
    BgpAttrSet.loop (BgpAttrItem.decodeFrom p) (pre ++ (raws.flatMap rawWire ++ t)) fuel pre.length =
      (do
        let l' ← BgpAttrSet.loop (BgpAttrItem.decodeFrom p) ((pre ++ raws.flatMap rawWire) ++ t) (fuel - raws.length)
          (pre ++ raws.flatMap rawWire).length
        .ok (l ++ l')) := by
  induction raws generalizing pre fuel l with
  | nil =>
    have : l = [] := by simpa [AttrsDec] using h
    subst this
    simp only [List.flatMap_nil, List.nil_append, List.append_nil, List.length_nil, Nat.sub_zero]
    cases BgpAttrSet.loop (BgpAttrItem.decodeFrom p) (pre ++ t) fuel pre.length <;> rfl
  | cons r raws ih =>
    unfold AttrsDec at h
    cases l with
    | nil => simp at h
    | cons x l =>
      simp only [List.map_cons, List.cons.injEq] at h
      simp only [List.length_cons] at hf
      obtain ⟨fuel, rfl⟩ : ∃ k, fuel = k + 1 := ⟨fuel - 1, by omega⟩
      simp only [List.flatMap_cons, List.append_assoc]
      rw [setLoop_raw _ pre _ r (hr r (by simp)) fuel _ rfl, h.1]
      simp only [Res.ok_bind]
      have := ih (fun r hr' => hr r (by simp [hr'])) l h.2 (pre ++ rawWire r) fuel (by omega)
      simp only [List.append_assoc] at this
      rw [← List.length_append, this]
      simp only [List.length_cons, Nat.add_sub_add_right, List.cons_append, bind_assoc, Res.ok_bind]

/-- what the loop accepts -/
theorem setLoop_ok (p : BgpSessionParams) (fuel : Nat) (pre rest : Bytes) (l : List BgpAttrItem)
    (h : BgpAttrSet.loop (BgpAttrItem.decodeFrom p) (pre ++ rest) fuel pre.length = .ok l) :
    ∃ raws, rest = raws.flatMap rawWire ∧ (∀ r ∈ raws, RawWF r) ∧ AttrsDec p raws l := by
  induction fuel generalizing pre rest l with
  | zero =>
    rw [BgpAttrSet.loop] at h
    split at h
    · cases h
    · rename_i hn
      simp only [List.length_append, Nat.not_lt] at hn
      have : rest = [] := List.length_eq_zero_iff.1 (by omega)
      subst this
      simp only [Res.ok.injEq] at h
      subst h
      exact ⟨[], rfl, by simp, rfl⟩
  | succ fuel ih =>
    by_cases hne : rest = []
    · subst hne
      rw [setLoop_nil] at h
      simp only [Res.ok.injEq] at h
      subst h
      exact ⟨[], rfl, by simp, rfl⟩
    · rcases setLoop_cases (BgpAttrItem.decodeFrom p) pre rest fuel hne with hc | he | ⟨r, t, rfl, hw⟩
      · rw [setLoop_cut _ _ _ hc] at h; cases h
      · rw [h] at he; exact he.elim
      · rw [setLoop_raw _ pre t r hw fuel _ rfl] at h
        obtain ⟨x, hx, h⟩ := Res.bind_eq_ok.1 h
        obtain ⟨l', hl', h⟩ := Res.bind_eq_ok.1 h
        simp only [Res.ok.injEq] at h
        subst h
        rw [← List.append_assoc, ← List.length_append] at hl'
        obtain ⟨raws, rfl, h1, h2⟩ := ih _ _ _ hl'
        refine ⟨r :: raws, by simp, ?_, ?_⟩
        · simp only [List.mem_cons, forall_eq_or_imp]; exact ⟨hw, h1⟩
        · unfold AttrsDec at h2 ⊢
          rw [List.map_cons, List.map_cons, hx, h2]

/-- where the loop crashes -/
theorem setLoop_panic (p : BgpSessionParams) (fuel : Nat) (pre rest : Bytes)
    (h : BgpAttrSet.loop (BgpAttrItem.decodeFrom p) (pre ++ rest) fuel pre.length = .panic) :
    ∃ raws l t, rest = raws.flatMap rawWire ++ t ∧ (∀ r ∈ raws, RawWF r) ∧ AttrsDec p raws l ∧
      (CutAttr t ∨ ∃ r t', t = rawWire r ++ t' ∧ RawWF r ∧
        BgpAttrItem.decodeFrom p r.code r.flags r.value.length r.value = .panic) := by
  induction fuel generalizing pre rest with
  | zero =>
    rw [BgpAttrSet.loop] at h
    split at h <;> cases h
  | succ fuel ih =>
    by_cases hne : rest = []
    · subst hne
      rw [setLoop_nil] at h
      cases h
    · rcases setLoop_cases (BgpAttrItem.decodeFrom p) pre rest fuel hne with hc | he | ⟨r, t, rfl, hw⟩
      · exact ⟨[], [], rest, rfl, by simp, rfl, .inl hc⟩
      · rw [h] at he; exact he.elim
      · rw [setLoop_raw _ pre t r hw fuel _ rfl] at h
        cases hx : BgpAttrItem.decodeFrom p r.code r.flags r.value.length r.value with
        | err e => rw [hx] at h; cases h
        | hang => rw [hx] at h; cases h
        | panic => exact ⟨[], [], _, rfl, by simp, rfl, .inr ⟨r, t, rfl, hw, hx⟩⟩
        | ok x =>
          rw [hx, Res.ok_bind] at h
          have hl : BgpAttrSet.loop (BgpAttrItem.decodeFrom p) ((pre ++ rawWire r) ++ t) fuel (pre ++ rawWire r).length =
              .panic := by
            rw [List.append_assoc, List.length_append]
            cases hq : BgpAttrSet.loop (BgpAttrItem.decodeFrom p) (pre ++ (rawWire r ++ t)) fuel
                (pre.length + (rawWire r).length) with
            | panic => rfl
            | ok l => rw [hq] at h; cases h
            | err e => rw [hq] at h; cases h
            | hang => rw [hq] at h; cases h
          obtain ⟨raws, l, t', rfl, h1, h2, h3⟩ := ih _ _ hl
          refine ⟨r :: raws, x :: l, t', by simp, ?_, ?_, h3⟩
          · simp only [List.mem_cons, forall_eq_or_imp]; exact ⟨hw, h1⟩
          · unfold AttrsDec at h2 ⊢
            rw [List.map_cons, List.map_cons, hx, h2]

theorem attrSet_ok_iff (p : BgpSessionParams) (fl : U8) (n : Nat) (buf : Bytes) (x : BgpAttrItem) :
    BgpAttrItem.decodeFrom p 128 fl n buf = .ok x ↔ p.hasAs32bit = true ∧ ∃ (asn : U32) (raws : List RawAttr)
      (l : List BgpAttrItem), buf = be 4 asn.toNat ++ raws.flatMap rawWire ∧ (∀ r ∈ raws, RawWF r) ∧
        AttrsDec p raws l ∧ x = .AttrSet asn l := by
  rw [attrSet_eq]
  unfold BgpAttrSet.decodeFrom
  cases h32 : p.hasAs32bit
  · simp
  simp only [Bool.not_true, Bool.false_eq_true, ↓reduceIte, true_and]
  constructor
  · intro h
    split at h
    · cases h
    rename_i hlen
    obtain ⟨v, hv, e⟩ := exists_be (l := buf) 4 (by omega)
    generalize buf.drop 4 = rest at e
    subst e
    obtain ⟨l, hl, h⟩ := Res.bind_eq_ok.1 h
    rw [getn32_be, Res.ok_bind] at h
    simp only [Res.ok.injEq] at h
    subst h
    have h4 : (4 : Nat) = (be 4 v).length := by simp
    generalize hfu : (be 4 v ++ rest).length = fu at hl
    rw [h4, ← h4] at hl
    have hl' : BgpAttrSet.loop (BgpAttrItem.decodeFrom p) (be 4 v ++ rest) fu (be 4 v).length = .ok l := by
      rw [be_length]; exact hl
    obtain ⟨raws, rfl, h1, h2⟩ := setLoop_ok p _ _ _ _ hl'
    refine ⟨BitVec.ofNat 32 v, raws, l, ?_, h1, h2, rfl⟩
    rw [BitVec.toNat_ofNat, Nat.mod_eq_of_lt (by simpa using hv)]
  · rintro ⟨asn, raws, l, rfl, h1, h2, rfl⟩
    rw [if_neg (by simp)]
    have hc : raws.length ≤ (be 4 asn.toNat ++ raws.flatMap rawWire).length := by
      have := raws_length raws
      simp only [List.length_append]; omega
    have hs := setLoop_raws p raws h1 l h2 (be 4 asn.toNat) [] _ hc
    rw [List.append_nil, setLoop_nil, Res.ok_bind, List.append_nil, be_length] at hs
    rw [hs, Res.ok_bind, getn32_be, ofNat_toNat32]
    rfl

theorem attrSet_panic_iff (p : BgpSessionParams) (fl : U8) (n : Nat) (buf : Bytes) :
    BgpAttrItem.decodeFrom p 128 fl n buf = .panic ↔ p.hasAs32bit = true ∧ ∃ (origin : Bytes) (raws : List RawAttr)
      (l : List BgpAttrItem) (t : Bytes), buf = origin ++ (raws.flatMap rawWire ++ t) ∧ origin.length = 4 ∧
        (∀ r ∈ raws, RawWF r) ∧ AttrsDec p raws l ∧ (CutAttr t ∨ ∃ r t', t = rawWire r ++ t' ∧ RawWF r ∧
          BgpAttrItem.decodeFrom p r.code r.flags r.value.length r.value = .panic) := by
  rw [attrSet_eq]
  unfold BgpAttrSet.decodeFrom
  cases h32 : p.hasAs32bit
  · simp
  simp only [Bool.not_true, Bool.false_eq_true, ↓reduceIte, true_and]
  constructor
  · intro h
    split at h
    · cases h
    rename_i hlen
    obtain ⟨v, hv, e⟩ := exists_be (l := buf) 4 (by omega)
    generalize buf.drop 4 = rest at e
    subst e
    have hl' : BgpAttrSet.loop (BgpAttrItem.decodeFrom p) (be 4 v ++ rest) (be 4 v ++ rest).length (be 4 v).length =
        .panic := by
      rw [be_length]
      cases hq : BgpAttrSet.loop (BgpAttrItem.decodeFrom p) (be 4 v ++ rest) (be 4 v ++ rest).length 4 with
      | panic => rfl
      | err e => rw [hq] at h; cases h
      | hang => rw [hq] at h; cases h
      | ok l => rw [hq, Res.ok_bind, getn32_be] at h; cases h
    obtain ⟨raws, l, t, rfl, h1, h2, h3⟩ := setLoop_panic p _ _ _ hl'
    exact ⟨be 4 v, raws, l, t, rfl, by simp, h1, h2, h3⟩
  · rintro ⟨o, raws, l, t, rfl, ho, h1, h2, h3⟩
    rw [if_neg (by simp; omega)]
    have hlr := raws_length raws
    have ht : 0 < t.length := by
      rcases h3 with (⟨f, rfl⟩ | ⟨f, c, rfl⟩ | ⟨f, c, a, rfl, -⟩) | ⟨r, t', rfl, -, -⟩
      · simp
      · simp
      · simp
      · have := rawWire_length r
        simp only [List.length_append]
        split at this <;> omega
    have hc : raws.length + 1 ≤ (o ++ (raws.flatMap rawWire ++ t)).length := by
      simp only [List.length_append]; omega
    obtain ⟨k, hk⟩ : ∃ k, (o ++ (raws.flatMap rawWire ++ t)).length = raws.length + (k + 1) :=
      ⟨(o ++ (raws.flatMap rawWire ++ t)).length - raws.length - 1, by omega⟩
    rw [hk]
    have hs := setLoop_raws p raws h1 l h2 o t (raws.length + (k + 1)) (by omega)
    rw [ho, Nat.add_sub_cancel_left] at hs
    rw [hs]
    rcases h3 with hc | ⟨r, t', rfl, hw, hp⟩
    · rw [setLoop_cut _ _ _ hc]; rfl
    · rw [setLoop_raw _ _ _ _ hw _ _ rfl, hp]; rfl

/-! ## PMSI tunnel -/

theorem octets_be (v : Nat) : (BitVec.ofNat 8 (v / 256 ^ 3) ++ BitVec.ofNat 8 (v / 256 ^ 2) ++ BitVec.ofNat 8 (v / 256) ++
    BitVec.ofNat 8 v : IPv4) = BitVec.ofNat 32 v := by
  apply BitVec.eq_of_toNat_eq
  rw [BitVec.toNat_append, ← Nat.shiftLeft_add_eq_or_of_lt (BitVec.isLt _), BitVec.toNat_append,
    ← Nat.shiftLeft_add_eq_or_of_lt (BitVec.isLt _), BitVec.toNat_append,
    ← Nat.shiftLeft_add_eq_or_of_lt (BitVec.isLt _)]
  simp only [BitVec.toNat_ofNat, Nat.shiftLeft_eq]
  omega

theorem addrAt_be (v : Nat) (t : Bytes) : BgpPMSITunnel.addrAt (be 4 v ++ t) 0 = .ok (BitVec.ofNat 32 v) := by
  rw [← octets_be v]
  have h : be 4 v ++ t = BitVec.ofNat 8 (v / 256^3) :: BitVec.ofNat 8 (v / 256^2) ::
    BitVec.ofNat 8 (v / 256) :: BitVec.ofNat 8 v :: t := by simp [be]
  rw [h]
  rfl

theorem addrAt_append (pre b : Bytes) (n : Nat) (h : n = pre.length) :
    BgpPMSITunnel.addrAt (pre ++ b) n = BgpPMSITunnel.addrAt b 0 := by
  subst h
  unfold BgpPMSITunnel.addrAt
  rw [idx_append_right (by omega), idx_append_right (by omega), idx_append_right (by omega),
    idx_append_right (by omega)]
  simp only [Nat.sub_self, Nat.add_sub_cancel_left, Nat.zero_add]

theorem addrAt_short (b : Bytes) (h : b.length < 4) : BgpPMSITunnel.addrAt b 0 = .panic := by
  match b, h with
  | [], _ => rfl
  | [_], _ => rfl
  | [_, _], _ => rfl
  | [_, _, _], _ => rfl
  | _ :: _ :: _ :: _ :: _, h => simp at h; omega

theorem extract24 (a b c : U8) (t : Bytes) :
    MplsLabels.extractBits 24 (a :: b :: c :: t) = .ok (⟨[BitVec.ofNat 32 (labelField [a, b, c])]⟩, 3) := by
  have hv : MplsLabels.labelVal a b c = BitVec.ofNat 32 (labelField [a, b, c]) := by
    have h1 := a.isLt
    have h2 := b.isLt
    have h3 := c.isLt
    have hl : unbe [a, b, c] = a.toNat * 65536 + b.toNat * 256 + c.toNat := by
      simp [unbe]; omega
    have := labelVal_be (unbe [a, b, c]) (by omega)
    rw [show BitVec.ofNat 8 (unbe [a, b, c] / 65536) = a by
        apply BitVec.eq_of_toNat_eq; rw [BitVec.toNat_ofNat]; omega,
      show BitVec.ofNat 8 (unbe [a, b, c] / 256) = b by
        apply BitVec.eq_of_toNat_eq; rw [BitVec.toNat_ofNat]; omega,
      show BitVec.ofNat 8 (unbe [a, b, c]) = c by
        apply BitVec.eq_of_toNat_eq; rw [BitVec.toNat_ofNat]; omega] at this
    exact this
  unfold MplsLabels.extractBits
  rw [show (24 : U8).toNat + 1 = 23 + 1 + 1 by rfl, MplsLabels.extractLoop, if_pos (by decide)]
  simp only [idx_cons_zero, idx_cons_succ, Res.ok_bind]
  rw [subC_ok (by decide), Res.ok_bind, hv]
  split
  · rfl
  split
  · rfl
  rw [MplsLabels.extractLoop, if_neg (by decide)]
  rfl

/-- the identifier read from the octets behind the label -/
def tunnelOf (k : Nat) (id : Bytes) : Res BgpPMSITunnelAttr :=
  match k with
  | 0 => .ok .None
  | 1 => do
    let e ← BgpPMSITunnel.addrAt id 0
    let r ← getn16 (← rfrom id 4)
    let t ← getn16 (← rfrom id 6)
    let p ← BgpPMSITunnel.addrAt id 8
    .ok (.RSVPTe e r t p)
  | 2 => do
    if (← idx id 0) ≠ 6 then .err .dynStr
    else if id.length < 11 then .err .dynStr
    else if (← getn16 (← rslice id 1 3)) ≠ 1 then .err .static
    else if (← idx id 3) ≠ 4 then .err .static
    else
      let rootnode ← decodeAddr (← rslice id 4 8)
      let opaquelen := (← getn16 (← rslice id 8 10)).toNat
      if id.length < 10 + opaquelen then .err .dynStr
      else .ok (.MLDP rootnode (← rslice id 10 (10 + opaquelen)))
  | 6 => do .ok (.IngressRepl (← BgpPMSITunnel.addrAt id 0))
  | _ => .err .dynStr

theorem rslice_five {α : Type} (a b c d e : α) (l : List α) (s n : Nat) :
    rslice (a :: b :: c :: d :: e :: l) (s + 5) (n + 5) = rslice l s n := by
  simp [rslice]

theorem pmsi_eq (flags kind a b c : U8) (id : Bytes) :
    BgpPMSITunnel.decodeFrom (flags :: kind :: a :: b :: c :: id) =
      (do .ok ⟨flags, kind, ⟨[BitVec.ofNat 32 (labelField [a, b, c])]⟩, ← tunnelOf kind.toNat id⟩) := by
  unfold BgpPMSITunnel.decodeFrom
  rw [if_neg (by simp)]
  simp only [rfrom_cons_succ, rfrom_zero, Res.ok_bind, extract24, idx_cons_succ, idx_cons_zero, Nat.reduceAdd]
  have hs : ∀ s n, 5 ≤ s → s ≤ n → rslice (flags :: kind :: a :: b :: c :: id) s n = rslice id (s - 5) (n - 5) := by
    intro s n h1 h2
    rw [show s = (s - 5) + 5 by omega, show n = (n - 5) + 5 by omega, rslice_five]
    simp
  unfold tunnelOf
  have hlen : (flags :: kind :: a :: b :: c :: id).length = id.length + 5 := rfl
  have ha : ∀ n, BgpPMSITunnel.addrAt (flags :: kind :: a :: b :: c :: id) (n + 5) = BgpPMSITunnel.addrAt id n := by
    intro n
    unfold BgpPMSITunnel.addrAt
    simp only [idx_cons_succ, show n + 5 + 1 = (n + 1) + 5 by omega, show n + 5 + 2 = (n + 2) + 5 by omega,
      show n + 5 + 3 = (n + 3) + 5 by omega]
  have ha0 := ha 0
  have ha8 := ha 8
  simp only [Nat.reduceAdd] at ha0 ha8
  congr 1
  generalize kind.toNat = k
  split
  · rfl
  · simp only [ha0, ha8, rfrom_cons_succ, Nat.reduceAdd]
  · simp only [hs _ _ (show 5 ≤ 6 by omega) (show 6 ≤ 8 by omega), hs _ _ (show 5 ≤ 9 by omega) (show 9 ≤ 13 by omega),
      hs _ _ (show 5 ≤ 13 by omega) (show 13 ≤ 15 by omega),
      fun n => hs 15 (15 + n) (by omega) (by omega), hlen, Nat.reduceSub,
      show ∀ n, 15 + n - 5 = 10 + n by intro n; omega]
    have h1 : (id.length + 5 < 16) = (id.length < 11) := by simp only [eq_iff_iff]; omega
    have h2 : ∀ n, (id.length + 5 < 15 + n) = (id.length < 10 + n) := by intro n; simp only [eq_iff_iff]; omega
    simp only [h1, h2]
  · simp only [ha0]
  · split <;> first | rfl | contradiction

theorem tunnelOf_ok_iff (kind : U8) (id : Bytes) (x : BgpPMSITunnelAttr) :
    tunnelOf kind.toNat id = .ok x ↔ TunnelId kind x id := by
  constructor
  · intro h
    unfold tunnelOf at h
    split at h
    · rename_i hk
      have : kind = 0 := BitVec.eq_of_toNat_eq hk
      subst this
      simp only [Res.ok.injEq] at h
      subst h
      exact .none id
    · rename_i hk
      have : kind = 1 := BitVec.eq_of_toNat_eq hk
      subst this
      by_cases h4 : id.length < 4
      · rw [addrAt_short _ h4] at h; cases h
      obtain ⟨e, he, e1⟩ := exists_be (l := id) 4 (by omega)
      generalize id.drop 4 = r1 at e1
      subst e1
      rw [addrAt_be, Res.ok_bind, rfrom_append _ _ _ (by simp), Res.ok_bind] at h
      by_cases h5 : r1.length < 2
      · rw [getn16_short h5] at h; cases h
      obtain ⟨r, hr, e2⟩ := exists_be (l := r1) 2 (by omega)
      generalize r1.drop 2 = r2 at e2
      subst e2
      rw [getn16_be, Res.ok_bind, ← List.append_assoc, rfrom_append _ _ _ (by simp), Res.ok_bind] at h
      by_cases h6 : r2.length < 2
      · rw [getn16_short h6] at h; cases h
      obtain ⟨t, ht, e3⟩ := exists_be (l := r2) 2 (by omega)
      generalize r2.drop 2 = r3 at e3
      subst e3
      rw [getn16_be, Res.ok_bind, ← List.append_assoc, addrAt_append _ _ _ (by simp)] at h
      by_cases h7 : r3.length < 4
      · rw [addrAt_short _ h7] at h; cases h
      obtain ⟨q, hq, e4⟩ := exists_be (l := r3) 4 (by omega)
      generalize r3.drop 4 = r4 at e4
      subst e4
      rw [addrAt_be, Res.ok_bind] at h
      simp only [Res.ok.injEq] at h
      subst h
      have := TunnelId.rsvpTe (BitVec.ofNat 32 e) (BitVec.ofNat 16 r) (BitVec.ofNat 16 t) (BitVec.ofNat 32 q) r4
      rw [BitVec.toNat_ofNat, BitVec.toNat_ofNat, BitVec.toNat_ofNat, BitVec.toNat_ofNat,
        Nat.mod_eq_of_lt (show e < 2 ^ 32 by omega), Nat.mod_eq_of_lt (show r < 2 ^ 16 by omega),
        Nat.mod_eq_of_lt (show t < 2 ^ 16 by omega), Nat.mod_eq_of_lt (show q < 2 ^ 32 by omega)] at this
      simpa only [List.append_assoc] using this
    · rename_i hk
      have : kind = 2 := BitVec.eq_of_toNat_eq hk
      subst this
      obtain ⟨o, h1, h⟩ := Res.bind_eq_ok.1 h
      split at h
      · cases h
      rename_i ho
      split at h
      · cases h
      rename_i hlen
      match id, h1, hlen, h with
      | o' :: id, h1, hlen, h =>
      simp only [idx_cons_zero, Res.ok.injEq] at h1
      subst h1
      have ho' : o' = 6 := by simpa using ho
      subst ho'
      simp only [List.length_cons] at hlen
      obtain ⟨f, hf, e1⟩ := exists_be (l := id) 2 (by omega)
      generalize id.drop 2 = r1 at e1
      subst e1
      rw [show (1 : Nat) = 0 + 1 by rfl, show (3 : Nat) = 2 + 1 by rfl, rslice_cons_succ, rslice_be_hit] at h
      simp only [Res.ok_bind, getn16_two] at h
      split at h
      · cases h
      rename_i hf1
      have hf1' : f = 1 := by
        have : BitVec.ofNat 16 f = 1 := by simpa using hf1
        have := congrArg BitVec.toNat this
        rw [BitVec.toNat_ofNat, Nat.mod_eq_of_lt (by omega)] at this
        simpa using this
      subst hf1'
      rw [List.length_append, be_length] at hlen
      match r1, hlen, h with
      | l4 :: r1, hlen, h =>
      simp only [List.length_cons] at hlen
      rw [idx_cons_succ, idx_append_right (by simp), be_length, Nat.sub_self, idx_cons_zero, Res.ok_bind] at h
      split at h
      · cases h
      rename_i h4
      have h4' : l4 = 4 := by simpa using h4
      subst h4'
      obtain ⟨r, hr, e2⟩ := exists_be (l := r1) 4 (by omega)
      generalize r1.drop 4 = r2 at e2
      subst e2
      rw [List.length_append, be_length] at hlen
      rw [show (6 : U8) :: (be 2 1 ++ 4 :: (be 4 r ++ r2)) = ([6] ++ be 2 1 ++ [4]) ++ (be 4 r ++ r2) by simp,
        rslice_append_mid _ _ _ _ _ (by simp) (by simp), Res.ok_bind] at h
      have hda : decodeAddr (be 4 r) = .ok (.v4 (BitVec.ofNat 32 r)) := by
        unfold decodeAddr
        rw [if_neg (by simp), if_pos (by simp), decodeAddrV4_four]; rfl
      rw [hda, Res.ok_bind] at h
      obtain ⟨n, hn, e3⟩ := exists_be (l := r2) 2 (by omega)
      generalize r2.drop 2 = r3 at e3
      subst e3
      rw [List.length_append, be_length] at hlen
      rw [← List.append_assoc, rslice_append_mid _ _ _ _ _ (by simp) (by simp), Res.ok_bind] at h
      simp only [getn16_two, Res.ok_bind] at h
      rw [BitVec.toNat_ofNat, Nat.mod_eq_of_lt (by omega)] at h
      split at h
      · cases h
      rename_i hfit
      simp only [List.length_append, List.length_cons, List.length_nil, be_length] at hfit
      rw [← List.append_assoc, ← List.take_append_drop n r3,
        rslice_append_mid _ _ _ _ _ (by simp) (by simp; omega), Res.ok_bind] at h
      simp only [Res.ok.injEq] at h
      subst h
      have := TunnelId.mldp (BitVec.ofNat 32 r) (r3.take n) (r3.drop n) (by simp; omega) (by
        rw [List.take_append_drop]
        intro h0
        subst h0
        simp at hlen)
      rw [List.length_take, Nat.min_eq_left (by omega), BitVec.toNat_ofNat,
        Nat.mod_eq_of_lt (show r < 2 ^ 32 by omega)] at this
      simpa only [List.append_assoc, List.take_append_drop, List.cons_append, List.nil_append] using this
    · rename_i hk
      have : kind = 6 := BitVec.eq_of_toNat_eq hk
      subst this
      by_cases h4 : id.length < 4
      · rw [addrAt_short _ h4] at h; cases h
      obtain ⟨e, he, e1⟩ := exists_be (l := id) 4 (by omega)
      generalize id.drop 4 = r1 at e1
      subst e1
      rw [addrAt_be, Res.ok_bind] at h
      simp only [Res.ok.injEq] at h
      subst h
      have := TunnelId.ingress (BitVec.ofNat 32 e) r1
      rwa [BitVec.toNat_ofNat, Nat.mod_eq_of_lt (show e < 2 ^ 32 by omega)] at this
    · cases h
  · intro h
    cases h with
    | none => rfl
    | rsvpTe e r t q rest =>
      change (do
        let e ← BgpPMSITunnel.addrAt _ 0
        let r ← getn16 (← rfrom _ 4)
        let t ← getn16 (← rfrom _ 6)
        let p ← BgpPMSITunnel.addrAt _ 8
        .ok (BgpPMSITunnelAttr.RSVPTe e r t p)) = _
      simp only [List.append_assoc]
      rw [addrAt_be, Res.ok_bind, rfrom_append _ _ _ (by simp), Res.ok_bind, getn16_be, Res.ok_bind,
        ← List.append_assoc (be 4 e.toNat), rfrom_append _ _ _ (by simp), Res.ok_bind, getn16_be, Res.ok_bind,
        ← List.append_assoc, addrAt_append _ _ _ (by simp), addrAt_be, Res.ok_bind, ofNat_toNat32, ofNat_toNat16,
        ofNat_toNat16, ofNat_toNat32]
    | mldp root opaq rest hl hne =>
      have hlen : 0 < opaq.length + rest.length := by
        rw [← List.length_append]; exact List.length_pos_iff.2 hne
      unfold tunnelOf
      simp only [BitVec.reduceToNat]
      rw [show ([6] ++ be 2 1 ++ [4] ++ be 4 root.toNat ++ be 2 opaq.length ++ opaq ++ rest : Bytes) =
        6 :: (be 2 1 ++ 4 :: (be 4 root.toNat ++ (be 2 opaq.length ++ (opaq ++ rest)))) by simp]
      rw [idx_cons_zero, Res.ok_bind, if_neg (by simp), if_neg (by simp; omega)]
      have hs1 : rslice (6 :: (be 2 1 ++ 4 :: (be 4 root.toNat ++ (be 2 opaq.length ++ (opaq ++ rest)))) : Bytes) 1 3 =
          .ok (be 2 1) := by
        rw [show (1 : Nat) = 0 + 1 by rfl, show (3 : Nat) = 2 + 1 by rfl, rslice_cons_succ, rslice_be_hit]
      rw [hs1, Res.ok_bind, getn16_two, Res.ok_bind, if_neg (by decide), idx_cons_succ, idx_append_right (by simp),
        be_length, Nat.sub_self, idx_cons_zero, Res.ok_bind, if_neg (by decide)]
      rw [show (6 : U8) :: (be 2 1 ++ 4 :: (be 4 root.toNat ++ (be 2 opaq.length ++ (opaq ++ rest)))) =
        ([6] ++ be 2 1 ++ [4]) ++ (be 4 root.toNat ++ (be 2 opaq.length ++ (opaq ++ rest))) by simp,
        rslice_append_mid _ _ _ _ _ (by simp) (by simp), Res.ok_bind]
      have hda : decodeAddr (be 4 root.toNat) = .ok (.v4 root) := by
        unfold decodeAddr
        rw [if_neg (by simp), if_pos (by simp), decodeAddrV4_four, ofNat_toNat32]; rfl
      rw [hda, Res.ok_bind, ← List.append_assoc, rslice_append_mid _ _ _ _ _ (by simp) (by simp), Res.ok_bind,
        getn16_two, Res.ok_bind]
      simp only [BitVec.toNat_ofNat]
      rw [Nat.mod_eq_of_lt (show opaq.length < 2 ^ 16 by omega), if_neg (by simp; omega),
        ← List.append_assoc, rslice_append_mid _ _ _ _ _ (by simp) (by simp), Res.ok_bind]
    | ingress e rest =>
      change (do .ok (BgpPMSITunnelAttr.IngressRepl (← BgpPMSITunnel.addrAt _ 0))) = _
      rw [addrAt_be, Res.ok_bind, ofNat_toNat32]

theorem tunnelOf_panic_iff (kind : U8) (id : Bytes) : tunnelOf kind.toNat id = .panic ↔
    (kind = 1 ∧ id.length < 12) ∨ (kind = 2 ∧ id = []) ∨ (kind = 6 ∧ id.length < 4) := by
  constructor
  · intro h
    unfold tunnelOf at h
    split at h
    · cases h
    · rename_i hk
      refine .inl ⟨BitVec.eq_of_toNat_eq hk, ?_⟩
      by_contra hl
      obtain ⟨e, he, e1⟩ := exists_be (l := id) 4 (by omega)
      generalize id.drop 4 = r1 at e1
      subst e1
      simp only [List.length_append, be_length] at hl
      obtain ⟨r, hr, e2⟩ := exists_be (l := r1) 2 (by omega)
      generalize r1.drop 2 = r2 at e2
      subst e2
      simp only [List.length_append, be_length] at hl
      obtain ⟨t, ht, e3⟩ := exists_be (l := r2) 2 (by omega)
      generalize r2.drop 2 = r3 at e3
      subst e3
      simp only [List.length_append, be_length] at hl
      obtain ⟨q, hq, e4⟩ := exists_be (l := r3) 4 (by omega)
      generalize r3.drop 4 = r4 at e4
      subst e4
      rw [addrAt_be, Res.ok_bind, rfrom_append _ _ _ (by simp), Res.ok_bind, getn16_be, Res.ok_bind,
        ← List.append_assoc, rfrom_append _ _ _ (by simp), Res.ok_bind, getn16_be, Res.ok_bind,
        ← List.append_assoc, addrAt_append _ _ _ (by simp), addrAt_be, Res.ok_bind] at h
      cases h
    · rename_i hk
      refine .inr (.inl ⟨BitVec.eq_of_toNat_eq hk, ?_⟩)
      match id, h with
      | [], _ => rfl
      | o :: id, h =>
        exfalso
        rw [idx_cons_zero, Res.ok_bind] at h
        split at h
        · cases h
        split at h
        · cases h
        rename_i hlen
        rw [rslice_ok (by omega) (by omega), Res.ok_bind, getn16_ok (by simp at hlen ⊢; omega), Res.ok_bind] at h
        split at h
        · cases h
        rw [idx_of_lt (by omega), Res.ok_bind] at h
        split at h
        · cases h
        rw [rslice_ok (by omega) (by omega), Res.ok_bind] at h
        cases hda : decodeAddr (((o :: id).take 8).drop 4) with
        | panic => have := decodeAddr_returns (((o :: id).take 8).drop 4); rw [hda] at this; exact this
        | hang => rw [hda] at h; cases h
        | err e => rw [hda] at h; cases h
        | ok a =>
          rw [hda, Res.ok_bind, rslice_ok (by omega) (by omega), Res.ok_bind,
            getn16_ok (by simp at hlen ⊢; omega), Res.ok_bind] at h
          simp only at h
          split at h
          · cases h
          · rename_i hfit
            rw [rslice_ok (by omega) (by omega)] at h
            cases h
    · rename_i hk
      refine .inr (.inr ⟨BitVec.eq_of_toNat_eq hk, ?_⟩)
      by_contra hl
      obtain ⟨e, he, e1⟩ := exists_be (l := id) 4 (by omega)
      rw [e1, addrAt_be] at h
      cases h
    · cases h
  · rintro (⟨rfl, h⟩ | ⟨rfl, rfl⟩ | ⟨rfl, h⟩)
    · change (do
        let e ← BgpPMSITunnel.addrAt id 0
        let r ← getn16 (← rfrom id 4)
        let t ← getn16 (← rfrom id 6)
        let p ← BgpPMSITunnel.addrAt id 8
        .ok (BgpPMSITunnelAttr.RSVPTe e r t p)) = _
      by_cases h4 : id.length < 4
      · rw [addrAt_short _ h4]; rfl
      obtain ⟨e, he, e1⟩ := exists_be (l := id) 4 (by omega)
      generalize id.drop 4 = r1 at e1
      subst e1
      simp only [List.length_append, be_length] at h
      rw [addrAt_be, Res.ok_bind, rfrom_append _ _ _ (by simp), Res.ok_bind]
      by_cases h5 : r1.length < 2
      · rw [getn16_short h5]; rfl
      obtain ⟨r, hr, e2⟩ := exists_be (l := r1) 2 (by omega)
      generalize r1.drop 2 = r2 at e2
      subst e2
      simp only [List.length_append, be_length] at h
      rw [getn16_be, Res.ok_bind, ← List.append_assoc, rfrom_append _ _ _ (by simp), Res.ok_bind]
      by_cases h6 : r2.length < 2
      · rw [getn16_short h6]; rfl
      obtain ⟨t, ht, e3⟩ := exists_be (l := r2) 2 (by omega)
      generalize r2.drop 2 = r3 at e3
      subst e3
      simp only [List.length_append, be_length] at h
      rw [getn16_be, Res.ok_bind, ← List.append_assoc, addrAt_append _ _ _ (by simp), addrAt_short _ (by omega)]
      rfl
    · rfl
    · change (do .ok (BgpPMSITunnelAttr.IngressRepl (← BgpPMSITunnel.addrAt id 0))) = _
      rw [addrAt_short _ h]
      rfl

theorem pmsi_ok_iff (v : Bytes) (x : BgpPMSITunnel) : BgpPMSITunnel.decodeFrom v = .ok x ↔
    ∃ a b c id, v = x.flags :: x.tunnelType :: a :: b :: c :: id ∧
      x.label = ⟨[BitVec.ofNat 32 (labelField [a, b, c])]⟩ ∧ TunnelId x.tunnelType x.tunnelAttribute id := by
  constructor
  · intro h
    match v, h with
    | flags :: kind :: a :: b :: c :: id, h =>
      rw [pmsi_eq] at h
      obtain ⟨ta, h1, h⟩ := Res.bind_eq_ok.1 h
      simp only [Res.ok.injEq] at h
      subst h
      exact ⟨a, b, c, id, rfl, rfl, (tunnelOf_ok_iff _ _ _).1 h1⟩
    | [], h => cases h
    | [_], h => cases h
    | [_, _], h => cases h
    | [_, _, _], h => cases h
    | [_, _, _, _], h => cases h
  · rintro ⟨a, b, c, id, rfl, h1, h2⟩
    rw [pmsi_eq, (tunnelOf_ok_iff _ _ _).2 h2, Res.ok_bind, ← h1]

theorem pmsi_panic_iff (v : Bytes) : BgpPMSITunnel.decodeFrom v = .panic ↔ PmsiCrash v := by
  constructor
  · intro h
    match v, h with
    | flags :: kind :: a :: b :: c :: id, h =>
      rw [pmsi_eq] at h
      refine ⟨flags, kind, a, b, c, id, rfl, (tunnelOf_panic_iff _ _).1 ?_⟩
      cases hq : tunnelOf kind.toNat id with
      | panic => rfl
      | ok x => rw [hq] at h; cases h
      | err x => rw [hq] at h; cases h
      | hang => rw [hq] at h; cases h
    | [], h => cases h
    | [_], h => cases h
    | [_, _], h => cases h
    | [_, _, _], h => cases h
    | [_, _, _, _], h => cases h
  · rintro ⟨flags, kind, a, b, c, id, rfl, h⟩
    rw [pmsi_eq, (tunnelOf_panic_iff _ _).2 h]
    rfl

/-! ## MP_REACH_NLRI -/

theorem skipSnpa_wire (l : List Bytes) (hl : ∀ s ∈ l, s.length ≤ 255) (pre t : Bytes) :
    BgpMPUpdates.skipSnpa (pre ++ (l.flatMap snpaWire ++ t)) l.length pre.length =
      .ok (pre ++ l.flatMap snpaWire).length := by
  induction l generalizing pre with
  | nil => simp [BgpMPUpdates.skipSnpa]
  | cons s l ih =>
    have hs := hl s (by simp)
    have := ih (fun s h => hl s (by simp [h])) (pre ++ snpaWire s)
    rw [List.append_assoc, ← List.append_assoc (snpaWire s)] at this
    rw [List.length_cons, BgpMPUpdates.skipSnpa, idx_append_len]
    simp only [List.flatMap_cons, snpaWire, List.cons_append, idx_cons_zero, Res.ok_bind]
    rw [BitVec.toNat_ofNat, Nat.mod_eq_of_lt (by omega)]
    simp only [snpaWire, List.length_append, List.length_cons, List.cons_append, List.append_assoc] at this ⊢
    rw [show pre.length + (1 + s.length) = pre.length + (s.length + 1) by omega, this]

/-- SNPAs that are skipped within the value are there -/
theorem skipSnpa_inv (n : Nat) (pre rest : Bytes) (c : Nat)
    (h : BgpMPUpdates.skipSnpa (pre ++ rest) n pre.length = .ok c) (hc : c ≤ (pre ++ rest).length) :
    ∃ (l : List Bytes) (t : Bytes), rest = l.flatMap snpaWire ++ t ∧ l.length = n ∧ (∀ s ∈ l, s.length ≤ 255) := by
  induction n generalizing pre rest with
  | zero => exact ⟨[], rest, rfl, rfl, by simp⟩
  | succ n ih =>
    rw [BgpMPUpdates.skipSnpa, idx_append_len] at h
    match rest, h, hc with
    | [], h, hc => cases h
    | b :: rest, h, hc =>
      rw [idx_cons_zero, Res.ok_bind] at h
      simp only at h
      have hb : ∀ (n c' : Nat), BgpMPUpdates.skipSnpa (pre ++ b :: rest) n c' = .ok c → c' ≤ c := by
        intro n
        induction n with
        | zero => intro c' hq; simp only [BgpMPUpdates.skipSnpa, Res.ok.injEq] at hq; omega
        | succ n ihn =>
          intro c' hq
          rw [BgpMPUpdates.skipSnpa] at hq
          obtain ⟨_, -, hq⟩ := Res.bind_eq_ok.1 hq
          have := ihn _ hq
          omega
      have h1 := hb _ _ h
      simp only [List.length_append, List.length_cons] at hc
      have e : pre ++ b :: rest = (pre ++ b :: rest.take b.toNat) ++ rest.drop b.toNat := by
        rw [List.append_assoc, List.cons_append, List.take_append_drop]
      have hlen : (pre ++ b :: rest.take b.toNat).length = pre.length + (1 + b.toNat) := by
        simp only [List.length_append, List.length_cons, List.length_take]; omega
      rw [e, ← hlen] at h
      obtain ⟨l, t, e2, hl, hs⟩ := ih _ _ h (by rw [← e]; simp; omega)
      refine ⟨rest.take b.toNat :: l, t, ?_, by simp [hl], ?_⟩
      · have hbl : BitVec.ofNat 8 (rest.take b.toNat).length = b := by
          rw [List.length_take, Nat.min_eq_left (by omega)]; simp
        simp only [List.flatMap_cons, snpaWire, hbl, List.cons_append, List.append_assoc]
        rw [← e2, List.take_append_drop]
      · simp only [List.mem_cons, forall_eq_or_imp]
        have := b.isLt
        exact ⟨by simp; omega, hs⟩

theorem skipSnpa_cases (buf : Bytes) (n c : Nat) :
    BgpMPUpdates.skipSnpa buf n c = .panic ∨ ∃ c', BgpMPUpdates.skipSnpa buf n c = .ok c' := by
  induction n generalizing c with
  | zero => exact .inr ⟨_, rfl⟩
  | succ n ih =>
    rw [BgpMPUpdates.skipSnpa]
    by_cases h : c < buf.length
    · rw [idx_of_lt h, Res.ok_bind]; exact ih _
    · have : idx buf c = .panic := by simp [idx, h]
      rw [this]; exact .inl rfl

/-- what the decoder does behind the next hop -/
def reachTail (p : BgpSessionParams) (afi : U16) (safi : U8) (buf : Bytes) (nh : BgpAddr) (curpos : Nat) :
    Res BgpMPUpdates := do
  let snpaCount := (← idx buf curpos).toNat
  let curpos ← BgpMPUpdates.skipSnpa buf snpaCount (curpos + 1)
  let (ap, _) ← BgpAddrs.decodeFrom p afi safi (← rfrom buf curpos)
  .ok ⟨nh, ap⟩

theorem reachTail_wire (p : BgpSessionParams) (afi : U16) (safi : U8) (pre : Bytes) (snpas : List Bytes)
    (hs : SnpasWF snpas) (nlri : Bytes) (nh : BgpAddr) (c : Nat) (hc : c = pre.length) :
    reachTail p afi safi (pre ++ (snpasWire snpas ++ nlri)) nh c =
      (do let (ap, _) ← BgpAddrs.decodeFrom p afi safi nlri
          .ok ⟨nh, ap⟩) := by
  subst hc
  unfold reachTail
  rw [idx_append_len]
  simp only [snpasWire, List.cons_append, idx_cons_zero, Res.ok_bind]
  rw [BitVec.toNat_ofNat, Nat.mod_eq_of_lt (by have := hs.1; omega)]
  have e : pre ++ BitVec.ofNat 8 snpas.length :: (snpas.flatMap snpaWire ++ nlri) =
      (pre ++ [BitVec.ofNat 8 snpas.length]) ++ (snpas.flatMap snpaWire ++ nlri) := by simp
  have h := skipSnpa_wire snpas hs.2 (pre ++ [BitVec.ofNat 8 snpas.length]) nlri
  rw [← e] at h
  rw [show pre.length + 1 = (pre ++ [BitVec.ofNat 8 snpas.length]).length by simp, h, Res.ok_bind, e,
    ← List.append_assoc, rfrom_append _ _ _ rfl, Res.ok_bind]

theorem reachTail_cut (p : BgpSessionParams) (afi : U16) (safi : U8) (pre t : Bytes) (nh : BgpAddr) (c : Nat)
    (hc : pre.length ≤ c) (ht : pre.length < c → t = [])
    (h : ∀ snpas nlri, SnpasWF snpas → t ≠ snpasWire snpas ++ nlri) :
    reachTail p afi safi (pre ++ t) nh c = .panic := by
  unfold reachTail
  match t, ht, h with
  | [], _, _ =>
    have : idx (pre ++ []) c = .panic := by simp [idx, hc]
    rw [this]; rfl
  | b :: t, ht, h =>
    have hc' : c = pre.length := by
      by_contra hne
      exact absurd (ht (by omega)) (by simp)
    subst hc'
    rw [idx_append_len, idx_cons_zero, Res.ok_bind]
    simp only
    rcases skipSnpa_cases (pre ++ b :: t) b.toNat (pre.length + 1) with hs | ⟨c', hs⟩
    · rw [hs]; rfl
    · rw [hs, Res.ok_bind]
      by_cases hle : c' ≤ (pre ++ b :: t).length
      · exfalso
        rw [show pre ++ b :: t = (pre ++ [b]) ++ t by simp] at hs hle
        rw [show pre.length + 1 = (pre ++ [b]).length by simp] at hs
        obtain ⟨l, t', rfl, hl, hs'⟩ := skipSnpa_inv _ _ _ _ hs hle
        have hb := b.isLt
        refine h l t' ⟨by omega, hs'⟩ ?_
        unfold snpasWire
        rw [hl]
        simp
      · have : rfrom (pre ++ b :: t) c' = .panic := by
          unfold rfrom; rw [if_neg hle]
        rw [this]; rfl

theorem reach_eq (p : BgpSessionParams) (f : Family) (l : U8) (rest : Bytes) :
    BgpMPUpdates.decodeFrom p (familyWire f ++ l :: rest) =
      (do
        let (nh, c) ← BgpMPUpdates.decodeNexthop p (familyCode f).1 (familyCode f).2 l.toNat (familyWire f ++ l :: rest)
        reachTail p (familyCode f).1 (familyCode f).2 (familyWire f ++ l :: rest) nh c) := by
  obtain ⟨a, b, h2, hfw⟩ := familyWire_cons f
  have h16 := getn16_be (familyCode f).1.toNat ((familyCode f).2 :: l :: rest)
  rw [h2] at h16
  simp only [List.cons_append, List.nil_append, ofNat_toNat16] at h16
  rw [hfw]
  simp only [BgpMPUpdates.decodeFrom, List.cons_append, List.nil_append, h16, Res.ok_bind,
    idx_cons_succ, idx_cons_zero]
  rfl

/-- the plain families of which next hops can be read -/
def PlainFamily (f : Family) : Prop :=
  NexthopReadable f ∧ ¬ VpnFamily f ∧ f ≠ .l2Vpls ∧ f ≠ .l2Evpn

theorem nexthop_plain (p : BgpSessionParams) (f : Family) (hf : PlainFamily f) (l : Nat) (a b c d : U8) (rest : Bytes) :
    (rest.length < l →
      BgpMPUpdates.decodeNexthop p (familyCode f).1 (familyCode f).2 l (a :: b :: c :: d :: rest) = .panic) ∧
    (l ≤ rest.length → l < nexthopSize f →
      (BgpMPUpdates.decodeNexthop p (familyCode f).1 (familyCode f).2 l (a :: b :: c :: d :: rest)).IsErr) ∧
    (l ≤ rest.length → nexthopSize f ≤ l → ∃ nh extra, NexthopKind f nh ∧ rest.take l = nexthopWire nh ++ extra ∧
      BgpMPUpdates.decodeNexthop p (familyCode f).1 (familyCode f).2 l (a :: b :: c :: d :: rest) = .ok (nh, 4 + l)) := by
  obtain ⟨hr, hv, hl1, hl2⟩ := hf
  have hpan : rest.length < l → rslice (a :: b :: c :: d :: rest) 4 (4 + l) = .panic := by
    intro h
    unfold rslice
    rw [if_neg (by simp; omega)]
  have hok : l ≤ rest.length → rslice (a :: b :: c :: d :: rest) 4 (4 + l) = .ok (rest.take l) := by
    intro h
    rw [rslice_ok (by omega) (by simp; omega)]
    rw [show 4 + l = l + 1 + 1 + 1 + 1 by omega]
    simp
  have h4 : ∀ b : Bytes, 4 ≤ b.length → ∃ (x : IPv4) (e : Bytes), b = nexthopWire (.V4 x) ++ e ∧ decodeAddrV4 b = .ok x := by
    intro b hb
    obtain ⟨v, hv, e⟩ := exists_be (l := b) 4 hb
    generalize b.drop 4 = e' at e
    refine ⟨BitVec.ofNat 32 v, e', ?_, ?_⟩
    · simp only [nexthopWire]
      rw [BitVec.toNat_ofNat, Nat.mod_eq_of_lt (by omega)]; exact e
    · rw [e, decodeAddrV4_be]
  have h6 : ∀ b : Bytes, 16 ≤ b.length → ∃ (x : IPv6) (e : Bytes), b = nexthopWire (.V6 x) ++ e ∧ decodeAddrV6 b = .ok x := by
    intro b hb
    obtain ⟨v, hv, e⟩ := exists_be (l := b) 16 hb
    generalize b.drop 16 = e' at e
    refine ⟨BitVec.ofNat 128 v, e', ?_, ?_⟩
    · simp only [nexthopWire]
      rw [BitVec.toNat_ofNat, Nat.mod_eq_of_lt (by norm_num at hv ⊢; exact hv)]; exact e
    · rw [e, decodeAddrV6_be]
  refine ⟨fun h => ?_, fun h h2 => ?_, fun h h2 => ?_⟩
  · have hp := hpan h
    cases f <;> first
      | exact absurd rfl hr
      | (refine absurd ?_ hv; simp [VpnFamily]; done)
      | exact absurd rfl hl1
      | exact absurd rfl hl2
      | (unfold BgpMPUpdates.decodeNexthop
         simp only [familyCode, BitVec.reduceToNat, hp]
         rfl)
  · have hp := hok h
    have e4 : l < 4 → decodeAddrV4 (rest.take l) = .err .static := fun h => decodeAddrV4_short (by simp; omega)
    have e6 : l < 16 → decodeAddrV6 (rest.take l) = .err .static := fun h => decodeAddrV6_short (by simp; omega)
    cases f <;> first
      | exact absurd rfl hr
      | (refine absurd ?_ hv; simp [VpnFamily]; done)
      | exact absurd rfl hl1
      | exact absurd rfl hl2
      | (unfold BgpMPUpdates.decodeNexthop
         simp only [familyCode, BitVec.reduceToNat, hp, Res.ok_bind]
         first | (rw [e4 h2]; trivial) | (rw [e6 h2]; trivial))
  · have hp := hok h
    cases f <;> first
      | exact absurd rfl hr
      | (refine absurd ?_ hv; simp [VpnFamily]; done)
      | exact absurd rfl hl1
      | exact absurd rfl hl2
      | (obtain ⟨x, e, h3, h5⟩ := h4 (rest.take l) (by simp [nexthopSize] at h2 ⊢; omega)
         refine ⟨.V4 x, e, trivial, h3, ?_⟩
         unfold BgpMPUpdates.decodeNexthop
         simp only [familyCode, BitVec.reduceToNat, hp, Res.ok_bind, h5]
         done)
      | (obtain ⟨x, e, h3, h5⟩ := h6 (rest.take l) (by simp [nexthopSize] at h2 ⊢; omega)
         refine ⟨.V6 x, e, trivial, h3, ?_⟩
         unfold BgpMPUpdates.decodeNexthop
         simp only [familyCode, BitVec.reduceToNat, hp, Res.ok_bind, h5]
         done)

theorem nexthop_l2 (p : BgpSessionParams) (f : Family) (hf : f = .l2Vpls ∨ f = .l2Evpn) (l : Nat) (a b c d : U8)
    (rest : Bytes) :
    (rest.length < 4 →
      (BgpMPUpdates.decodeNexthop p (familyCode f).1 (familyCode f).2 l (a :: b :: c :: d :: rest)).IsErr) ∧
    (4 ≤ rest.length → ∃ nh extra, NexthopKind f nh ∧ rest = nexthopWire nh ++ extra ∧
      BgpMPUpdates.decodeNexthop p (familyCode f).1 (familyCode f).2 l (a :: b :: c :: d :: rest) = .ok (nh, 4 + l)) := by
  have hr : rfrom (a :: b :: c :: d :: rest) 4 = .ok rest := by simp
  refine ⟨fun h => ?_, fun h => ?_⟩
  · have := decodeAddrV4_short h
    rcases hf with rfl | rfl <;>
      (unfold BgpMPUpdates.decodeNexthop
       simp only [familyCode, BitVec.reduceToNat, hr, Res.ok_bind, this]
       trivial)
  · obtain ⟨v, hv, e⟩ := exists_be (l := rest) 4 h
    generalize rest.drop 4 = e' at e
    have h2 : decodeAddrV4 rest = .ok (BitVec.ofNat 32 v) := by rw [e, decodeAddrV4_be]
    have h3 : rest = nexthopWire (.V4 (BitVec.ofNat 32 v)) ++ e' := by
      simp only [nexthopWire]
      rw [BitVec.toNat_ofNat, Nat.mod_eq_of_lt (by omega)]; exact e
    rcases hf with rfl | rfl <;>
      (refine ⟨.V4 (BitVec.ofNat 32 v), e', trivial, h3, ?_⟩
       unfold BgpMPUpdates.decodeNexthop
       simp only [familyCode, BitVec.reduceToNat, hr, Res.ok_bind, h2])

theorem nexthop_vpn (p : BgpSessionParams) (f : Family) (hf : VpnFamily f) (a b c : U8) (rest : Bytes) :
    (rest.length < nexthopSize f → ∀ (l : Nat) (d : U8),
      (BgpMPUpdates.decodeNexthop p (familyCode f).1 (familyCode f).2 l (a :: b :: c :: d :: rest)).IsErr) ∧
    (nexthopSize f ≤ rest.length → ∃ nh extra, NexthopKind f nh ∧ rest = nexthopWire nh ++ extra ∧
      (nexthopWire nh).length = nexthopSize f ∧ ∀ (l : Nat) (d : U8),
      BgpMPUpdates.decodeNexthop p (familyCode f).1 (familyCode f).2 l (a :: b :: c :: d :: rest) =
        .ok (nh, 4 + nexthopSize f)) := by
  have hr : ∀ d : U8, rfrom (a :: b :: c :: d :: rest) 4 = .ok rest := by simp
  have h4 : 12 ≤ rest.length → ∃ (x : BgpIPv4RD) (e : Bytes), rest = nexthopWire (.V4RD x) ++ e ∧
      BgpAddrItem.decodeFrom (T := BgpIPv4RD) p.peerMode rest = .ok (x, 12) := by
    intro h
    obtain ⟨v1, hv1, e1⟩ := exists_be (l := rest) 4 (by omega)
    obtain ⟨v2, hv2, e2⟩ := exists_be (l := rest.drop 4) 4 (by simp; omega)
    obtain ⟨v3, hv3, e3⟩ := exists_be (l := (rest.drop 4).drop 4) 4 (by simp; omega)
    generalize ((rest.drop 4).drop 4).drop 4 = e at e3
    rw [e3] at e2
    rw [e2] at e1
    have hw : rest = nexthopWire (.V4RD ⟨⟨BitVec.ofNat 32 v1, BitVec.ofNat 32 v2⟩, BitVec.ofNat 32 v3⟩) ++ e := by
      simp only [nexthopWire, rdBody, BitVec.toNat_ofNat, List.append_assoc]
      rw [Nat.mod_eq_of_lt (show v1 < 2 ^ 32 by omega), Nat.mod_eq_of_lt (show v2 < 2 ^ 32 by omega),
        Nat.mod_eq_of_lt (show v3 < 2 ^ 32 by omega)]
      exact e1
    refine ⟨_, e, hw, ?_⟩
    have := v4rd_reads ⟨⟨BitVec.ofNat 32 v1, BitVec.ofNat 32 v2⟩, BitVec.ofNat 32 v3⟩ p.peerMode e
    rw [← hw] at this
    exact this
  have h6 : 24 ≤ rest.length → ∃ (x : BgpIPv6RD) (e : Bytes), rest = nexthopWire (.V6RD x) ++ e ∧
      BgpAddrItem.decodeFrom (T := BgpIPv6RD) p.peerMode rest = .ok (x, 24) := by
    intro h
    obtain ⟨v1, hv1, e1⟩ := exists_be (l := rest) 4 (by omega)
    obtain ⟨v2, hv2, e2⟩ := exists_be (l := rest.drop 4) 4 (by simp; omega)
    obtain ⟨v3, hv3, e3⟩ := exists_be (l := (rest.drop 4).drop 4) 16 (by simp; omega)
    generalize ((rest.drop 4).drop 4).drop 16 = e at e3
    rw [e3] at e2
    rw [e2] at e1
    have hw : rest = nexthopWire (.V6RD ⟨⟨BitVec.ofNat 32 v1, BitVec.ofNat 32 v2⟩, BitVec.ofNat 128 v3⟩) ++ e := by
      simp only [nexthopWire, rdBody, BitVec.toNat_ofNat, List.append_assoc]
      rw [Nat.mod_eq_of_lt (show v1 < 2 ^ 32 by omega), Nat.mod_eq_of_lt (show v2 < 2 ^ 32 by omega),
        Nat.mod_eq_of_lt (show v3 < 2 ^ 128 by norm_num at hv3 ⊢; exact hv3)]
      exact e1
    refine ⟨_, e, hw, ?_⟩
    have := v6rd_reads ⟨⟨BitVec.ofNat 32 v1, BitVec.ofNat 32 v2⟩, BitVec.ofNat 128 v3⟩ p.peerMode e
    rw [← hw] at this
    exact this
  have s4 : rest.length < 12 → BgpAddrItem.decodeFrom (T := BgpIPv4RD) p.peerMode rest = .err .static := by
    intro h
    simp only [BgpAddrItem.decodeFrom]
    rw [if_neg (by omega)]
  have s6 : rest.length < 24 → BgpAddrItem.decodeFrom (T := BgpIPv6RD) p.peerMode rest = .err .static := by
    intro h
    simp only [BgpAddrItem.decodeFrom]
    rw [if_neg (by omega)]
  refine ⟨fun h l d => ?_, fun h => ?_⟩
  · rcases hf with rfl | rfl | rfl | rfl | rfl <;>
      (unfold BgpMPUpdates.decodeNexthop
       simp only [familyCode, BitVec.reduceToNat, hr, Res.ok_bind]
       first | (rw [s4 h]; trivial) | (rw [s6 h]; trivial))
  · rcases hf with rfl | rfl | rfl | rfl | rfl <;> first
      | (obtain ⟨x, e, h1, h2⟩ := h4 (by simpa [nexthopSize] using h)
         refine ⟨.V4RD x, e, trivial, h1, by simp [nexthopWire, rdBody, nexthopSize], fun l d => ?_⟩
         unfold BgpMPUpdates.decodeNexthop
         simp only [familyCode, BitVec.reduceToNat, hr, Res.ok_bind, h2, nexthopSize]
         done)
      | (obtain ⟨x, e, h1, h2⟩ := h6 (by simpa [nexthopSize] using h)
         refine ⟨.V6RD x, e, trivial, h1, by simp [nexthopWire, rdBody, nexthopSize], fun l d => ?_⟩
         unfold BgpMPUpdates.decodeNexthop
         simp only [familyCode, BitVec.reduceToNat, hr, Res.ok_bind, h2, nexthopSize]
         done)

theorem toNat_lit16 {x : U16} {n : Nat} (h : x.toNat = n) (hn : n < 65536 := by decide) : BitVec.ofNat 16 n = x := by
  apply BitVec.eq_of_toNat_eq
  rw [BitVec.toNat_ofNat, Nat.mod_eq_of_lt (by omega), h]

theorem toNat_lit8 {x : U8} {n : Nat} (h : x.toNat = n) (hn : n < 256 := by decide) : BitVec.ofNat 8 n = x := by
  apply BitVec.eq_of_toNat_eq
  rw [BitVec.toNat_ofNat, Nat.mod_eq_of_lt (by omega), h]

theorem nexthop_families (p : BgpSessionParams) (afi : U16) (safi : U8) :
    (∃ f, NexthopReadable f ∧ familyCode f = (afi, safi)) ∨
      ∀ n b, (BgpMPUpdates.decodeNexthop p afi safi n b).IsErr := by
  by_cases h : ∃ f, NexthopReadable f ∧ familyCode f = (afi, safi)
  · exact .inl h
  refine .inr fun n b => ?_
  unfold BgpMPUpdates.decodeNexthop
  have no : ∀ f, NexthopReadable f → ¬ ((familyCode f).1.toNat = afi.toNat ∧ (familyCode f).2.toNat = safi.toNat) := by
    intro f hf ⟨h1, h2⟩
    exact h ⟨f, hf, Prod.ext (BitVec.eq_of_toNat_eq h1) (BitVec.eq_of_toNat_eq h2)⟩
  split
  · rename_i ha
    split
    · rename_i hs; exact (no .ipv4Unicast (by simp [NexthopReadable]) ⟨ha.symm, hs.symm⟩).elim
    · rename_i hs; exact (no .ipv4Multicast (by simp [NexthopReadable]) ⟨ha.symm, hs.symm⟩).elim
    · rename_i hs; exact (no .ipv4Labeled (by simp [NexthopReadable]) ⟨ha.symm, hs.symm⟩).elim
    · rename_i hs; exact (no .ipv4Mvpn (by simp [NexthopReadable]) ⟨ha.symm, hs.symm⟩).elim
    · rename_i hs; exact (no .ipv4Mdt (by simp [NexthopReadable]) ⟨ha.symm, hs.symm⟩).elim
    · rename_i hs; exact (no .ipv4FlowSpec (by simp [NexthopReadable]) ⟨ha.symm, hs.symm⟩).elim
    · rename_i hs; exact (no .ipv4Vpn (by simp [NexthopReadable]) ⟨ha.symm, hs.symm⟩).elim
    · rename_i hs; exact (no .ipv4VpnMulticast (by simp [NexthopReadable]) ⟨ha.symm, hs.symm⟩).elim
    · rename_i hs; exact (no .ipv4VpnFlowSpec (by simp [NexthopReadable]) ⟨ha.symm, hs.symm⟩).elim
    · trivial
  · rename_i ha
    split
    · rename_i hs; exact (no .ipv6Unicast (by simp [NexthopReadable]) ⟨ha.symm, hs.symm⟩).elim
    · rename_i hs; exact (no .ipv6Multicast (by simp [NexthopReadable]) ⟨ha.symm, hs.symm⟩).elim
    · rename_i hs; exact (no .ipv6Labeled (by simp [NexthopReadable]) ⟨ha.symm, hs.symm⟩).elim
    · rename_i hs; exact (no .ipv6Mdt (by simp [NexthopReadable]) ⟨ha.symm, hs.symm⟩).elim
    · rename_i hs; exact (no .ipv6Vpn (by simp [NexthopReadable]) ⟨ha.symm, hs.symm⟩).elim
    · rename_i hs; exact (no .ipv6VpnMulticast (by simp [NexthopReadable]) ⟨ha.symm, hs.symm⟩).elim
    · trivial
  · rename_i ha
    split
    · rename_i hs; exact (no .l2Vpls (by simp [NexthopReadable]) ⟨ha.symm, hs.symm⟩).elim
    · rename_i hs; exact (no .l2Evpn (by simp [NexthopReadable]) ⟨ha.symm, hs.symm⟩).elim
    · trivial
  · trivial

/-- a well-formed MP_REACH_NLRI value -/
theorem reach_wire (p : BgpSessionParams) (f : Family) (hr : NexthopReadable f) (nh : BgpAddr) (hk : NexthopKind f nh)
    (extra : Bytes) (hx : VpnFamily f → extra = []) (hl : (nexthopWire nh ++ extra).length ≤ 255) (snpas : List Bytes)
    (hs : SnpasWF snpas) (nlri : Bytes) :
    BgpMPUpdates.decodeFrom p (reachBytes f (nexthopWire nh ++ extra) snpas nlri) =
      (do let (ap, _) ← BgpAddrs.decodeFrom p (familyCode f).1 (familyCode f).2 nlri
          .ok ⟨nh, ap⟩) := by
  unfold reachBytes
  obtain ⟨a, b, -, hfw⟩ := familyWire_cons f
  rw [show familyWire f ++ [BitVec.ofNat 8 (nexthopWire nh ++ extra).length] ++ (nexthopWire nh ++ extra) ++
      snpasWire snpas ++ nlri = familyWire f ++ BitVec.ofNat 8 (nexthopWire nh ++ extra).length ::
        (nexthopWire nh ++ (extra ++ (snpasWire snpas ++ nlri))) by simp, reach_eq]
  rw [BitVec.toNat_ofNat, Nat.mod_eq_of_lt (show (nexthopWire nh ++ extra).length < 2 ^ 8 by omega)]
  have hd : BgpMPUpdates.decodeNexthop p (familyCode f).1 (familyCode f).2 (nexthopWire nh ++ extra).length
      (familyWire f ++ BitVec.ofNat 8 (nexthopWire nh ++ extra).length ::
        (nexthopWire nh ++ (extra ++ (snpasWire snpas ++ nlri)))) = .ok (nh, 4 + (nexthopWire nh ++ extra).length) := by
    rw [hfw]
    simp only [List.cons_append, List.nil_append]
    generalize snpasWire snpas ++ nlri = t
    have hrs : rslice (a :: b :: (familyCode f).2 :: BitVec.ofNat 8 (nexthopWire nh ++ extra).length ::
        (nexthopWire nh ++ (extra ++ t))) 4 (4 + (nexthopWire nh ++ extra).length) = .ok (nexthopWire nh ++ extra) := by
      have := rslice_append_mid [a, b, (familyCode f).2, BitVec.ofNat 8 (nexthopWire nh ++ extra).length]
        (nexthopWire nh ++ extra) t 4 (4 + (nexthopWire nh ++ extra).length) rfl rfl
      simpa using this
    have hrf : rfrom (a :: b :: (familyCode f).2 :: BitVec.ofNat 8 (nexthopWire nh ++ extra).length ::
        (nexthopWire nh ++ (extra ++ t))) 4 = .ok (nexthopWire nh ++ (extra ++ t)) := by simp
    generalize BitVec.ofNat 8 (nexthopWire nh ++ extra).length = d at hrs hrf
    cases nh with
    | None => cases f <;> exact hk.elim
    | L2 x => cases f <;> exact hk.elim
    | MVPN x => cases f <;> exact hk.elim
    | V4 x =>
      have h1 : ∀ e, decodeAddrV4 (nexthopWire (.V4 x) ++ e) = .ok x := by simp [nexthopWire, decodeAddrV4_be]
      cases f <;> first
        | exact hk.elim
        | (unfold BgpMPUpdates.decodeNexthop
           simp only [familyCode, BitVec.reduceToNat] at hrs hrf ⊢
           simp only [hrs, hrf, h1, Res.ok_bind]
           done)
    | V6 x =>
      have h1 : ∀ e, decodeAddrV6 (nexthopWire (.V6 x) ++ e) = .ok x := by simp [nexthopWire, decodeAddrV6_be]
      cases f <;> first
        | exact hk.elim
        | exact absurd rfl hr
        | (unfold BgpMPUpdates.decodeNexthop
           simp only [familyCode, BitVec.reduceToNat] at hrs hrf ⊢
           simp only [hrs, h1, Res.ok_bind]
           done)
    | V4RD x =>
      have h1 := fun e => v4rd_reads x p.peerMode e
      cases f <;> first
        | exact hk.elim
        | (have hx' := hx (by simp [VpnFamily])
           subst hx'
           unfold BgpMPUpdates.decodeNexthop
           simp only [familyCode, BitVec.reduceToNat] at hrs hrf ⊢
           simp only [hrf, h1, Res.ok_bind, List.append_nil]
           done)
    | V6RD x =>
      have h1 := fun e => v6rd_reads x p.peerMode e
      cases f <;> first
        | exact hk.elim
        | (have hx' := hx (by simp [VpnFamily])
           subst hx'
           unfold BgpMPUpdates.decodeNexthop
           simp only [familyCode, BitVec.reduceToNat] at hrs hrf ⊢
           simp only [hrf, h1, Res.ok_bind, List.append_nil]
           done)
  rw [hd, Res.ok_bind]
  simp only
  rw [show familyWire f ++ BitVec.ofNat 8 (nexthopWire nh ++ extra).length ::
        (nexthopWire nh ++ (extra ++ (snpasWire snpas ++ nlri))) =
      (familyWire f ++ BitVec.ofNat 8 (nexthopWire nh ++ extra).length :: (nexthopWire nh ++ extra)) ++
        (snpasWire snpas ++ nlri) by simp]
  rw [reachTail_wire p _ _ _ snpas hs nlri nh _ (by rw [hfw]; simp; omega)]

theorem reachTail_panic_iff (p : BgpSessionParams) (f : Family) (pre t : Bytes) (nh : BgpAddr) (c : Nat)
    (hc : pre.length ≤ c) (ht : pre.length < c → t = []) :
    reachTail p (familyCode f).1 (familyCode f).2 (pre ++ t) nh c = .panic ↔ TailPanics p f t := by
  by_cases h : ∃ snpas nlri, SnpasWF snpas ∧ t = snpasWire snpas ++ nlri
  · obtain ⟨snpas, nlri, hs, rfl⟩ := h
    have hc' : c = pre.length := by
      by_contra hne
      have := ht (by omega)
      simp [snpasWire] at this
    rw [reachTail_wire p _ _ pre snpas hs nlri nh c hc']
    constructor
    · intro hp snpas' nlri' hs' e
      have := reachTail_wire p (familyCode f).1 (familyCode f).2 pre snpas' hs' nlri' nh c hc'
      rw [← e, reachTail_wire p _ _ pre snpas hs nlri nh c hc', hp] at this
      cases hq : BgpAddrs.decodeFrom p (familyCode f).1 (familyCode f).2 nlri' with
      | panic => rfl
      | ok x => rw [hq] at this; cases this
      | err x => rw [hq] at this; cases this
      | hang => rw [hq] at this; cases this
    · intro hp
      rw [hp snpas nlri hs rfl]
      rfl
  · have hn : ∀ snpas nlri, SnpasWF snpas → t ≠ snpasWire snpas ++ nlri := fun s n hs e => h ⟨s, n, hs, e⟩
    rw [reachTail_cut p _ _ pre t nh c hc ht hn]
    exact ⟨fun _ s n hs e => absurd e (hn s n hs), fun _ => rfl⟩

theorem reach_family_panic_iff (p : BgpSessionParams) (f : Family) (hr : NexthopReadable f) (l : U8) (rest : Bytes) :
    BgpMPUpdates.decodeFrom p (familyWire f ++ l :: rest) = .panic ↔
    (if VpnFamily f then nexthopSize f ≤ rest.length ∧ TailPanics p f (rest.drop (nexthopSize f))
     else if f = .l2Vpls ∨ f = .l2Evpn then 4 ≤ rest.length ∧ TailPanics p f (rest.drop l.toNat)
     else rest.length < l.toNat ∨ (nexthopSize f ≤ l.toNat ∧ TailPanics p f (rest.drop l.toNat))) := by
  rw [reach_eq]
  obtain ⟨a, b, -, hfw⟩ := familyWire_cons f
  have hv : familyWire f ++ l :: rest = a :: b :: (familyCode f).2 :: l :: rest := by rw [hfw]; rfl
  have tail : ∀ (nh : BgpAddr) (k : Nat), reachTail p (familyCode f).1 (familyCode f).2 (familyWire f ++ l :: rest) nh (4 + k)
      = .panic ↔ TailPanics p f (rest.drop k) := by
    intro nh k
    have e : familyWire f ++ l :: rest = (familyWire f ++ l :: rest.take k) ++ rest.drop k := by simp
    rw [e]
    refine reachTail_panic_iff p f _ _ nh _ ?_ ?_
    · rw [hfw]; simp; omega
    · intro h
      rw [hfw] at h
      simp at h ⊢
      omega
  by_cases hvpn : VpnFamily f
  · rw [if_pos hvpn]
    obtain ⟨h1, h2⟩ := nexthop_vpn p f hvpn a b (familyCode f).2 rest
    by_cases hlen : rest.length < nexthopSize f
    · have := h1 hlen l.toNat l
      rw [← hv] at this
      constructor
      · intro h
        cases hq : BgpMPUpdates.decodeNexthop p (familyCode f).1 (familyCode f).2 l.toNat (familyWire f ++ l :: rest) with
        | err e => rw [hq] at h; cases h
        | ok x => rw [hq] at this; exact this.elim
        | panic => rw [hq] at this; exact this.elim
        | hang => rw [hq] at this; exact this.elim
      · intro h; omega
    · obtain ⟨nh, extra, -, -, -, h3⟩ := h2 (by omega)
      have h3 := h3 l.toNat l
      rw [← hv] at h3
      rw [h3, Res.ok_bind, tail]
      exact ⟨fun h => ⟨by omega, h⟩, fun h => h.2⟩
  rw [if_neg hvpn]
  by_cases hl2 : f = .l2Vpls ∨ f = .l2Evpn
  · rw [if_pos hl2]
    obtain ⟨h1, h2⟩ := nexthop_l2 p f hl2 l.toNat a b (familyCode f).2 l rest
    rw [← hv] at h1 h2
    by_cases hlen : rest.length < 4
    · have := h1 hlen
      constructor
      · intro h
        cases hq : BgpMPUpdates.decodeNexthop p (familyCode f).1 (familyCode f).2 l.toNat (familyWire f ++ l :: rest) with
        | err e => rw [hq] at h; cases h
        | ok x => rw [hq] at this; exact this.elim
        | panic => rw [hq] at this; exact this.elim
        | hang => rw [hq] at this; exact this.elim
      · intro h; omega
    · obtain ⟨nh, extra, -, -, h3⟩ := h2 (by omega)
      rw [h3, Res.ok_bind, tail]
      exact ⟨fun h => ⟨by omega, h⟩, fun h => h.2⟩
  rw [if_neg hl2]
  obtain ⟨h1, h2, h3⟩ := nexthop_plain p f ⟨hr, hvpn, fun h => hl2 (.inl h), fun h => hl2 (.inr h)⟩ l.toNat a b
    (familyCode f).2 l rest
  rw [← hv] at h1 h2 h3
  by_cases hlen : rest.length < l.toNat
  · rw [h1 hlen]
    exact ⟨fun _ => .inl hlen, fun _ => rfl⟩
  · by_cases hsz : l.toNat < nexthopSize f
    · have := h2 (by omega) hsz
      constructor
      · intro h
        cases hq : BgpMPUpdates.decodeNexthop p (familyCode f).1 (familyCode f).2 l.toNat (familyWire f ++ l :: rest) with
        | err e => rw [hq] at h; cases h
        | ok x => rw [hq] at this; exact this.elim
        | panic => rw [hq] at this; exact this.elim
        | hang => rw [hq] at this; exact this.elim
      · intro h; omega
    · obtain ⟨nh, extra, -, -, h4⟩ := h3 (by omega) (by omega)
      rw [h4, Res.ok_bind, tail]
      exact ⟨fun h => .inr ⟨by omega, h⟩, fun h => by
        rcases h with h | h
        · omega
        · exact h.2⟩

theorem reach_panic_iff (p : BgpSessionParams) (v : Bytes) :
    BgpMPUpdates.decodeFrom p v = .panic ↔ ReachPanics p v := by
  constructor
  · intro h
    match v, h with
    | [], _ => exact .inl (by simp)
    | [_], _ => exact .inl (by simp)
    | [_, _], _ => exact .inl (by simp)
    | [_, _, _], _ => exact .inl (by simp)
    | a :: b :: c :: l :: rest, h =>
      rcases nexthop_families p (BitVec.ofNat 16 (unbe [a, b])) c with ⟨f, hr, hf⟩ | hn
      · have e : a :: b :: c :: l :: rest = familyWire f ++ l :: rest := by
          have := be_unbe [a, b]
          simp only [List.length_cons, List.length_nil, Nat.zero_add, Nat.reduceAdd] at this
          have hlt := unbe_lt [a, b]
          simp only [List.length_cons, List.length_nil, Nat.zero_add, Nat.reduceAdd] at hlt
          unfold familyWire
          rw [hf]
          simp only [BitVec.toNat_ofNat]
          rw [Nat.mod_eq_of_lt (by omega), this]
          rfl
        refine .inr ⟨f, l, rest, hr, e, ?_⟩
        rw [e] at h
        exact (reach_family_panic_iff p f hr l rest).1 h
      · exfalso
        unfold BgpMPUpdates.decodeFrom at h
        rw [getn16_ok (by simp)] at h
        simp only [List.take_succ_cons, List.take_zero, Res.ok_bind, idx_cons_zero, idx_cons_succ] at h
        have := hn l.toNat (a :: b :: c :: l :: rest)
        cases hq : BgpMPUpdates.decodeNexthop p (BitVec.ofNat 16 (unbe [a, b])) c l.toNat (a :: b :: c :: l :: rest) with
        | err e => rw [hq] at h; cases h
        | ok x => rw [hq] at this; exact this.elim
        | panic => rw [hq] at this; exact this.elim
        | hang => rw [hq] at this; exact this.elim
  · rintro (h | ⟨f, l, rest, hr, rfl, h⟩)
    · match v, h with
      | [], _ => rfl
      | [_], _ => rfl
      | [_, _], _ => rfl
      | [_, _, _], _ => rfl
      | _ :: _ :: _ :: _ :: _, h => simp at h; omega
    · exact (reach_family_panic_iff p f hr l rest).2 h

/-- for VPN families the length octet of the next hop does not matter -/
theorem reach_vpn_length (p : BgpSessionParams) (f : Family) (hf : VpnFamily f) (l l' : U8) (rest : Bytes) :
    BgpMPUpdates.decodeFrom p (familyWire f ++ l :: rest) = BgpMPUpdates.decodeFrom p (familyWire f ++ l' :: rest) := by
  rw [reach_eq, reach_eq]
  obtain ⟨a, b, -, hfw⟩ := familyWire_cons f
  have hv : ∀ l, familyWire f ++ l :: rest = a :: b :: (familyCode f).2 :: l :: rest := by intro l; rw [hfw]; rfl
  by_cases hlen : rest.length < nexthopSize f
  · have hr : ∀ l : U8, rfrom (a :: b :: (familyCode f).2 :: l :: rest) 4 = .ok rest := by simp
    rw [hv, hv]
    rcases hf with rfl | rfl | rfl | rfl | rfl <;>
      (unfold BgpMPUpdates.decodeNexthop
       simp only [familyCode, BitVec.reduceToNat] at hr ⊢
       simp only [hr, Res.ok_bind, BgpAddrItem.decodeFrom]
       rw [if_neg (by simpa [nexthopSize] using hlen)]
       rfl)
  · obtain ⟨nh, e, -, h3, h4, h5⟩ := (nexthop_vpn p f hf a b (familyCode f).2 rest).2 (by omega)
    rw [hv, hv, h5, h5, Res.ok_bind, Res.ok_bind, ← hv, ← hv]
    simp only
    have hsplit : ∀ l, familyWire f ++ l :: rest = (familyWire f ++ l :: nexthopWire nh) ++ e := by
      intro l; rw [h3]; simp
    have hlen' : ∀ l : U8, 4 + nexthopSize f = (familyWire f ++ l :: nexthopWire nh).length := by
      intro l; rw [hfw]; simp [h4]; omega
    rw [hsplit, hsplit]
    by_cases h : ∃ snpas nlri, SnpasWF snpas ∧ e = snpasWire snpas ++ nlri
    · obtain ⟨snpas, nlri, hs, rfl⟩ := h
      rw [reachTail_wire p _ _ _ snpas hs nlri nh _ (hlen' l), reachTail_wire p _ _ _ snpas hs nlri nh _ (hlen' l')]
    · have hn : ∀ snpas nlri, SnpasWF snpas → e ≠ snpasWire snpas ++ nlri := fun s n hs e => h ⟨s, n, hs, e⟩
      rw [reachTail_cut p _ _ _ e nh _ (Nat.le_of_eq (hlen' l).symm) (by rw [← hlen' l]; omega) hn,
        reachTail_cut p _ _ _ e nh _ (Nat.le_of_eq (hlen' l').symm) (by rw [← hlen' l']; omega) hn]

/-! ## Every attribute -/

theorem panic_bind {α β : Type} (r : Res α) (f : α → β) : (r >>= fun x => .ok (f x)) = .panic ↔ r = .panic := by
  cases r <;> simp [Bind.bind, Res.bind]

theorem not_panic_of_returns {α : Type} {r : Res α} (h : r.Returns) : r ≠ .panic := by
  rintro rfl; exact h

theorem panic_of_not_returns {α : Type} {r : Res α} (hn : NoHang r) (h : ¬ r.Returns) : r = .panic := by
  cases r with
  | ok x => exact absurd trivial h
  | err x => exact absurd trivial h
  | panic => rfl
  | hang => exact absurd rfl hn

/-- a list of elements of `k` octets with a remainder -/
theorem chunks_panic {α : Type} (k : Nat) (hk : 0 < k) (d : Bytes → Res α) (hd : ∀ b, b.length = k → ∃ x, d b = .ok x)
    (b : Bytes) (h : ¬ k ∣ b.length) :
    decList 0 (fun b => do .ok (← d (← rslice b 0 k), k)) b = .panic := by
  induction hn : b.length using Nat.strongRecOn generalizing b with
  | ind n ih =>
    have h0 : 0 < b.length := by
      rcases Nat.eq_zero_or_pos b.length with h0 | h0
      · rw [h0] at h; exact absurd (Nat.dvd_zero k) h
      · exact h0
    rw [decList_step (chunk_progress k hk d) h0]
    by_cases hlt : b.length < k
    · have : rslice b 0 k = .panic := by
        unfold rslice; rw [if_neg (by omega)]
      rw [this]; rfl
    · rw [rslice_ok (by omega) (by omega), Res.ok_bind]
      obtain ⟨x, hx⟩ := hd ((b.take k).drop 0) (by simp; omega)
      rw [hx]
      simp only [Res.ok_bind]
      rw [ih (b.length - k) (by omega) (b.drop k) (by
        intro hdv
        apply h
        rw [List.length_drop] at hdv
        have := Nat.dvd_add hdv (Nat.dvd_refl k)
        rwa [Nat.sub_add_cancel (by omega)] at this) (by simp)]
      rfl

theorem getn16_pair (a b : U8) (t : Bytes) : getn16 (a :: b :: t) = .ok (a ++ b) := by
  rw [getn16_ok (by simp)]
  simp only [List.take_succ_cons, List.take_zero]
  congr 1
  apply BitVec.eq_of_toNat_eq
  rw [BitVec.toNat_append, BitVec.toNat_ofNat, ← Nat.shiftLeft_add_eq_or_of_lt b.isLt, Nat.shiftLeft_eq]
  have h1 := a.isLt
  have h2 := b.isLt
  simp [unbe_cons, unbe]
  omega

theorem unreach_panic_iff (p : BgpSessionParams) (v : Bytes) : BgpMPWithdraws.decodeFrom p v = .panic ↔
    v.length < 3 ∨ ∃ a b c nlri, v = a :: b :: c :: nlri ∧ BgpAddrs.decodeFrom p (a ++ b) c nlri = .panic := by
  match v with
  | [] => simp; rfl
  | [_] => simp; rfl
  | [_, _] => simp; rfl
  | a :: b :: c :: nlri =>
    unfold BgpMPWithdraws.decodeFrom
    rw [getn16_pair]
    simp only [Res.ok_bind, idx_cons_succ, idx_cons_zero, rfrom_cons_succ, rfrom_zero]
    constructor
    · intro h
      refine .inr ⟨a, b, c, nlri, rfl, ?_⟩
      cases hq : BgpAddrs.decodeFrom p (a ++ b) c nlri with
      | panic => rfl
      | ok x => rw [hq] at h; cases h
      | err x => rw [hq] at h; cases h
      | hang => rw [hq] at h; cases h
    · rintro (h | ⟨a', b', c', nlri', e, h⟩)
      · simp at h; omega
      · simp only [List.cons.injEq] at e
        obtain ⟨rfl, rfl, rfl, rfl⟩ := e
        rw [h]; rfl

theorem valuePanics_cases (p : BgpSessionParams) (code : U8) (v : Bytes) (hne : code ≠ 128) : ValuePanics p code v ↔
    (code = 8 ∧ ¬ 4 ∣ v.length) ∨ (code = 9 ∧ v.length < 4) ∨ (code = 14 ∧ ReachPanics p v) ∨
    (code = 15 ∧ (v.length < 3 ∨ ∃ a b c nlri, v = a :: b :: c :: nlri ∧
      BgpAddrs.decodeFrom p (a ++ b) c nlri = .panic)) ∨
    (code = 22 ∧ PmsiCrash v) ∨ (code = 32 ∧ ¬ 12 ∣ v.length) := by
  constructor
  · intro h
    cases h with
    | communities _ h => exact .inl ⟨rfl, h⟩
    | originatorId _ h => exact .inr (.inl ⟨rfl, h⟩)
    | mpReach _ h => exact .inr (.inr (.inl ⟨rfl, h⟩))
    | mpUnreachHead _ h => exact .inr (.inr (.inr (.inl ⟨rfl, .inl h⟩)))
    | mpUnreachNlri a b c nlri h => exact .inr (.inr (.inr (.inl ⟨rfl, .inr ⟨a, b, c, nlri, rfl, h⟩⟩)))
    | pmsi _ h => exact .inr (.inr (.inr (.inr (.inl ⟨rfl, h⟩))))
    | largeCommunities _ h => exact .inr (.inr (.inr (.inr (.inr ⟨rfl, h⟩))))
    | setCut => exact absurd rfl hne
    | setInner => exact absurd rfl hne
  · rintro (⟨rfl, h⟩ | ⟨rfl, h⟩ | ⟨rfl, h⟩ | ⟨rfl, h | ⟨a, b, c, nlri, rfl, h⟩⟩ | ⟨rfl, h⟩ | ⟨rfl, h⟩)
    · exact .communities v h
    · exact .originatorId v h
    · exact .mpReach v h
    · exact .mpUnreachHead v h
    · exact .mpUnreachNlri a b c nlri h
    · exact .pmsi v h
    · exact .largeCommunities v h

theorem value_panic_iff (p : BgpSessionParams) (fl code : U8) (v : Bytes) :
    BgpAttrItem.decodeFrom p code fl v.length v = .panic ↔ ValuePanics p code v := by
  induction hn : v.length using Nat.strongRecOn generalizing fl code v with
  | ind n ih =>
  subst hn
  by_cases h128 : code = 128
  · subst h128
    rw [attrSet_panic_iff]
    have inner : ∀ (o rw' t : Bytes) (r : RawAttr), o.length = 4 → r.value.length < (o ++ rw' ++ rawWire r ++ t).length := by
      intro o rw' t r ho
      have := rawWire_length r
      simp only [List.length_append]
      split at this <;> omega
    constructor
    · rintro ⟨h32, o, raws, l, t, rfl, ho, h1, h2, hc | ⟨r, t', rfl, hw, hp⟩⟩
      · rw [← List.append_assoc]
        exact .setCut o raws l t h32 ho h1 h2 hc
      · rw [show o ++ (raws.flatMap rawWire ++ (rawWire r ++ t')) = o ++ raws.flatMap rawWire ++ rawWire r ++ t' by simp]
          at ih ⊢
        exact .setInner o raws l r t' h32 ho h1 h2 hw ((ih _ (inner o _ t' r ho) r.flags r.code r.value rfl).1 hp)
    · intro h
      generalize hg : (128 : U8) = g at h
      cases h with
      | setCut o raws l t h32 ho h1 h2 hc =>
        exact ⟨h32, o, raws, l, t, by simp, ho, h1, h2, .inl hc⟩
      | setInner o raws l r t h32 ho h1 h2 hw hc =>
        exact ⟨h32, o, raws, l, rawWire r ++ t, by simp, ho, h1, h2,
          .inr ⟨r, t, rfl, hw, (ih _ (inner o _ t r ho) r.flags r.code r.value rfl).2 hc⟩⟩
      | communities => exact absurd hg (by decide)
      | originatorId => exact absurd hg (by decide)
      | mpReach => exact absurd hg (by decide)
      | mpUnreachHead => exact absurd hg (by decide)
      | mpUnreachNlri => exact absurd hg (by decide)
      | pmsi => exact absurd hg (by decide)
      | largeCommunities => exact absurd hg (by decide)
  · rw [valuePanics_cases p code v h128]
    by_cases h8 : code = 8
    · subst h8
      change (BgpCommunityList.decodeFrom v >>= fun x => .ok (BgpAttrItem.CommunityList x)) = .panic ↔ _
      rw [panic_bind]
      constructor
      · intro h
        refine .inl ⟨rfl, fun hd => not_panic_of_returns (communities_returns v hd) h⟩
      · intro h
        have hd : ¬ 4 ∣ v.length := by simpa using h
        unfold BgpCommunityList.decodeFrom
        rw [chunks_panic 4 (by omega) _ (fun b hb => by
          unfold BgpCommunity.decodeFrom
          rw [if_pos hb, getn32_ok (by omega)]; exact ⟨_, rfl⟩) v hd]
        rfl
    by_cases h32 : code = 32
    · subst h32
      change (BgpLargeCommunityList.decodeFrom v >>= fun x => .ok (BgpAttrItem.LargeCommunityList x)) = .panic ↔ _
      rw [panic_bind]
      constructor
      · intro h
        refine .inr (.inr (.inr (.inr (.inr ⟨rfl, fun hd => not_panic_of_returns (largeCommunities_returns v hd) h⟩))))
      · intro h
        have hd : ¬ 12 ∣ v.length := by simpa using h
        unfold BgpLargeCommunityList.decodeFrom
        rw [chunks_panic 12 (by omega) _ (fun b hb => by
          unfold BgpLargeCommunity.decodeFrom
          rw [if_pos hb, rslice_ok (by omega) (by omega), rslice_ok (by omega) (by omega), rslice_ok (by omega) (by omega)]
          simp only [Res.ok_bind]
          rw [getn32_ok (by simp; omega), getn32_ok (by simp; omega), getn32_ok (by simp; omega)]
          exact ⟨_, rfl⟩) v hd]
        rfl
    by_cases h9 : code = 9
    · subst h9
      change (BgpOriginatorID.decodeFrom p v >>= fun x => .ok (BgpAttrItem.OriginatorID x)) = .panic ↔ _
      rw [panic_bind]
      constructor
      · intro h
        refine .inr (.inl ⟨rfl, ?_⟩)
        by_contra hl
        exact not_panic_of_returns (originator_returns p v (by omega)) h
      · intro h
        have hl : v.length < 4 := by simpa using h
        have hs : rslice v 0 4 = .panic := by unfold rslice; rw [if_neg (by omega)]
        unfold BgpOriginatorID.decodeFrom
        split
        · rw [hs]; rfl
        · rw [if_pos (by omega), hs]; rfl
    by_cases h14 : code = 14
    · subst h14
      change (BgpMPUpdates.decodeFrom p v >>= fun x => .ok (BgpAttrItem.MPUpdates x)) = .panic ↔ _
      rw [panic_bind, reach_panic_iff]
      simp
    by_cases h15 : code = 15
    · subst h15
      change (BgpMPWithdraws.decodeFrom p v >>= fun x => .ok (BgpAttrItem.MPWithdraws x)) = .panic ↔ _
      rw [panic_bind, unreach_panic_iff]
      simp
    by_cases h22 : code = 22
    · subst h22
      change (BgpPMSITunnel.decodeFrom v >>= fun x => .ok (BgpAttrItem.PMSITunnel x)) = .panic ↔ _
      rw [panic_bind, pmsi_panic_iff]
      simp
    · have hh : ValueHandled code.toNat v := by
        have ne : ∀ k : U8, code ≠ k → code.toNat ≠ k.toNat := fun k h e => h (BitVec.eq_of_toNat_eq e)
        have n8 := ne 8 h8
        have n32 := ne 32 h32
        have n9 := ne 9 h9
        have n14 := ne 14 h14
        have n15 := ne 15 h15
        have n22 := ne 22 h22
        have n128 := ne 128 h128
        simp only [BitVec.reduceToNat] at n8 n32 n9 n14 n15 n22 n128
        refine ⟨fun h => absurd h n8, fun h => absurd h n32, fun h => absurd h n9, ?_⟩
        simp only [List.mem_cons, List.not_mem_nil, or_false, not_or]
        exact ⟨n14, n15, n22, n128⟩
      constructor
      · intro h
        exact absurd h (not_panic_of_returns (value_returns p code fl v.length v (Nat.le_refl _) hh))
      · rintro (h | h | h | h | h | h)
        · exact absurd h.1 h8
        · exact absurd h.1 h9
        · exact absurd h.1 h14
        · exact absurd h.1 h15
        · exact absurd h.1 h22
        · exact absurd h.1 h32

end Zbgp
