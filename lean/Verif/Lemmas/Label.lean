import Verif.Lemmas.Ip

/-! # Route distinguishers, MPLS labels, `Labeled`, `WithRd` -/

namespace Zbgp

open Spec

attribute [-simp] List.length_flatMap

/-! ## Route distinguishers -/

@[simp] theorem rdBody_length (r : BgpRD) : (rdBody r).length = 8 := by simp [rdBody]

theorem rd_writes (r : BgpRD) : Writes r.encodeTo (rdBody r) := by
  intro buf hb
  simp only [rdBody_length] at hb
  obtain ⟨m, t, rfl, hm, -⟩ := exists_split 8 hb
  obtain ⟨a, b, c, d, e, f, g, h, t', rfl⟩ := exists_cons8 (l := m) (by omega)
  have : t' = [] := by simpa using hm
  subst this
  simp only [List.cons_append, List.nil_append, BgpRD.encodeTo, setn32_cons, Res.ok_bind]
  rw [show be 4 r.rdh.toNat ++ e :: f :: g :: h :: t = be 4 r.rdh.toNat ++ ([e, f, g, h] ++ t) by simp,
    modRange_append _ _ _ 4 8 _ (by simp) (by simp), setn32_cons]
  simp [rdBody]

theorem rd_reads (r : BgpRD) : Reads BgpRD.decodeFrom (rdBody r) r := by
  intro rest
  rw [BgpRD.decodeFrom, if_pos (by simp), rdBody, List.append_assoc]
  simp [getn32_four]

theorem rd_decode_eq {b : Bytes} (h : 8 ≤ b.length) :
    ∃ r : BgpRD, BgpRD.decodeFrom b = .ok (r, 8) ∧ b.take 8 = rdBody r := by
  obtain ⟨m, t, rfl, hm, -⟩ := exists_split 8 h
  obtain ⟨v, hv, h1⟩ := exists_be 4 (l := m) (by omega)
  obtain ⟨w, hw, h2⟩ := exists_be 4 (l := m.drop 4) (by simp; omega)
  have h3 : (m.drop 4).drop 4 = [] := by apply List.drop_eq_nil_of_le; simp; omega
  rw [h3, List.append_nil] at h2
  rw [h2] at h1
  refine ⟨⟨BitVec.ofNat 32 v, BitVec.ofNat 32 w⟩, ?_, ?_⟩
  · have h5 : m = rdBody ⟨BitVec.ofNat 32 v, BitVec.ofNat 32 w⟩ := by
      rw [h1]; simp only [rdBody, BitVec.toNat_ofNat]
      rw [Nat.mod_eq_of_lt (by simpa using hv), Nat.mod_eq_of_lt (by simpa using hw)]
    have := rd_reads ⟨BitVec.ofNat 32 v, BitVec.ofNat 32 w⟩ t
    rw [← h5] at this
    rw [this, hm]
  · rw [List.take_left' hm, h1]
    simp only [rdBody, BitVec.toNat_ofNat]
    rw [Nat.mod_eq_of_lt (by simpa using hv), Nat.mod_eq_of_lt (by simpa using hw)]

theorem rd_decode_short {b : Bytes} (h : b.length < 8) : BgpRD.decodeFrom b = .err .static := by
  simp [BgpRD.decodeFrom, h]

theorem rd_local : Local BgpRD.decodeFrom := by
  intro b x n h
  by_cases hb : 8 ≤ b.length
  · obtain ⟨r, h1, h2⟩ := rd_decode_eq hb
    rw [h1] at h
    simp only [Res.ok.injEq, Prod.mk.injEq] at h
    obtain ⟨rfl, rfl⟩ := h
    refine ⟨hb, fun rest => ?_⟩
    rw [h2, rd_reads r rest, rdBody_length]
  · rw [rd_decode_short (by omega)] at h; cases h

theorem rd_returns (b : Bytes) : (BgpRD.decodeFrom b).Returns := by
  by_cases hb : 8 ≤ b.length
  · obtain ⟨r, h1, h2⟩ := rd_decode_eq hb
    rw [h1]; trivial
  · rw [rd_decode_short (by omega)]; trivial

/-! ## Labels: writing -/

theorem be3_eq (v : Nat) :
    be 3 v = [BitVec.ofNat 8 (v / 65536), BitVec.ofNat 8 (v / 256), BitVec.ofNat 8 v] := by
  simp [be]

theorem label_bytes (l : U32) :
    [(l >>> 12).setWidth 8, ((l >>> 4) &&& 0xff).setWidth 8, ((l <<< 4) &&& 0xff).setWidth 8] =
      be 3 (l.toNat * 16) := by
  rw [be3_eq]
  have h := l.isLt
  have e1 : (0xff : U32) = BitVec.ofNat 32 (2 ^ 8 - 1) := rfl
  simp only [List.cons.injEq, and_true]
  refine ⟨?_, ?_, ?_⟩
  · apply BitVec.eq_of_toNat_eq
    simp only [BitVec.toNat_setWidth, BitVec.toNat_ushiftRight, BitVec.toNat_ofNat, Nat.shiftRight_eq_div_pow]
    omega
  · apply BitVec.eq_of_toNat_eq
    simp only [BitVec.toNat_setWidth, BitVec.toNat_ushiftRight, BitVec.toNat_ofNat,
      Nat.shiftRight_eq_div_pow, BitVec.toNat_and]
    rw [show (255 : U32).toNat = 2 ^ 8 - 1 from rfl, Nat.and_two_pow_sub_one_eq_mod]
    omega
  · apply BitVec.eq_of_toNat_eq
    simp only [BitVec.toNat_setWidth, BitVec.toNat_shiftLeft, BitVec.toNat_ofNat,
      Nat.shiftLeft_eq, BitVec.toNat_and]
    rw [show (255 : U32).toNat = 2 ^ 8 - 1 from rfl, Nat.and_two_pow_sub_one_eq_mod]
    omega

def labelsRaw (ls : List U32) : Bytes := ls.flatMap fun l => be 3 (l.toNat * 16)

theorem labelsRaw_length (ls : List U32) : (labelsRaw ls).length = 3 * ls.length := by
  induction ls with
  | nil => rfl
  | cons l ls ih =>
    simp only [labelsRaw, List.flatMap_cons, List.length_append, be_length, List.length_cons] at ih ⊢
    omega

theorem labelsBody_snoc (ls : List U32) (l : U32) :
    labelsBody (ls ++ [l]) = labelsRaw ls ++ be 3 (l.toNat * 16 + 1) := by
  induction ls with
  | nil => rfl
  | cons a ls ih =>
    cases ls with
    | nil => simp [labelsBody, labelsRaw]
    | cons b ls =>
      simp only [List.cons_append] at ih ⊢
      rw [labelsBody, ih]
      · simp [labelsRaw]
      · simp

theorem labelsBody_length (ls : List U32) : (labelsBody ls).length = 3 * ls.length := by
  rcases List.eq_nil_or_concat ls with rfl | ⟨xs, x, rfl⟩
  · rfl
  · rw [List.concat_eq_append, labelsBody_snoc]
    simp [labelsRaw_length]; omega

theorem setLoop_eq (ls : List U32) (p t : Bytes) (pos : Nat) (hp : pos = p.length)
    (ht : 3 * ls.length ≤ t.length) :
    MplsLabels.setLoop ls (p ++ t) pos =
      .ok (p ++ (labelsRaw ls ++ t.drop (3 * ls.length)), pos + 3 * ls.length) := by
  induction ls generalizing p t pos with
  | nil => simp [MplsLabels.setLoop, labelsRaw]
  | cons l ls ih =>
    simp only [List.length_cons] at ht
    obtain ⟨m, t', rfl, hm, -⟩ := exists_split 3 (show 3 ≤ t.length by omega)
    match m, hm with
    | [a, b, c], _ =>
      simp only [MplsLabels.setLoop]
      simp only [List.length_append, List.length_cons, List.length_nil] at ht
      rw [setIdx_append (by omega)]
      subst hp
      simp only [Nat.sub_self, List.cons_append, setIdx_cons_zero, Res.ok_bind]
      rw [setIdx_append (by omega)]
      simp only [Nat.add_sub_cancel_left, setIdx_cons_succ, setIdx_cons_zero, Res.ok_bind]
      rw [setIdx_append (by omega)]
      simp only [Nat.add_sub_cancel_left, setIdx_cons_succ, setIdx_cons_zero, Res.ok_bind]
      have hlb := label_bytes l
      rw [show ∀ x y z : U8, p ++ x :: y :: z :: ([] ++ t') = (p ++ [x, y, z]) ++ t' by simp]
      rw [hlb, ih _ t' _ (by simp) (by omega)]
      simp only [labelsRaw, List.flatMap_cons, List.append_assoc, Res.ok.injEq, Prod.mk.injEq,
        List.length_cons]
      refine ⟨?_, by omega⟩
      rw [show 3 * (ls.length + 1) = 3 * ls.length + 3 by omega]
      rfl

theorem labels_writes (m : MplsLabels) :
    ItemWrites m (24 * m.labels.length) (labelsBody m.labels) := by
  intro buf hb
  obtain ⟨ls⟩ := m
  rw [labelsBody_length] at hb ⊢
  simp only at hb ⊢
  rcases List.eq_nil_or_concat ls with rfl | ⟨xs, x, rfl⟩
  · rfl
  · rw [List.concat_eq_append] at *
    simp only [BgpItem.setBits, MplsLabels.setBits]
    rw [if_neg (by simp)]
    have h1 := setLoop_eq (xs ++ [x]) [] buf 0 rfl hb
    simp only [List.nil_append, Nat.zero_add] at h1
    rw [h1]
    simp only [Res.ok_bind, List.length_append, List.length_cons, List.length_nil]
    have h2 : labelsRaw (xs ++ [x]) = labelsRaw xs ++ be 3 (x.toNat * 16) := by simp [labelsRaw]
    rw [h2, labelsBody_snoc, subN, if_pos (by omega)]
    simp only [Res.ok_bind]
    have hl := labelsRaw_length xs
    rw [be3_eq, be3_eq]
    simp only [List.append_assoc]
    rw [idx_append_right (by omega), show 3 * (xs.length + (0 + 1)) - 1 - (labelsRaw xs).length = 2 by omega]
    simp only [List.cons_append, idx_cons_succ, idx_cons_zero, Res.ok_bind]
    rw [setIdx_append (by omega), show 3 * (xs.length + (0 + 1)) - 1 - (labelsRaw xs).length = 2 by omega]
    simp only [setIdx_cons_succ, setIdx_cons_zero, Res.ok_bind, Res.ok.injEq, Prod.mk.injEq,
      List.append_cancel_left_eq, List.cons.injEq]
    have e : (BitVec.ofNat 8 (x.toNat * 16) ||| 1 : U8) = BitVec.ofNat 8 (x.toNat * 16 + 1) := by
      apply BitVec.eq_of_toNat_eq
      rw [BitVec.toNat_or]
      have h1 : (BitVec.ofNat 8 (x.toNat * 16)).toNat = (x.toNat % 16) <<< 4 := by
        rw [BitVec.toNat_ofNat, Nat.shiftLeft_eq]; omega
      have h2 : ((1 : U8)).toNat = 1 := rfl
      rw [h1, h2, ← Nat.shiftLeft_add_eq_or_of_lt (by decide : 1 < 2 ^ 4), BitVec.toNat_ofNat, Nat.shiftLeft_eq]
      omega
    refine ⟨⟨?_, ?_, e, by simp⟩, ?_, trivial⟩
    · apply BitVec.eq_of_toNat_eq; simp only [BitVec.toNat_ofNat]; omega
    · apply BitVec.eq_of_toNat_eq; simp only [BitVec.toNat_ofNat]; omega
    · congr 1; omega

/-! ## Labels: reading -/

theorem labelVal_be (v : Nat) (h : v < 2 ^ 24) :
    MplsLabels.labelVal (BitVec.ofNat 8 (v / 65536)) (BitVec.ofNat 8 (v / 256)) (BitVec.ofNat 8 v) =
      BitVec.ofNat 32 (v / 16) := by
  apply BitVec.eq_of_toNat_eq
  simp only [MplsLabels.labelVal]
  have a1 : ((BitVec.ofNat 8 (v / 65536)).setWidth 32).toNat = v / 65536 := by
    simp only [BitVec.toNat_setWidth, BitVec.toNat_ofNat]; omega
  have a2 : ((BitVec.ofNat 8 (v / 256)).setWidth 32).toNat = v / 256 % 256 := by
    simp only [BitVec.toNat_setWidth, BitVec.toNat_ofNat]; omega
  have a3 : ((BitVec.ofNat 8 v).setWidth 32 >>> 4).toNat = v % 256 / 16 := by
    simp only [BitVec.toNat_setWidth, BitVec.toNat_ofNat, BitVec.toNat_ushiftRight, Nat.shiftRight_eq_div_pow]; omega
  simp only [BitVec.toNat_or, BitVec.toNat_shiftLeft, a1, a2, a3, BitVec.toNat_ofNat]
  rw [Nat.mod_eq_of_lt (by rw [Nat.shiftLeft_eq]; omega), Nat.mod_eq_of_lt (by rw [Nat.shiftLeft_eq]; omega)]
  have b1 : (v / 256 % 256) <<< 4 < 2 ^ 12 := by rw [Nat.shiftLeft_eq]; omega
  rw [← Nat.shiftLeft_add_eq_or_of_lt b1]
  have b2 : (v / 65536) <<< 12 + (v / 256 % 256) <<< 4 = ((v / 65536) * 256 + v / 256 % 256) <<< 4 := by
    simp only [Nat.shiftLeft_eq]; omega
  rw [b2, ← Nat.shiftLeft_add_eq_or_of_lt (by omega), Nat.shiftLeft_eq]
  omega

theorem labels_reads_aux (ls : List U32) (x : U32) (h1 : ∀ l ∈ ls ++ [x], l.toNat < 2 ^ 20)
    (h2 : ∀ l ∈ ls, l.toNat ∉ stackEnding) (bits : U8) (hb : 24 * (ls.length + 1) ≤ bits.toNat)
    (rest : Bytes) (fuel : Nat) (hf : bits.toNat < fuel) :
    MplsLabels.extractLoop fuel bits (labelsBody (ls ++ [x]) ++ rest) =
      .ok (ls ++ [x], 3 * (ls.length + 1)) := by
  induction ls generalizing bits fuel with
  | nil =>
    obtain ⟨f, rfl⟩ : ∃ f, fuel = f + 1 := ⟨fuel - 1, by omega⟩
    have hx := h1 x (by simp)
    simp only [List.nil_append, labelsBody, be3_eq, List.cons_append, MplsLabels.extractLoop]
    simp only [List.length_nil] at hb
    rw [if_pos (by omega)]
    simp only [idx_cons_zero, idx_cons_succ, Res.ok_bind]
    rw [labelVal_be _ (by omega)]
    rw [show (x.toNat * 16 + 1) / 16 = x.toNat by omega, ofNat_toNat32]
    have hs : subC bits 24 = .ok (bits - 24) := by
      rw [subC, if_pos (by change 24 ≤ _; omega)]
    rw [hs, Res.ok_bind]
    split
    · rfl
    · have e : ((BitVec.ofNat 8 (x.toNat * 16 + 1) &&& 1 : U8) != 0) = true := by
        rw [bne_iff_ne]
        intro hc
        have := congrArg BitVec.toNat hc
        rw [BitVec.toNat_and, show (1 : U8).toNat = 2 ^ 1 - 1 from rfl, Nat.and_two_pow_sub_one_eq_mod,
          BitVec.toNat_ofNat, show (0 : U8).toNat = 0 from rfl] at this
        omega
      rw [if_pos e]; rfl
  | cons l ls ih =>
    obtain ⟨f, rfl⟩ : ∃ f, fuel = f + 1 := ⟨fuel - 1, by omega⟩
    have hx := h1 l (by simp)
    have hne := h2 l (by simp)
    have hbody : labelsBody (l :: ls ++ [x]) = be 3 (l.toNat * 16) ++ labelsBody (ls ++ [x]) := by
      rw [labelsBody_snoc, labelsBody_snoc]; simp [labelsRaw]
    rw [hbody, be3_eq]
    simp only [List.cons_append, List.nil_append, MplsLabels.extractLoop]
    simp only [List.length_cons] at hb
    rw [if_pos (by omega)]
    simp only [idx_cons_zero, idx_cons_succ, Res.ok_bind]
    rw [labelVal_be _ (by omega)]
    rw [show (l.toNat * 16) / 16 = l.toNat by omega, ofNat_toNat32]
    have hs : subC bits 24 = .ok (bits - 24) := by
      rw [subC, if_pos (by change 24 ≤ _; omega)]
    rw [hs, Res.ok_bind, if_neg]
    · have e : ¬ ((BitVec.ofNat 8 (l.toNat * 16) &&& 1 : U8) != 0) = true := by
        rw [bne_iff_ne, not_not]
        apply BitVec.eq_of_toNat_eq
        rw [BitVec.toNat_and, show (1 : U8).toNat = 2 ^ 1 - 1 from rfl, Nat.and_two_pow_sub_one_eq_mod,
          BitVec.toNat_ofNat, show (0 : U8).toNat = 0 from rfl]
        omega
      rw [if_neg e]
      simp only [List.drop_succ_cons, List.drop_zero]
      have hb2 : (bits - 24).toNat = bits.toNat - 24 := by
        rw [BitVec.toNat_sub, show (24 : U8).toNat = 24 from rfl]; omega
      rw [ih (fun a ha => h1 a (by simp at ha ⊢; tauto)) (fun a ha => h2 a (by simp [ha])) _ (by omega) f (by omega)]
      simp; omega
    · intro hc
      apply hne
      simp only [stackEnding, List.mem_cons, List.not_mem_nil, or_false]
      rcases hc with rfl | rfl | rfl | rfl <;> simp

theorem labels_reads (ls : List U32) (h : LabelStackWF ls) (bits : U8) (hb : 24 * ls.length ≤ bits.toNat) :
    ∀ rest, MplsLabels.extractBits bits (labelsBody ls ++ rest) = .ok (⟨ls⟩, 3 * ls.length) := by
  intro rest
  obtain ⟨h0, h1, h2⟩ := h
  rcases List.eq_nil_or_concat ls with rfl | ⟨xs, x, rfl⟩
  · exact absurd rfl h0
  · rw [List.concat_eq_append] at *
    simp only [List.dropLast_concat] at h2
    simp only [MplsLabels.extractBits]
    rw [labels_reads_aux xs x h1 h2 bits (by simpa using hb) rest _ (by omega)]
    simp

/-! ## Labeled and WithRd are lawful -/

theorem labels_front_reads (ls : List U32) (n : Nat) (h : LabelFieldWF ls n) (bits : U8) (hb : bits.toNat = 24 * ls.length + n) :
    ∀ rest, MplsLabels.extractBits bits (labelsBody ls ++ rest) = .ok (⟨ls⟩, 3 * ls.length) := by
  rcases h with h | ⟨rfl, rfl⟩
  · exact labels_reads ls h bits (by omega)
  · intro rest
    obtain rfl : bits = 0 := BitVec.eq_of_toNat_eq (by simpa using hb)
    rfl

theorem subC_ok {w : Nat} {a b : BitVec w} (h : b.toNat ≤ a.toNat) : subC a b = .ok (a - b) := by
  rw [subC, if_pos h]

theorem addC_ok {w : Nat} {a b : BitVec w} (h : a.toNat + b.toNat < 2 ^ w) : addC a b = .ok (a + b) := by
  rw [addC, if_pos h]

theorem ofNat8_toNat {n : Nat} (h : n < 256) : (BitVec.ofNat 8 n).toNat = n := by
  rw [BitVec.toNat_ofNat]; omega

instance {T : Type} [BgpItem T] [NlriKind T] [NlriLawful T] : NlriLawful (Labeled T) where
  lt x h := h.2.2
  writes x h := by
    intro buf hb
    obtain ⟨hw, hp, hlt⟩ := h
    simp only [NlriKind.body, NlriKind.bits, List.length_append] at hb hlt ⊢
    simp only [BgpItem.setBits]
    have h1 := labels_writes x.labels buf (by omega)
    simp only [BgpItem.setBits] at h1
    rw [h1]
    simp only [Res.ok_bind]
    rw [onFrom_append _ _ _ _ rfl]
    have h2 := NlriLawful.writes x.pfx hp (buf.drop (labelsBody x.labels.labels).length) (by simp; omega)
    rw [h2]
    simp only [Res.ok_bind]
    rw [addC_ok (by rw [ofNat8_toNat (by omega), ofNat8_toNat (by omega)]; omega)]
    simp only [Res.ok_bind, List.drop_drop, List.append_assoc, Res.ok.injEq, Prod.mk.injEq, true_and, and_true]
    apply BitVec.eq_of_toNat_eq
    rw [BitVec.toNat_add, ofNat8_toNat (by omega), ofNat8_toNat (by omega), ofNat8_toNat (by omega)]
    omega
  reads x h := by
    intro rest
    obtain ⟨hw, hp, hlt⟩ := h
    simp only [NlriKind.body, NlriKind.bits, NlriKind.received] at hlt ⊢
    simp only [BgpItem.extractBits]
    rw [List.append_assoc, labels_front_reads _ _ hw _ (by rw [ofNat8_toNat hlt])]
    simp only [Res.ok_bind]
    rw [subC_ok (by rw [ofNat8_toNat hlt, ofNat8_toNat (by omega)]; omega)]
    simp only [Res.ok_bind]
    rw [rfrom_append _ _ _ (labelsBody_length _).symm]
    simp only [Res.ok_bind]
    have e : (BitVec.ofNat 8 (24 * x.labels.labels.length + NlriKind.bits x.pfx) -
        BitVec.ofNat 8 (3 * x.labels.labels.length * 8)) = BitVec.ofNat 8 (NlriKind.bits x.pfx) := by
      apply BitVec.eq_of_toNat_eq
      rw [BitVec.toNat_sub, ofNat8_toNat (by omega), ofNat8_toNat (by omega), ofNat8_toNat (by omega)]
      omega
    rw [e, NlriLawful.reads x.pfx hp rest]
    simp [labelsBody_length]

instance {T : Type} [BgpItem T] [NlriKind T] [NlriLawful T] : NlriLawful (WithRd T) where
  lt x h := h.2
  writes x h := by
    intro buf hb
    obtain ⟨hp, hlt⟩ := h
    simp only [NlriKind.body, NlriKind.bits, List.length_append, rdBody_length] at hb hlt ⊢
    simp only [BgpItem.setBits]
    rw [rd_writes x.rd buf (by simp; omega)]
    simp only [Res.ok_bind]
    rw [onFrom_append _ _ _ _ rfl]
    have h2 := NlriLawful.writes x.pfx hp (buf.drop (rdBody x.rd).length) (by simp; omega)
    rw [h2]
    simp only [Res.ok_bind, rdBody_length]
    rw [addC_ok (by rw [ofNat8_toNat (by omega), ofNat8_toNat (by omega)]; omega)]
    simp only [Res.ok_bind, List.drop_drop, List.append_assoc, Res.ok.injEq, Prod.mk.injEq, true_and, and_true]
    apply BitVec.eq_of_toNat_eq
    rw [BitVec.toNat_add, ofNat8_toNat (by omega), ofNat8_toNat (by omega), ofNat8_toNat (by omega)]
    omega
  reads x h := by
    intro rest
    obtain ⟨hp, hlt⟩ := h
    simp only [NlriKind.body, NlriKind.bits, NlriKind.received] at hlt ⊢
    simp only [BgpItem.extractBits]
    rw [if_neg (by simp), List.append_assoc, rslice_append_zero _ _ 8 (by simp)]
    have := rd_reads x.rd []
    rw [List.append_nil] at this
    simp only [Res.ok_bind, this, rdBody_length]
    rw [subC_ok (by rw [ofNat8_toNat hlt, ofNat8_toNat (by omega)]; omega)]
    simp only [Res.ok_bind]
    rw [rfrom_append _ _ _ (by simp)]
    simp only [Res.ok_bind]
    have e : (BitVec.ofNat 8 (64 + NlriKind.bits x.pfx) -
        BitVec.ofNat 8 (8 * 8)) = BitVec.ofNat 8 (NlriKind.bits x.pfx) := by
      apply BitVec.eq_of_toNat_eq
      rw [BitVec.toNat_sub, ofNat8_toNat (by omega), ofNat8_toNat (by omega), ofNat8_toNat (by omega)]
      omega
    rw [e, NlriLawful.reads x.pfx hp rest]
    simp

/-! ## Locality -/

theorem extractLoop_local (fuel : Nat) (bits : U8) (b : Bytes) (ls : List U32) (n : Nat)
    (h : MplsLabels.extractLoop fuel bits b = .ok (ls, n)) :
    n ≤ b.length ∧ n * 8 ≤ bits.toNat ∧
      ∀ r, MplsLabels.extractLoop fuel bits (b.take n ++ r) = .ok (ls, n) := by
  induction fuel generalizing bits b ls n with
  | zero => simp [MplsLabels.extractLoop] at h
  | succ f ih =>
    rw [MplsLabels.extractLoop] at h
    by_cases hb : bits.toNat > 0
    · rw [if_pos hb] at h
      match b, h with
      | [], h => simp at h
      | [_], h => simp at h
      | [_, _], h => simp at h
      | b0 :: b1 :: b2 :: t, h =>
        simp only [idx_cons_zero, idx_cons_succ, Res.ok_bind] at h
        obtain ⟨lb, hlb, h⟩ := Res.bind_eq_ok.1 h
        have h24 : 24 ≤ bits.toNat := by
          by_contra hc
          rw [subC, if_neg (by change ¬ 24 ≤ _; omega)] at hlb; cases hlb
        rw [subC_ok (by change 24 ≤ _; omega)] at hlb
        cases hlb
        have hb2 : (bits - 24).toNat = bits.toNat - 24 := by
          rw [BitVec.toNat_sub, show (24 : U8).toNat = 24 from rfl]; omega
        have key : ∀ r, MplsLabels.extractLoop (f + 1) bits (b0 :: b1 :: b2 :: r) =
            if MplsLabels.labelVal b0 b1 b2 = 524288 ∨ MplsLabels.labelVal b0 b1 b2 = 0 ∨
                MplsLabels.labelVal b0 b1 b2 = 2 ∨ MplsLabels.labelVal b0 b1 b2 = 3 then
              .ok ([MplsLabels.labelVal b0 b1 b2], 3)
            else if (b2 &&& 1 != 0) then .ok ([MplsLabels.labelVal b0 b1 b2], 3)
            else (do
              let (ls, n) ← MplsLabels.extractLoop f (bits - 24) r
              .ok (MplsLabels.labelVal b0 b1 b2 :: ls, 3 + n)) := by
          intro r
          rw [MplsLabels.extractLoop, if_pos hb]
          simp only [idx_cons_zero, idx_cons_succ, Res.ok_bind]
          rw [subC_ok (by change 24 ≤ _; omega)]
          rfl
        split at h
        · rename_i hc
          simp only [Res.ok.injEq, Prod.mk.injEq] at h
          obtain ⟨rfl, rfl⟩ := h
          refine ⟨by simp, by omega, fun r => ?_⟩
          simp only [List.take_succ_cons, List.take_zero, List.cons_append, List.nil_append]
          rw [key, if_pos hc]
        · rename_i hc
          split at h
          · rename_i hc2
            simp only [Res.ok.injEq, Prod.mk.injEq] at h
            obtain ⟨rfl, rfl⟩ := h
            refine ⟨by simp, by omega, fun r => ?_⟩
            simp only [List.take_succ_cons, List.take_zero, List.cons_append, List.nil_append]
            rw [key, if_neg hc, if_pos hc2]
          · rename_i hc2
            obtain ⟨⟨ls', n'⟩, h1, h2⟩ := Res.bind_eq_ok.1 h
            simp only [Res.ok.injEq, Prod.mk.injEq] at h2
            obtain ⟨rfl, rfl⟩ := h2
            obtain ⟨e1, e2, e3⟩ := ih _ _ _ _ h1
            simp only [List.drop_succ_cons, List.drop_zero] at e1 e3
            refine ⟨by simp; omega, by omega, fun r => ?_⟩
            rw [show 3 + n' = n' + 1 + 1 + 1 by omega]
            simp only [List.take_succ_cons, List.cons_append]
            rw [key, if_neg hc, if_neg hc2, e3]
            simp only [Res.ok_bind, Res.ok.injEq, Prod.mk.injEq, true_and]; omega
    · rw [if_neg hb] at h
      simp only [Res.ok.injEq, Prod.mk.injEq] at h
      obtain ⟨rfl, rfl⟩ := h
      refine ⟨by omega, by omega, fun r => ?_⟩
      rw [MplsLabels.extractLoop, if_neg hb]

theorem labels_local (bits : U8) (b : Bytes) (x : MplsLabels) (n : Nat)
    (h : MplsLabels.extractBits bits b = .ok (x, n)) :
    n ≤ b.length ∧ n * 8 ≤ bits.toNat ∧ ∀ r, MplsLabels.extractBits bits (b.take n ++ r) = .ok (x, n) := by
  unfold MplsLabels.extractBits at h ⊢
  obtain ⟨⟨ls, k⟩, h1, h2⟩ := Res.bind_eq_ok.1 h
  simp only [Res.ok.injEq, Prod.mk.injEq] at h2
  obtain ⟨rfl, rfl⟩ := h2
  obtain ⟨e1, e2, e3⟩ := extractLoop_local _ _ _ _ _ h1
  exact ⟨e1, e2, fun r => by rw [e3]; rfl⟩

instance : ItemLocal MplsLabels where
  loc bits b x n h := ⟨(labels_local bits b x n h).1, (labels_local bits b x n h).2.2⟩

theorem drop_take_append {α : Type} (b r : List α) (n m : Nat) (h : n + m ≤ b.length) :
    (b.take (n + m) ++ r).drop n = (b.drop n).take m ++ r := by
  rw [List.take_add, List.append_assoc, List.drop_left' (by simp; omega)]

theorem take_add_append {α : Type} (b r : List α) (n m : Nat) :
    b.take (n + m) ++ r = b.take n ++ ((b.drop n).take m ++ r) := by
  rw [List.take_add, List.append_assoc]

instance {T : Type} [BgpItem T] [ItemLocal T] : ItemLocal (Labeled T) where
  loc bits := by
    intro b x n h
    simp only [BgpItem.extractBits] at h ⊢
    obtain ⟨⟨l, k⟩, h1, h⟩ := Res.bind_eq_ok.1 h
    obtain ⟨left, h2, h⟩ := Res.bind_eq_ok.1 h
    obtain ⟨t, h3, h⟩ := Res.bind_eq_ok.1 h
    obtain ⟨⟨p, m⟩, h4, h⟩ := Res.bind_eq_ok.1 h
    simp only [Res.ok.injEq, Prod.mk.injEq] at h
    obtain ⟨rfl, rfl⟩ := h
    obtain ⟨e1, e2, e3⟩ := labels_local _ _ _ _ h1
    obtain ⟨-, rfl⟩ := rfrom_eq_ok.1 h3
    obtain ⟨e4, e5⟩ := ItemLocal.loc left _ _ _ h4
    simp only [List.length_drop] at e4
    refine ⟨by omega, fun r => ?_⟩
    rw [take_add_append, e3]
    simp only [Res.ok_bind, h2]
    rw [rfrom_append _ _ k (by simp [e1])]
    simp only [Res.ok_bind]
    rw [e5]
    rfl

instance {T : Type} [BgpItem T] [ItemLocal T] : ItemLocal (WithRd T) where
  loc bits := by
    intro b x n h
    simp only [BgpItem.extractBits] at h ⊢
    split at h
    · cases h
    · rename_i hl
      rw [rslice_ok (by omega) (by omega)] at h
      simp only [Res.ok_bind, List.drop_zero] at h
      obtain ⟨rd, hrd, hrd2⟩ := rd_decode_eq (b := b.take 8) (by simp; omega)
      rw [hrd] at h
      simp only [Res.ok_bind] at h
      obtain ⟨left, h2, h⟩ := Res.bind_eq_ok.1 h
      obtain ⟨t, h3, h⟩ := Res.bind_eq_ok.1 h
      obtain ⟨⟨p, m⟩, h4, h⟩ := Res.bind_eq_ok.1 h
      simp only [Res.ok.injEq, Prod.mk.injEq] at h
      obtain ⟨rfl, rfl⟩ := h
      obtain ⟨-, rfl⟩ := rfrom_eq_ok.1 h3
      obtain ⟨e4, e5⟩ := ItemLocal.loc left _ _ _ h4
      simp only [List.length_drop] at e4
      refine ⟨by omega, fun r => ?_⟩
      rw [take_add_append]
      rw [if_neg (by simp; omega), rslice_append_zero _ _ 8 (by simp; omega)]
      simp only [Res.ok_bind, hrd, h2]
      rw [rfrom_append _ _ 8 (by simp; omega)]
      simp only [Res.ok_bind]
      rw [e5]
      rfl

/-! ## When label stacks can be read -/

theorem extractLoop_returns (fuel : Nat) (bits : U8) (b : Bytes) (hf : bits.toNat < fuel) (j : Nat)
    (hj : 24 * (j + 1) ≤ bits.toNat) (x : U8) (hx : b[3 * j + 2]? = some x) (hodd : x.toNat % 2 = 1) :
    ∃ ls n, MplsLabels.extractLoop fuel bits b = .ok (ls, n) ∧ n ≤ 3 * (j + 1) := by
  induction j generalizing fuel bits b with
  | zero =>
    obtain ⟨f, rfl⟩ : ∃ f, fuel = f + 1 := ⟨fuel - 1, by omega⟩
    match b, hx with
    | b0 :: b1 :: b2 :: t, hx =>
      simp at hx
      subst hx
      rw [MplsLabels.extractLoop, if_pos (by omega)]
      simp only [idx_cons_zero, idx_cons_succ, Res.ok_bind]
      rw [subC_ok (by change 24 ≤ _; omega), Res.ok_bind]
      split
      · exact ⟨_, _, rfl, by omega⟩
      · rw [if_pos]
        · exact ⟨_, _, rfl, by omega⟩
        · rw [bne_iff_ne]
          intro hc
          have := congrArg BitVec.toNat hc
          rw [BitVec.toNat_and, show (1 : U8).toNat = 2 ^ 1 - 1 from rfl, Nat.and_two_pow_sub_one_eq_mod,
            show (0 : U8).toNat = 0 from rfl] at this
          omega
    | [], hx => simp at hx
    | [_], hx => simp at hx
    | [_, _], hx => simp at hx
  | succ j ih =>
    obtain ⟨f, rfl⟩ : ∃ f, fuel = f + 1 := ⟨fuel - 1, by omega⟩
    match b, hx with
    | b0 :: b1 :: b2 :: t, hx =>
      rw [show 3 * (j + 1) + 2 = 3 * j + 2 + 1 + 1 + 1 by omega] at hx
      simp only [List.getElem?_cons_succ] at hx
      rw [MplsLabels.extractLoop, if_pos (by omega)]
      simp only [idx_cons_zero, idx_cons_succ, Res.ok_bind]
      rw [subC_ok (by change 24 ≤ _; omega), Res.ok_bind]
      have hb2 : (bits - 24).toNat = bits.toNat - 24 := by
        rw [BitVec.toNat_sub, show (24 : U8).toNat = 24 from rfl]; omega
      split
      · exact ⟨_, _, rfl, by omega⟩
      · split
        · exact ⟨_, _, rfl, by omega⟩
        · obtain ⟨ls, n, h1, h2⟩ := ih f (bits - 24) t (by omega) (by omega) hx
          simp only [List.drop_succ_cons, List.drop_zero]
          rw [h1]
          exact ⟨_, _, rfl, by omega⟩
    | [], hx => simp at hx
    | [_], hx => simp at hx
    | [_, _], hx => simp at hx

theorem labels_returns {bits : U8} {b : Bytes} {lim : Nat} (hl : lim ≤ bits.toNat)
    (h : StackEnds lim b) : ∃ l n, MplsLabels.extractBits bits b = .ok (l, n) ∧ n * 8 ≤ lim := by
  obtain ⟨j, x, h1, h2, h3⟩ := h
  obtain ⟨ls, n, h4, h5⟩ := extractLoop_returns (bits.toNat + 1) bits b (by omega) j (by omega) x h2 h3
  exact ⟨⟨ls⟩, n, by rw [MplsLabels.extractBits, h4]; rfl, by omega⟩

theorem labels_pos {bits : U8} {b : Bytes} {l : MplsLabels} {n : Nat} (hb : 0 < bits.toNat)
    (h : MplsLabels.extractBits bits b = .ok (l, n)) : 3 ≤ n := by
  unfold MplsLabels.extractBits at h
  obtain ⟨⟨ls, k⟩, h1, h2⟩ := Res.bind_eq_ok.1 h
  simp only [Res.ok.injEq, Prod.mk.injEq] at h2
  obtain ⟨rfl, rfl⟩ := h2
  rw [MplsLabels.extractLoop, if_pos hb] at h1
  obtain ⟨_, _, h1⟩ := Res.bind_eq_ok.1 h1
  obtain ⟨_, _, h1⟩ := Res.bind_eq_ok.1 h1
  obtain ⟨_, _, h1⟩ := Res.bind_eq_ok.1 h1
  obtain ⟨_, _, h1⟩ := Res.bind_eq_ok.1 h1
  split at h1
  · simp at h1; omega
  · split at h1
    · simp at h1; omega
    · obtain ⟨⟨_, _⟩, _, h1⟩ := Res.bind_eq_ok.1 h1
      simp at h1; omega

/-- The labeled decoder returns when the inner one does for what the label stack leaves over. -/
theorem labeled_returns {T : Type} [BgpItem T] {bits : U8} {b : Bytes} {lim : Nat}
    (hl : lim ≤ bits.toNat) (h : StackEnds lim b)
    (hin : ∀ (left : U8) (t : Bytes), bits.toNat - lim ≤ left.toNat → left.toNat ≤ 231 →
      (BgpItem.extractBits (T := T) left t).Returns) :
    (BgpItem.extractBits (T := Labeled T) bits b).Returns := by
  obtain ⟨l, n, h1, h2⟩ := labels_returns hl h
  obtain ⟨e1, e2, -⟩ := labels_local _ _ _ _ h1
  simp only [BgpItem.extractBits]
  rw [h1]
  simp only [Res.ok_bind]
  have hlt := bits.isLt
  rw [subC_ok (by rw [ofNat8_toNat (by omega)]; omega), Res.ok_bind, rfrom_ok e1, Res.ok_bind]
  have hn : 3 ≤ n := by
    obtain ⟨j, x, h3, _⟩ := h
    exact labels_pos (by omega) h1
  have e : (bits - BitVec.ofNat 8 (n * 8)).toNat = bits.toNat - n * 8 := by
    rw [BitVec.toNat_sub, ofNat8_toNat (by omega)]; omega
  refine Res.returns_bind (hin _ _ (by omega) (by omega)) (fun _ _ => trivial)

theorem withRd_returns {T : Type} [BgpItem T] {bits : U8} {b : Bytes} (hb : 64 ≤ bits.toNat)
    (hin : ∀ (left : U8) (t : Bytes), left.toNat ≤ 191 →
      (BgpItem.extractBits (T := T) left t).Returns) :
    (BgpItem.extractBits (T := WithRd T) bits b).Returns := by
  simp only [BgpItem.extractBits]
  split
  · trivial
  · rename_i hl
    rw [rslice_ok (by omega) (by omega)]
    simp only [Res.ok_bind, List.drop_zero]
    obtain ⟨rd, hrd, -⟩ := rd_decode_eq (b := b.take 8) (by simp; omega)
    rw [hrd]
    simp only [Res.ok_bind]
    rw [subC_ok (by change 64 ≤ _; omega), Res.ok_bind, rfrom_ok (by omega), Res.ok_bind]
    have hlt := bits.isLt
    have e : (bits - BitVec.ofNat 8 (8 * 8)).toNat = bits.toNat - 64 := by
      rw [BitVec.toNat_sub, ofNat8_toNat (by omega)]; omega
    exact Res.returns_bind (hin _ _ (by omega)) (fun _ _ => trivial)

theorem v4_returns (bits : U8) (t : Bytes) (h : bits.toNat ≤ 248) :
    (BgpItem.extractBits (T := BgpAddrV4) bits t).Returns := by
  simp only [BgpItem.extractBits]
  rcases fromBitsV4_cases bits t with ⟨_, h1⟩ | ⟨_, _, h1⟩ | ⟨_, _, x, h1⟩
  · omega
  · rw [h1]; trivial
  · rw [h1]; trivial

theorem v6_returns (bits : U8) (t : Bytes) (h : bits.toNat ≤ 248) :
    (BgpItem.extractBits (T := BgpAddrV6) bits t).Returns := by
  simp only [BgpItem.extractBits]
  rcases fromBitsV6_cases bits t with ⟨_, h1⟩ | ⟨_, _, h1⟩ | ⟨_, _, x, h1⟩
  · omega
  · rw [h1]; trivial
  · rw [h1]; trivial

end Zbgp
