import Verif.Spec.OpenReads
import Verif.Lemmas.Bytes

/-! # Helper lemmas: UTF-8 -/

namespace Zbgp

open Spec

theorem utf8Valid_char (c : Nat) (h : Scalar c) (rest : Bytes) :
    BgpCapability.utf8Valid (utf8Char c ++ rest) = BgpCapability.utf8Valid rest := by
  have t1 : ∀ n, n < 256 → (BitVec.ofNat 8 n).toNat = n := by intro n hn; simp; omega
  have e1 : ∀ n, be 1 n = [BitVec.ofNat 8 n] := by intro n; simp [be]
  unfold utf8Char
  unfold Scalar at h
  by_cases h1 : c < 0x80
  · rw [if_pos h1, e1, List.singleton_append, BgpCapability.utf8Valid.eq_def]
    simp only
    rw [t1 _ (by omega), if_pos h1]
  rw [if_neg h1]
  have beq : ∀ (n : Nat) (k : U8), n < 256 → (BitVec.ofNat 8 n == k) = decide (n = k.toNat) := by
    intro n k hn
    rw [Bool.eq_iff_iff, beq_iff_eq, decide_eq_true_iff]
    constructor
    · rintro rfl
      exact (t1 _ hn).symm
    · rintro rfl; simp
  have k1 : (224 : U8).toNat = 224 := rfl
  have k2 : (237 : U8).toNat = 237 := rfl
  have k3 : (240 : U8).toNat = 240 := rfl
  have k4 : (244 : U8).toNat = 244 := rfl
  by_cases h2 : c < 0x800
  · rw [if_pos h2, e1, e1, BgpCapability.utf8Valid.eq_def]
    simp only [List.cons_append, List.nil_append]
    rw [t1 _ (by omega), t1 _ (by omega), if_neg (by omega), if_pos (by simp; omega)]
    simp only [Bool.and_eq_right_iff_imp]
    intro _
    simp
    omega
  rw [if_neg h2]
  by_cases h3 : c < 0x10000
  · rw [if_pos h3, e1, e1, e1, BgpCapability.utf8Valid.eq_def]
    simp only [List.cons_append, List.nil_append]
    have b1 := beq (0xE0 + c / 2 ^ 12) 0xE0 (by omega)
    have b2 := beq (0xE0 + c / 2 ^ 12) 0xED (by omega)
    rw [t1 _ (by omega), t1 _ (by omega), t1 _ (by omega), if_neg (by omega), if_neg (by simp; omega), b1, b2, if_pos ?_]
    · simp only [Bool.and_eq_right_iff_imp]
      intro _
      simp
      omega
    · simp only [Bool.or_eq_true, Bool.and_eq_true, decide_eq_true_eq, k1, k2, k3, k4]
      omega
  rw [if_neg h3, e1, e1, e1, e1, BgpCapability.utf8Valid.eq_def]
  simp only [List.cons_append, List.nil_append]
  have b1 := beq (0xF0 + c / 2 ^ 18) 0xE0 (by omega)
  have b2 := beq (0xF0 + c / 2 ^ 18) 0xED (by omega)
  have b3 := beq (0xF0 + c / 2 ^ 18) 0xF0 (by omega)
  have b4 := beq (0xF0 + c / 2 ^ 18) 0xF4 (by omega)
  rw [t1 _ (by omega), t1 _ (by omega), t1 _ (by omega), t1 _ (by omega), if_neg (by omega), if_neg (by simp; omega), b1, b2, b3, b4,
    if_neg ?_]
  · simp only [Bool.and_eq_right_iff_imp]
    intro _
    simp only [Bool.or_eq_true, Bool.and_eq_true, decide_eq_true_eq, k1, k2, k3, k4]
    omega
  · simp only [Bool.or_eq_true, Bool.and_eq_true, decide_eq_true_eq, k1, k2, k3, k4]
    omega

theorem be1_toNat (a : U8) (n : Nat) (h : a.toNat = n) : [a] = be 1 n := by
  subst h
  simp [be]

theorem utf8_cons {c : Nat} {rest : Bytes} (h : Scalar c) (hr : Utf8 rest) : Utf8 (utf8Char c ++ rest) := by
  obtain ⟨cs, h1, rfl⟩ := hr
  exact ⟨c :: cs, by simpa [h] using h1, rfl⟩

theorem utf8_of_valid (n : Nat) (b : Bytes) (hn : b.length ≤ n) (h : BgpCapability.utf8Valid b = true) : Utf8 b := by
  induction n generalizing b with
  | zero =>
    cases b with
    | nil => exact ⟨[], by simp, rfl⟩
    | cons => simp at hn
  | succ n ih =>
    rw [BgpCapability.utf8Valid.eq_def] at h
    match b, h, hn with
    | [], _, _ => exact ⟨[], by simp, rfl⟩
    | a :: rest, h, hn =>
      simp only at h
      split at h
      · rename_i ha
        have := utf8_cons (c := a.toNat) (by unfold Scalar; omega) (ih rest (by simpa using hn) h)
        rwa [utf8Char, if_pos ha, ← be1_toNat a _ rfl] at this
      rename_i ha
      match rest, h, hn with
      | [], h, _ => simp at h
      | b :: rest, h, hn =>
        simp only at h
        have hb8 := b.isLt
        split at h
        · rename_i h2
          simp only [Bool.and_eq_true, decide_eq_true_eq] at h h2
          have := utf8_cons (c := (a.toNat - 0xC0) * 64 + (b.toNat - 0x80)) (by unfold Scalar; omega) (ih rest (by simp at hn; omega) h.2)
          rwa [utf8Char, if_neg (by omega), if_pos (by omega), ← be1_toNat a _ (by omega), ← be1_toNat b _ (by omega)] at this
        rename_i h2
        match rest, h, hn with
        | [], h, _ => simp at h
        | c :: rest, h, hn =>
          simp only at h
          have hc8 := c.isLt
          have be : ∀ (k : U8), (a == k) = decide (a.toNat = k.toNat) := by
            intro k
            rw [Bool.eq_iff_iff, beq_iff_eq, decide_eq_true_iff]
            constructor
            · rintro rfl; rfl
            · intro e; exact BitVec.eq_of_toNat_eq e
          have k1 : (224 : U8).toNat = 224 := rfl
          have k2 : (237 : U8).toNat = 237 := rfl
          have k3 : (240 : U8).toNat = 240 := rfl
          have k4 : (244 : U8).toNat = 244 := rfl
          split at h
          · rename_i h3
            simp only [Bool.and_eq_true, Bool.or_eq_true, decide_eq_true_eq, be, k1, k2] at h h3
            have := utf8_cons (c := (a.toNat - 0xE0) * 4096 + (b.toNat - 0x80) * 64 + (c.toNat - 0x80)) (by unfold Scalar; omega)
              (ih rest (by simp at hn; omega) h.2)
            rwa [utf8Char, if_neg (by omega), if_neg (by omega), if_pos (by omega), ← be1_toNat a _ (by omega), ← be1_toNat b _ (by omega),
              ← be1_toNat c _ (by omega)] at this
          rename_i h3
          match rest, h, hn with
          | [], h, _ => simp at h
          | d :: rest, h, hn =>
            simp only at h
            have hd8 := d.isLt
            simp only [Bool.and_eq_true, Bool.or_eq_true, decide_eq_true_eq, be, k3, k4] at h
            have := utf8_cons (c := (a.toNat - 0xF0) * 262144 + (b.toNat - 0x80) * 4096 + (c.toNat - 0x80) * 64 + (d.toNat - 0x80))
              (by unfold Scalar; omega) (ih rest (by simp at hn; omega) h.2)
            rwa [utf8Char, if_neg (by omega), if_neg (by omega), if_neg (by omega), ← be1_toNat a _ (by omega), ← be1_toNat b _ (by omega),
              ← be1_toNat c _ (by omega), ← be1_toNat d _ (by omega)] at this

/-- the model of `std::str::from_utf8` accepts the octets that are UTF-8 -/
theorem utf8Valid_iff (b : Bytes) : BgpCapability.utf8Valid b = true ↔ Utf8 b := by
  constructor
  · exact utf8_of_valid _ _ (Nat.le_refl _)
  · rintro ⟨cs, h, rfl⟩
    induction cs with
    | nil => simp [BgpCapability.utf8Valid]
    | cons c cs ih =>
      rw [List.flatMap_cons, utf8Valid_char _ (h c (by simp))]
      exact ih fun x hx => h x (by simp [hx])

instance (b : Bytes) : Decidable (Utf8 b) := decidable_of_iff _ (utf8Valid_iff b)

end Zbgp
