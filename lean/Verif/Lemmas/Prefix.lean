import Verif.Lemmas.Label
import Verif.Model.Mac

/-! # Prefixes as address sets -/

namespace Zbgp

open Spec

/-! ## Arithmetic -/

/-- first address of the block of size `2^h` around `a` -/
def blkFirst (h a : Nat) : Nat := a / 2 ^ h * 2 ^ h
/-- last address of that block -/
def blkLast (h a : Nat) : Nat := a / 2 ^ h * 2 ^ h + (2 ^ h - 1)

theorem blk_iff (h a ip : Nat) : ip / 2 ^ h = a / 2 ^ h ↔ blkFirst h a ≤ ip ∧ ip ≤ blkLast h a := by
  have hp : 0 < 2 ^ h := Nat.two_pow_pos h
  rw [Nat.div_eq_iff hp]
  unfold blkFirst blkLast
  omega

theorem blkLast_lt {w h a : Nat} (hh : h ≤ w) (ha : a < 2 ^ w) : blkLast h a < 2 ^ w := by
  have hp : 0 < 2 ^ h := Nat.two_pow_pos h
  obtain ⟨k, rfl⟩ := Nat.exists_eq_add_of_le hh
  unfold blkLast
  have h1 : a / 2 ^ h < 2 ^ k := by
    apply Nat.div_lt_of_lt_mul; rwa [← Nat.pow_add]
  have h2 : (a / 2 ^ h + 1) * 2 ^ h ≤ 2 ^ k * 2 ^ h := Nat.mul_le_mul_right _ h1
  rw [Nat.add_mul] at h2
  rw [Nat.pow_add, Nat.mul_comm (2 ^ h) (2 ^ k)]
  omega

theorem blkFirst_le (h a : Nat) : blkFirst h a ≤ a := Nat.div_mul_le_self _ _

theorem le_blkLast (h a : Nat) : a ≤ blkLast h a := ((blk_iff h a a).1 rfl).2

theorem blkFirst_le_last (h a : Nat) : blkFirst h a ≤ blkLast h a :=
  Nat.le_trans (blkFirst_le h a) (le_blkLast h a)

theorem blk_covers_first (h a : Nat) : blkFirst h a / 2 ^ h = a / 2 ^ h :=
  (blk_iff h a _).2 ⟨Nat.le_refl _, blkFirst_le_last h a⟩

theorem blk_covers_last (h a : Nat) : blkLast h a / 2 ^ h = a / 2 ^ h :=
  (blk_iff h a _).2 ⟨blkFirst_le_last h a, Nat.le_refl _⟩

/-- Block inclusion. -/
theorem blk_subset {w ha hb a b : Nat} (hwa : ha ≤ w) (hwb : hb ≤ w) (hb' : b < 2 ^ w) :
    (∀ ip, ip < 2 ^ w → ip / 2 ^ hb = b / 2 ^ hb → ip / 2 ^ ha = a / 2 ^ ha) ↔
      (hb ≤ ha ∧ b / 2 ^ ha = a / 2 ^ ha) := by
  constructor
  · intro h
    have h1 := h b hb' rfl
    refine ⟨?_, h1⟩
    by_contra hc
    push Not at hc
    have h2 := h (blkFirst hb b) (Nat.lt_of_le_of_lt (blkFirst_le _ _) hb') (blk_covers_first _ _)
    have h3 := h (blkLast hb b) (blkLast_lt hwb hb') (blk_covers_last _ _)
    rw [blk_iff] at h2 h3
    unfold blkFirst blkLast at h2 h3
    have h4 : 2 ^ ha < 2 ^ hb := Nat.pow_lt_pow_right (by omega) hc
    have h5 : 0 < 2 ^ ha := Nat.two_pow_pos ha
    generalize 2 ^ ha = A at *
    generalize 2 ^ hb = B at *
    generalize a / A * A = X at *
    generalize b / B * B = Y at *
    omega
  · rintro ⟨h1, h2⟩ ip _ h3
    obtain ⟨k, rfl⟩ := Nat.exists_eq_add_of_le h1
    rw [← h2, Nat.pow_add, ← Nat.div_div_eq_div_mul, ← Nat.div_div_eq_div_mul, h3]

/-! ## Masks -/

theorem shl_one_toNat {w h : Nat} (hh : h < w) : ((1 : BitVec w) <<< h).toNat = 2 ^ h := by
  have h1 : (1 : BitVec w).toNat = 1 := by
    show (BitVec.ofNat w 1).toNat = 1
    rw [BitVec.toNat_ofNat, Nat.mod_eq_of_lt (Nat.one_lt_two_pow (by omega))]
  rw [BitVec.toNat_shiftLeft, h1, Nat.shiftLeft_eq, Nat.one_mul,
    Nat.mod_eq_of_lt (Nat.pow_lt_pow_right (by omega) hh)]

/-- `(1 << h) - 1` -/
theorem mask_ok {w h : Nat} (hh : h < w) :
    ∃ m : BitVec w, (do let m ← shlC (1 : BitVec w) h; subC m 1) = .ok m ∧ m.toNat = 2 ^ h - 1 := by
  have hp : 0 < 2 ^ h := Nat.two_pow_pos h
  have hw : 2 ^ h < 2 ^ w := Nat.pow_lt_pow_right (by omega) hh
  have h1 : (1 : BitVec w).toNat = 1 := by
    show (BitVec.ofNat w 1).toNat = 1
    rw [BitVec.toNat_ofNat, Nat.mod_eq_of_lt (by omega)]
  refine ⟨((1 : BitVec w) <<< h) - 1, ?_, ?_⟩
  · rw [shlC, if_pos hh, Res.ok_bind, subC_ok]
    rw [shl_one_toNat hh, h1]; omega
  · rw [BitVec.toNat_sub, shl_one_toNat hh, h1]
    rw [show 2 ^ w - 1 + 2 ^ h = (2 ^ h - 1) + 2 ^ w by omega, Nat.add_mod_right, Nat.mod_eq_of_lt (by omega)]

/-- clearing the bits of `2^h - 1` inside `2^k` bits -/
theorem and_xor_mask {w k h : Nat} (hh : h ≤ k) (x m full : BitVec w)
    (hm : m.toNat = 2 ^ h - 1) (hf : full.toNat = 2 ^ k - 1) (hx : x.toNat < 2 ^ k) :
    (x &&& (m ^^^ full)).toNat = blkFirst h x.toNat := by
  apply Nat.eq_of_testBit_eq
  intro i
  rw [BitVec.toNat_and, BitVec.toNat_xor, hm, hf, Nat.testBit_and, Nat.testBit_xor,
    Nat.testBit_two_pow_sub_one, Nat.testBit_two_pow_sub_one, blkFirst, Nat.testBit_mul_two_pow, Nat.testBit_div_two_pow]
  by_cases h1 : i < h
  · have : i < k := by omega
    simp [h1, this]
  · have h2 : h ≤ i := by omega
    rw [Nat.sub_add_cancel h2]
    by_cases h3 : i < k
    · simp [h1, h2, h3]
    · have : x.toNat.testBit i = false := Nat.testBit_lt_two_pow (Nat.lt_of_lt_of_le hx (Nat.pow_le_pow_right (by omega) (by omega)))
      simp [this]

theorem and_not_mask {w h : Nat} (hh : h ≤ w) (x m : BitVec w) (hm : m.toNat = 2 ^ h - 1) :
    (x &&& ~~~m).toNat = blkFirst h x.toNat := by
  have e : ~~~m = m ^^^ BitVec.allOnes w := by rw [BitVec.xor_allOnes]
  rw [e]
  exact and_xor_mask hh x m _ hm (by simp) x.isLt

/-! ## IPv4 -/

theorem getn32_octets (a : IPv4) : getn32 (ipv4Octets a) = .ok a := by
  rw [ipv4Octets, getn32_four, ofNat_toNat32]

theorem getn128_octets (a : IPv6) : getn128 (ipv6Octets a) = .ok a := by
  have := getn128_be a.toNat []
  rw [List.append_nil] at this
  rw [ipv6Octets, this, ofNat_toNat128]

theorem ofU32_eq (v : U32) : BgpAddrV4.ofU32 v = v := by
  have h := v.isLt
  have e1 : (v >>> 24).setWidth 8 = BitVec.ofNat 8 (v.toNat / 256 ^ 3) := by
    apply BitVec.eq_of_toNat_eq
    simp only [BitVec.toNat_setWidth, BitVec.toNat_ushiftRight, Nat.shiftRight_eq_div_pow, BitVec.toNat_ofNat]; omega
  have e2 : (v >>> 16).setWidth 8 = BitVec.ofNat 8 (v.toNat / 256 ^ 2) := by
    apply BitVec.eq_of_toNat_eq
    simp only [BitVec.toNat_setWidth, BitVec.toNat_ushiftRight, Nat.shiftRight_eq_div_pow, BitVec.toNat_ofNat]; omega
  have e3 : (v >>> 8).setWidth 8 = BitVec.ofNat 8 (v.toNat / 256 ^ 1) := by
    apply BitVec.eq_of_toNat_eq
    simp only [BitVec.toNat_setWidth, BitVec.toNat_ushiftRight, Nat.shiftRight_eq_div_pow, BitVec.toNat_ofNat]; omega
  have e4 : (v &&& 0xff).setWidth 8 = BitVec.ofNat 8 (v.toNat / 256 ^ 0) := by
    apply BitVec.eq_of_toNat_eq
    simp only [BitVec.toNat_setWidth, BitVec.toNat_and, BitVec.toNat_ofNat]
    rw [show (255 : U32).toNat = 2 ^ 8 - 1 from rfl, Nat.and_two_pow_sub_one_eq_mod]; omega
  unfold BgpAddrV4.ofU32
  rw [e1, e2, e3, e4]
  change BitVec.ofNat 32 (unbe (be 4 v.toNat)) = v
  rw [unbe_be, Nat.mod_eq_of_lt (by omega), ofNat_toNat32]

theorem ofU128_eq (v : U128) : BgpAddrV6.ofU128 v = v := by
  apply BitVec.eq_of_toNat_eq
  have h := v.isLt
  unfold BgpAddrV6.ofU128
  simp only [bv_append_toNat, BitVec.toNat_setWidth, BitVec.toNat_ushiftRight, Nat.shiftRight_eq_div_pow,
    BitVec.toNat_and]
  rw [show (0xffff : U128).toNat = 2 ^ 16 - 1 from rfl, Nat.and_two_pow_sub_one_eq_mod]
  omega

theorem hostMaskV4 {a : BgpAddrV4} (h0 : 0 < a.prefixlen.toNat) (h : a.prefixlen.toNat ≤ 32) :
    ∃ m, a.hostMask = .ok m ∧ m.toNat = 2 ^ (32 - a.prefixlen.toNat) - 1 := by
  unfold BgpAddrV4.hostMask
  rw [subC_ok (by change _ ≤ 32; omega), Res.ok_bind]
  have e : (32 - a.prefixlen : U8).toNat = 32 - a.prefixlen.toNat := by
    rw [BitVec.toNat_sub, show (32 : U8).toNat = 32 from rfl]; omega
  rw [e]
  exact mask_ok (by omega)

theorem hostMaskV6 {a : BgpAddrV6} (h0 : 0 < a.prefixlen.toNat) (h : a.prefixlen.toNat ≤ 128) :
    ∃ m, a.hostMask = .ok m ∧ m.toNat = 2 ^ (128 - a.prefixlen.toNat) - 1 := by
  unfold BgpAddrV6.hostMask
  rw [subC_ok (by change _ ≤ 128; omega), Res.ok_bind]
  have e : (128 - a.prefixlen : U8).toNat = 128 - a.prefixlen.toNat := by
    rw [BitVec.toNat_sub, show (128 : U8).toNat = 128 from rfl]; omega
  rw [e]
  exact mask_ok (by omega)

theorem hostMaskMac {a : BgpAddrMac} (h : a.prefixlen.toNat ≤ 48) :
    ∃ m, a.hostMask = .ok m ∧ m.toNat = 2 ^ (48 - a.prefixlen.toNat) - 1 := by
  unfold BgpAddrMac.hostMask
  rw [subC_ok (by change _ ≤ 48; omega), Res.ok_bind]
  have e : (48 - a.prefixlen : U8).toNat = 48 - a.prefixlen.toNat := by
    rw [BitVec.toNat_sub, show (48 : U8).toNat = 48 from rfl]; omega
  rw [e]
  exact mask_ok (by omega)

theorem normV4 {a : BgpAddrV4} (h0 : 0 < a.prefixlen.toNat) (h : a.prefixlen.toNat ≤ 32) :
    ∃ v, a.normSubnet = .ok v ∧ v.toNat = blkFirst (32 - a.prefixlen.toNat) a.addr.toNat := by
  obtain ⟨m, h1, h2⟩ := hostMaskV4 h0 h
  refine ⟨_, by rw [BgpAddrV4.normSubnet, getn32_octets, Res.ok_bind, h1]; rfl, ?_⟩
  exact and_xor_mask (k := 32) (by omega) _ _ _ h2 rfl a.addr.isLt

theorem normV6 {a : BgpAddrV6} (h0 : 0 < a.prefixlen.toNat) (h : a.prefixlen.toNat ≤ 128) :
    ∃ v, a.normSubnet = .ok v ∧ v.toNat = blkFirst (128 - a.prefixlen.toNat) a.addr.toNat := by
  obtain ⟨m, h1, h2⟩ := hostMaskV6 h0 h
  refine ⟨_, by rw [BgpAddrV6.normSubnet, getn128_octets, Res.ok_bind, h1]; rfl, ?_⟩
  exact and_xor_mask (k := 128) (by omega) _ _ _ h2 rfl a.addr.isLt

/-- the last address: `norm + mask` does not overflow -/
theorem add_last {w h a : Nat} (hh : h ≤ w) (ha : a < 2 ^ w) (v m : BitVec w)
    (hv : v.toNat = blkFirst h a) (hm : m.toNat = 2 ^ h - 1) :
    ∃ r, addC v m = .ok r ∧ r.toNat = blkLast h a := by
  have hl := blkLast_lt hh ha
  have e : blkFirst h a + (2 ^ h - 1) = blkLast h a := rfl
  refine ⟨v + m, addC_ok (by rw [hv, hm, e]; exact hl), ?_⟩
  rw [BitVec.toNat_add, hv, hm, e, Nat.mod_eq_of_lt hl]

theorem rangeFirstV4 {a : BgpAddrV4} (h0 : 0 < a.prefixlen.toNat) (h : a.prefixlen.toNat ≤ 32) :
    ∃ v, a.rangeFirst = .ok v ∧ v.toNat = blkFirst (32 - a.prefixlen.toNat) a.addr.toNat := by
  obtain ⟨v, h1, h2⟩ := normV4 h0 h
  exact ⟨v, by rw [BgpAddrV4.rangeFirst, h1, Res.ok_bind, ofU32_eq], h2⟩

theorem rangeFirstV6 {a : BgpAddrV6} (h0 : 0 < a.prefixlen.toNat) (h : a.prefixlen.toNat ≤ 128) :
    ∃ v, a.rangeFirst = .ok v ∧ v.toNat = blkFirst (128 - a.prefixlen.toNat) a.addr.toNat := by
  obtain ⟨v, h1, h2⟩ := normV6 h0 h
  exact ⟨v, by rw [BgpAddrV6.rangeFirst, h1, Res.ok_bind, ofU128_eq], h2⟩

theorem rangeLastV4 {a : BgpAddrV4} (h : a.prefixlen.toNat ≤ 32) :
    ∃ v, a.rangeLast = .ok v ∧ v.toNat = blkLast (32 - a.prefixlen.toNat) a.addr.toNat := by
  unfold BgpAddrV4.rangeLast
  have hlt := a.addr.isLt
  split
  · rename_i h0
    refine ⟨_, rfl, ?_⟩
    rw [show 32 - a.prefixlen.toNat = 32 by omega, blkLast, Nat.div_eq_of_lt hlt]; rfl
  · split
    · obtain ⟨v, h1, h2⟩ := rangeFirstV4 (a := a) (by omega) h
      refine ⟨v, h1, ?_⟩
      rw [h2, show 32 - a.prefixlen.toNat = 0 by omega]; simp [blkFirst, blkLast]
    · obtain ⟨m, h1, h2⟩ := hostMaskV4 (a := a) (by omega) h
      obtain ⟨v, h3, h4⟩ := normV4 (a := a) (by omega) h
      obtain ⟨r, h5, h6⟩ := add_last (w := 32) (by omega) hlt v m h4 h2
      exact ⟨r, by rw [h3, Res.ok_bind, h1, Res.ok_bind, h5, Res.ok_bind, ofU32_eq], h6⟩

theorem rangeLastV6 {a : BgpAddrV6} (h : a.prefixlen.toNat ≤ 128) :
    ∃ v, a.rangeLast = .ok v ∧ v.toNat = blkLast (128 - a.prefixlen.toNat) a.addr.toNat := by
  unfold BgpAddrV6.rangeLast
  have hlt := a.addr.isLt
  split
  · rename_i h0
    refine ⟨_, rfl, ?_⟩
    rw [show 128 - a.prefixlen.toNat = 128 by omega, blkLast, Nat.div_eq_of_lt hlt]; rfl
  · split
    · obtain ⟨v, h1, h2⟩ := rangeFirstV6 (a := a) (by omega) h
      refine ⟨v, h1, ?_⟩
      rw [h2, show 128 - a.prefixlen.toNat = 0 by omega]; simp [blkFirst, blkLast]
    · obtain ⟨m, h1, h2⟩ := hostMaskV6 (a := a) (by omega) h
      obtain ⟨v, h3, h4⟩ := normV6 (a := a) (by omega) h
      obtain ⟨r, h5, h6⟩ := add_last (w := 128) (by omega) hlt v m h4 h2
      exact ⟨r, by rw [h3, Res.ok_bind, h1, Res.ok_bind, h5, Res.ok_bind, ofU128_eq], h6⟩

theorem inSubnetV4 {s : BgpAddrV4} (h : s.prefixlen.toNat ≤ 32) (ip : IPv4) :
    s.inSubnet ip = .ok (decide (Covers 32 s.addr.toNat s.prefixlen.toNat ip.toNat)) := by
  unfold BgpAddrV4.inSubnet
  have hlt := s.addr.isLt
  have hlt2 := ip.isLt
  split
  · rename_i h0
    have : Covers 32 s.addr.toNat s.prefixlen.toNat ip.toNat := by
      unfold Covers
      rw [h0, Nat.div_eq_of_lt hlt, Nat.div_eq_of_lt hlt2]
    simp [this]
  · split
    · simp only [getn32_octets, Res.ok_bind, Res.ok.injEq]
      rw [Bool.eq_iff_iff, beq_iff_eq, decide_eq_true_iff]
      unfold Covers
      rw [show 32 - s.prefixlen.toNat = 0 by omega, ← BitVec.toNat_inj]
      simp only [Nat.pow_zero, Nat.div_one]
      exact eq_comm
    · obtain ⟨m, h1, h2⟩ := hostMaskV4 (a := s) (by omega) h
      obtain ⟨v, h3, h4⟩ := normV4 (a := s) (by omega) h
      obtain ⟨r, h5, h6⟩ := add_last (w := 32) (by omega) hlt v m h4 h2
      rw [h3, Res.ok_bind, h1, Res.ok_bind, h5, Res.ok_bind, getn32_octets, Res.ok_bind, h4, h6]
      rw [Res.ok.injEq, Bool.eq_iff_iff, Bool.and_eq_true, decide_eq_true_iff, decide_eq_true_iff,
        decide_eq_true_iff, Covers, blk_iff]

/-- what the IPv6 test computes: the last address of a block shorter than /128 is left out -/
theorem inSubnetV6 {s : BgpAddrV6} (h0 : 0 < s.prefixlen.toNat) (h : s.prefixlen.toNat ≤ 128) (ip : IPv6) :
    s.inSubnet ip = .ok (decide (Covers 128 s.addr.toNat s.prefixlen.toNat ip.toNat ∧
      (s.prefixlen.toNat = 128 ∨ ip.toNat ≠ blkLast (128 - s.prefixlen.toNat) s.addr.toNat))) := by
  unfold BgpAddrV6.inSubnet
  have hlt := s.addr.isLt
  split
  · simp only [getn128_octets, Res.ok_bind, Res.ok.injEq]
    rw [Bool.eq_iff_iff, beq_iff_eq, decide_eq_true_iff]
    unfold Covers
    rw [show 128 - s.prefixlen.toNat = 0 by omega, ← BitVec.toNat_inj]
    simp only [Nat.pow_zero, Nat.div_one]
    constructor
    · intro e; exact ⟨e.symm, .inl (by omega)⟩
    · intro e; exact e.1.symm
  · obtain ⟨m, h1, h2⟩ := hostMaskV6 (a := s) (by omega) h
    obtain ⟨v, h3, h4⟩ := normV6 (a := s) (by omega) h
    obtain ⟨r, h5, h6⟩ := add_last (w := 128) (by omega) hlt v m h4 h2
    rw [h3, Res.ok_bind, h1, Res.ok_bind, h5, Res.ok_bind, getn128_octets, Res.ok_bind, h4, h6]
    rw [Res.ok.injEq, Bool.eq_iff_iff, Bool.and_eq_true, decide_eq_true_iff, decide_eq_true_iff,
      decide_eq_true_iff, Covers, blk_iff]
    omega

/-- membership of both ends of a block is inclusion of the block -/
theorem ends_covered {w ha hb a b : Nat} (hwa : ha ≤ w) (hwb : hb ≤ w) (hb' : b < 2 ^ w) (hab : hb ≤ ha) :
    (blkFirst hb b / 2 ^ ha = a / 2 ^ ha ∧ blkLast hb b / 2 ^ ha = a / 2 ^ ha) ↔
      (∀ ip, ip < 2 ^ w → ip / 2 ^ hb = b / 2 ^ hb → ip / 2 ^ ha = a / 2 ^ ha) := by
  rw [blk_subset hwa hwb hb']
  obtain ⟨k, rfl⟩ := Nat.exists_eq_add_of_le hab
  have e1 : blkFirst hb b / 2 ^ (hb + k) = b / 2 ^ (hb + k) := by
    rw [Nat.pow_add, ← Nat.div_div_eq_div_mul, ← Nat.div_div_eq_div_mul, blk_covers_first]
  have e2 : blkLast hb b / 2 ^ (hb + k) = b / 2 ^ (hb + k) := by
    rw [Nat.pow_add, ← Nat.div_div_eq_div_mul, ← Nat.div_div_eq_div_mul, blk_covers_last]
  rw [e1, e2]
  simp

end Zbgp
