import Verif.Lemmas.Prefix

/-! # MAC addresses; containment -/

namespace Zbgp

open Spec

/-- the octets in network order -/
def macNet (m : MacAddress) : Bytes := [m.m5, m.m4, m.m3, m.m2, m.m1, m.m0]

theorem or_shl64 (x y : U64) (k : Nat) (hx : x.toNat * 2 ^ k < 2 ^ 64) (hy : y.toNat < 2 ^ k) :
    ((x <<< k) ||| y).toNat = x.toNat * 2 ^ k + y.toNat := toNat_shl_or x y k hx hy

theorem toU64_toNat (m : MacAddress) : m.toU64.toNat = unbe (macNet m) := by
  have h0 := m.m0.isLt; have h1 := m.m1.isLt; have h2 := m.m2.isLt
  have h3 := m.m3.isLt; have h4 := m.m4.isLt; have h5 := m.m5.isLt
  have e : ∀ x : U8, (x.setWidth 64).toNat = x.toNat := by
    intro x; have := x.isLt; rw [BitVec.toNat_setWidth, Nat.mod_eq_of_lt (by omega)]
  have r : m.toU64 = (m.m5.setWidth 64 <<< 40) ||| ((m.m4.setWidth 64 <<< 32) ||| ((m.m3.setWidth 64 <<< 24) |||
      ((m.m2.setWidth 64 <<< 16) ||| ((m.m1.setWidth 64 <<< 8) ||| m.m0.setWidth 64)))) := by
    unfold MacAddress.toU64; simp only [BitVec.or_assoc]
  have a1 := or_shl64 (m.m1.setWidth 64) (m.m0.setWidth 64) 8 (by rw [e]; omega) (by rw [e]; omega)
  have a2 := or_shl64 (m.m2.setWidth 64) _ 16 (by rw [e]; omega) (by rw [a1, e, e]; omega)
  have a3 := or_shl64 (m.m3.setWidth 64) _ 24 (by rw [e]; omega) (by rw [a2, a1, e, e, e]; omega)
  have a4 := or_shl64 (m.m4.setWidth 64) _ 32 (by rw [e]; omega) (by rw [a3, a2, a1, e, e, e, e]; omega)
  have a5 := or_shl64 (m.m5.setWidth 64) _ 40 (by rw [e]; omega) (by rw [a4, a3, a2, a1, e, e, e, e, e]; omega)
  rw [r, a5, a4, a3, a2, a1, e, e, e, e, e, e]
  simp only [macNet, unbe, List.foldl]
  omega

theorem toU64_lt (m : MacAddress) : m.toU64.toNat < 2 ^ 48 := by
  rw [toU64_toNat]
  have := unbe_lt (macNet m)
  rwa [show (macNet m).length = 6 from rfl, show 256 ^ 6 = 2 ^ 48 by norm_num] at this

theorem macNet_fromU64 (s : U64) : macNet (.fromU64 s) = be 6 s.toNat := by
  have h : ∀ k, ((s >>> k) &&& 0xff).setWidth 8 = BitVec.ofNat 8 (s.toNat / 2 ^ k) := by
    intro k
    apply BitVec.eq_of_toNat_eq
    simp only [BitVec.toNat_setWidth, BitVec.toNat_and, BitVec.toNat_ushiftRight, Nat.shiftRight_eq_div_pow,
      BitVec.toNat_ofNat]
    rw [show (255 : U64).toNat = 2 ^ 8 - 1 from rfl, Nat.and_two_pow_sub_one_eq_mod]; omega
  have h0 : (s &&& 0xff).setWidth 8 = BitVec.ofNat 8 s.toNat := by
    have := h 0
    simpa using this
  simp only [macNet, MacAddress.fromU64, h, h0, be, Nat.pow_zero, Nat.div_one]
  rfl

theorem macNet_inj {a b : MacAddress} (h : macNet a = macNet b) : a = b := by
  cases a; cases b; simp only [macNet, List.cons.injEq, and_true] at h
  simp only [MacAddress.mk.injEq]; tauto

theorem fromU64_toU64 (m : MacAddress) : MacAddress.fromU64 m.toU64 = m := by
  apply macNet_inj
  rw [macNet_fromU64, toU64_toNat]
  exact be_unbe (macNet m)

theorem toU64_fromU64 (s : U64) : (MacAddress.fromU64 s).toU64.toNat = s.toNat % 2 ^ 48 := by
  rw [toU64_toNat, macNet_fromU64, unbe_be, show 256 ^ 6 = 2 ^ 48 by norm_num]

theorem toU64_inj {a b : MacAddress} (h : a.toU64 = b.toU64) : a = b := by
  rw [← fromU64_toU64 a, ← fromU64_toU64 b, h]

theorem normMac {a : BgpAddrMac} (h : a.prefixlen.toNat ≤ 48) :
    ∃ v, a.normSubnet = .ok v ∧ v.toNat = blkFirst (48 - a.prefixlen.toNat) a.addr.toU64.toNat := by
  obtain ⟨m, h1, h2⟩ := hostMaskMac h
  refine ⟨_, by rw [BgpAddrMac.normSubnet, h1]; rfl, ?_⟩
  exact and_xor_mask (k := 48) (by omega) _ _ _ h2 rfl (toU64_lt _)

theorem add_last48 {h a : Nat} (hh : h ≤ 48) (ha : a < 2 ^ 48) (v m : U64)
    (hv : v.toNat = blkFirst h a) (hm : m.toNat = 2 ^ h - 1) :
    ∃ r, addC v m = .ok r ∧ r.toNat = blkLast h a :=
  add_last (w := 64) (by omega) (by omega) v m hv hm

theorem toU64_fromU64_of_lt {s : U64} (h : s.toNat < 2 ^ 48) : (MacAddress.fromU64 s).toU64.toNat = s.toNat := by
  rw [toU64_fromU64, Nat.mod_eq_of_lt h]

theorem rangeFirstMac {a : BgpAddrMac} (h : a.prefixlen.toNat ≤ 48) :
    ∃ v, a.rangeFirst = .ok v ∧ v.toU64.toNat = blkFirst (48 - a.prefixlen.toNat) a.addr.toU64.toNat := by
  obtain ⟨v, h1, h2⟩ := normMac h
  refine ⟨.fromU64 v, by rw [BgpAddrMac.rangeFirst, h1]; rfl, ?_⟩
  have := blkFirst_le (48 - a.prefixlen.toNat) a.addr.toU64.toNat
  have := toU64_lt a.addr
  rw [toU64_fromU64_of_lt (by omega), h2]

theorem rangeLastMac {a : BgpAddrMac} (h : a.prefixlen.toNat ≤ 48) :
    ∃ v, a.rangeLast = .ok v ∧ v.toU64.toNat = blkLast (48 - a.prefixlen.toNat) a.addr.toU64.toNat := by
  unfold BgpAddrMac.rangeLast
  have hlt := toU64_lt a.addr
  split
  · rename_i h0
    refine ⟨_, rfl, ?_⟩
    rw [show 48 - a.prefixlen.toNat = 48 by omega, blkLast, Nat.div_eq_of_lt hlt, toU64_fromU64]; rfl
  · split
    · obtain ⟨v, h1, h2⟩ := rangeFirstMac (a := a) h
      refine ⟨v, h1, ?_⟩
      rw [h2, show 48 - a.prefixlen.toNat = 0 by omega]; simp [blkFirst, blkLast]
    · obtain ⟨m, h1, h2⟩ := hostMaskMac (a := a) h
      obtain ⟨v, h3, h4⟩ := normMac (a := a) h
      obtain ⟨r, h5, h6⟩ := add_last48 (by omega) hlt v m h4 h2
      refine ⟨.fromU64 r, by rw [h3, Res.ok_bind, h1, Res.ok_bind, h5, Res.ok_bind], ?_⟩
      have := blkLast_lt (w := 48) (h := 48 - a.prefixlen.toNat) (by omega) hlt
      rw [toU64_fromU64_of_lt (by omega), h6]

theorem inSubnetMac {s : BgpAddrMac} (h : s.prefixlen.toNat ≤ 48) (ip : MacAddress) :
    s.inSubnet ip = .ok (decide (Covers 48 s.addr.toU64.toNat s.prefixlen.toNat ip.toU64.toNat)) := by
  unfold BgpAddrMac.inSubnet
  have hlt := toU64_lt s.addr
  have hlt2 := toU64_lt ip
  split
  · rename_i h0
    have : Covers 48 s.addr.toU64.toNat s.prefixlen.toNat ip.toU64.toNat := by
      unfold Covers
      rw [h0, Nat.div_eq_of_lt hlt, Nat.div_eq_of_lt hlt2]
    simp [this]
  · split
    · simp only [Res.ok.injEq]
      rw [Bool.eq_iff_iff, beq_iff_eq, decide_eq_true_iff]
      unfold Covers
      rw [show 48 - s.prefixlen.toNat = 0 by omega, ← BitVec.toNat_inj]
      simp only [Nat.pow_zero, Nat.div_one]
      exact eq_comm
    · obtain ⟨m, h1, h2⟩ := hostMaskMac (a := s) h
      obtain ⟨v, h3, h4⟩ := normMac (a := s) h
      obtain ⟨r, h5, h6⟩ := add_last48 (by omega) hlt v m h4 h2
      rw [h3, Res.ok_bind, h1, Res.ok_bind, h5, Res.ok_bind, h4, h6]
      rw [Res.ok.injEq, Bool.eq_iff_iff, Bool.and_eq_true, decide_eq_true_iff, decide_eq_true_iff,
        decide_eq_true_iff, Covers, blk_iff]

/-! ## Containment -/

theorem included_iff {w a pa b pb : Nat} (hpa : pa ≤ w) (hpb : pb ≤ w) (hb : b < 2 ^ w) :
    Included w a pa b pb ↔ pa ≤ pb ∧ Covers w a pa b := by
  unfold Included Covers
  rw [blk_subset (by omega) (by omega) hb]
  constructor
  · rintro ⟨h1, h2⟩; exact ⟨by omega, h2⟩
  · rintro ⟨h1, h2⟩; exact ⟨by omega, h2⟩

theorem included_zero {w a b pb : Nat} (ha : a < 2 ^ w) : Included w a 0 b pb := by
  intro ip hip _
  unfold Covers
  rw [Nat.sub_zero, Nat.div_eq_of_lt ha, Nat.div_eq_of_lt hip]

theorem networkForm_eq {w a b p : Nat} (ha : NetworkForm w a p) (hb : NetworkForm w b p) :
    Covers w a p b ↔ a = b := by
  unfold NetworkForm at ha hb
  unfold Covers
  have h1 := Nat.div_add_mod a (2 ^ (w - p))
  have h2 := Nat.div_add_mod b (2 ^ (w - p))
  constructor
  · intro h; rw [← h1, ← h2, ha, hb, h]
  · rintro rfl; rfl

open Classical in
theorem containsV4_eq {s a : BgpAddrV4} (hs : s.prefixlen.toNat ≤ 32) (ha : a.prefixlen.toNat ≤ 32)
    (hn : s.prefixlen ≠ a.prefixlen ∨ s.prefixlen.toNat = 0) :
    s.contains a = .ok (decide (Included 32 s.addr.toNat s.prefixlen.toNat a.addr.toNat a.prefixlen.toNat)) := by
  unfold BgpAddrV4.contains
  have hlt := a.addr.isLt
  split
  · rename_i h0
    rw [show s.prefixlen.toNat = 0 by omega]
    simp [included_zero s.addr.isLt]
  · rename_i h0
    have hne : s.prefixlen.toNat ≠ a.prefixlen.toNat := by
      rcases hn with hn | hn
      · intro h; exact hn (BitVec.eq_of_toNat_eq h)
      · omega
    split
    · have : ¬ Included 32 s.addr.toNat s.prefixlen.toNat a.addr.toNat a.prefixlen.toNat := by
        rw [included_iff hs ha hlt]; omega
      simp [this]
    · obtain ⟨f, h1, h2⟩ := rangeFirstV4 (a := a) (by omega) ha
      obtain ⟨l, h3, h4⟩ := rangeLastV4 (a := a) ha
      rw [h1, Res.ok_bind, inSubnetV4 hs, Res.ok_bind]
      have key := ends_covered (w := 32) (ha := 32 - s.prefixlen.toNat) (hb := 32 - a.prefixlen.toNat)
        (a := s.addr.toNat) (by omega) (by omega) hlt (by omega)
      rw [h3, Res.ok_bind, inSubnetV4 hs, h2, h4]
      have hd : decide (Included 32 s.addr.toNat s.prefixlen.toNat a.addr.toNat a.prefixlen.toNat) =
          (decide (Covers 32 s.addr.toNat s.prefixlen.toNat (blkFirst (32 - a.prefixlen.toNat) a.addr.toNat)) &&
           decide (Covers 32 s.addr.toNat s.prefixlen.toNat (blkLast (32 - a.prefixlen.toNat) a.addr.toNat))) := by
        rw [Bool.eq_iff_iff, Bool.and_eq_true, decide_eq_true_iff, decide_eq_true_iff, decide_eq_true_iff]
        exact key.symm
      rw [hd]
      cases decide (Covers 32 s.addr.toNat s.prefixlen.toNat (blkFirst (32 - a.prefixlen.toNat) a.addr.toNat)) <;> rfl

open Classical in
theorem containsMac_eq {s a : BgpAddrMac} (hs : s.prefixlen.toNat ≤ 48) (ha : a.prefixlen.toNat ≤ 48)
    (hn : s.prefixlen ≠ a.prefixlen ∨ s.prefixlen.toNat = 0) :
    s.contains a = .ok (decide (Included 48 s.addr.toU64.toNat s.prefixlen.toNat a.addr.toU64.toNat
      a.prefixlen.toNat)) := by
  unfold BgpAddrMac.contains
  have hlt := toU64_lt a.addr
  split
  · rename_i h0
    rw [show s.prefixlen.toNat = 0 by omega]
    simp [included_zero (toU64_lt s.addr)]
  · rename_i h0
    have hne : s.prefixlen.toNat ≠ a.prefixlen.toNat := by
      rcases hn with hn | hn
      · intro h; exact hn (BitVec.eq_of_toNat_eq h)
      · omega
    split
    · have : ¬ Included 48 s.addr.toU64.toNat s.prefixlen.toNat a.addr.toU64.toNat a.prefixlen.toNat := by
        rw [included_iff hs ha hlt]; omega
      simp [this]
    · obtain ⟨f, h1, h2⟩ := rangeFirstMac (a := a) ha
      obtain ⟨l, h3, h4⟩ := rangeLastMac (a := a) ha
      rw [h1, Res.ok_bind, inSubnetMac hs, Res.ok_bind]
      have key := ends_covered (w := 48) (ha := 48 - s.prefixlen.toNat) (hb := 48 - a.prefixlen.toNat)
        (a := s.addr.toU64.toNat) (by omega) (by omega) hlt (by omega)
      rw [h3, Res.ok_bind, inSubnetMac hs, h2, h4]
      have hd : decide (Included 48 s.addr.toU64.toNat s.prefixlen.toNat a.addr.toU64.toNat a.prefixlen.toNat) =
          (decide (Covers 48 s.addr.toU64.toNat s.prefixlen.toNat (blkFirst (48 - a.prefixlen.toNat) a.addr.toU64.toNat)) &&
           decide (Covers 48 s.addr.toU64.toNat s.prefixlen.toNat (blkLast (48 - a.prefixlen.toNat) a.addr.toU64.toNat))) := by
        rw [Bool.eq_iff_iff, Bool.and_eq_true, decide_eq_true_iff, decide_eq_true_iff, decide_eq_true_iff]
        exact key.symm
      rw [hd]
      cases decide (Covers 48 s.addr.toU64.toNat s.prefixlen.toNat (blkFirst (48 - a.prefixlen.toNat) a.addr.toU64.toNat)) <;> rfl

open Classical in
theorem containsV6_eq {s a : BgpAddrV6} (hs : s.prefixlen.toNat ≤ 128) (ha : a.prefixlen.toNat ≤ 128)
    (hn : s.prefixlen ≠ a.prefixlen ∨ s.prefixlen.toNat = 0) :
    s.contains a = .ok (decide (Included 128 s.addr.toNat s.prefixlen.toNat a.addr.toNat a.prefixlen.toNat)) := by
  unfold BgpAddrV6.contains
  have hlt := a.addr.isLt
  split
  · rename_i h0
    rw [show s.prefixlen.toNat = 0 by omega]
    simp [included_zero s.addr.isLt]
  · rename_i h0
    have hne : s.prefixlen.toNat ≠ a.prefixlen.toNat := by
      rcases hn with hn | hn
      · intro h; exact hn (BitVec.eq_of_toNat_eq h)
      · omega
    split
    · have : ¬ Included 128 s.addr.toNat s.prefixlen.toNat a.addr.toNat a.prefixlen.toNat := by
        rw [included_iff hs ha hlt]; omega
      simp [this]
    · obtain ⟨m, h1, h2⟩ := hostMaskV6 (a := s) (by omega) hs
      rw [getn128_octets, getn128_octets, h1]
      simp only [Res.ok_bind, Res.ok.injEq]
      rw [Bool.eq_iff_iff, beq_iff_eq, decide_eq_true_iff, included_iff hs ha hlt, ← BitVec.toNat_inj,
        and_not_mask (by omega) _ _ h2, and_not_mask (by omega) _ _ h2]
      unfold blkFirst Covers
      have hp : 0 < 2 ^ (128 - s.prefixlen.toNat) := Nat.two_pow_pos _
      constructor
      · intro h; exact ⟨by omega, (Nat.eq_of_mul_eq_mul_right hp h).symm⟩
      · rintro ⟨_, h⟩; rw [h]

end Zbgp
