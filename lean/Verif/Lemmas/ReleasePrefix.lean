import Verif.Lemmas.ReleaseMsg
import Verif.Lemmas.Prefix
import Verif.Spec.Release

/-! # Host masks without overflow checks -/

namespace Zbgp

open Spec

theorem mask_release {w h : Nat} (hh : h < w) : ((1 : BitVec w) <<< h - 1).toNat = 2 ^ h - 1 := by
  obtain ⟨m, h1, h2⟩ := mask_ok hh
  have hp : 0 < 2 ^ h := Nat.two_pow_pos h
  have e : (do let m ← shlC (1 : BitVec w) h; subC m 1) = .ok ((1 : BitVec w) <<< h - 1) := by
    rw [shlC, if_pos hh, Res.ok_bind, subC_ok]
    have h3 : (1 : BitVec w).toNat = 1 := by
      show (BitVec.ofNat w 1).toNat = 1
      rw [BitVec.toNat_ofNat, Nat.mod_eq_of_lt (Nat.one_lt_two_pow (by omega))]
    rw [h3, shl_one_toNat hh]; exact hp
  rw [e] at h1
  cases h1
  exact h2

theorem effective_lt (w p : Nat) (hw : 0 < w) : w - effectiveLen w p < w ∧
    w - effectiveLen w p = (w + 256 - p) % 256 % w := by
  unfold effectiveLen
  have := Nat.mod_lt ((w + 256 - p) % 256) hw
  omega

theorem hostMaskV4_release (a : BgpAddrV4) :
    ∃ m, a.hostMaskIn .release = .ok m ∧ m.toNat = 2 ^ (32 - effectiveLen 32 a.prefixlen.toNat) - 1 := by
  refine ⟨_, rfl, ?_⟩
  have e : (32 - a.prefixlen : U8).toNat = (32 + 256 - a.prefixlen.toNat) % 256 := by
    have := a.prefixlen.isLt
    rw [BitVec.toNat_sub, show (32 : U8).toNat = 32 from rfl]; omega
  obtain ⟨h1, h2⟩ := effective_lt 32 a.prefixlen.toNat (by omega)
  rw [e, ← h2]
  exact mask_release h1

theorem hostMaskV6_release (a : BgpAddrV6) :
    ∃ m, a.hostMaskIn .release = .ok m ∧ m.toNat = 2 ^ (128 - effectiveLen 128 a.prefixlen.toNat) - 1 := by
  refine ⟨_, rfl, ?_⟩
  have e : (128 - a.prefixlen : U8).toNat = (128 + 256 - a.prefixlen.toNat) % 256 := by
    have := a.prefixlen.isLt
    rw [BitVec.toNat_sub, show (128 : U8).toNat = 128 from rfl]; omega
  obtain ⟨h1, h2⟩ := effective_lt 128 a.prefixlen.toNat (by omega)
  rw [e, ← h2]
  exact mask_release h1

theorem normV4_release (a : BgpAddrV4) :
    ∃ v, a.normSubnetIn .release = .ok v ∧
      v.toNat = blkFirst (32 - effectiveLen 32 a.prefixlen.toNat) a.addr.toNat := by
  obtain ⟨m, h1, h2⟩ := hostMaskV4_release a
  refine ⟨_, by rw [BgpAddrV4.normSubnetIn, getn32_octets, Res.ok_bind, h1]; rfl, ?_⟩
  exact and_xor_mask (k := 32) (by omega) _ _ _ h2 rfl a.addr.isLt

theorem normV6_release (a : BgpAddrV6) :
    ∃ v, a.normSubnetIn .release = .ok v ∧
      v.toNat = blkFirst (128 - effectiveLen 128 a.prefixlen.toNat) a.addr.toNat := by
  obtain ⟨m, h1, h2⟩ := hostMaskV6_release a
  refine ⟨_, by rw [BgpAddrV6.normSubnetIn, getn128_octets, Res.ok_bind, h1]; rfl, ?_⟩
  exact and_xor_mask (k := 128) (by omega) _ _ _ h2 rfl a.addr.isLt

theorem rangeFirstV4_release (a : BgpAddrV4) :
    ∃ v, a.rangeFirstIn .release = .ok v ∧
      v.toNat = blkFirst (32 - effectiveLen 32 a.prefixlen.toNat) a.addr.toNat := by
  obtain ⟨v, h1, h2⟩ := normV4_release a
  exact ⟨v, by rw [BgpAddrV4.rangeFirstIn, h1, Res.ok_bind, ofU32_eq], h2⟩

theorem rangeFirstV6_release (a : BgpAddrV6) :
    ∃ v, a.rangeFirstIn .release = .ok v ∧
      v.toNat = blkFirst (128 - effectiveLen 128 a.prefixlen.toNat) a.addr.toNat := by
  obtain ⟨v, h1, h2⟩ := normV6_release a
  exact ⟨v, by rw [BgpAddrV6.rangeFirstIn, h1, Res.ok_bind, ofU128_eq], h2⟩

/-! ## Every containment function returns -/

theorem inSubnetV4_release (s : BgpAddrV4) (a : IPv4) : ∃ r, s.inSubnetIn .release a = .ok r := by
  unfold BgpAddrV4.inSubnetIn
  split
  · exact ⟨_, rfl⟩
  split
  · rw [getn32_octets, getn32_octets]; exact ⟨_, rfl⟩
  · obtain ⟨v, h1, -⟩ := normV4_release s
    obtain ⟨m, h2, -⟩ := hostMaskV4_release s
    rw [h1, h2, getn32_octets]; exact ⟨_, rfl⟩

theorem rangeLastV4_release (s : BgpAddrV4) : ∃ r, s.rangeLastIn .release = .ok r := by
  unfold BgpAddrV4.rangeLastIn
  split
  · exact ⟨_, rfl⟩
  split
  · obtain ⟨v, h1, -⟩ := rangeFirstV4_release s; exact ⟨v, h1⟩
  · obtain ⟨v, h1, -⟩ := normV4_release s
    obtain ⟨m, h2, -⟩ := hostMaskV4_release s
    rw [h1, h2]; exact ⟨_, rfl⟩

theorem containsV4_release (s a : BgpAddrV4) : ∃ r, s.containsIn .release a = .ok r := by
  unfold BgpAddrV4.containsIn
  split
  · exact ⟨_, rfl⟩
  split
  · exact ⟨_, rfl⟩
  split
  · exact ⟨_, rfl⟩
  · obtain ⟨f, h1, -⟩ := rangeFirstV4_release a
    obtain ⟨l, h2⟩ := rangeLastV4_release a
    obtain ⟨r, h3⟩ := inSubnetV4_release s f
    obtain ⟨r2, h4⟩ := inSubnetV4_release s l
    rw [h1, Res.ok_bind, h3, Res.ok_bind]
    cases r
    · exact ⟨_, rfl⟩
    · simp only [if_true]; rw [h2, Res.ok_bind, h4]; exact ⟨_, rfl⟩

theorem inSubnetV6_release (s : BgpAddrV6) (a : IPv6) : ∃ r, s.inSubnetIn .release a = .ok r := by
  unfold BgpAddrV6.inSubnetIn
  split
  · rw [getn128_octets, getn128_octets]; exact ⟨_, rfl⟩
  · obtain ⟨v, h1, -⟩ := normV6_release s
    obtain ⟨m, h2, -⟩ := hostMaskV6_release s
    rw [h1, h2, getn128_octets]; exact ⟨_, rfl⟩

theorem rangeLastV6_release (s : BgpAddrV6) : ∃ r, s.rangeLastIn .release = .ok r := by
  unfold BgpAddrV6.rangeLastIn
  split
  · exact ⟨_, rfl⟩
  split
  · obtain ⟨v, h1, -⟩ := rangeFirstV6_release s; exact ⟨v, h1⟩
  · obtain ⟨v, h1, -⟩ := normV6_release s
    obtain ⟨m, h2, -⟩ := hostMaskV6_release s
    rw [h1, h2]; exact ⟨_, rfl⟩

theorem containsV6_release (s a : BgpAddrV6) : ∃ r, s.containsIn .release a = .ok r := by
  unfold BgpAddrV6.containsIn
  split
  · exact ⟨_, rfl⟩
  split
  · exact ⟨_, rfl⟩
  split
  · exact ⟨_, rfl⟩
  · obtain ⟨m, h2, -⟩ := hostMaskV6_release s
    rw [getn128_octets, getn128_octets, h2]; exact ⟨_, rfl⟩

theorem normMac_release (s : BgpAddrMac) : ∃ r, s.normSubnetIn .release = .ok r := ⟨_, rfl⟩
theorem rangeFirstMac_release (s : BgpAddrMac) : ∃ r, s.rangeFirstIn .release = .ok r := ⟨_, rfl⟩

theorem inSubnetMac_release (s : BgpAddrMac) (a : MacAddress) : ∃ r, s.inSubnetIn .release a = .ok r := by
  unfold BgpAddrMac.inSubnetIn
  split
  · exact ⟨_, rfl⟩
  split <;> exact ⟨_, rfl⟩

theorem rangeLastMac_release (s : BgpAddrMac) : ∃ r, s.rangeLastIn .release = .ok r := by
  unfold BgpAddrMac.rangeLastIn
  split
  · exact ⟨_, rfl⟩
  split <;> exact ⟨_, rfl⟩

theorem containsMac_release (s a : BgpAddrMac) : ∃ r, s.containsIn .release a = .ok r := by
  unfold BgpAddrMac.containsIn
  split
  · exact ⟨_, rfl⟩
  split
  · exact ⟨_, rfl⟩
  split
  · exact ⟨_, rfl⟩
  · obtain ⟨f, h1⟩ := rangeFirstMac_release a
    obtain ⟨l, h2⟩ := rangeLastMac_release a
    obtain ⟨r, h3⟩ := inSubnetMac_release s f
    obtain ⟨r2, h4⟩ := inSubnetMac_release s l
    rw [h1, Res.ok_bind, h3, Res.ok_bind]
    cases r
    · exact ⟨_, rfl⟩
    · simp only [if_true]; rw [h2, Res.ok_bind, h4]; exact ⟨_, rfl⟩

end Zbgp
