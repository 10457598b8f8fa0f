import Verif.Props.Prefix

/-!
# C17, C18, C19, C20: prefix questions for every value, also with lengths that are out of range

`BgpAddrV4::new`, `BgpAddrV6::new`, the fields and the text parsers take every octet as prefix length.
-/

namespace Zbgp.Props

open Zbgp Spec

/-- The answer `contains` gives for `a/pa` and `b/pb`, if it gives one: the leading bits agree; prefixes of the same length are
compared with their host bits. -/
def ContainsSays (w a pa b pb : Nat) : Prop := pa = 0 ∨ pa < pb ∧ Covers w a pa b ∨ pa = pb ∧ a = b

instance (w a pa b pb : Nat) : Decidable (ContainsSays w a pa b pb) := inferInstanceAs (Decidable (_ ∨ _))

theorem subC_underflow {a b : U8} (h : a.toNat < b.toNat) : subC a b = .panic := by
  unfold subC
  rw [if_neg (by omega)]

/-- **C17, exactly**, for all IPv4 prefixes and lengths 0 to 255: the program stops if the other prefix has an impossible length
that is larger than the own one, and else answers as `ContainsSays`. -/
theorem C17_contains_exactly (s a : BgpAddrV4) :
    s.contains a = if 0 < s.prefixlen.toNat ∧ s.prefixlen.toNat < a.prefixlen.toNat ∧ 32 < a.prefixlen.toNat then .panic
      else .ok (decide (ContainsSays 32 s.addr.toNat s.prefixlen.toNat a.addr.toNat a.prefixlen.toNat)) := by
  classical
  have hlt := a.addr.isLt
  by_cases h0 : s.prefixlen.toNat = 0
  · rw [if_neg (by omega)]
    unfold BgpAddrV4.contains
    rw [if_pos (by omega)]
    simp [h0, ContainsSays]
  by_cases h1 : a.prefixlen.toNat < s.prefixlen.toNat
  · rw [if_neg (by omega)]
    unfold BgpAddrV4.contains
    rw [if_neg (by omega), if_pos (by omega)]
    congr 1
    symm
    rw [decide_eq_false_iff_not]
    unfold ContainsSays
    omega
  by_cases h2 : s.prefixlen.toNat = a.prefixlen.toNat
  · rw [if_neg (by omega), containsV4_same (by omega) (BitVec.eq_of_toNat_eq h2)]
    congr 1
    rw [Bool.eq_iff_iff, beq_iff_eq, decide_eq_true_iff, ← BitVec.toNat_inj]
    unfold ContainsSays
    omega
  by_cases h3 : 32 < a.prefixlen.toNat
  · rw [if_pos (by omega)]
    unfold BgpAddrV4.contains
    rw [if_neg (by omega), if_neg (by omega), if_neg (by omega)]
    have : a.rangeFirst = .panic := by
      unfold BgpAddrV4.rangeFirst BgpAddrV4.normSubnet BgpAddrV4.hostMask
      rw [getn32_octets, subC_underflow (by simpa using h3)]
      rfl
    rw [this]
    rfl
  · rw [if_neg (by omega), containsV4_eq (by omega) (by omega) (.inl fun h => h2 (by rw [h]))]
    congr 1
    rw [decide_eq_decide, included_iff (by omega) (by omega) hlt]
    unfold ContainsSays
    constructor
    · rintro ⟨h, hc⟩; exact .inr (.inl ⟨by omega, hc⟩)
    · rintro (h | ⟨h, hc⟩ | ⟨h, hc⟩)
      · omega
      · exact ⟨by omega, hc⟩
      · omega

/-- **C18, exactly**, for all IPv6 prefixes and lengths 0 to 255: the program stops if both have impossible lengths and the other
one is longer. -/
theorem C18_contains_exactly (s a : BgpAddrV6) :
    s.contains a = if 128 < s.prefixlen.toNat ∧ s.prefixlen.toNat < a.prefixlen.toNat then .panic
      else .ok (decide (ContainsSays 128 s.addr.toNat s.prefixlen.toNat a.addr.toNat a.prefixlen.toNat)) := by
  classical
  have hlt := a.addr.isLt
  by_cases h0 : s.prefixlen.toNat = 0
  · rw [if_neg (by omega)]
    unfold BgpAddrV6.contains
    rw [if_pos (by omega)]
    simp [h0, ContainsSays]
  by_cases h1 : a.prefixlen.toNat < s.prefixlen.toNat
  · rw [if_neg (by omega)]
    unfold BgpAddrV6.contains
    rw [if_neg (by omega), if_pos (by omega)]
    congr 1
    symm
    rw [decide_eq_false_iff_not]
    unfold ContainsSays
    omega
  by_cases h2 : s.prefixlen.toNat = a.prefixlen.toNat
  · rw [if_neg (by omega), containsV6_same (by omega) (BitVec.eq_of_toNat_eq h2)]
    congr 1
    rw [Bool.eq_iff_iff, beq_iff_eq, decide_eq_true_iff, ← BitVec.toNat_inj]
    unfold ContainsSays
    omega
  unfold BgpAddrV6.contains
  rw [if_neg (by omega), if_neg (by omega), if_neg (by omega)]
  by_cases h3 : 128 < s.prefixlen.toNat
  · rw [if_pos (by omega)]
    have : s.hostMask = .panic := by
      unfold BgpAddrV6.hostMask
      rw [subC_underflow (by simpa using h3)]
      rfl
    rw [getn128_octets, this]
    rfl
  · rw [if_neg (by omega)]
    obtain ⟨m, g1, g2⟩ := hostMaskV6 (a := s) (by omega) (by omega)
    rw [getn128_octets, getn128_octets, g1]
    simp only [Res.ok_bind, Res.ok.injEq]
    rw [Bool.eq_iff_iff, beq_iff_eq, decide_eq_true_iff, ← BitVec.toNat_inj,
      and_not_mask (by omega) _ _ g2, and_not_mask (by omega) _ _ g2]
    unfold blkFirst ContainsSays Covers
    have hp : 0 < 2 ^ (128 - s.prefixlen.toNat) := Nat.two_pow_pos _
    constructor
    · intro h; exact .inr (.inl ⟨by omega, (Nat.eq_of_mul_eq_mul_right hp h).symm⟩)
    · rintro (h | ⟨h, hc⟩ | ⟨h, hc⟩)
      · omega
      · rw [hc]
      · omega

/-- **C20, exactly**, for all MAC prefixes and lengths 0 to 255. -/
theorem C20_mac_contains_exactly (s a : BgpAddrMac) :
    s.contains a = if 0 < s.prefixlen.toNat ∧ s.prefixlen.toNat < a.prefixlen.toNat ∧ 48 < a.prefixlen.toNat then .panic
      else .ok (decide (ContainsSays 48 s.addr.toU64.toNat s.prefixlen.toNat a.addr.toU64.toNat a.prefixlen.toNat)) := by
  classical
  have hlt := toU64_lt a.addr
  by_cases h0 : s.prefixlen.toNat = 0
  · rw [if_neg (by omega)]
    unfold BgpAddrMac.contains
    rw [if_pos (by omega)]
    simp [h0, ContainsSays]
  by_cases h1 : a.prefixlen.toNat < s.prefixlen.toNat
  · rw [if_neg (by omega)]
    unfold BgpAddrMac.contains
    rw [if_neg (by omega), if_pos (by omega)]
    congr 1
    symm
    rw [decide_eq_false_iff_not]
    unfold ContainsSays
    omega
  by_cases h2 : s.prefixlen.toNat = a.prefixlen.toNat
  · rw [if_neg (by omega), containsMac_same (by omega) (BitVec.eq_of_toNat_eq h2)]
    congr 1
    rw [Bool.eq_iff_iff, beq_iff_eq, decide_eq_true_iff]
    unfold ContainsSays
    constructor
    · rintro h; rw [h]; exact .inr (.inr ⟨h2, rfl⟩)
    · rintro (h | ⟨h, hc⟩ | ⟨h, hc⟩)
      · omega
      · omega
      · exact toU64_inj (BitVec.eq_of_toNat_eq hc)
  by_cases h3 : 48 < a.prefixlen.toNat
  · rw [if_pos (by omega)]
    unfold BgpAddrMac.contains
    rw [if_neg (by omega), if_neg (by omega), if_neg (by omega)]
    have : a.rangeFirst = .panic := by
      unfold BgpAddrMac.rangeFirst BgpAddrMac.normSubnet BgpAddrMac.hostMask
      rw [subC_underflow (by simpa using h3)]
      rfl
    rw [this]
    rfl
  · rw [if_neg (by omega), containsMac_eq (by omega) (by omega) (.inl fun h => h2 (by rw [h]))]
    congr 1
    rw [decide_eq_decide, included_iff (by omega) (by omega) hlt]
    unfold ContainsSays
    constructor
    · rintro ⟨h, hc⟩; exact .inr (.inl ⟨by omega, hc⟩)
    · rintro (h | ⟨h, hc⟩ | ⟨h, hc⟩)
      · omega
      · exact ⟨by omega, hc⟩
      · omega

/-- **C17, what is wrong with it**: for lengths in range, `contains` says no although every address of the other prefix is covered
exactly for two prefixes of the same length, not 0, that differ in their host bits only. It never says yes wrongly
(`C17_contains_sound`). -/
theorem C17_wrong_exactly (s a : BgpAddrV4) (hs : s.prefixlen.toNat ≤ 32) (ha : a.prefixlen.toNat ≤ 32) :
    (Included 32 s.addr.toNat s.prefixlen.toNat a.addr.toNat a.prefixlen.toNat ∧ s.contains a = .ok false) ↔
      s.prefixlen = a.prefixlen ∧ 0 < s.prefixlen.toNat ∧ s.addr ≠ a.addr ∧
        Covers 32 s.addr.toNat s.prefixlen.toNat a.addr.toNat := by
  rw [C17_contains_exactly, if_neg (by omega), Res.ok.injEq, decide_eq_false_iff_not, included_iff hs ha a.addr.isLt,
    ← BitVec.toNat_inj, Ne, ← BitVec.toNat_inj]
  unfold ContainsSays
  constructor
  · rintro ⟨⟨h1, h2⟩, h3⟩
    refine ⟨?_, ?_, ?_, h2⟩
    · by_contra hne
      exact h3 (.inr (.inl ⟨by omega, h2⟩))
    · by_contra hz
      exact h3 (.inl (by omega))
    · intro he
      by_cases hne : s.prefixlen.toNat = a.prefixlen.toNat
      · exact h3 (.inr (.inr ⟨hne, he⟩))
      · exact h3 (.inr (.inl ⟨by omega, h2⟩))
  · rintro ⟨h1, h2, h3, h4⟩
    refine ⟨⟨by omega, h4⟩, ?_⟩
    rintro (h | ⟨h, -⟩ | ⟨-, h⟩)
    · omega
    · omega
    · exact h3 h

/-- **C18, what is wrong with it**: as for IPv4. -/
theorem C18_wrong_exactly (s a : BgpAddrV6) (hs : s.prefixlen.toNat ≤ 128) (ha : a.prefixlen.toNat ≤ 128) :
    (Included 128 s.addr.toNat s.prefixlen.toNat a.addr.toNat a.prefixlen.toNat ∧ s.contains a = .ok false) ↔
      s.prefixlen = a.prefixlen ∧ 0 < s.prefixlen.toNat ∧ s.addr ≠ a.addr ∧
        Covers 128 s.addr.toNat s.prefixlen.toNat a.addr.toNat := by
  rw [C18_contains_exactly, if_neg (by omega), Res.ok.injEq, decide_eq_false_iff_not, included_iff hs ha a.addr.isLt,
    ← BitVec.toNat_inj, Ne, ← BitVec.toNat_inj]
  unfold ContainsSays
  constructor
  · rintro ⟨⟨h1, h2⟩, h3⟩
    refine ⟨?_, ?_, ?_, h2⟩
    · by_contra hne
      exact h3 (.inr (.inl ⟨by omega, h2⟩))
    · by_contra hz
      exact h3 (.inl (by omega))
    · intro he
      by_cases hne : s.prefixlen.toNat = a.prefixlen.toNat
      · exact h3 (.inr (.inr ⟨hne, he⟩))
      · exact h3 (.inr (.inl ⟨by omega, h2⟩))
  · rintro ⟨h1, h2, h3, h4⟩
    refine ⟨⟨by omega, h4⟩, ?_⟩
    rintro (h | ⟨h, -⟩ | ⟨-, h⟩)
    · omega
    · omega
    · exact h3 h

/-- **C19, lengths out of range.** Prefixes with an impossible length: asking for the first or last address stops the program;
asking whether an address is in the prefix compares it with the address of the prefix. -/
theorem C19_impossible_lengths (s : BgpAddrV4) (t : BgpAddrV6) (hs : 32 < s.prefixlen.toNat) (ht : 128 < t.prefixlen.toNat) :
    s.rangeFirst = .panic ∧ s.rangeLast = .panic ∧ (∀ ip, s.inSubnet ip = .ok (decide (s.addr = ip))) ∧
    t.rangeFirst = .panic ∧ t.rangeLast = .panic ∧ (∀ ip, t.inSubnet ip = .ok (decide (t.addr = ip))) := by
  have h1 : s.rangeFirst = .panic := by
    unfold BgpAddrV4.rangeFirst BgpAddrV4.normSubnet BgpAddrV4.hostMask
    rw [getn32_octets, subC_underflow (by simpa using hs)]
    rfl
  have h2 : t.rangeFirst = .panic := by
    unfold BgpAddrV6.rangeFirst BgpAddrV6.normSubnet BgpAddrV6.hostMask
    rw [getn128_octets, subC_underflow (by simpa using ht)]
    rfl
  refine ⟨h1, ?_, fun ip => ?_, h2, ?_, fun ip => ?_⟩
  · unfold BgpAddrV4.rangeLast
    rw [if_neg (by omega), if_pos (by omega), h1]
  · unfold BgpAddrV4.inSubnet
    rw [if_neg (by omega), if_pos (by omega), getn32_octets, getn32_octets]
    rfl
  · unfold BgpAddrV6.rangeLast
    rw [if_neg (by omega), if_pos (by omega), h2]
  · unfold BgpAddrV6.inSubnet
    rw [if_pos (by omega), getn128_octets, getn128_octets]
    rfl

/-- 10.0.0.0/8 asked for 10.1.2.3/33 stops; 10.0.0.1/8 does not contain 10.0.0.2/8 -/
example : (⟨0x0a000000, 8⟩ : BgpAddrV4).contains ⟨0x0a010203, 33⟩ = .panic ∧
    (⟨0x0a000001, 8⟩ : BgpAddrV4).contains ⟨0x0a000002, 8⟩ = .ok false ∧
    Covers 32 0x0a000001 8 0x0a000002 := by decide

end Zbgp.Props
