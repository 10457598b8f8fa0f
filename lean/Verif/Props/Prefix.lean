import Verif.Lemmas.Mac

/-! # C17-C20, C55, C65: prefixes, MAC addresses, byte-order primitives -/

namespace Zbgp.Props

open Zbgp Spec

/-! ## C17 -/

theorem containsV4_same {s a : BgpAddrV4} (h0 : 0 < s.prefixlen.toNat) (h : s.prefixlen = a.prefixlen) :
    s.contains a = .ok (s.addr == a.addr) := by
  unfold BgpAddrV4.contains
  rw [h] at h0 ⊢
  rw [if_neg (by omega), if_neg (by omega), if_pos rfl]

theorem containsV6_same {s a : BgpAddrV6} (h0 : 0 < s.prefixlen.toNat) (h : s.prefixlen = a.prefixlen) :
    s.contains a = .ok (s.addr == a.addr) := by
  unfold BgpAddrV6.contains
  rw [h] at h0 ⊢
  rw [if_neg (by omega), if_neg (by omega), if_pos rfl]

theorem containsMac_same {s a : BgpAddrMac} (h0 : 0 < s.prefixlen.toNat) (h : s.prefixlen = a.prefixlen) :
    s.contains a = .ok (s.addr == a.addr) := by
  unfold BgpAddrMac.contains
  rw [h] at h0 ⊢
  rw [if_neg (by omega), if_neg (by omega), if_pos rfl]

open Classical in
/-- **C17 (partial).** `contains` of IPv4 prefixes is inclusion of the sets of covered addresses, when the lengths differ,
or the container is 0.0.0.0/0, or both prefixes are in network form. What is missing: two prefixes of the same length
with host bits (`C17_same_length_host_bits`). -/
theorem C17_contains_is_inclusion_partial (s a : BgpAddrV4) (hs : s.prefixlen.toNat ≤ 32)
    (ha : a.prefixlen.toNat ≤ 32)
    (hn : s.prefixlen ≠ a.prefixlen ∨ s.prefixlen = 0 ∨
      (NetworkForm 32 s.addr.toNat s.prefixlen.toNat ∧ NetworkForm 32 a.addr.toNat a.prefixlen.toNat)) :
    s.contains a = .ok (decide (Included 32 s.addr.toNat s.prefixlen.toNat
      a.addr.toNat a.prefixlen.toNat)) := by
  by_cases h1 : s.prefixlen ≠ a.prefixlen ∨ s.prefixlen.toNat = 0
  · exact containsV4_eq hs ha h1
  · push Not at h1
    obtain ⟨h1, h2⟩ := h1
    rcases hn with hn | hn | ⟨n1, n2⟩
    · exact absurd h1 hn
    · rw [hn] at h2; exact absurd rfl h2
    · rw [containsV4_same (by omega) h1]
      rw [← h1] at n2
      rw [Res.ok.injEq, Bool.eq_iff_iff, beq_iff_eq, decide_eq_true_iff, included_iff hs ha a.addr.isLt,
        networkForm_eq n1 n2, BitVec.toNat_inj, h1]
      simp

/-- **C17**, the half that always holds: whatever the prefixes, a positive answer is right. -/
theorem C17_contains_sound (s a : BgpAddrV4) (hs : s.prefixlen.toNat ≤ 32) (ha : a.prefixlen.toNat ≤ 32)
    (h : s.contains a = .ok true) (ip : Nat) (hip : ip < 2 ^ 32)
    (hc : Covers 32 a.addr.toNat a.prefixlen.toNat ip) : Covers 32 s.addr.toNat s.prefixlen.toNat ip := by
  classical
  by_cases h1 : s.prefixlen ≠ a.prefixlen ∨ s.prefixlen.toNat = 0
  · rw [containsV4_eq hs ha h1, Res.ok.injEq, decide_eq_true_iff] at h
    exact h ip hip hc
  · push Not at h1
    obtain ⟨h1, h2⟩ := h1
    rw [containsV4_same (by omega) h1, Res.ok.injEq, beq_iff_eq] at h
    rw [h, h1]; exact hc

/-- non-vacuity: 10.0.0.0/8 and 10.1.2.3/24, which has host bits -/
example : (8 : U8).toNat ≤ 32 ∧ (8 : U8) ≠ 24 ∧
    (⟨0x0a000000, 8⟩ : BgpAddrV4).contains ⟨0x0a010203, 24⟩ = .ok true ∧
    (⟨0x0a000000, 8⟩ : BgpAddrV4).contains ⟨0x0b010203, 24⟩ = .ok false := by decide

/-- The gap in C17: 10.0.0.1/8 covers the same addresses as 10.0.0.2/8, but is said not to contain it. -/
theorem C17_same_length_host_bits :
    ∃ s a : BgpAddrV4, s.prefixlen.toNat ≤ 32 ∧ a.prefixlen.toNat ≤ 32 ∧
      (∀ ip, ip < 2 ^ 32 → Covers 32 a.addr.toNat a.prefixlen.toNat ip →
        Covers 32 s.addr.toNat s.prefixlen.toNat ip) ∧ s.contains a = .ok false := by
  refine ⟨⟨0x0a000001, 8⟩, ⟨0x0a000002, 8⟩, by decide, by decide, ?_, by decide⟩
  exact (included_iff (by decide) (by decide) (by decide)).2 (by decide)

/-! ## C18 -/

open Classical in
/-- **C18 (partial).** `contains` of IPv6 prefixes is inclusion of the sets of covered addresses, with the same exception
as for IPv4: two prefixes of the same length with host bits (`C18_same_length_host_bits`). -/
theorem C18_contains_is_inclusion_partial (s a : BgpAddrV6) (hs : s.prefixlen.toNat ≤ 128)
    (ha : a.prefixlen.toNat ≤ 128)
    (hn : s.prefixlen ≠ a.prefixlen ∨ s.prefixlen = 0 ∨
      (NetworkForm 128 s.addr.toNat s.prefixlen.toNat ∧ NetworkForm 128 a.addr.toNat a.prefixlen.toNat)) :
    s.contains a = .ok (decide (Included 128 s.addr.toNat s.prefixlen.toNat
      a.addr.toNat a.prefixlen.toNat)) := by
  by_cases h1 : s.prefixlen ≠ a.prefixlen ∨ s.prefixlen.toNat = 0
  · exact containsV6_eq hs ha h1
  · push Not at h1
    obtain ⟨h1, h2⟩ := h1
    rcases hn with hn | hn | ⟨n1, n2⟩
    · exact absurd h1 hn
    · rw [hn] at h2; exact absurd rfl h2
    · rw [containsV6_same (by omega) h1]
      rw [← h1] at n2
      rw [Res.ok.injEq, Bool.eq_iff_iff, beq_iff_eq, decide_eq_true_iff, included_iff hs ha a.addr.isLt,
        networkForm_eq n1 n2, BitVec.toNat_inj, h1]
      simp

/-- **C18**, the half that always holds. -/
theorem C18_contains_sound (s a : BgpAddrV6) (hs : s.prefixlen.toNat ≤ 128) (ha : a.prefixlen.toNat ≤ 128)
    (h : s.contains a = .ok true) (ip : Nat) (hip : ip < 2 ^ 128)
    (hc : Covers 128 a.addr.toNat a.prefixlen.toNat ip) : Covers 128 s.addr.toNat s.prefixlen.toNat ip := by
  classical
  by_cases h1 : s.prefixlen ≠ a.prefixlen ∨ s.prefixlen.toNat = 0
  · rw [containsV6_eq hs ha h1, Res.ok.injEq, decide_eq_true_iff] at h
    exact h ip hip hc
  · push Not at h1
    obtain ⟨h1, h2⟩ := h1
    rw [containsV6_same (by omega) h1, Res.ok.injEq, beq_iff_eq] at h
    rw [h, h1]; exact hc

/-- non-vacuity: 2a02::/16 and 2a02::1/128 -/
example : (16 : U8).toNat ≤ 128 ∧ (16 : U8) ≠ 128 ∧
    (⟨0x2a020000000000000000000000000000, 16⟩ : BgpAddrV6).contains
      ⟨0x2a020000000000000000000000000001, 128⟩ = .ok true := by decide

/-- The gap in C18. -/
theorem C18_same_length_host_bits :
    ∃ s a : BgpAddrV6, s.prefixlen.toNat ≤ 128 ∧ a.prefixlen.toNat ≤ 128 ∧
      (∀ ip, ip < 2 ^ 128 → Covers 128 a.addr.toNat a.prefixlen.toNat ip →
        Covers 128 s.addr.toNat s.prefixlen.toNat ip) ∧ s.contains a = .ok false := by
  refine ⟨⟨1, 64⟩, ⟨2, 64⟩, by decide, by decide, ?_, by decide⟩
  exact (included_iff (by decide) (by decide) (by decide)).2 (by decide)

/-! ## C19 -/

/-- `v` is the least address covered. -/
def IsFirst (w addr plen v : Nat) : Prop := v < 2 ^ w ∧ Covers w addr plen v ∧
  ∀ ip, ip < 2 ^ w → Covers w addr plen ip → v ≤ ip

/-- `v` is the greatest address covered. -/
def IsLast (w addr plen v : Nat) : Prop := v < 2 ^ w ∧ Covers w addr plen v ∧
  ∀ ip, ip < 2 ^ w → Covers w addr plen ip → ip ≤ v

theorem isFirst_blk {w a p : Nat} (ha : a < 2 ^ w) : IsFirst w a p (blkFirst (w - p) a) :=
  ⟨Nat.lt_of_le_of_lt (blkFirst_le _ _) ha, blk_covers_first _ _, fun _ _ h => ((blk_iff _ _ _).1 h).1⟩

theorem isLast_blk {w a p : Nat} (ha : a < 2 ^ w) : IsLast w a p (blkLast (w - p) a) :=
  ⟨blkLast_lt (by omega) ha, blk_covers_last _ _, fun _ _ h => ((blk_iff _ _ _).1 h).2⟩

/-- **C19 (partial)**, IPv4: `range_first` (for lengths 1..32) and `range_last` (0..32) are the least and the greatest
address covered, and `in_subnet` (0..32) is membership. What is missing: `range_first` of a /0 panics
(`C19_ipv4_default_route_panics`). -/
theorem C19_ipv4_range_partial (s : BgpAddrV4) (h : s.prefixlen.toNat ≤ 32) :
    (0 < s.prefixlen.toNat → ∃ v, s.rangeFirst = .ok v ∧ IsFirst 32 s.addr.toNat s.prefixlen.toNat v.toNat) ∧
    (∃ v, s.rangeLast = .ok v ∧ IsLast 32 s.addr.toNat s.prefixlen.toNat v.toNat) ∧
    (∀ ip : IPv4, s.inSubnet ip = .ok (decide (Covers 32 s.addr.toNat s.prefixlen.toNat ip.toNat))) ∧
    (0 < s.prefixlen.toNat → ∀ ip f l : IPv4, s.rangeFirst = .ok f → s.rangeLast = .ok l →
      s.inSubnet ip = .ok (decide (f.toNat ≤ ip.toNat ∧ ip.toNat ≤ l.toNat))) := by
  refine ⟨fun h0 => ?_, ?_, fun ip => inSubnetV4 h ip, fun h0 ip f l hf hl => ?_⟩
  · obtain ⟨v, h1, h2⟩ := rangeFirstV4 h0 h
    exact ⟨v, h1, h2 ▸ isFirst_blk s.addr.isLt⟩
  · obtain ⟨v, h1, h2⟩ := rangeLastV4 h
    exact ⟨v, h1, h2 ▸ isLast_blk s.addr.isLt⟩
  · obtain ⟨v, h1, h2⟩ := rangeFirstV4 h0 h
    obtain ⟨w, h3, h4⟩ := rangeLastV4 h
    rw [h1, Res.ok.injEq] at hf
    rw [h3, Res.ok.injEq] at hl
    subst hf; subst hl
    rw [inSubnetV4 h ip, h2, h4]
    congr 1
    rw [decide_eq_decide]
    exact blk_iff _ _ _

/-- The gap in C19 for IPv4: the first address of any /0 panics. -/
theorem C19_ipv4_default_route_panics (a : IPv4) : (⟨a, 0⟩ : BgpAddrV4).rangeFirst = .panic := by
  unfold BgpAddrV4.rangeFirst BgpAddrV4.normSubnet
  have : (⟨a, 0⟩ : BgpAddrV4).hostMask = .panic := by
    change (do let sh ← subC (32 : U8) 0; let m ← shlC (1 : U32) sh.toNat; subC m 1) = _
    decide
  rw [getn32_octets, this]; rfl

/-- **C19 (partial)**, IPv6: `range_first` for lengths 1..128 and `range_last` for 0..128 are the least and greatest
address covered; `in_subnet` is membership for lengths 1..128 except that it leaves out the last address of prefixes
shorter than 128. What is missing: the last address (`C19_ipv6_last_address_excluded`) and the /0
(`C19_ipv6_default_route_panics`). -/
theorem C19_ipv6_range_partial (s : BgpAddrV6) (h : s.prefixlen.toNat ≤ 128) :
    (0 < s.prefixlen.toNat → ∃ v, s.rangeFirst = .ok v ∧ IsFirst 128 s.addr.toNat s.prefixlen.toNat v.toNat) ∧
    (∃ v, s.rangeLast = .ok v ∧ IsLast 128 s.addr.toNat s.prefixlen.toNat v.toNat) ∧
    (0 < s.prefixlen.toNat → ∀ ip : IPv6,
      (s.prefixlen.toNat = 128 ∨ ¬ IsLast 128 s.addr.toNat s.prefixlen.toNat ip.toNat) →
      s.inSubnet ip = .ok (decide (Covers 128 s.addr.toNat s.prefixlen.toNat ip.toNat))) := by
  refine ⟨fun h0 => ?_, ?_, fun h0 ip hip => ?_⟩
  · obtain ⟨v, h1, h2⟩ := rangeFirstV6 h0 h
    exact ⟨v, h1, h2 ▸ isFirst_blk s.addr.isLt⟩
  · obtain ⟨v, h1, h2⟩ := rangeLastV6 h
    exact ⟨v, h1, h2 ▸ isLast_blk s.addr.isLt⟩
  · rw [inSubnetV6 h0 h ip]
    congr 1
    rw [decide_eq_decide]
    constructor
    · exact fun h => h.1
    · intro hc
      refine ⟨hc, ?_⟩
      rcases hip with hip | hip
      · exact .inl hip
      · refine .inr fun he => hip ?_
        rw [he]
        exact isLast_blk s.addr.isLt

/-- The gap in C19 for IPv6: for every prefix length 1..127 the last covered address is said to be outside. -/
theorem C19_ipv6_last_address_excluded (s : BgpAddrV6) (h0 : 0 < s.prefixlen.toNat) (h : s.prefixlen.toNat < 128)
    (ip : IPv6) (hl : IsLast 128 s.addr.toNat s.prefixlen.toNat ip.toNat) : s.inSubnet ip = .ok false := by
  rw [inSubnetV6 h0 (by omega) ip]
  have h1 := isLast_blk (p := s.prefixlen.toNat) s.addr.isLt
  have he : ip.toNat = blkLast (128 - s.prefixlen.toNat) s.addr.toNat :=
    Nat.le_antisymm (h1.2.2 _ hl.1 hl.2.1) (hl.2.2 _ h1.1 h1.2.1)
  congr 1
  rw [decide_eq_false_iff_not]
  rintro ⟨_, h2 | h2⟩
  · omega
  · exact h2 he

/-- The gap in C19 for IPv6: `range_first` and `in_subnet` of any /0 panic. -/
theorem C19_ipv6_default_route_panics (a ip : IPv6) :
    (⟨a, 0⟩ : BgpAddrV6).rangeFirst = .panic ∧ (⟨a, 0⟩ : BgpAddrV6).inSubnet ip = .panic := by
  have hm : (⟨a, 0⟩ : BgpAddrV6).hostMask = .panic := by
    change (do let sh ← subC (128 : U8) 0; let m ← shlC (1 : U128) sh.toNat; subC m 1) = _
    decide
  have hn : (⟨a, 0⟩ : BgpAddrV6).normSubnet = .panic := by
    unfold BgpAddrV6.normSubnet; rw [getn128_octets, hm]; rfl
  constructor
  · unfold BgpAddrV6.rangeFirst; rw [hn]; rfl
  · unfold BgpAddrV6.inSubnet; rw [hn, if_neg (show ¬ (0 : U8).toNat > 127 by decide)]; rfl

/-- **C19**, MAC: `range_first` and `range_last` are the least and greatest address covered and `in_subnet` is
membership, for all lengths 0..48. -/
theorem C19_mac_range (s : BgpAddrMac) (h : s.prefixlen.toNat ≤ 48) :
    (∃ v, s.rangeFirst = .ok v ∧ IsFirst 48 s.addr.toU64.toNat s.prefixlen.toNat v.toU64.toNat) ∧
    (∃ v, s.rangeLast = .ok v ∧ IsLast 48 s.addr.toU64.toNat s.prefixlen.toNat v.toU64.toNat) ∧
    (∀ ip : MacAddress, s.inSubnet ip =
      .ok (decide (Covers 48 s.addr.toU64.toNat s.prefixlen.toNat ip.toU64.toNat))) ∧
    (∀ ip f l : MacAddress, s.rangeFirst = .ok f → s.rangeLast = .ok l →
      s.inSubnet ip = .ok (decide (f.toU64.toNat ≤ ip.toU64.toNat ∧ ip.toU64.toNat ≤ l.toU64.toNat))) := by
  refine ⟨?_, ?_, fun ip => inSubnetMac h ip, fun ip f l hf hl => ?_⟩
  · obtain ⟨v, h1, h2⟩ := rangeFirstMac h
    exact ⟨v, h1, by rw [h2]; exact isFirst_blk (toU64_lt _)⟩
  · obtain ⟨v, h1, h2⟩ := rangeLastMac h
    exact ⟨v, h1, by rw [h2]; exact isLast_blk (toU64_lt _)⟩
  · obtain ⟨v, h1, h2⟩ := rangeFirstMac h
    obtain ⟨w, h3, h4⟩ := rangeLastMac h
    rw [h1, Res.ok.injEq] at hf
    rw [h3, Res.ok.injEq] at hl
    subst hf; subst hl
    rw [inSubnetMac h ip, h2, h4]
    congr 1
    rw [decide_eq_decide]
    exact blk_iff _ _ _

/-- non-vacuity of C19: concrete ranges -/
example : (⟨0x0a0102ff, 20⟩ : BgpAddrV4).rangeFirst = .ok 0x0a010000 ∧
    (⟨0x0a0102ff, 20⟩ : BgpAddrV4).rangeLast = .ok 0x0a010fff ∧
    (⟨0x0a0102ff, 20⟩ : BgpAddrV4).inSubnet 0x0a010fff = .ok true ∧
    (⟨0x0a0102ff, 20⟩ : BgpAddrV4).inSubnet 0x0a011000 = .ok false ∧
    (⟨1, 64⟩ : BgpAddrV6).inSubnet 0xffffffffffffffff = .ok false ∧
    (⟨.fromU64 0x0a0102ff, 40⟩ : BgpAddrMac).rangeLast = .ok (.fromU64 0x0a0102ff) := by decide

/-! ## C20 -/

/-- **C20.** Containment across families is false and within a family it is the containment of that family. -/
theorem C20_mixed_families :
    (∀ a b, (BgpNet.V4 a).contains (.V4 b) = a.contains b) ∧
    (∀ a b, (BgpNet.V6 a).contains (.V6 b) = a.contains b) ∧
    (∀ a b, (BgpNet.MAC a).contains (.MAC b) = a.contains b) ∧
    (∀ a b, (BgpNet.V4 a).contains (.V6 b) = .ok false ∧ (BgpNet.V6 b).contains (.V4 a) = .ok false) ∧
    (∀ a b, (BgpNet.V4 a).contains (.MAC b) = .ok false ∧ (BgpNet.MAC b).contains (.V4 a) = .ok false) ∧
    (∀ a b, (BgpNet.V6 a).contains (.MAC b) = .ok false ∧ (BgpNet.MAC b).contains (.V6 a) = .ok false) :=
  ⟨fun _ _ => rfl, fun _ _ => rfl, fun _ _ => rfl, fun _ _ => ⟨rfl, rfl⟩, fun _ _ => ⟨rfl, rfl⟩,
    fun _ _ => ⟨rfl, rfl⟩⟩

/-- **C20**, all lengths within range: containment of networks of any families never panics. -/
theorem C20_contains_returns (a b : BgpNet)
    (ha : match a with | .V4 x => x.prefixlen.toNat ≤ 32 | .V6 x => x.prefixlen.toNat ≤ 128 | .MAC x => x.prefixlen.toNat ≤ 48)
    (hb : match b with | .V4 x => x.prefixlen.toNat ≤ 32 | .V6 x => x.prefixlen.toNat ≤ 128 | .MAC x => x.prefixlen.toNat ≤ 48) :
    ∃ r, a.contains b = .ok r := by
  classical
  rcases a with a | a | a <;> rcases b with b | b | b <;> simp only [BgpNet.contains] <;>
    (try exact ⟨_, rfl⟩) <;> simp only at ha hb
  · by_cases h1 : a.prefixlen ≠ b.prefixlen ∨ a.prefixlen.toNat = 0
    · exact ⟨_, containsV4_eq ha hb h1⟩
    · push Not at h1; exact ⟨_, containsV4_same (by omega) h1.1⟩
  · by_cases h1 : a.prefixlen ≠ b.prefixlen ∨ a.prefixlen.toNat = 0
    · exact ⟨_, containsV6_eq ha hb h1⟩
    · push Not at h1; exact ⟨_, containsV6_same (by omega) h1.1⟩
  · by_cases h1 : a.prefixlen ≠ b.prefixlen ∨ a.prefixlen.toNat = 0
    · exact ⟨_, containsMac_eq ha hb h1⟩
    · push Not at h1; exact ⟨_, containsMac_same (by omega) h1.1⟩

open Classical in
/-- **C20**, MAC: containment of MAC prefixes of different lengths (or in network form) is inclusion. -/
theorem C20_mac_contains_is_inclusion (s a : BgpAddrMac) (hs : s.prefixlen.toNat ≤ 48)
    (ha : a.prefixlen.toNat ≤ 48)
    (hn : s.prefixlen ≠ a.prefixlen ∨ s.prefixlen = 0 ∨
      (NetworkForm 48 s.addr.toU64.toNat s.prefixlen.toNat ∧ NetworkForm 48 a.addr.toU64.toNat a.prefixlen.toNat)) :
    (BgpNet.MAC s).contains (.MAC a) = .ok (decide (Included 48 s.addr.toU64.toNat s.prefixlen.toNat
      a.addr.toU64.toNat a.prefixlen.toNat)) := by
  change s.contains a = _
  by_cases h1 : s.prefixlen ≠ a.prefixlen ∨ s.prefixlen.toNat = 0
  · exact containsMac_eq hs ha h1
  · push Not at h1
    obtain ⟨h1, h2⟩ := h1
    rcases hn with hn | hn | ⟨n1, n2⟩
    · exact absurd h1 hn
    · rw [hn] at h2; exact absurd rfl h2
    · rw [containsMac_same (by omega) h1]
      rw [← h1] at n2
      rw [Res.ok.injEq, Bool.eq_iff_iff, beq_iff_eq, decide_eq_true_iff, included_iff hs ha (toU64_lt _),
        networkForm_eq n1 n2, BitVec.toNat_inj, h1]
      constructor
      · rintro h; rw [h]; exact ⟨Nat.le_refl _, rfl⟩
      · exact fun h => toU64_inj h.2

/-- non-vacuity of C20 -/
example : (BgpNet.new (.v4 0x0a000000) 8).contains (BgpNet.new (.v4 0x0a010000) 16) = .ok true ∧
    (BgpNet.new (.v4 0) 0).contains (BgpNet.new (.v6 0) 0) = .ok false := by decide

/-! ## C55 -/

/-- **C55**, conversions. A MAC address converts to a 48-bit integer and back, every 48-bit integer is hit, and the
integer is the big-endian value of the six network octets, which convert without loss too. -/
theorem C55_mac_conversions (m : MacAddress) :
    MacAddress.fromU64 m.toU64 = m ∧ m.toU64.toNat < 2 ^ 48 ∧
    (∀ v : U64, v.toNat < 2 ^ 48 → (MacAddress.fromU64 v).toU64 = v) ∧
    (∀ b : Bytes, b.length = 6 → m.writeToNetworkBytes b = .ok (be 6 m.toU64.toNat)) ∧
    (∀ rest, MacAddress.fromNetworkBytes (be 6 m.toU64.toNat ++ rest) = .ok m) ∧
    (∀ b : Bytes, b.length = 6 → ∃ m', MacAddress.fromNetworkBytes b = .ok m' ∧
      m'.writeToNetworkBytes b = .ok b ∧ m'.toU64.toNat = unbe b) := by
  have hnet : be 6 m.toU64.toNat = macNet m := by
    rw [toU64_toNat]; exact be_unbe (macNet m)
  refine ⟨fromU64_toU64 m, toU64_lt m, fun v hv => ?_, fun b hb => ?_, fun rest => ?_, fun b hb => ?_⟩
  · exact BitVec.eq_of_toNat_eq (toU64_fromU64_of_lt hv)
  · rw [hnet, MacAddress.writeToNetworkBytes, copyAll_ok (by simpa using hb)]; rfl
  · rw [hnet]; rfl
  · match b, hb with
    | [b0, b1, b2, b3, b4, b5], _ =>
      exact ⟨⟨b5, b4, b3, b2, b1, b0⟩, rfl, rfl, by rw [toU64_toNat]; rfl⟩

theorem compare_mul_add {K x y r t : Nat} (hr : r < K) (ht : t < K) :
    compare (x * K + r) (y * K + t) = (compare x y).then (compare r t) := by
  rcases Nat.lt_trichotomy x y with h | h | h
  · have : x * K + r < y * K + t := by
      have := Nat.mul_le_mul_right K (show x + 1 ≤ y from h)
      rw [Nat.add_mul, Nat.one_mul] at this; omega
    rw [Nat.compare_eq_lt.2 this, Nat.compare_eq_lt.2 h]; rfl
  · subst h
    rw [Nat.compare_eq_eq.2 (rfl : x = x)]
    rcases Nat.lt_trichotomy r t with h | h | h
    · rw [Nat.compare_eq_lt.2 h, Nat.compare_eq_lt.2 (by omega)]; rfl
    · subst h; rw [Nat.compare_eq_eq.2 rfl, Nat.compare_eq_eq.2 rfl]; rfl
    · rw [Nat.compare_eq_gt.2 h, Nat.compare_eq_gt.2 (by omega)]; rfl
  · have : y * K + t < x * K + r := by
      have := Nat.mul_le_mul_right K (show y + 1 ≤ x from h)
      rw [Nat.add_mul, Nat.one_mul] at this; omega
    rw [Nat.compare_eq_gt.2 this, Nat.compare_eq_gt.2 h]; rfl

theorem compare_unbe_cons {x y : U8} {l m : Bytes} (h : l.length = m.length) :
    compare (unbe (x :: l)) (unbe (y :: m)) = (compare x.toNat y.toNat).then (compare (unbe l) (unbe m)) := by
  rw [unbe_cons, unbe_cons, h]
  exact compare_mul_add (h ▸ unbe_lt l) (unbe_lt m)

/-- **C55 (partial)**, comparison: equality of MAC addresses is equality of their integers, and the derived order is the
order of the octets read from the last to the first. What is missing: this is not the order of the network-order integers
(`C55_order_is_not_integer_order`). -/
theorem C55_mac_compare_partial (a b : MacAddress) :
    (a = b ↔ a.toU64 = b.toU64) ∧
    a.cmp b = compare (unbe (macNet a).reverse) (unbe (macNet b).reverse) := by
  refine ⟨⟨fun h => h ▸ rfl, toU64_inj⟩, ?_⟩
  obtain ⟨a0, a1, a2, a3, a4, a5⟩ := a
  obtain ⟨b0, b1, b2, b3, b4, b5⟩ := b
  simp only [macNet, List.reverse_cons, List.reverse_nil, List.nil_append, List.cons_append]
  rw [compare_unbe_cons (by simp), compare_unbe_cons (by simp), compare_unbe_cons (by simp),
    compare_unbe_cons (by simp), compare_unbe_cons (by simp), compare_unbe_cons (by simp)]
  simp only [MacAddress.cmp]
  rw [show compare (unbe []) (unbe []) = Ordering.eq by decide]
  simp

/-- The gap in C55: 00:00:00:00:01:00 is less than 00:00:00:00:00:01. -/
theorem C55_order_is_not_integer_order :
    ∃ a b : MacAddress, a.cmp b = .lt ∧ b.toU64.toNat < a.toU64.toNat :=
  ⟨.fromU64 0x0100, .fromU64 0x01, by decide, by decide⟩

example : (MacAddress.fromU64 0x0a0b0c0d0e0f).toU64 = 0x0a0b0c0d0e0f ∧
    (MacAddress.fromNetworkBytes [10, 11, 12, 13, 14, 15]) = .ok (.fromU64 0x0a0b0c0d0e0f) := by decide

/-! ## C65 -/

/-- **C65**, getters invert setters: writing a value puts its big-endian octets at the front of any sufficient buffer,
leaves the rest, and reading gives the value back. -/
theorem C65_set_get (v16 : U16) (v32 : U32) (v64 : U64) (buf : Bytes) :
    (2 ≤ buf.length → setn16 v16 buf = .ok (be 2 v16.toNat ++ buf.drop 2) ∧
      getn16 (be 2 v16.toNat ++ buf.drop 2) = .ok v16) ∧
    (4 ≤ buf.length → setn32 v32 buf = .ok (be 4 v32.toNat ++ buf.drop 4) ∧
      getn32 (be 4 v32.toNat ++ buf.drop 4) = .ok v32) ∧
    (8 ≤ buf.length → setn64 v64 buf = .ok (be 8 v64.toNat ++ buf.drop 8) ∧
      getn64 (be 8 v64.toNat ++ buf.drop 8) = .ok v64) := by
  refine ⟨fun h => ⟨setn16_ok _ h, ?_⟩, fun h => ⟨setn32_ok _ h, ?_⟩, fun h => ⟨setn64_ok _ h, ?_⟩⟩
  · rw [getn16_be, ofNat_toNat16]
  · rw [getn32_be, ofNat_toNat32]
  · rw [getn64_be, ofNat_toNat64]

/-- **C65**, setters invert getters: any sufficient buffer is read as the big-endian value of its first octets, and writing
that value back changes nothing. -/
theorem C65_get_set (buf : Bytes) :
    (2 ≤ buf.length → ∃ v, getn16 buf = .ok v ∧ v.toNat = unbe (buf.take 2) ∧ setn16 v buf = .ok buf) ∧
    (4 ≤ buf.length → ∃ v, getn32 buf = .ok v ∧ v.toNat = unbe (buf.take 4) ∧ setn32 v buf = .ok buf) ∧
    (8 ≤ buf.length → ∃ v, getn64 buf = .ok v ∧ v.toNat = unbe (buf.take 8) ∧ setn64 v buf = .ok buf) ∧
    (16 ≤ buf.length → ∃ v, getn128 buf = .ok v ∧ v.toNat = unbe (buf.take 16)) := by
  refine ⟨fun h => ?_, fun h => ?_, fun h => ?_, fun h => ?_⟩
  · obtain ⟨v, hv, e⟩ := exists_be 2 h
    refine ⟨BitVec.ofNat 16 v, by rw [e, getn16_be], ?_, ?_⟩
    · rw [BitVec.toNat_ofNat, Nat.mod_eq_of_lt (by omega), e, List.take_left' (by simp), unbe_be,
        Nat.mod_eq_of_lt hv]
    · rw [setn16_ok _ h, BitVec.toNat_ofNat, Nat.mod_eq_of_lt (by omega), ← e]
  · obtain ⟨v, hv, e⟩ := exists_be 4 h
    refine ⟨BitVec.ofNat 32 v, by rw [e, getn32_be], ?_, ?_⟩
    · rw [BitVec.toNat_ofNat, Nat.mod_eq_of_lt (by omega), e, List.take_left' (by simp), unbe_be,
        Nat.mod_eq_of_lt hv]
    · rw [setn32_ok _ h, BitVec.toNat_ofNat, Nat.mod_eq_of_lt (by omega), ← e]
  · obtain ⟨v, hv, e⟩ := exists_be 8 h
    refine ⟨BitVec.ofNat 64 v, by rw [e, getn64_be], ?_, ?_⟩
    · rw [BitVec.toNat_ofNat, Nat.mod_eq_of_lt (by omega), e, List.take_left' (by simp), unbe_be,
        Nat.mod_eq_of_lt hv]
    · rw [setn64_ok _ h, BitVec.toNat_ofNat, Nat.mod_eq_of_lt (by omega), ← e]
  · obtain ⟨v, hv, e⟩ := exists_be 16 h
    refine ⟨BitVec.ofNat 128 v, by rw [e, getn128_be], ?_⟩
    rw [BitVec.toNat_ofNat, Nat.mod_eq_of_lt (by norm_num at hv ⊢; exact hv), e, List.take_left' (by simp), unbe_be,
      Nat.mod_eq_of_lt hv]

/-- **C65**, addresses: the address writers put the big-endian octets of the address, the readers read them back, and
report input that is too short; the reader for both families takes four octets or sixteen, and no other number. -/
theorem C65_addresses (a4 : IPv4) (a6 : IPv6) (buf : Bytes) :
    (4 ≤ buf.length → encodeAddrV4 a4 buf = .ok (be 4 a4.toNat ++ buf.drop 4, 4)) ∧
    (16 ≤ buf.length → encodeAddrV6 a6 buf = .ok (be 16 a6.toNat ++ buf.drop 16, 16)) ∧
    decodeAddrV4 (be 4 a4.toNat ++ buf) = .ok a4 ∧ decodeAddrV6 (be 16 a6.toNat ++ buf) = .ok a6 ∧
    getn32 (be 4 a4.toNat ++ buf) = .ok a4 ∧ getn128 (be 16 a6.toNat ++ buf) = .ok a6 ∧
    (buf.length < 4 → (decodeAddrV4 buf).IsErr) ∧ (buf.length < 16 → (decodeAddrV6 buf).IsErr) ∧
    decodeAddr (be 4 a4.toNat) = .ok (.v4 a4) ∧ decodeAddr (be 16 a6.toNat) = .ok (.v6 a6) ∧
    (buf.length ≠ 4 → buf.length ≠ 16 → (decodeAddr buf).IsErr) ∧
    encodeAddr (.v4 a4) buf = encodeAddrV4 a4 buf ∧ encodeAddr (.v6 a6) buf = encodeAddrV6 a6 buf := by
  refine ⟨fun h => encodeAddrV4_ok _ h, fun h => encodeAddrV6_ok _ h, ?_, ?_, ?_, ?_, fun h => ?_, fun h => ?_,
    ?_, ?_, fun h4 h16 => ?_, rfl, rfl⟩
  · rw [decodeAddrV4_be, ofNat_toNat32]
  · rw [decodeAddrV6_be, ofNat_toNat128]
  · rw [getn32_be, ofNat_toNat32]
  · rw [getn128_be, ofNat_toNat128]
  · rw [decodeAddrV4_short h]; trivial
  · rw [decodeAddrV6_short h]; trivial
  · rw [decodeAddr, if_neg (by simp), if_pos (by simp), decodeAddrV4_four, Res.ok_bind, ofNat_toNat32]
  · rw [decodeAddr, if_pos (by simp), decodeAddrV6_sixteen, Res.ok_bind, ofNat_toNat128]
  · rw [decodeAddr, if_neg h16, if_neg h4]; trivial

/-- **C65**, checked slices: a range within the buffer yields exactly its octets, any other range is an error. -/
theorem C65_slices (buf : Bytes) (s e : Nat) :
    (s ≤ e ∧ e ≤ buf.length → sliceE buf s e = .ok ((buf.drop s).take (e - s))) ∧
    (¬ (s ≤ e ∧ e ≤ buf.length) → (sliceE buf s e).IsErr) := by
  unfold sliceE
  constructor
  · intro h
    simp only [h, and_self, if_true]
    rw [List.drop_take]
  · intro h; simp [h, Res.IsErr]

example : getn32 [10, 0, 0, 1] = .ok 0x0a000001 ∧ setn16 0x1234 [0, 0, 7] = .ok [0x12, 0x34, 7] := by decide

end Zbgp.Props
