import Verif.Lemmas.Returns
import Verif.Props.OutcomeRelease
import Verif.Props.Release

/-!
# C119: exactly which prefixes come back from the wire without overflow checks
-/

namespace Zbgp.Props

open Spec

/-- **C119**, lists of prefixes of every kind: sent and read by builds without overflow checks, a list comes back unchanged exactly
if each of its prefixes is one of those `Back` says, in every buffer that is large enough. -/
theorem C119_prefixes (T : Type) [BgpItemIn T] [ReturnsUnchecked T] (h : ReturnsKind T) (v : List T) :
    ∃ room, ∀ buf : Bytes, room ≤ buf.length →
      (Returns (@encodeItems T (itemIn T .release) v) (@decodeItems T (itemIn T .release)) v buf ↔
        ∀ x ∈ v, ReturnsUnchecked.Back x) := nlris_return h v

/-- **C119** with path identifiers: these come back whatever they are. -/
theorem C119_path_ids (T : Type) [BgpItemIn T] [ReturnsUnchecked T] (h : ReturnsKind T) (v : List (WithPathId T)) :
    ∃ room, ∀ buf : Bytes, room ≤ buf.length →
      (Returns (@encodePathIdItems T (itemIn T .release) v) (@decodePathIdItems T (itemIn T .release)) v buf ↔
        ∀ x ∈ v, ReturnsUnchecked.Back x.nlri) := pathIds_return h v

private theorem threeLabels : LabelStackWF [16, 17, 18] := by
  simp [LabelStackWF, stackEnding]

/-- a VPNv6 host route with three labels comes back, one of 120 bits does not: its bits are 256 -/
example : ReturnsKind (Labeled (WithRd BgpAddrV6)) ∧
    ReturnsUnchecked.Back (⟨⟨⟨1, 128⟩, ⟨1, 2⟩⟩, ⟨[16, 17, 18]⟩⟩ : Labeled (WithRd BgpAddrV6)) ∧
    ¬ ReturnsUnchecked.Back (⟨⟨⟨0, 120⟩, ⟨1, 2⟩⟩, ⟨[16, 17, 18]⟩⟩ : Labeled (WithRd BgpAddrV6)) := by
  refine ⟨.labeled (.withRd .v6), ⟨⟨by decide, by decide⟩, .inr ⟨threeLabels, fun j h1 h2 => ?_⟩⟩, ?_⟩
  · have e : ReturnsUnchecked.bits (⟨⟨1, 128⟩, ⟨1, 2⟩⟩ : WithRd BgpAddrV6) = 192 := rfl
    have h2 : j ≤ 3 := h2
    rw [e]; omega
  · rintro ⟨-, ⟨h, -⟩ | ⟨-, h⟩⟩
    · cases h
    · exact h 3 (by decide) (by decide) rfl
example : Returns (@encodeItems (Labeled (WithRd BgpAddrV6)) (itemIn _ .release) [⟨⟨⟨1, 128⟩, ⟨1, 2⟩⟩, ⟨[16, 17, 18]⟩⟩])
    (@decodeItems (Labeled (WithRd BgpAddrV6)) (itemIn _ .release)) [⟨⟨⟨1, 128⟩, ⟨1, 2⟩⟩, ⟨[16, 17, 18]⟩⟩] (List.replicate 40 9) :=
  ⟨_, 34, 34, rfl, rfl⟩

/-- **C119**: what comes back with overflow checks, of any family in any session, also comes back without. -/
theorem C119_not_fewer (p : BgpSessionParams) (afi : U16) (safi : U8) (x : BgpAddrs) (buf : Bytes)
    (h : Returns (x.encodeTo p) (BgpAddrs.decodeFrom p afi safi) x buf) :
    Returns (x.encodeToIn .release p) (BgpAddrs.decodeFromIn .release p afi safi) x buf := by
  obtain ⟨buf', k, n, h1, h2⟩ := h
  refine ⟨buf', k, n, ?_, ?_⟩
  · rcases bsim_addrsEnc x p buf with h | h
    · rw [h1] at h; cases h
    · rw [h]; exact h1
  · rw [C102_decoders_agree.2.1 p afi safi _ (by rw [h2]; simp), h2]

example : Returns (BgpAddrs.encodeTo (.IPV4U [⟨0x0a000000, 8⟩]) session32) (BgpAddrs.decodeFrom session32 1 1)
    (.IPV4U [⟨0x0a000000, 8⟩]) [9, 9, 9] := ⟨[8, 10, 9], 2, 2, rfl, rfl⟩

/-- **C119**: but more does. A VPNv6 route of 121 to 128 bits with three labels makes a build with overflow checks panic, and
comes back without. -/
theorem C119_vpnv6_three_labels (p : BgpSessionParams) (x : Labeled (WithRd BgpAddrV6)) (hl : LabelStackWF x.labels.labels)
    (h3 : x.labels.labels.length = 3) (h1 : 121 ≤ x.pfx.pfx.prefixlen.toNat) (h2 : x.pfx.pfx.prefixlen.toNat ≤ 128) :
    Ends (BgpAddrs.encodeTo (.VPNV6U [x]) p) .crash ∧
    ∃ room, ∀ buf : Bytes, room ≤ buf.length →
      Returns (@encodeItems _ (itemIn _ .release) [x]) (@decodeItems _ (itemIn (Labeled (WithRd BgpAddrV6)) .release)) [x] buf := by
  constructor
  · have e : nlriFate .checked (.VPNV6U [x]) = .crash := by
      simp only [nlriFate, Fate.all, prefixFate, prefixForm, LengthOctet.octet]
      rw [if_pos h2]
      simp only [h3]
      rw [if_pos (by omega)]
      simp only
      rw [if_neg (by omega)]
      rfl
    exact e ▸ C116_nlri p _
  · obtain ⟨room, h⟩ := C119_prefixes _ (.labeled (.withRd .v6)) [x]
    refine ⟨room, fun buf hb => (h buf hb).2 fun y hy => ?_⟩
    simp only [List.mem_singleton] at hy
    subst hy
    refine ⟨⟨h2, fun o ho => ?_⟩, .inr ⟨hl, fun j h4 h5 => ?_⟩⟩
    · have : octets y.pfx.pfx.prefixlen.toNat = 16 := by unfold octets; omega
      rw [this, List.drop_eq_nil_of_le (by simp)] at ho
      cases ho
    · simp only [ReturnsUnchecked.bits]
      omega

example : LabelStackWF [16, 17, 18] ∧ ([16, 17, 18] : List U32).length = 3 := ⟨threeLabels, rfl⟩

/-- **C119**: the multicast distribution trees of IPv6 with a route distinguisher: with overflow checks no prefix of 64 bits or
more can be sent, without them those of up to 126 bits come back. -/
theorem C119_mdt_ipv6 (p : BgpSessionParams) (x : WithRd BgpMdtV6) (h1 : 64 ≤ x.pfx.addr.prefixlen.toNat) :
    Ends (BgpAddrs.encodeTo (.IPV6MDT [x]) p) .crash ∧
    ∃ room, ∀ buf : Bytes, room ≤ buf.length →
      (Returns (@encodeItems _ (itemIn _ .release) [x]) (@decodeItems _ (itemIn (WithRd BgpMdtV6) .release)) [x] buf ↔
        x.pfx.addr.prefixlen.toNat ≤ 126 ∧ ∀ o ∈ (be 16 x.pfx.addr.addr.toNat).drop (octets x.pfx.addr.prefixlen.toNat), o = 0) := by
  constructor
  · have e : nlriFate .checked (.IPV6MDT [x]) = .crash := by
      simp only [nlriFate, Fate.all, prefixFate, prefixForm, LengthOctet.octet]
      by_cases h2 : x.pfx.addr.prefixlen.toNat ≤ 127
      · rw [if_pos h2]
        simp only
        rw [if_neg (by omega)]
        rfl
      · rw [if_neg h2]; rfl
    exact e ▸ C116_nlri p _
  · obtain ⟨room, h⟩ := C119_prefixes _ (.withRd .mdt6) [x]
    refine ⟨room, fun buf hb => (h buf hb).trans ?_⟩
    simp only [List.mem_singleton, forall_eq]
    exact ⟨fun h => ⟨h.1, h.2.2⟩, fun h => ⟨h.1, by have := h.1; omega, h.2⟩⟩

example : Returns (@encodeItems (WithRd BgpMdtV6) (itemIn _ .release) [⟨⟨⟨1 <<< 64, 64⟩, 2⟩, ⟨0, 1⟩⟩])
    (@decodeItems (WithRd BgpMdtV6) (itemIn _ .release)) [⟨⟨⟨1 <<< 64, 64⟩, 2⟩, ⟨0, 1⟩⟩] (List.replicate 40 9) :=
  ⟨_, 33, 33, rfl, rfl⟩

/-- **C119**: the labels of an IPv4 route of 16 bits are lost from the tenth on: no such route comes back, in any list. -/
theorem C119_ten_labels_lost (v : List (Labeled BgpAddrV4)) (x : Labeled BgpAddrV4) (hx : x ∈ v) (h16 : x.pfx.prefixlen = 16)
    (hl : 10 ≤ x.labels.labels.length) :
    ∃ room, ∀ buf : Bytes, room ≤ buf.length →
      ¬ Returns (@encodeItems _ (itemIn _ .release) v) (@decodeItems _ (itemIn (Labeled BgpAddrV4) .release)) v buf := by
  obtain ⟨room, h⟩ := C119_prefixes _ (.labeled .v4) v
  refine ⟨room, fun buf hb hr => ?_⟩
  obtain ⟨-, ⟨h1, -⟩ | ⟨-, h1⟩⟩ := (h buf hb).1 hr x hx
  · rw [h1] at hl; simp at hl
  · refine h1 10 (by decide) hl ?_
    simp only [ReturnsUnchecked.bits, h16]
    rfl

example : ∃ buf', @encodeItems _ (itemIn (Labeled BgpAddrV4) .release) [⟨⟨0x0a000000, 16⟩, ⟨List.replicate 10 16⟩⟩]
    (List.replicate 40 9) = .ok (buf', 33) ∧
    (@decodeItems _ (itemIn (Labeled BgpAddrV4) .release) (buf'.take 33)) ≠
      .ok ([⟨⟨0x0a000000, 16⟩, ⟨List.replicate 10 16⟩⟩], 33) := ⟨_, rfl, by decide⟩

end Zbgp.Props
