import Verif.Lemmas.Addrs

/-! # C25, C26, C45: AFI/SAFI dispatch -/

namespace Zbgp.Props

open Zbgp Spec

/-! ## C25 -/

/-- **C25.** Every collection reports the IANA code of its family; the AddPath form and the plain form report the same
code. The one collection without a family (`None`) reports (0, 0), which no decoder accepts. -/
theorem C25_reported_code :
    (∀ (x : BgpAddrs) (f : Family) (addpath : Bool), kindOf x = some (f, addpath) → x.getAfiSafi = familyCode f) ∧
    (∀ x : BgpAddrs, kindOf x = none → x.getAfiSafi = (0, 0) ∧
      ∀ p buf, (BgpAddrs.decodeFrom p 0 0 buf).IsErr) := by
  refine ⟨fun x f ap h => addrs_code x h, fun x h => ?_⟩
  cases x <;> simp [kindOf] at h
  exact ⟨rfl, fun p buf => by rw [addrs_none]; trivial⟩

/-- **C25.** The decoder for the code of a collection produces, whatever the session and the octets, collections of the
family of that collection, and these report the code they were decoded for. -/
theorem C25_decoder_family (p : BgpSessionParams) (afi : U16) (safi : U8) (buf : Bytes) (y : BgpAddrs) (n : Nat)
    (h : BgpAddrs.decodeFrom p afi safi buf = .ok (y, n)) :
    y.getAfiSafi = (afi, safi) ∧
      ∀ (x : BgpAddrs) (f : Family) (addpath : Bool), kindOf x = some (f, addpath) → x.getAfiSafi = (afi, safi) →
        ∃ addpath', kindOf y = some (f, addpath') := by
  obtain ⟨f, ap, h1, -, h2⟩ := addrs_decode_ok h
  refine ⟨by rw [addrs_code y h1, h2], fun x g ap' hk hx => ?_⟩
  rw [addrs_code x hk, ← h2] at hx
  rw [familyCode_inj hx]
  exact ⟨ap, h1⟩

/-- **C25.** Every family is decoded by some decoder: the empty field gives its empty collection. -/
theorem C25_families_accepted (f : Family) (p : BgpSessionParams) :
    ∃ y addpath, BgpAddrs.decodeFrom p (familyCode f).1 (familyCode f).2 [] = .ok (y, 0) ∧
      kindOf y = some (f, addpath) ∧ y.len = 0 ∧ y.isEmpty = true := by
  cases f
  case ipv4Mvpn | ipv4FlowSpec | ipv4VpnFlowSpec | ipv6FlowSpec | l2Vpls | l2Evpn => exact ⟨_, _, rfl, rfl, rfl, rfl⟩
  all_goals
    simp only [familyCode, BgpAddrs.decodeFrom]
    exact decodeAddpath_nil (P := fun r => ∃ y addpath, r = .ok (y, 0) ∧ kindOf y = some (_, addpath) ∧
      y.len = 0 ∧ y.isEmpty = true) ⟨_, _, rfl, rfl, rfl, rfl⟩ ⟨_, _, rfl, rfl, rfl, rfl⟩

/-- **C25.** Any other pair of numbers is rejected, whatever the octets. -/
theorem C25_unknown_rejected (p : BgpSessionParams) (afi : U16) (safi : U8) (buf : Bytes)
    (h : ∀ f, familyCode f ≠ (afi, safi)) : (BgpAddrs.decodeFrom p afi safi buf).IsErr := by
  rw [addrs_unknown h]; trivial

/-- non-vacuity: MVPN is not a family of IPv6 here, and AFI 16388 is unknown -/
example : (∀ f, familyCode f ≠ (2, 5)) ∧ (∀ f, familyCode f ≠ (16388, 71)) := by
  constructor <;> intro f <;> cases f <;> simp [familyCode]

/-- **C25.** Writing a collection and decoding it under the code it reports gives back the collection (with the octets of
prefixes that are not sent cleared), whatever the buffer, for every session that expects the form (AddPath or plain) of
the collection. `AddrsWF` says which items can be written; it leaves out the kinds of NLRI that C49 to C53 show not to
round trip. All octets are reported as taken, and one more if the last is a FlowSpec prefix component. -/
theorem C25_collection_round_trip (x : BgpAddrs) (p : BgpSessionParams) (h : AddrsWF x)
    (hf : FormExpected p x) (buf : Bytes) (hb : (addrsWire x).length ≤ buf.length) :
    ∃ buf' n, x.encodeTo p buf = .ok (buf', n) ∧ buf'.take n = addrsWire x ∧ buf'.drop n = buf.drop n ∧
      buf'.length = buf.length ∧
      BgpAddrs.decodeFrom p x.getAfiSafi.1 x.getAfiSafi.2 (buf'.take n) = .ok (addrsReceived x, addrsTaken x) ∧
      ((∀ v, x = .FS4U v → fsEndsInPrefix v = false) → (∀ v, x = .FS6U v → fsEndsInPrefix v = false) →
        addrsTaken x = n) := by
  refine ⟨_, _, addrs_writes x p h buf hb, ?_, ?_, ?_, ?_, ?_⟩
  · rw [List.take_left' rfl]
  · rw [List.drop_left' rfl]
  · simp; omega
  · rw [List.take_left' rfl, addrs_reads x p h hf]
  · intro h4 h6
    cases x <;> first
      | rfl
      | simp only [addrsTaken, h4 _ rfl, Bool.toNat_false, Nat.add_zero]
      | simp only [addrsTaken, h6 _ rfl, Bool.toNat_false, Nat.add_zero]

/-- a session without AddPath and with the fuzzy option off -/
def plainSession : BgpSessionParams :=
  { asNum := 65000, holdTime := 180, peerMode := .IPv4, hasAs32bit := true, routerId := 0x01020304,
    caps := [.SafiIPv4u, .CapRR], fuzzyPathid := false }

/-- non-vacuity: labeled VPN prefixes -/
example :
    let x : BgpAddrs := .VPNV4U [⟨⟨⟨0x0a000000, 8⟩, ⟨1, 2⟩⟩, ⟨[1000]⟩⟩, ⟨⟨⟨0x0b010000, 16⟩, ⟨1, 3⟩⟩, ⟨[1001]⟩⟩]
    AddrsWF x ∧ FormExpected plainSession x ∧ kindOf x = some (.ipv4Vpn, false) := by
  refine ⟨?_, ?_, rfl⟩
  · simp [AddrsWF, NlriKind.WF, NlriKind.bits, LabelFieldWF, LabelStackWF]
  · intro f ap h _
    simp only [kindOf, Option.some.injEq, Prod.mk.injEq] at h
    obtain ⟨rfl, rfl⟩ := h
    rfl

/-! ## C26 -/

/-- **C26 (partial).** For every multiprotocol capability but two the TLV put in the OPEN carries the AFI/SAFI of the family
it is named after, and AddPath and graceful restart entries built from it have the same numbers (for the three FlowSpec
capabilities building such an entry is an error). What is missing: IPv4 multicast and IPv4 labeled unicast, whose codes
are swapped (`C26_ipv4_codes_swapped`). -/
theorem C26_capability_codes_partial (c : BgpCapability) (f : Family) (h : capFamily c = some f)
    (hm : f ≠ .ipv4Multicast) (hl : f ≠ .ipv4Labeled) :
    (∀ buf : Bytes, buf.length = 6 → c.fillBuffer buf = .ok (mpCapability f)) ∧
    (f ∉ [.ipv4FlowSpec, .ipv4VpnFlowSpec, .ipv6FlowSpec] →
      ∀ (s r : Bool) (fl : U8) (st : U32), st.toNat < 2 ^ 24 →
        BgpCapAddPath.newFromCap c s r = .ok ⟨(familyCode f).1, (familyCode f).2, s, r⟩ ∧
        BgpCapGR.newFromCap c s = .ok ⟨(familyCode f).1, (familyCode f).2, s⟩ ∧
        BgpCapLLGR.newFromCap c fl st = .ok ⟨(familyCode f).1, (familyCode f).2, fl, st⟩) ∧
    (∀ (s r : Bool) (fl : U8) (st : U32), f ∈ [.ipv4FlowSpec, .ipv4VpnFlowSpec, .ipv6FlowSpec] →
        (BgpCapAddPath.newFromCap c s r).IsErr ∧ (BgpCapGR.newFromCap c s).IsErr ∧
        (BgpCapLLGR.newFromCap c fl st).IsErr) := by
  cases c <;> simp only [capFamily, Option.some.injEq, reduceCtorEq] at h <;> subst h <;>
    first
    | exact absurd rfl hm
    | exact absurd rfl hl
    | (refine ⟨fun buf hb => ?_, fun hn s r fl st hst => ?_, fun s r fl st hin => ?_⟩
       · obtain ⟨a, b, c, d, e, f, rfl⟩ : ∃ a b c d e f, buf = [a, b, c, d, e, f] := by
           match buf, hb with
           | [a, b, c, d, e, f], _ => exact ⟨a, b, c, d, e, f, rfl⟩
         rfl
       · first
         | exact absurd (by decide) hn
         | (refine ⟨rfl, rfl, ?_⟩
            simp only [BgpCapLLGR.newFromCap, afisafiFromCap, Res.ok_bind]
            rw [if_neg (by omega)]
            rfl)
       · first
         | exact ⟨trivial, trivial, trivial⟩
         | exact absurd hin (by decide))

/-- non-vacuity of C26: fifteen of the seventeen capabilities -/
example : capFamily .SafiVPNv4u = some .ipv4Vpn ∧ capFamily .SafiEVPN = some .l2Evpn ∧
    mpCapability .l2Evpn = [1, 4, 0, 25, 0, 70] := by decide

/-- A long-lived graceful restart entry cannot be built with a stale time of more than 24 bits, from no capability. -/
theorem C26_stale_time_refused (c : BgpCapability) (fl : U8) (st : U32) (h : 2 ^ 24 ≤ st.toNat) :
    (BgpCapLLGR.newFromCap c fl st).IsErr := by
  unfold BgpCapLLGR.newFromCap
  cases hc : afisafiFromCap c with
  | ok v => simp only [Res.ok_bind]; rw [if_pos h]; trivial
  | err e => trivial
  | panic => cases c <;> simp [afisafiFromCap] at hc
  | hang => cases c <;> simp [afisafiFromCap] at hc

/-- non-vacuity: the first stale time that is refused, and the last that is not -/
example : (2 : Nat) ^ 24 ≤ (0x1000000 : U32).toNat ∧ BgpCapLLGR.newFromCap .SafiIPv4u 0 0xffffff = .ok ⟨1, 1, 0, 0xffffff⟩ := by
  decide

/-- The gap in C26: the capability for IPv4 multicast announces the code of labeled unicast (SAFI 4), and the other way
round; AddPath and graceful restart entries built from them too. -/
theorem C26_ipv4_codes_swapped :
    BgpCapability.fillBuffer .SafiIPv4m (List.replicate 6 0) = .ok (mpCapability .ipv4Labeled) ∧
    BgpCapability.fillBuffer .SafiIPv4lu (List.replicate 6 0) = .ok (mpCapability .ipv4Multicast) ∧
    BgpCapAddPath.newFromCap .SafiIPv4m true true = .ok ⟨1, 4, true, true⟩ ∧
    BgpCapAddPath.newFromCap .SafiIPv4lu true true = .ok ⟨1, 2, true, true⟩ ∧
    (BgpAddrs.IPV4M []).getAfiSafi = (1, 2) ∧ (BgpAddrs.IPV4LU []).getAfiSafi = (1, 4) := by decide

/-! ## C45 -/

/-- **C45.** For every session and field: what is decoded is of the AddPath form exactly when the family has one and the
session receives AddPath for it, or the fuzzy option is on and the field has at least five octets, the first two zero. -/
theorem C45_addpath_exactly_when (p : BgpSessionParams) (afi : U16) (safi : U8) (buf : Bytes) (x : BgpAddrs) (n : Nat)
    (h : BgpAddrs.decodeFrom p afi safi buf = .ok (x, n)) (f : Family) (addpath : Bool)
    (hk : kindOf x = some (f, addpath)) :
    addpath = true ↔ hasAddPath f = true ∧
      (ReceivesAddPath p.caps (afi, safi) = true ∨
        (p.fuzzyPathid = true ∧ 5 ≤ buf.length ∧ buf.take 2 = [0, 0])) := by
  obtain ⟨f', ap, h1, h2, -⟩ := addrs_decode_ok h
  rw [hk] at h1
  simp only [Option.some.injEq, Prod.mk.injEq] at h1
  obtain ⟨rfl, rfl⟩ := h1
  rw [h2]
  simp [AddPathExpected, LooksAddPath]

/-- The session receives AddPath for a family with at most one entry exactly when the capabilities it ended up with
contain an entry for the family with the receive bit. -/
theorem C45_receives_iff (caps : List BgpCapability) (fam : U16 × U8)
    (hu : ∀ a b, Advertises caps a → Advertises caps b → family a = fam → family b = fam → a = b) :
    ReceivesAddPath caps fam = true ↔ ∃ a, Advertises caps a ∧ family a = fam ∧ a.receive = true := by
  have mem : ∀ a, a ∈ (addPathLists caps).flatten ↔ Advertises caps a := by
    intro a
    simp only [List.mem_flatten, addPathLists, List.mem_filterMap, Advertises]
    constructor
    · rintro ⟨l, ⟨c, hc, hl⟩, ha⟩
      cases c <;> simp at hl
      exact ⟨_, hc, by rw [hl]; exact ha⟩
    · rintro ⟨v, hv, ha⟩
      exact ⟨v, ⟨_, hv, rfl⟩, ha⟩
  unfold ReceivesAddPath
  constructor
  · intro h
    split at h
    · rename_i a ha
      refine ⟨a, (mem a).1 (List.mem_of_find?_eq_some ha), by simpa using List.find?_some ha, h⟩
    · cases h
  · rintro ⟨a, ha, hf, hr⟩
    split
    · rename_i b hb
      have := hu a b ha ((mem b).1 (List.mem_of_find?_eq_some hb)) hf (by simpa using List.find?_some hb)
      rw [← this]; exact hr
    · rename_i hn
      rw [List.find?_eq_none] at hn
      exact absurd hf (by simpa using hn a ((mem a).2 ha))

/-- **C45.** With the fuzzy option off and no AddPath received for the family, the octets of any plain collection decode
to that collection. -/
theorem C45_plain_not_misread (p : BgpSessionParams) (x : BgpAddrs) (f : Family) (hk : kindOf x = some (f, false))
    (h : AddrsWF x) (hz : p.fuzzyPathid = false) (hr : ReceivesAddPath p.caps (familyCode f) = false) :
    BgpAddrs.decodeFrom p (familyCode f).1 (familyCode f).2 (addrsWire x) =
      .ok (addrsReceived x, addrsTaken x) := by
  rw [← addrs_code x hk]
  refine addrs_reads x p h ?_
  intro g ap hg _
  rw [hk] at hg
  simp only [Option.some.injEq, Prod.mk.injEq] at hg
  obtain ⟨rfl, rfl⟩ := hg
  simp [AddPathExpected, hz, hr]

/-- **C45.** With AddPath received for the family, the octets of any AddPath collection decode to that collection, path
identifiers included. -/
theorem C45_addpath_read (p : BgpSessionParams) (x : BgpAddrs) (f : Family) (hk : kindOf x = some (f, true))
    (h : AddrsWF x) (hr : ReceivesAddPath p.caps (familyCode f) = true) :
    BgpAddrs.decodeFrom p (familyCode f).1 (familyCode f).2 (addrsWire x) =
      .ok (addrsReceived x, (addrsWire x).length) := by
  have ht : addrsTaken x = (addrsWire x).length := by cases x <;> first | rfl | cases hk
  rw [← addrs_code x hk, ← ht]
  refine addrs_reads x p h ?_
  intro g ap hg _
  rw [hk] at hg
  simp only [Option.some.injEq, Prod.mk.injEq] at hg
  obtain ⟨rfl, rfl⟩ := hg
  simp [AddPathExpected, hr]

/-- non-vacuity of C45: the same octets on four sessions -/
example :
    let buf : Bytes := [0, 0, 0, 7, 24, 10, 1, 2]
    let ap : BgpCapability := .CapAddPath [⟨1, 1, false, true⟩]
    BgpAddrs.decodeFrom { plainSession with caps := [ap] } 1 1 buf = .ok (.IPV4UP [⟨7, ⟨0x0a010200, 24⟩⟩], 8) ∧
    BgpAddrs.decodeFrom { plainSession with fuzzyPathid := true } 1 1 buf = .ok (.IPV4UP [⟨7, ⟨0x0a010200, 24⟩⟩], 8) ∧
    (BgpAddrs.decodeFrom plainSession 1 1 buf).Returns ∧
    ReceivesAddPath [ap] (1, 1) = true ∧ ReceivesAddPath [ap] (1, 2) = false := by decide

end Zbgp.Props
