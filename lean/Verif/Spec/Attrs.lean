import Verif.Model.Attrs
import Verif.Spec.Addrs

/-!
# Path attributes on the wire

RFC 4271 4.3, RFC 1997, RFC 4360, RFC 4456, RFC 4760, RFC 8092 and the connector attribute of
draft-nalawade-l3vpn-bgp-connector.  Only the data types of the model are used, none of its functions.
-/

namespace Zbgp.Spec

open Zbgp

/-- One AS number: four octets in a session with 32-bit AS numbers, else two. -/
def asnWire (as32 : Bool) (a : BgpAS) : Bytes := be (if as32 then 4 else 2) a.value.toNat

/-- An AS_PATH of one AS_SEQUENCE: segment type 2, the count, the AS numbers. An empty path has no segment. -/
def asPathWire (as32 : Bool) (l : List BgpAS) : Bytes :=
  if l = [] then [] else [2, BitVec.ofNat 8 l.length] ++ l.flatMap (asnWire as32)

/-- A path segment of RFC 4271 4.3: its type, and its AS numbers. -/
structure Segment where
  kind : U8
  asns : List BgpAS
deriving DecidableEq, Repr

/-- The octets of a segment. -/
def segmentWire (as32 : Bool) (s : Segment) : Bytes :=
  [s.kind, BitVec.ofNat 8 s.asns.length] ++ s.asns.flatMap (asnWire as32)

/-- A segment that exists on the wire: one to 255 AS numbers, of 16 bits in a session without 32-bit AS numbers. -/
def SegmentWF (as32 : Bool) (s : Segment) : Prop :=
  1 ≤ s.asns.length ∧ s.asns.length ≤ 255 ∧ (as32 = false → ∀ a ∈ s.asns, a.value.toNat < 65536)

/-- RFC 1997: four octets. -/
def communityWire (c : BgpCommunity) : Bytes := be 4 c.value.toNat
/-- RFC 8092: three times four octets. -/
def largeCommunityWire (c : BgpLargeCommunity) : Bytes := be 4 c.ga.toNat ++ be 4 c.ldp1.toNat ++ be 4 c.ldp2.toNat
/-- RFC 4360: type, subtype, six octets of value. -/
def extCommunityWire (c : BgpExtCommunity) : Bytes := [c.ctype, c.subtype] ++ be 2 c.a.toNat ++ be 4 c.b.toNat

/-- The community as a number. -/
def communityNumber (c : BgpCommunity) : Nat := c.value.toNat
/-- The twelve octets of a large community as a number. -/
def largeCommunityNumber (c : BgpLargeCommunity) : Nat :=
  (c.ga.toNat * 2 ^ 32 + c.ldp1.toNat) * 2 ^ 32 + c.ldp2.toNat
/-- The eight octets of an extended community as a number. -/
def extCommunityNumber (c : BgpExtCommunity) : Nat :=
  ((c.ctype.toNat * 2 ^ 8 + c.subtype.toNat) * 2 ^ 16 + c.a.toNat) * 2 ^ 32 + c.b.toNat

/-- The list is strictly ascending by the numbers of its members: every member is listed once, in order. -/
def Ascending {α : Type} (number : α → Nat) (l : List α) : Prop := l.Pairwise fun a b => number a < number b

/-- The octets of a next hop. -/
def nexthopWire : BgpAddr → Bytes
  | .None => []
  | .V4 a => be 4 a.toNat
  | .V6 a => be 16 a.toNat
  | .V4RD a => rdBody a.rd ++ be 4 a.addr.toNat
  | .V6RD a => rdBody a.rd ++ be 16 a.addr.toNat
  | .L2 _ => []
  | .MVPN _ => []

/-- The kind of next hop each family uses: an address of the family, with a route distinguisher for VPN families; an IPv4
address for the L2VPN families. -/
def NexthopKind : Family → BgpAddr → Prop
  | .ipv4Vpn, .V4RD _ => True
  | .ipv4VpnMulticast, .V4RD _ => True
  | .ipv4VpnFlowSpec, .V4RD _ => True
  | .ipv4Unicast, .V4 _ => True
  | .ipv4Multicast, .V4 _ => True
  | .ipv4Labeled, .V4 _ => True
  | .ipv4Mvpn, .V4 _ => True
  | .ipv4Mdt, .V4 _ => True
  | .ipv4FlowSpec, .V4 _ => True
  | .ipv6Vpn, .V6RD _ => True
  | .ipv6VpnMulticast, .V6RD _ => True
  | .ipv6Unicast, .V6 _ => True
  | .ipv6Multicast, .V6 _ => True
  | .ipv6Labeled, .V6 _ => True
  | .ipv6Mdt, .V6 _ => True
  | .ipv6FlowSpec, .V6 _ => True
  | .l2Vpls, .V4 _ => True
  | .l2Evpn, .V4 _ => True
  | _, _ => False

/-- The AFI and SAFI octets of a family. -/
def familyWire (f : Family) : Bytes := be 2 (familyCode f).1.toNat ++ [(familyCode f).2]

/-- RFC 4760 3: AFI, SAFI, next hop length, next hop, one reserved zero octet, NLRI. -/
def mpReachWire (f : Family) (nh : BgpAddr) (addrs : BgpAddrs) : Bytes :=
  familyWire f ++ [BitVec.ofNat 8 (nexthopWire nh).length] ++ nexthopWire nh ++ [0] ++ addrsWire addrs

/-- RFC 4760 4: AFI, SAFI, withdrawn NLRI. -/
def mpUnreachWire (f : Family) (addrs : BgpAddrs) : Bytes := familyWire f ++ addrsWire addrs

/-- Type code and flags of each attribute. -/
def attrCode : BgpAttrItem → U8 × U8
  | .Origin _ => (1, 0x40)
  | .ASPath _ => (2, 0x50)
  | .NextHop _ => (3, 0x40)
  | .MED _ => (4, 0x80)
  | .LocalPref _ => (5, 0x40)
  | .AtomicAggregate _ => (6, 0x40)
  | .AggregatorAS _ => (7, 0x40)
  | .CommunityList _ => (8, 0xd0)
  | .OriginatorID _ => (9, 0x80)
  | .ClusterList _ => (10, 0x80)
  | .MPUpdates _ => (14, 0x90)
  | .MPWithdraws _ => (15, 0x90)
  | .ExtCommunityList _ => (16, 0xc0)
  | .LargeCommunityList _ => (32, 0xf0)
  | .PMSITunnel _ => (22, 0xc0)
  | .AttrSet _ _ => (128, 0xe0)
  | .Connector _ => (20, 0xc0)
  | .Unknown x => (x.params.typecode, x.params.flags)

/-- The type codes the library has a decoder for. -/
def assignedCodes : List Nat := [1, 2, 3, 4, 5, 6, 7, 8, 9, 10, 14, 15, 16, 20, 22, 32, 128]

/-- The extended-length flag. -/
def extended (flags : U8) : Bool := flags.getLsbD 4

/-- The octets of an attribute header: flags, type code, length in two octets or one. -/
def attrHeader (code flags : U8) (len : Nat) : Bytes :=
  [flags, code] ++ be (if extended flags then 2 else 1) len

/-- The largest value length the header can hold. -/
def maxValue (flags : U8) : Nat := if extended flags then 65535 else 255

/-- The octets of an attribute value in a session with (`as32`) or without 32-bit AS numbers. The attributes without an
encoder have none. ATOMIC_AGGREGATE carries the address the library keeps in it. -/
def valueWire (as32 : Bool) : BgpAttrItem → Bytes
  | .Origin ⟨.Igp⟩ => [0]
  | .Origin ⟨.Egp⟩ => [1]
  | .Origin ⟨.Incomplete⟩ => [2]
  | .ASPath x => asPathWire as32 x.value
  | .NextHop x => ipBody x.value
  | .MED x => be 4 x.value.toNat
  | .LocalPref x => be 4 x.value.toNat
  | .AtomicAggregate x => ipBody x.value
  | .AggregatorAS x => be (if as32 then 4 else 2) x.asn.toNat ++ be 4 x.addr.toNat
  | .CommunityList x => x.value.flatMap communityWire
  | .OriginatorID x => ipBody x.value
  | .ClusterList x => x.value.flatMap ipBody
  | .MPUpdates x =>
    match kindOf x.addrs with
    | some (f, _) => mpReachWire f x.nexthop x.addrs
    | none => []
  | .MPWithdraws x =>
    match kindOf x.addrs with
    | some (f, _) => mpUnreachWire f x.addrs
    | none => []
  | .ExtCommunityList x => x.value.flatMap extCommunityWire
  | .LargeCommunityList x => x.value.flatMap largeCommunityWire
  | .PMSITunnel _ => []
  | .AttrSet _ _ => []
  | .Connector x => be 2 1 ++ be 4 x.asn.toNat ++ be 4 x.addr.toNat ++ be 4 x.orig.toNat
  | .Unknown x => x.value

/-- The whole attribute: header and value. -/
def attrWire (as32 : Bool) (x : BgpAttrItem) : Bytes :=
  attrHeader (attrCode x).1 (attrCode x).2 (valueWire as32 x).length ++ valueWire as32 x

/-- The families of which the library reads the next hop back (IPv6 FlowSpec is missing). -/
def NexthopReadable (f : Family) : Prop := f ≠ .ipv6FlowSpec

/-- The attribute can be put on the wire in the session and recovered: its addresses are of the family of the transport,
its NLRI and next hop fit the session, and community lists are the ascending lists of sets. AGGREGATOR, non-empty AS paths in sessions
with 16-bit AS numbers and the attributes without an encoder are left out. -/
def AttrOk (p : BgpSessionParams) : BgpAttrItem → Prop
  | .Origin _ => True
  | .ASPath x => x.value = [] ∨ p.hasAs32bit = true
  | .NextHop x => addrFamily x.value = p.peerMode
  | .MED _ => True
  | .LocalPref _ => True
  | .AtomicAggregate _ => True
  | .AggregatorAS _ => False
  | .CommunityList x => Ascending communityNumber x.value
  | .OriginatorID x => addrFamily x.value = p.peerMode
  | .ClusterList x => ∀ a ∈ x.value, addrFamily a = p.peerMode
  | .MPUpdates x => AddrsWF x.addrs ∧ FormExpected p x.addrs ∧
      ∃ f ap, kindOf x.addrs = some (f, ap) ∧ NexthopKind f x.nexthop ∧ NexthopReadable f
  | .MPWithdraws x => AddrsWF x.addrs ∧ FormExpected p x.addrs
  | .ExtCommunityList x => Ascending extCommunityNumber x.value
  | .LargeCommunityList x => Ascending largeCommunityNumber x.value
  | .PMSITunnel _ => False
  | .AttrSet _ _ => False
  | .Connector _ => True
  | .Unknown x => x.params.typecode.toNat ∉ assignedCodes

/-- What a receiver gets: the same attribute; in multiprotocol NLRI the octets of prefixes that are not sent are zero. -/
def attrReceived : BgpAttrItem → BgpAttrItem
  | .MPUpdates x => .MPUpdates { x with addrs := addrsReceived x.addrs }
  | .MPWithdraws x => .MPWithdraws { x with addrs := addrsReceived x.addrs }
  | x => x

/-- The EVPN routes of which the encoder reports all the octets it writes: for IPv6 type 5 routes it writes 16 octets more
than it reports, and the label stack only overwrites them all when it is that long. -/
def EvpnFramed : BgpEVPN → Prop
  | .evpn5 x => (∃ a, x.pfx = .v4 a) ∨ 16 ≤ 3 * x.labels.labels.length
  | _ => True

/-- The collections of NLRI of which the encoder reports all the octets it writes. -/
def AddrsFramed (x : BgpAddrs) : Prop := (∀ v, x ≠ .L2VPLS v) ∧ ∀ v, x = .EVPN v → ∀ e ∈ v, EvpnFramed e

/-- The attributes of which the encoder reports exactly the octets it writes: all but AGGREGATOR (of which nothing is
written) and the NLRI left out by `AddrsFramed`. -/
def AttrFramed : BgpAttrItem → Prop
  | .AggregatorAS _ => False
  | .MPUpdates x => AddrsFramed x.addrs
  | .MPWithdraws x => AddrsFramed x.addrs
  | _ => True

/-- The attribute values of which the decoder is sure to return: list attributes of whole elements, an ORIGINATOR_ID
with room for an address; multiprotocol, PMSI tunnel and attribute set values are left out. -/
def ValueHandled (code : Nat) (v : Bytes) : Prop :=
  (code = 8 → 4 ∣ v.length) ∧ (code = 32 → 12 ∣ v.length) ∧ (code = 9 → 4 ≤ v.length) ∧
    code ∉ [14, 15, 22, 128]

end Zbgp.Spec
