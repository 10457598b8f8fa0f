import Verif.Model.Attrs
import Verif.Model.Session

/-!
# Derived comparisons

What `#[derive(PartialEq, Eq, PartialOrd, Ord, Hash)]` yields for the types of `/repo`, in the terms of `ROrd`: the
fields of a `struct` are compared in the order of declaration, values of different variants of an `enum` by the position
of the variant, values of the same variant by its fields.  A type is shown as a nested pair (`struct`) or as a sum
(`enum`, the variants from left to right) of the types of its fields, with one general rule for pairs and sums.

Simplification: the discriminant of an `enum` is fed to the hasher as a few words (the way to the variant in the sum)
instead of one; whether two values feed the same words is not changed by that.
-/

namespace Zbgp

/-- The implementations of a type that is compared through `f`. -/
@[reducible] def ROrd.via {T V : Type} [ROrd V] (f : T → V) : ROrd T where
  eq a b := ROrd.eq (f a) (f b)
  pcmp a b := ROrd.pcmp (f a) (f b)
  cmp a b := ROrd.cmp (f a) (f b)
  hash a := ROrd.hash (f a)

/-- Derived implementations of a `struct`: the first field, then the others. -/
instance {A B : Type} [ROrd A] [ROrd B] : ROrd (A × B) where
  eq a b := ROrd.eq a.1 b.1 && ROrd.eq a.2 b.2
  pcmp a b := lexP (ROrd.pcmp a.1 b.1) (ROrd.pcmp a.2 b.2)
  cmp a b := (ROrd.cmp a.1 b.1).then (ROrd.cmp a.2 b.2)
  hash a := ROrd.hash a.1 ++ ROrd.hash a.2

/-- Derived implementations of an `enum`: the variants on the left come before those on the right. -/
instance {A B : Type} [ROrd A] [ROrd B] : ROrd (A ⊕ B) where
  eq a b := match a, b with
    | .inl x, .inl y => ROrd.eq x y
    | .inr x, .inr y => ROrd.eq x y
    | _, _ => false
  pcmp a b := match a, b with
    | .inl x, .inl y => ROrd.pcmp x y
    | .inr x, .inr y => ROrd.pcmp x y
    | .inl _, .inr _ => some .lt
    | .inr _, .inl _ => some .gt
  cmp a b := match a, b with
    | .inl x, .inl y => ROrd.cmp x y
    | .inr x, .inr y => ROrd.cmp x y
    | .inl _, .inr _ => .lt
    | .inr _, .inl _ => .gt
  hash a := match a with
    | .inl x => 0 :: ROrd.hash x
    | .inr x => 1 :: ROrd.hash x

/-- A variant without fields. -/
instance : ROrd Unit where
  eq _ _ := true
  pcmp _ _ := some .eq
  cmp _ _ := .eq
  hash _ := []

/-- `bool`: `false` comes before `true`. -/
instance : ROrd Bool where
  eq a b := a == b
  pcmp a b := some (compare a.toNat b.toNat)
  cmp a b := compare a.toNat b.toNat
  hash a := [a.toNat]

/-- `Option`: `None` comes before `Some`. -/
instance {A : Type} [ROrd A] : ROrd (Option A) where
  eq a b := match a, b with
    | none, none => true
    | some x, some y => ROrd.eq x y
    | _, _ => false
  pcmp a b := match a, b with
    | none, none => some .eq
    | none, some _ => some .lt
    | some _, none => some .gt
    | some x, some y => ROrd.pcmp x y
  cmp a b := match a, b with
    | none, none => .eq
    | none, some _ => .lt
    | some _, none => .gt
    | some x, some y => ROrd.cmp x y
  hash a := match a with
    | none => [0]
    | some x => 1 :: ROrd.hash x

/-- `==` of slices: equal lengths and equal elements. -/
def eqList {A : Type} (eq : A → A → Bool) : List A → List A → Bool
  | [], [] => true
  | x :: l, y :: r => eq x y && eqList eq l r
  | _, _ => false

/-- `partial_cmp` of slices: the answer for the first elements that does not say `Equal`, else the shorter one first. -/
def pcmpList {A : Type} (pcmp : A → A → Option Ordering) : List A → List A → Option Ordering
  | [], [] => some .eq
  | [], _ :: _ => some .lt
  | _ :: _, [] => some .gt
  | x :: l, y :: r => lexP (pcmp x y) (pcmpList pcmp l r)

/-- `cmp` of slices: the first elements that differ, else the shorter one first. -/
def cmpList {A : Type} (cmp : A → A → Ordering) : List A → List A → Ordering
  | [], [] => .eq
  | [], _ :: _ => .lt
  | _ :: _, [] => .gt
  | x :: l, y :: r => (cmp x y).then (cmpList cmp l r)

/-- `Vec<T>`, arrays and `BTreeSet<T>` (compared through its ascending iterator), which `std` compares element by
element and hashes with the length first.  A `String` (the list of its bytes) is compared in the same way; it is hashed
with an end mark instead of the length. -/
instance {A : Type} [ROrd A] : ROrd (List A) where
  eq := eqList ROrd.eq
  pcmp := pcmpList ROrd.pcmp
  cmp := cmpList ROrd.cmp
  hash l := l.length :: l.flatMap ROrd.hash

/-- Derived, `src/afi/ipv4.rs:203-209`. -/
instance : ROrd BgpIPv4RD := .via fun x => (x.rd, x.addr)

/-- Derived, `src/afi/ipv6.rs:213-219`. -/
instance : ROrd BgpIPv6RD := .via fun x => (x.rd, x.addr)

/-- Derived, `src/afi/mac.rs:16-22`; the array `[u8; 6]` is compared and hashed as a slice. -/
instance : ROrd MacAddress := .via fun x => [x.m0, x.m1, x.m2, x.m3, x.m4, x.m5]

/-- Derived, `src/afi/mac.rs:113-119`. -/
instance : ROrd BgpAddrMac := .via fun x => (x.addr, x.prefixlen)

/-- The variants of `src/afi/mod.rs:65-72`. -/
def BgpNet.variant : BgpNet →
    (BgpAddrV4 ⊕ BgpAddrV6) ⊕ BgpAddrMac
  | .V4 a => .inl (.inl a)
  | .V6 a => .inl (.inr a)
  | .MAC a => .inr a

/-- Derived, `src/afi/mod.rs:64-72`. -/
instance : ROrd BgpNet := .via BgpNet.variant

/-- Derived, `src/afi/mdt.rs:18-26`. -/
instance : ROrd BgpMdtV4 := .via fun x => (x.addr, x.group)

/-- Derived, `src/afi/mdt.rs:119-127`. -/
instance : ROrd BgpMdtV6 := .via fun x => (x.addr, x.group)

/-- Derived, `src/afi/vpls.rs:65-73`. -/
instance : ROrd BgpL2 := .via fun x => (x.rd, x.site, x.offset, x.range)

/-- Derived, `src/afi/mvpn.rs:17-23`. -/
instance : ROrd BgpMVPN1 := .via fun x => (x.rd, x.originator)

/-- Derived, `src/afi/mvpn.rs:60-66`. -/
instance : ROrd BgpMVPN2 := .via fun x => (x.rd, x.asn)

/-- Derived, `src/afi/mvpn.rs:94-102`. -/
instance : ROrd BgpMVPN3 := .via fun x => (x.rd, x.source, x.group, x.originator)

/-- Derived, `src/afi/mvpn.rs:158-164`. -/
instance : ROrd BgpMVPN4 := .via fun x => (x.spmsi, x.originator)

/-- Derived, `src/afi/mvpn.rs:200-207`. -/
instance : ROrd BgpMVPN5 := .via fun x => (x.rd, x.source, x.group)

/-- Derived, `src/afi/mvpn.rs:254-262`. -/
instance : ROrd BgpMVPN67 := .via fun x => (x.rd, x.asn, x.rp, x.group)

/-- The variants of `src/afi/mvpn.rs:314-322`. -/
def BgpMVPN.variant : BgpMVPN →
    ((BgpMVPN1 ⊕ BgpMVPN2) ⊕ (BgpMVPN3 ⊕ BgpMVPN4)) ⊕ ((BgpMVPN5 ⊕ BgpMVPN67) ⊕ BgpMVPN67)
  | .t1 r => .inl (.inl (.inl r))
  | .t2 r => .inl (.inl (.inr r))
  | .t3 r => .inl (.inr (.inl r))
  | .t4 r => .inl (.inr (.inr r))
  | .t5 r => .inr (.inl (.inl r))
  | .t6 r => .inr (.inl (.inr r))
  | .t7 r => .inr (.inr r)

/-- Derived, `src/afi/mvpn.rs:311-322`. -/
instance : ROrd BgpMVPN := .via BgpMVPN.variant

/-- The variants of `src/afi/mod.rs:53-61`. -/
def BgpAddr.variant : BgpAddr →
    ((Unit ⊕ IPv4) ⊕ (IPv6 ⊕ BgpIPv4RD)) ⊕ ((BgpIPv6RD ⊕ BgpL2) ⊕ BgpMVPN)
  | .None => .inl (.inl (.inl ()))
  | .V4 a => .inl (.inl (.inr a))
  | .V6 a => .inl (.inr (.inl a))
  | .V4RD a => .inl (.inr (.inr a))
  | .V6RD a => .inr (.inl (.inl a))
  | .L2 a => .inr (.inl (.inr a))
  | .MVPN a => .inr (.inr a)

/-- Derived, `src/afi/mod.rs:50-61`. -/
instance : ROrd BgpAddr := .via BgpAddr.variant

/-- Derived, `src/afi/evpn.rs:18-24`; the array is compared and hashed as a slice. -/
instance : ROrd EVPNESI := .via fun x => x.v.toList

/-- Derived, `src/afi/evpn.rs:52-61`. -/
instance : ROrd BgpEVPN1 := .via fun x => (x.rd, x.esiType, x.esi, x.etherTag, x.labels)

/-- Derived, `src/afi/evpn.rs:108-119`. -/
instance : ROrd BgpEVPN2 := .via fun x => (x.rd, x.esiType, x.esi, x.etherTag, x.mac, x.ip, x.labels)

/-- Derived, `src/afi/evpn.rs:224-232`. -/
instance : ROrd BgpEVPN3 := .via fun x => (x.rd, x.etherTag, x.ip)

/-- Derived, `src/afi/evpn.rs:291-299`. -/
instance : ROrd BgpEVPN4 := .via fun x => (x.rd, x.esiType, x.esi, x.ip)

/-- Derived, `src/afi/evpn.rs:366-378`. -/
instance : ROrd BgpEVPN5 := .via fun x => (x.rd, x.esiType, x.esi, x.etherTag, x.len, x.pfx, x.gwIp, x.labels)

/-- The variants of `src/afi/evpn.rs:471-477`. -/
def BgpEVPN.variant : BgpEVPN →
    ((BgpEVPN1 ⊕ BgpEVPN2) ⊕ BgpEVPN3) ⊕ (BgpEVPN4 ⊕ BgpEVPN5)
  | .evpn1 r => .inl (.inl (.inl r))
  | .evpn2 r => .inl (.inl (.inr r))
  | .evpn3 r => .inl (.inr r)
  | .evpn4 r => .inr (.inl r)
  | .evpn5 r => .inr (.inr r)

/-- Derived, `src/afi/evpn.rs:468-477`. -/
instance : ROrd BgpEVPN := .via BgpEVPN.variant

/-- Derived, `src/afi/flowspec.rs:40-46`. -/
instance : ROrd FS6 := .via fun x => (x.ipv6, x.offset)

/-- Derived, `src/afi/flowspec.rs:81-87`. -/
instance : ROrd FSV4U := .via fun x => x.pfx

/-- Derived, `src/afi/flowspec.rs:123-132`. -/
instance : ROrd FSOperValItem := .via fun x => (x.andBit, x.ltCmp, x.gtCmp, x.eqCmp, x.value)

/-- Derived, `src/afi/flowspec.rs:298-306`. -/
instance : ROrd FSOperMaskItem := .via fun x => (x.andBit, x.bitNot, x.bitMatch, x.value)

/-- Derived, `src/afi/flowspec.rs:232-235`. -/
instance {T : Type} [ROrd T] : ROrd (FSOperVec T) := .via fun x => x.items

/-- The variants of `src/afi/flowspec.rs:406-420`. -/
def BgpFlowSpec.variant {T : Type} : BgpFlowSpec T →
    (((T ⊕ T) ⊕ (FSOperVec FSOperValItem ⊕ FSOperVec FSOperValItem)) ⊕ ((FSOperVec FSOperValItem ⊕ FSOperVec
    FSOperValItem) ⊕ FSOperVec FSOperValItem)) ⊕ (((FSOperVec FSOperValItem ⊕ FSOperVec FSOperMaskItem) ⊕ FSOperVec
    FSOperValItem) ⊕ ((FSOperVec FSOperValItem ⊕ FSOperVec FSOperMaskItem) ⊕ FSOperVec FSOperValItem))
  | .prefixDst a => .inl (.inl (.inl (.inl a)))
  | .prefixSrc a => .inl (.inl (.inl (.inr a)))
  | .proto v => .inl (.inl (.inr (.inl v)))
  | .portAny v => .inl (.inl (.inr (.inr v)))
  | .portDst v => .inl (.inr (.inl (.inl v)))
  | .portSrc v => .inl (.inr (.inl (.inr v)))
  | .icmpType v => .inl (.inr (.inr v))
  | .icmpCode v => .inr (.inl (.inl (.inl v)))
  | .tcpFlags v => .inr (.inl (.inl (.inr v)))
  | .packetLength v => .inr (.inl (.inr v))
  | .dscp v => .inr (.inr (.inl (.inl v)))
  | .fragment v => .inr (.inr (.inl (.inr v)))
  | .flowLabel v => .inr (.inr (.inr v))

/-- Derived, `src/afi/flowspec.rs:405-420`. -/
instance {T : Type} [ROrd T] : ROrd (BgpFlowSpec T) := .via BgpFlowSpec.variant

/-- The variants of `src/afi/mod.rs:162-194`. -/
def BgpAddrs.variant : BgpAddrs →
    ((((Unit ⊕ List BgpAddrV4) ⊕ (List BgpAddrV4 ⊕ List (Labeled BgpAddrV4))) ⊕ ((List (Labeled (WithRd BgpAddrV4))
    ⊕ List (Labeled (WithRd BgpAddrV4))) ⊕ (List (WithRd BgpMdtV4) ⊕ List (WithPathId (WithRd BgpMdtV4))))) ⊕
    (((List BgpAddrV6 ⊕ List BgpAddrV6) ⊕ (List (Labeled BgpAddrV6) ⊕ List (Labeled (WithRd BgpAddrV6)))) ⊕ ((List
    (Labeled (WithRd BgpAddrV6)) ⊕ List (WithRd BgpMdtV6)) ⊕ (List (WithPathId (WithRd BgpMdtV6)) ⊕ List
    BgpAddrL2)))) ⊕ ((((List BgpMVPN ⊕ List BgpEVPN) ⊕ (List (BgpFlowSpec BgpAddrV4) ⊕ List (BgpFlowSpec FS6))) ⊕
    ((List (BgpFlowSpec Zbgp.FSV4U) ⊕ List (WithPathId BgpAddrV4)) ⊕ (List (WithPathId BgpAddrV4) ⊕ List (WithPathId
    (Labeled BgpAddrV4))))) ⊕ (((List (WithPathId (Labeled (WithRd BgpAddrV4))) ⊕ List (WithPathId (Labeled (WithRd
    BgpAddrV4)))) ⊕ (List (WithPathId BgpAddrV6) ⊕ List (WithPathId BgpAddrV6))) ⊕ ((List (WithPathId (Labeled
    BgpAddrV6)) ⊕ List (WithPathId (Labeled (WithRd BgpAddrV6)))) ⊕ List (WithPathId (Labeled (WithRd
    BgpAddrV6))))))
  | .None => .inl (.inl (.inl (.inl (.inl ()))))
  | .IPV4U v => .inl (.inl (.inl (.inl (.inr v))))
  | .IPV4M v => .inl (.inl (.inl (.inr (.inl v))))
  | .IPV4LU v => .inl (.inl (.inl (.inr (.inr v))))
  | .VPNV4U v => .inl (.inl (.inr (.inl (.inl v))))
  | .VPNV4M v => .inl (.inl (.inr (.inl (.inr v))))
  | .IPV4MDT v => .inl (.inl (.inr (.inr (.inl v))))
  | .IPV4MDTP v => .inl (.inl (.inr (.inr (.inr v))))
  | .IPV6U v => .inl (.inr (.inl (.inl (.inl v))))
  | .IPV6M v => .inl (.inr (.inl (.inl (.inr v))))
  | .IPV6LU v => .inl (.inr (.inl (.inr (.inl v))))
  | .VPNV6U v => .inl (.inr (.inl (.inr (.inr v))))
  | .VPNV6M v => .inl (.inr (.inr (.inl (.inl v))))
  | .IPV6MDT v => .inl (.inr (.inr (.inl (.inr v))))
  | .IPV6MDTP v => .inl (.inr (.inr (.inr (.inl v))))
  | .L2VPLS v => .inl (.inr (.inr (.inr (.inr v))))
  | .MVPN v => .inr (.inl (.inl (.inl (.inl v))))
  | .EVPN v => .inr (.inl (.inl (.inl (.inr v))))
  | .FS4U v => .inr (.inl (.inl (.inr (.inl v))))
  | .FS6U v => .inr (.inl (.inl (.inr (.inr v))))
  | .FSV4U v => .inr (.inl (.inr (.inl (.inl v))))
  | .IPV4UP v => .inr (.inl (.inr (.inl (.inr v))))
  | .IPV4MP v => .inr (.inl (.inr (.inr (.inl v))))
  | .IPV4LUP v => .inr (.inl (.inr (.inr (.inr v))))
  | .VPNV4UP v => .inr (.inr (.inl (.inl (.inl v))))
  | .VPNV4MP v => .inr (.inr (.inl (.inl (.inr v))))
  | .IPV6UP v => .inr (.inr (.inl (.inr (.inl v))))
  | .IPV6MP v => .inr (.inr (.inl (.inr (.inr v))))
  | .IPV6LUP v => .inr (.inr (.inr (.inl (.inl v))))
  | .VPNV6UP v => .inr (.inr (.inr (.inl (.inr v))))
  | .VPNV6MP v => .inr (.inr (.inr (.inr v)))

set_option synthInstance.maxSize 1024 in
/-- Derived, `src/afi/mod.rs:159-194`. -/
instance : ROrd BgpAddrs := .via BgpAddrs.variant

/-- Derived, `src/message/attributes/mod.rs:48-54`. -/
instance : ROrd BgpAttrParams := .via fun x => (x.typecode, x.flags)

/-- The variants of `src/message/attributes/origin.rs:19-23`. -/
def BgpAttrOrigin.variant : BgpAttrOrigin →
    (Unit ⊕ Unit) ⊕ Unit
  | .Igp => .inl (.inl ())
  | .Egp => .inl (.inr ())
  | .Incomplete => .inr ()

/-- Derived, `src/message/attributes/origin.rs:16-23`. -/
instance : ROrd BgpAttrOrigin := .via BgpAttrOrigin.variant

/-- Derived, `src/message/attributes/origin.rs:35-41`. -/
instance : ROrd BgpOrigin := .via fun x => x.value

/-- Derived, `src/message/attributes/aspath.rs:26-32`. -/
instance : ROrd BgpASpath := .via fun x => x.value

/-- Derived, `src/message/attributes/nexthop.rs:16-23`. -/
instance : ROrd BgpNextHop := .via fun x => x.value

/-- Derived, `src/message/attributes/med.rs:16-22`. -/
instance : ROrd BgpMED := .via fun x => x.value

/-- Derived, `src/message/attributes/localpref.rs:16-22`. -/
instance : ROrd BgpLocalpref := .via fun x => x.value

/-- Derived, `src/message/attributes/atomicaggregate.rs:16-22`. -/
instance : ROrd BgpAtomicAggregate := .via fun x => x.value

/-- Derived, `src/message/attributes/aggregatoras.rs:16-24`. -/
instance : ROrd BgpAggregatorAS := .via fun x => (x.asn, x.addr)

/-- Derived, `src/message/attributes/originatorid.rs:17-23`. -/
instance : ROrd BgpOriginatorID := .via fun x => x.value

/-- Derived, `src/message/attributes/clusterlist.rs:16-22`. -/
instance : ROrd BgpClusterList := .via fun x => x.value

/-- Derived, `src/message/attributes/connector.rs:17-24`. -/
instance : ROrd BgpConnector := .via fun x => (x.asn, x.addr, x.orig)

/-- Derived, `src/message/attributes/unknown.rs:16-24`. -/
instance : ROrd BgpAttrUnknown := .via fun x => (x.params, x.value)

/-- Derived, `src/message/attributes/community.rs:26-32`. -/
instance : ROrd BgpCommunity := .via fun x => x.value

/-- Derived, `src/message/attributes/community.rs:34-40`. -/
instance : ROrd BgpCommunityList := .via fun x => x.value

/-- Derived, `src/message/attributes/community.rs:43-50`. -/
instance : ROrd BgpLargeCommunity := .via fun x => (x.ga, x.ldp1, x.ldp2)

/-- Derived, `src/message/attributes/community.rs:52-58`. -/
instance : ROrd BgpLargeCommunityList := .via fun x => x.value

/-- Derived, `src/message/attributes/extcommunity.rs:16-24`. -/
instance : ROrd BgpExtCommunity := .via fun x => (x.ctype, x.subtype, x.a, x.b)

/-- Derived, `src/message/attributes/extcommunity.rs:170-176`. -/
instance : ROrd BgpExtCommunityList := .via fun x => x.value

/-- Derived, `src/message/attributes/multiproto.rs:15-23`. -/
instance : ROrd BgpMPUpdates := .via fun x => (x.nexthop, x.addrs)

/-- Derived, `src/message/attributes/multiproto.rs:195-201`. -/
instance : ROrd BgpMPWithdraws := .via fun x => x.addrs

/-- The variants of `src/message/attributes/pmsitunnelattr.rs:62-67`. -/
def BgpPMSITunnelAttr.variant : BgpPMSITunnelAttr →
    (Unit ⊕ (IPv4 × U16 × U16 × IPv4)) ⊕ (IPv4 ⊕ (IpAddr × Bytes))
  | .None => .inl (.inl ())
  | .RSVPTe e r t p => .inl (.inr (e, r, t, p))
  | .IngressRepl e => .inr (.inl e)
  | .MLDP r o => .inr (.inr (r, o))

/-- Derived, `src/message/attributes/pmsitunnelattr.rs:16-67`. -/
instance : ROrd BgpPMSITunnelAttr := .via BgpPMSITunnelAttr.variant

/-- Derived, `src/message/attributes/pmsitunnelattr.rs:80-88`. -/
instance : ROrd BgpPMSITunnel := .via fun x => (x.flags, x.tunnelType, x.label, x.tunnelAttribute)

/-- The variants of `src/message/attributes/mod.rs:65-84`, without the contents of an attribute set. -/
def BgpAttrItem.flat : BgpAttrItem →
    ((((BgpOrigin ⊕ BgpASpath) ⊕ BgpNextHop) ⊕ (BgpMED ⊕ BgpLocalpref)) ⊕ ((BgpAtomicAggregate ⊕ BgpAggregatorAS) ⊕
    (BgpCommunityList ⊕ BgpOriginatorID))) ⊕ ((((BgpClusterList ⊕ BgpMPUpdates) ⊕ BgpMPWithdraws) ⊕
    (BgpExtCommunityList ⊕ BgpLargeCommunityList)) ⊕ ((BgpPMSITunnel ⊕ Unit) ⊕ (BgpConnector ⊕ BgpAttrUnknown)))
  | .Origin x => .inl (.inl (.inl (.inl (.inl x))))
  | .ASPath x => .inl (.inl (.inl (.inl (.inr x))))
  | .NextHop x => .inl (.inl (.inl (.inr x)))
  | .MED x => .inl (.inl (.inr (.inl x)))
  | .LocalPref x => .inl (.inl (.inr (.inr x)))
  | .AtomicAggregate x => .inl (.inr (.inl (.inl x)))
  | .AggregatorAS x => .inl (.inr (.inl (.inr x)))
  | .CommunityList x => .inl (.inr (.inr (.inl x)))
  | .OriginatorID x => .inl (.inr (.inr (.inr x)))
  | .ClusterList x => .inr (.inl (.inl (.inl (.inl x))))
  | .MPUpdates x => .inr (.inl (.inl (.inl (.inr x))))
  | .MPWithdraws x => .inr (.inl (.inl (.inr x)))
  | .ExtCommunityList x => .inr (.inl (.inr (.inl x)))
  | .LargeCommunityList x => .inr (.inl (.inr (.inr x)))
  | .PMSITunnel x => .inr (.inr (.inl (.inl x)))
  | .AttrSet _ _ => .inr (.inr (.inl (.inr ())))
  | .Connector x => .inr (.inr (.inr (.inl x)))
  | .Unknown x => .inr (.inr (.inr (.inr x)))

namespace BgpAttrItem

mutual

/-- Derived, `src/message/attributes/mod.rs:62-84` with `BgpAttrSet` of `src/message/attributes/attrset.rs:16-24`. -/
def eq : BgpAttrItem → BgpAttrItem → Bool
  | .AttrSet n l, .AttrSet m k => ROrd.eq n m && eqs l k
  | a, b => ROrd.eq a.flat b.flat

/-- The same for the attributes in an attribute set. -/
def eqs : List BgpAttrItem → List BgpAttrItem → Bool
  | [], [] => true
  | x :: l, y :: r => eq x y && eqs l r
  | _, _ => false

end

mutual

/-- Derived, `src/message/attributes/mod.rs:62-84` with `BgpAttrSet` of `src/message/attributes/attrset.rs:16-24`. -/
def pcmp : BgpAttrItem → BgpAttrItem → Option Ordering
  | .AttrSet n l, .AttrSet m k => lexP (ROrd.pcmp n m) (pcmps l k)
  | a, b => ROrd.pcmp a.flat b.flat

/-- The same for the attributes in an attribute set. -/
def pcmps : List BgpAttrItem → List BgpAttrItem → Option Ordering
  | [], [] => some .eq
  | [], _ :: _ => some .lt
  | _ :: _, [] => some .gt
  | x :: l, y :: r => lexP (pcmp x y) (pcmps l r)

end

mutual

/-- Derived, `src/message/attributes/mod.rs:62-84` with `BgpAttrSet` of `src/message/attributes/attrset.rs:16-24`. -/
def cmp : BgpAttrItem → BgpAttrItem → Ordering
  | .AttrSet n l, .AttrSet m k => (ROrd.cmp n m).then (cmps l k)
  | a, b => ROrd.cmp a.flat b.flat

/-- The same for the attributes in an attribute set. -/
def cmps : List BgpAttrItem → List BgpAttrItem → Ordering
  | [], [] => .eq
  | [], _ :: _ => .lt
  | _ :: _, [] => .gt
  | x :: l, y :: r => (cmp x y).then (cmps l r)

end

mutual

/-- Derived, `src/message/attributes/mod.rs:62-84` with `BgpAttrSet` of `src/message/attributes/attrset.rs:16-24`. -/
def hash : BgpAttrItem → List Nat
  | .AttrSet n l => ROrd.hash (BgpAttrItem.AttrSet n l).flat ++ (ROrd.hash n ++ (l.length :: hashes l))
  | a => ROrd.hash a.flat

/-- The same for the attributes in an attribute set. -/
def hashes : List BgpAttrItem → List Nat
  | [] => []
  | x :: l => hash x ++ hashes l

end

end BgpAttrItem

/-- `src/message/attributes/mod.rs:62-84`. -/
instance : ROrd BgpAttrItem where
  eq := BgpAttrItem.eq
  pcmp := BgpAttrItem.pcmp
  cmp := BgpAttrItem.cmp
  hash := BgpAttrItem.hash

/-- Derived, `src/lib.rs:134-139`. -/
instance : ROrd BgpCapGR := .via fun x => (x.afi, x.safi, x.forwardingState)

/-- Derived, `src/lib.rs:198-204`. -/
instance : ROrd BgpCapLLGR := .via fun x => (x.afi, x.safi, x.flags, x.staleTime)

/-- Derived, `src/lib.rs:249-255`. -/
instance : ROrd BgpCapAddPath := .via fun x => (x.afi, x.safi, x.send, x.receive)

/-- The variants of `src/lib.rs:302-357`. -/
def BgpCapability.variant : BgpCapability →
    ((((Unit ⊕ Unit) ⊕ (Unit ⊕ Unit)) ⊕ ((Unit ⊕ Unit) ⊕ Unit)) ⊕ (((Unit ⊕ Unit) ⊕ Unit) ⊕ ((Unit ⊕ Unit) ⊕ Unit)))
    ⊕ ((((Unit ⊕ Unit) ⊕ Unit) ⊕ ((Unit ⊕ (U16 × Bool × List BgpCapGR)) ⊕ U32)) ⊕ (((Unit ⊕ List BgpCapAddPath) ⊕
    Unit) ⊕ ((List BgpCapLLGR ⊕ (Bytes × Bytes)) ⊕ Unit)))
  | .SafiIPv4u => .inl (.inl (.inl (.inl (.inl ()))))
  | .SafiIPv4m => .inl (.inl (.inl (.inl (.inr ()))))
  | .SafiIPv4mvpn => .inl (.inl (.inl (.inr (.inl ()))))
  | .SafiIPv4fu => .inl (.inl (.inl (.inr (.inr ()))))
  | .SafiVPNv4u => .inl (.inl (.inr (.inl (.inl ()))))
  | .SafiVPNv4fu => .inl (.inl (.inr (.inl (.inr ()))))
  | .SafiVPNv4m => .inl (.inl (.inr (.inr ())))
  | .SafiIPv4lu => .inl (.inr (.inl (.inl (.inl ()))))
  | .SafiIPv4mdt => .inl (.inr (.inl (.inl (.inr ()))))
  | .SafiIPv6u => .inl (.inr (.inl (.inr ())))
  | .SafiIPv6lu => .inl (.inr (.inr (.inl (.inl ()))))
  | .SafiIPv6fu => .inl (.inr (.inr (.inl (.inr ()))))
  | .SafiVPNv6u => .inl (.inr (.inr (.inr ())))
  | .SafiVPNv6m => .inr (.inl (.inl (.inl (.inl ()))))
  | .SafiIPv6mdt => .inr (.inl (.inl (.inl (.inr ()))))
  | .SafiVPLS => .inr (.inl (.inl (.inr ())))
  | .SafiEVPN => .inr (.inl (.inr (.inl (.inl ()))))
  | .CapGR restartTime restartState afis => .inr (.inl (.inr (.inl (.inr (restartTime, restartState, afis)))))
  | .CapASN32 asNum => .inr (.inl (.inr (.inr asNum)))
  | .CapRR => .inr (.inr (.inl (.inl (.inl ()))))
  | .CapAddPath v => .inr (.inr (.inl (.inl (.inr v))))
  | .CapEnhancedRR => .inr (.inr (.inl (.inr ())))
  | .CapLLGR v => .inr (.inr (.inr (.inl (.inl v))))
  | .CapFQDN hostname domainname => .inr (.inr (.inr (.inl (.inr (hostname, domainname)))))
  | .CapBFD => .inr (.inr (.inr (.inr ())))

/-- Derived, `src/lib.rs:301-357`. -/
instance : ROrd BgpCapability := .via BgpCapability.variant

/-- Derived, `src/message/open.rs:12-22`. -/
instance : ROrd BgpOpenMessage := .via fun x => (x.asNum, x.holdTime, x.routerId, x.caps)

end Zbgp
