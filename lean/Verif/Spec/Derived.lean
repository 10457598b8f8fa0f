import Verif.Spec.Order
import Verif.Model.Derived

/-! # What the comparisons of routes, attributes and capabilities say -/

namespace Zbgp.Spec

open Zbgp

/-- `cmp` is a total order. -/
structure TotalOrder (T : Type) [ROrd T] : Prop where
  oriented : ∀ a b : T, ROrd.cmp a b = (ROrd.cmp b a).swap
  trans : ∀ a b c : T, ROrd.cmp a b ≠ .gt → ROrd.cmp b c ≠ .gt → ROrd.cmp a c ≠ .gt

/-- What `BTreeMap`, `BTreeSet`, `HashMap` and `HashSet` need of a key, where `ident` is what makes two keys the same:
`cmp` is a total order, `cmp` says `Equal` and `==` says `true` of exactly the values with the same `ident`, and such
values hash alike. -/
structure KeyBy {T : Type} [ROrd T] (ident : T → T) : Prop extends TotalOrder T where
  equal_iff : ∀ a b : T, ROrd.cmp a b = .eq ↔ ident a = ident b
  eq_iff : ∀ a b : T, ROrd.eq a b = true ↔ ident a = ident b
  hash_eq : ∀ a b : T, ident a = ident b → ROrd.hash a = ROrd.hash b

/-- A key of which every part counts and for which `partial_cmp` agrees with `cmp`. -/
structure FullKey (T : Type) [ROrd T] : Prop extends KeyBy (fun x : T => x) where
  pcmp_eq : ∀ a b : T, ROrd.pcmp a b = some (ROrd.cmp a b)

/-- The empty label stack. -/
def noLabels : MplsLabels := ⟨[]⟩

/-- A labeled prefix without the label stack. -/
def bare {T : Type} (x : Labeled T) : Labeled T := { x with labels := noLabels }

/-- The same with a path identifier. -/
def bareP {T : Type} (x : WithPathId (Labeled T)) : WithPathId (Labeled T) := { x with nlri := bare x.nlri }

/-- What a value feeds to a hasher tells it from every value with another identity, also when more data goes before and
after it, as in a key of several values. -/
def HashesBy {T : Type} [ROrd T] (ident : T → T) : Prop :=
  ∀ (a b : T) (p s t : List Nat), p ++ ROrd.hash a ++ s = p ++ ROrd.hash b ++ t ↔ ident a = ident b ∧ s = t

/-- The same for a kind of value that is told apart completely. -/
def HashesFully (T : Type) [ROrd T] : Prop := HashesBy (fun x : T => x)

/-- A VPLS route without the label block. -/
def bareL2 (x : BgpAddrL2) : BgpAddrL2 := { x with labels := noLabels }

/-- An EVPN route without the label stack. -/
def bareEvpn : BgpEVPN → BgpEVPN
  | .evpn1 r => .evpn1 { r with labels := noLabels }
  | .evpn2 r => .evpn2 { r with labels := noLabels }
  | .evpn3 r => .evpn3 r
  | .evpn4 r => .evpn4 r
  | .evpn5 r => .evpn5 { r with labels := noLabels }

/-- Whether an EVPN route has a label stack: the types 1, 2 and 5. -/
def hasLabels : BgpEVPN → Bool
  | .evpn1 _ => true
  | .evpn2 _ => true
  | .evpn3 _ => false
  | .evpn4 _ => false
  | .evpn5 _ => true

/-- A list of routes without the label stacks. -/
def bareAddrs : BgpAddrs → BgpAddrs
  | .IPV4LU v => .IPV4LU (v.map bare)
  | .VPNV4U v => .VPNV4U (v.map bare)
  | .VPNV4M v => .VPNV4M (v.map bare)
  | .IPV6LU v => .IPV6LU (v.map bare)
  | .VPNV6U v => .VPNV6U (v.map bare)
  | .VPNV6M v => .VPNV6M (v.map bare)
  | .IPV4LUP v => .IPV4LUP (v.map bareP)
  | .VPNV4UP v => .VPNV4UP (v.map bareP)
  | .VPNV4MP v => .VPNV4MP (v.map bareP)
  | .IPV6LUP v => .IPV6LUP (v.map bareP)
  | .VPNV6UP v => .VPNV6UP (v.map bareP)
  | .VPNV6MP v => .VPNV6MP (v.map bareP)
  | .L2VPLS v => .L2VPLS (v.map bareL2)
  | .EVPN v => .EVPN (v.map bareEvpn)
  | a => a

/-- The AS number that is written in the upper half of a value with the lower half zero. -/
def asNumber (a : BgpAS) : BgpAS :=
  if a.value.toNat % 65536 = 0 then ⟨BitVec.ofNat 32 (a.value.toNat / 65536)⟩ else a

mutual

/-- An attribute without the label stacks, and with the AS numbers of the AS paths mapped by `f`. -/
def bareAttr (f : BgpAS → BgpAS) : BgpAttrItem → BgpAttrItem
  | .ASPath x => .ASPath ⟨x.value.map f⟩
  | .MPUpdates x => .MPUpdates ⟨x.nexthop, bareAddrs x.addrs⟩
  | .MPWithdraws x => .MPWithdraws ⟨bareAddrs x.addrs⟩
  | .PMSITunnel x => .PMSITunnel { x with label := noLabels }
  | .AttrSet n l => .AttrSet n (bareAttrs f l)
  | a => a

/-- The same for a list of attributes. -/
def bareAttrs (f : BgpAS → BgpAS) : List BgpAttrItem → List BgpAttrItem
  | [] => []
  | a :: l => bareAttr f a :: bareAttrs f l

end

/-- The position of an EVPN route type in the order. -/
def evpnPos : BgpEVPN → Nat
  | .evpn1 _ => 1
  | .evpn2 _ => 2
  | .evpn3 _ => 3
  | .evpn4 _ => 4
  | .evpn5 _ => 5

/-- The position of an MVPN route type in the order. -/
def mvpnPos : BgpMVPN → Nat
  | .t1 _ => 1
  | .t2 _ => 2
  | .t3 _ => 3
  | .t4 _ => 4
  | .t5 _ => 5
  | .t6 _ => 6
  | .t7 _ => 7

/-- The position of a kind of network in the order. -/
def netPos : BgpNet → Nat
  | .V4 _ => 1
  | .V6 _ => 2
  | .MAC _ => 3

/-- The position of a flow specification component in the order: its type number, where the flow label (13) comes last. -/
def flowPos {T : Type} : BgpFlowSpec T → Nat
  | .prefixDst _ => 1
  | .prefixSrc _ => 2
  | .proto _ => 3
  | .portAny _ => 4
  | .portDst _ => 5
  | .portSrc _ => 6
  | .icmpType _ => 7
  | .icmpCode _ => 8
  | .tcpFlags _ => 9
  | .packetLength _ => 10
  | .dscp _ => 11
  | .fragment _ => 12
  | .flowLabel _ => 13

/-- The position of an origin in the order, which is its code on the wire. -/
def originPos : BgpAttrOrigin → Nat
  | .Igp => 0
  | .Egp => 1
  | .Incomplete => 2

/-- Position of an attribute's kind in sorted order. -/
def attrPos : BgpAttrItem → Nat
  | .Origin _ => 1 | .ASPath _ => 2 | .NextHop _ => 3 | .MED _ => 4 | .LocalPref _ => 5 | .AtomicAggregate _ => 6
  | .AggregatorAS _ => 7 | .CommunityList _ => 8 | .OriginatorID _ => 9 | .ClusterList _ => 10 | .MPUpdates _ => 11
  | .MPWithdraws _ => 12 | .ExtCommunityList _ => 13 | .LargeCommunityList _ => 14 | .PMSITunnel _ => 15
  | .AttrSet _ _ => 16 | .Connector _ => 17 | .Unknown _ => 18

end Zbgp.Spec
