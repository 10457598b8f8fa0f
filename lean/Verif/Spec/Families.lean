import Verif.Model.Mdt
import Verif.Model.Vpls
import Verif.Model.Evpn
import Verif.Model.Mvpn
import Verif.Spec.Nlri

/-!
# Wire formats of MDT, VPLS, EVPN and MVPN NLRI

RFC 6037 (MDT), RFC 4761 (VPLS), RFC 7432 and RFC 9136 (EVPN), RFC 6514 (MVPN).  Only the data types of the model are
used, none of its functions.
-/

namespace Zbgp.Spec

open Zbgp

/-- An IP address on the wire. -/
def ipBody : IpAddr → Bytes
  | .v4 a => be 4 a.toNat
  | .v6 a => be 16 a.toNat

/-- An IP address with its length in bits in front. -/
def lenIpBody : IpAddr → Bytes
  | .v4 a => 32 :: be 4 a.toNat
  | .v6 a => 128 :: be 16 a.toNat

/-! ## MDT -/

/-- Prefix octets, then the group address; the length counts both. -/
instance : NlriKind BgpMdtV4 where
  bits x := x.addr.prefixlen.toNat + 32
  body x := prefixBody 4 x.addr.addr.toNat x.addr.prefixlen.toNat ++ be 4 x.group.toNat
  WF x := x.addr.prefixlen.toNat ≤ 32
  received x := { x with addr := NlriKind.received x.addr }

instance : NlriKind BgpMdtV6 where
  bits x := x.addr.prefixlen.toNat + 128
  body x := prefixBody 16 x.addr.addr.toNat x.addr.prefixlen.toNat ++ be 16 x.group.toNat
  WF x := x.addr.prefixlen.toNat ≤ 126
  received x := { x with addr := NlriKind.received x.addr }

/-- The kinds of NLRI that are prefixes with a length in bits: IPv4 and IPv6 prefixes and MDT, on their own, with labels,
with a route distinguisher, or with labels and a route distinguisher. -/
inductive PrefixKind : (T : Type) → [BgpItem T] → [NlriKind T] → Prop
  | v4 : PrefixKind BgpAddrV4
  | v6 : PrefixKind BgpAddrV6
  | mdt4 : PrefixKind BgpMdtV4
  | mdt6 : PrefixKind BgpMdtV6
  | labeled {T : Type} [BgpItem T] [NlriKind T] : PrefixKind T → PrefixKind (Labeled T)
  | withRd {T : Type} [BgpItem T] [NlriKind T] : PrefixKind T → PrefixKind (WithRd T)

/-! ## VPLS -/

/-- RFC 4761 3.2.2: RD, VE ID, VE block offset, VE block size, label base. -/
def vplsBody (x : BgpAddrL2) : Bytes :=
  rdBody x.rd ++ be 2 x.site.toNat ++ be 2 x.offset.toNat ++ be 2 x.range.toNat ++ labelsBody x.labels.labels

/-- With the two-octet length in octets. -/
def vplsWire (x : BgpAddrL2) : Bytes := be 2 (vplsBody x).length ++ vplsBody x

/-! ## EVPN -/

/-- Ten octets of Ethernet segment identifier. -/
def esiBody (t : U8) (e : EVPNESI) : Bytes := t :: e.v.toList

def macBody (m : MacAddress) : Bytes := [m.m5, m.m4, m.m3, m.m2, m.m1, m.m0]

/-- The route type octet. -/
def evpnType : BgpEVPN → U8
  | .evpn1 _ => 1
  | .evpn2 _ => 2
  | .evpn3 _ => 3
  | .evpn4 _ => 4
  | .evpn5 _ => 5

/-- RFC 7432 7.1-7.4, RFC 9136 3.1. -/
def evpnBody : BgpEVPN → Bytes
  | .evpn1 r => rdBody r.rd ++ esiBody r.esiType r.esi ++ be 4 r.etherTag.toNat ++ labelsBody r.labels.labels
  | .evpn2 r => rdBody r.rd ++ esiBody r.esiType r.esi ++ be 4 r.etherTag.toNat ++ 48 :: macBody r.mac ++
      (match r.ip with | none => [0] | some a => lenIpBody a) ++ labelsBody r.labels.labels
  | .evpn3 r => rdBody r.rd ++ be 4 r.etherTag.toNat ++ lenIpBody r.ip
  | .evpn4 r => rdBody r.rd ++ esiBody r.esiType r.esi ++ lenIpBody r.ip
  | .evpn5 r => rdBody r.rd ++ esiBody r.esiType r.esi ++ be 4 r.etherTag.toNat ++ r.len :: ipBody r.pfx ++
      ipBody r.gwIp ++ labelsBody r.labels.labels

/-- Type, length in octets, body. -/
def evpnWire (x : BgpEVPN) : Bytes := evpnType x :: BitVec.ofNat 8 (evpnBody x).length :: evpnBody x

/-- A label field of an EVPN route that can be recovered: no label, or a stack of at most ten. -/
def EvpnLabels (ls : List U32) : Prop := ls = [] ∨ (LabelStackWF ls ∧ ls.length ≤ 10)

/-- Routes of types 1 to 5 that RFC 7432 and RFC 9136 allow: type 5 has one label and one address family. -/
def EvpnWF : BgpEVPN → Prop
  | .evpn1 r => EvpnLabels r.labels.labels
  | .evpn2 r => EvpnLabels r.labels.labels
  | .evpn3 _ => True
  | .evpn4 _ => True
  | .evpn5 r => LabelStackWF r.labels.labels ∧ r.labels.labels.length = 1 ∧
      (match r.pfx, r.gwIp with | .v4 _, .v4 _ => True | .v6 _, .v6 _ => True | _, _ => False)

/-- A type 5 route for an IPv6 prefix. -/
def EvpnV6Prefix : BgpEVPN → Prop
  | .evpn5 r => (match r.pfx, r.gwIp with | .v6 _, .v6 _ => True | _, _ => False)
  | _ => False

/-! ## MVPN -/

/-- The route type octet. -/
def mvpnType : BgpMVPN → U8
  | .t1 _ => 1
  | .t2 _ => 2
  | .t3 _ => 3
  | .t4 _ => 4
  | .t5 _ => 5
  | .t6 _ => 6
  | .t7 _ => 7

/-- RFC 6514 4.3: RD, multicast source and group with their lengths, originating router. -/
def mvpn3Body (r : BgpMVPN3) : Bytes :=
  rdBody r.rd ++ lenIpBody r.source ++ lenIpBody r.group ++ ipBody r.originator

/-- RFC 6514 4.1-4.6. A leaf A-D route (type 4) carries the NLRI of the S-PMSI route it answers as its key. -/
def mvpnBody : BgpMVPN → Bytes
  | .t1 r => rdBody r.rd ++ ipBody r.originator
  | .t2 r => rdBody r.rd ++ be 4 r.asn.toNat
  | .t3 r => mvpn3Body r
  | .t4 r => 3 :: BitVec.ofNat 8 (mvpn3Body r.spmsi).length :: mvpn3Body r.spmsi ++ ipBody r.originator
  | .t5 r => rdBody r.rd ++ lenIpBody r.source ++ lenIpBody r.group
  | .t6 r => rdBody r.rd ++ be 4 r.asn.toNat ++ lenIpBody r.rp ++ lenIpBody r.group
  | .t7 r => rdBody r.rd ++ be 4 r.asn.toNat ++ lenIpBody r.rp ++ lenIpBody r.group

def mvpnWire (x : BgpMVPN) : Bytes := mvpnType x :: BitVec.ofNat 8 (mvpnBody x).length :: mvpnBody x

/-- The family of an address. -/
def addrFamily : IpAddr → BgpTransportMode
  | .v4 _ => .IPv4
  | .v6 _ => .IPv6

/-- All addresses of the route are of the family of the session. -/
def MvpnWF (mode : BgpTransportMode) : BgpMVPN → Prop
  | .t1 r => addrFamily r.originator = mode
  | .t2 _ => True
  | .t3 r => addrFamily r.source = mode ∧ addrFamily r.group = mode ∧ addrFamily r.originator = mode
  | .t4 r => addrFamily r.spmsi.source = mode ∧ addrFamily r.spmsi.group = mode ∧ addrFamily r.spmsi.originator = mode ∧
      addrFamily r.originator = mode
  | .t5 r => addrFamily r.source = mode ∧ addrFamily r.group = mode
  | .t6 r => addrFamily r.rp = mode ∧ addrFamily r.group = mode
  | .t7 r => addrFamily r.rp = mode ∧ addrFamily r.group = mode

end Zbgp.Spec
