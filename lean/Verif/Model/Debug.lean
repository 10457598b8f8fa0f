import Verif.Model.Display
import Verif.Model.Bmp
import Verif.Model.Dumper

/-!
# Model of `{:?}`: the `Debug` texts of messages

`Debug` is written with the builders of `std::fmt::Formatter` (`debug_struct`, `debug_tuple`, `debug_list`, `debug_set`), by
hand or by `#[derive(Debug)]`. The calls of the builders are modelled by a tree `Dbg`; `Dbg.render` is what the builders
write when the formatter is not in alternate mode (`{:?}`, not `{:#?}`).
-/

namespace Zbgp

open Std

/-- The two tables of Unicode that `char::escape_debug` consults (`core::unicode::Grapheme_Extend`,
`core::unicode::printable::is_printable`). They are not modelled: everything holds whatever they say. -/
structure UnicodeTables where
  graphemeExtend : Nat → Bool
  printable : Nat → Bool

/-- `char::escape_unicode` (std). -/
def Std.escapeUnicode (c : Nat) : Txt := "\\u{".toList ++ hex c ++ "}".toList

/-- `char::escape_debug_ext` (std), with the arguments `Debug for str` gives: double quotes are escaped, single ones are not. -/
def Std.escapeDebug (u : UnicodeTables) (c : Nat) : Txt :=
  if c = 0 then "\\0".toList
  else if c = 9 then "\\t".toList
  else if c = 13 then "\\r".toList
  else if c = 10 then "\\n".toList
  else if c = 92 then "\\\\".toList
  else if c = 34 then "\\\"".toList
  else if u.graphemeExtend c then escapeUnicode c
  else if u.printable c then [Char.ofNat c]
  else escapeUnicode c

/-- `str::chars` (std, `core::str::next_code_point`): the code points of valid UTF-8. -/
def Std.utf8Chars : Bytes → List Nat
  | [] => []
  | a :: rest =>
    if a.toNat < 0x80 then a.toNat :: utf8Chars rest
    else match rest with
    | [] => []
    | b :: rest =>
      if a.toNat < 0xE0 then (a.toNat % 32 * 64 + b.toNat % 64) :: utf8Chars rest
      else match rest with
      | [] => []
      | c :: rest =>
        if a.toNat < 0xF0 then (a.toNat % 16 * 4096 + b.toNat % 64 * 64 + c.toNat % 64) :: utf8Chars rest
        else match rest with
        | [] => []
        | d :: rest =>
          (a.toNat % 8 * 262144 + b.toNat % 64 * 4096 + c.toNat % 64 * 64 + d.toNat % 64) :: utf8Chars rest

/-- What is told to the formatter: a word written as it is (numbers, addresses, names of variants without fields), a string
given by its code points, `debug_struct`, `debug_tuple`, `debug_list` and `debug_set`. -/
inductive Dbg
  | atom (s : Txt)
  | str (cs : List Nat)
  | record (name : String) (fields : List String) (values : List Dbg)
  | tuple (name : String) (values : List Dbg)
  | list (values : List Dbg)
  | set (values : List Dbg)

mutual

/-- `{:?}`: what the builders of `core::fmt::builders` write. -/
def Dbg.render (u : UnicodeTables) : Dbg → Txt
  | .atom s => s
  | .str cs => '"' :: cs.flatMap (escapeDebug u) ++ ['"']
  | .record name fs vs => name.toList ++ Dbg.renderFields u true fs vs
  | .tuple name vs => name.toList ++ '(' :: Dbg.renderSeq u true vs ++ [')']
  | .list vs => '[' :: Dbg.renderSeq u true vs ++ [']']
  | .set vs => '{' :: Dbg.renderSeq u true vs ++ ['}']

/-- `DebugStruct::field`, once for each field, and `DebugStruct::finish`; `first` is `!has_fields`. -/
def Dbg.renderFields (u : UnicodeTables) : Bool → List String → List Dbg → Txt
  | first, f :: fs, v :: vs =>
    (if first then " { ".toList else ", ".toList) ++ f.toList ++ ": ".toList ++ Dbg.render u v ++ Dbg.renderFields u false fs vs
  | first, _, [] => if first then [] else " }".toList
  | first, [], _ :: _ => if first then [] else " }".toList

/-- `DebugTuple::field`, `DebugInner::entry`, once for each value: the values with `", "` between them. -/
def Dbg.renderSeq (u : UnicodeTables) : Bool → List Dbg → Txt
  | _, [] => []
  | first, v :: vs => (if first then [] else ", ".toList) ++ Dbg.render u v ++ Dbg.renderSeq u false vs

end

namespace Dbg

/-- `debug_struct(name)` with `.field(name, value)` calls. -/
def struct (name : String) (fs : List (String × Dbg)) : Dbg := .record name (fs.map (·.1)) (fs.map (·.2))

/-- A variant without fields. -/
def unit (name : String) : Dbg := .atom name.toList

/-- Unsigned integers. -/
def num {w : Nat} (x : BitVec w) : Dbg := .atom (dec x.toNat)

/-- `bool`. -/
def bool (b : Bool) : Dbg := .atom (if b then "true".toList else "false".toList)

/-- `Ipv4Addr`: `Debug` is `Display`. -/
def v4 (a : IPv4) : Dbg := .atom (showV4 a)

/-- `Ipv6Addr`: `Debug` is `Display`. -/
def v6 (a : IPv6) : Dbg := .atom (showV6 a)

/-- `IpAddr`: `Debug` is `Display`. -/
def ip (a : IpAddr) : Dbg := .atom (showIp a)

/-- `Vec<T>` and arrays. -/
def vec {T : Type} (d : T → Dbg) (l : List T) : Dbg := .list (l.map d)

/-- `BTreeSet<T>`. -/
def bset {T : Type} (d : T → Dbg) (l : List T) : Dbg := .set (l.map d)

/-- `Option<T>`. -/
def opt {T : Type} (d : T → Dbg) : Option T → Dbg
  | none => unit "None"
  | some x => .tuple "Some" [d x]

/-- `String`, given by its UTF-8 octets. -/
def string (b : Bytes) : Dbg := .str (utf8Chars b)

end Dbg

/-- The trait `std::fmt::Debug`. -/
class RDebug (T : Type) where
  dbg : T → Dbg

/-- `format!("{:?}", x)`. -/
def debugText {T : Type} [RDebug T] (u : UnicodeTables) (x : T) : Txt := (RDebug.dbg x).render u

/-! ## Prefixes and the wrappers of prefixes -/

/-- `src/afi/ipv4.rs:18-26`, derived. -/
instance : RDebug BgpAddrV4 where
  dbg x := .struct "BgpAddrV4" [("addr", .v4 x.addr), ("prefixlen", .num x.prefixlen)]

/-- `src/afi/ipv6.rs:17-25`, derived. -/
instance : RDebug BgpAddrV6 where
  dbg x := .struct "BgpAddrV6" [("addr", .v6 x.addr), ("prefixlen", .num x.prefixlen)]

/-- `src/afi/mac.rs:81-93`. -/
instance : RDebug MacAddress where
  dbg x := .atom x.display

/-- `src/afi/mac.rs:113-119`, derived. -/
instance : RDebug BgpAddrMac where
  dbg x := .struct "BgpAddrMac" [("addr", RDebug.dbg x.addr), ("prefixlen", .num x.prefixlen)]

/-- `src/afi/mod.rs:64-72`, derived. -/
instance : RDebug BgpNet where
  dbg
    | .V4 a => .tuple "V4" [RDebug.dbg a]
    | .V6 a => .tuple "V6" [RDebug.dbg a]
    | .MAC a => .tuple "MAC" [RDebug.dbg a]

/-- `src/afi/mod.rs:300-308`, derived. -/
instance : RDebug BgpRD where
  dbg x := .struct "BgpRD" [("rdh", .num x.rdh), ("rdl", .num x.rdl)]

/-- `src/afi/mod.rs:397-403`, derived. -/
instance : RDebug MplsLabels where
  dbg x := .struct "MplsLabels" [("labels", .vec .num x.labels)]

/-- `src/afi/mod.rs:500-506`, derived. -/
instance {T : Type} [RDebug T] : RDebug (Labeled T) where
  dbg x := .struct "Labeled" [("prefix", RDebug.dbg x.pfx), ("labels", RDebug.dbg x.labels)]

/-- `src/afi/mod.rs:630-637`. -/
instance {T : Type} [RDebug T] : RDebug (WithRd T) where
  dbg x := .struct "WithRd" [("rd", RDebug.dbg x.rd), ("prefix", RDebug.dbg x.pfx)]

/-- `src/afi/mod.rs:692-699`. -/
instance {T : Type} [RDebug T] : RDebug (WithPathId T) where
  dbg x := .struct "WithPathId" [("pathid", .num x.pathid), ("nlri", RDebug.dbg x.nlri)]

/-- `src/afi/ipv4.rs:203-209`, derived. -/
instance : RDebug BgpIPv4RD where
  dbg x := .struct "BgpIPv4RD" [("rd", RDebug.dbg x.rd), ("addr", .v4 x.addr)]

/-- `src/afi/ipv6.rs:213-219`, derived. -/
instance : RDebug BgpIPv6RD where
  dbg x := .struct "BgpIPv6RD" [("rd", RDebug.dbg x.rd), ("addr", .v6 x.addr)]

/-- `src/afi/mdt.rs:18-26`, derived. -/
instance : RDebug BgpMdtV4 where
  dbg x := .struct "BgpMdtV4" [("addr", RDebug.dbg x.addr), ("group", .v4 x.group)]

/-- `src/afi/mdt.rs:119-127`, derived. -/
instance : RDebug BgpMdtV6 where
  dbg x := .struct "BgpMdtV6" [("addr", RDebug.dbg x.addr), ("group", .v6 x.group)]

/-! ## VPLS, MVPN, EVPN, FlowSpec -/

/-- `src/afi/vpls.rs:16-25`, derived. -/
instance : RDebug BgpAddrL2 where
  dbg x := .struct "BgpAddrL2" [("rd", RDebug.dbg x.rd), ("site", .num x.site), ("offset", .num x.offset), ("range", .num x.range),
    ("labels", RDebug.dbg x.labels)]

/-- `src/afi/vpls.rs:65-73`, derived. -/
instance : RDebug BgpL2 where
  dbg x := .struct "BgpL2" [("rd", RDebug.dbg x.rd), ("site", .num x.site), ("offset", .num x.offset), ("range", .num x.range)]

/-- `src/afi/mvpn.rs:17-23`, derived. -/
instance : RDebug BgpMVPN1 where
  dbg x := .struct "BgpMVPN1" [("rd", RDebug.dbg x.rd), ("originator", .ip x.originator)]

/-- `src/afi/mvpn.rs:60-66`, derived. -/
instance : RDebug BgpMVPN2 where
  dbg x := .struct "BgpMVPN2" [("rd", RDebug.dbg x.rd), ("asn", .num x.asn)]

/-- `src/afi/mvpn.rs:94-102`, derived. -/
instance : RDebug BgpMVPN3 where
  dbg x := .struct "BgpMVPN3" [("rd", RDebug.dbg x.rd), ("source", .ip x.source), ("group", .ip x.group), ("originator", .ip x.originator)]

/-- `src/afi/mvpn.rs:158-164`, derived. -/
instance : RDebug BgpMVPN4 where
  dbg x := .struct "BgpMVPN4" [("spmsi", RDebug.dbg x.spmsi), ("originator", .ip x.originator)]

/-- `src/afi/mvpn.rs:200-207`, derived. -/
instance : RDebug BgpMVPN5 where
  dbg x := .struct "BgpMVPN5" [("rd", RDebug.dbg x.rd), ("source", .ip x.source), ("group", .ip x.group)]

/-- `src/afi/mvpn.rs:254-262`, derived. -/
instance : RDebug BgpMVPN67 where
  dbg x := .struct "BgpMVPN67" [("rd", RDebug.dbg x.rd), ("asn", .num x.asn), ("rp", .ip x.rp), ("group", .ip x.group)]

/-- `src/afi/mvpn.rs:311-322`, derived. -/
instance : RDebug BgpMVPN where
  dbg
    | .t1 r => .tuple "T1" [RDebug.dbg r]
    | .t2 r => .tuple "T2" [RDebug.dbg r]
    | .t3 r => .tuple "T3" [RDebug.dbg r]
    | .t4 r => .tuple "T4" [RDebug.dbg r]
    | .t5 r => .tuple "T5" [RDebug.dbg r]
    | .t6 r => .tuple "T6" [RDebug.dbg r]
    | .t7 r => .tuple "T7" [RDebug.dbg r]

/-- `src/afi/evpn.rs:18-24`, derived. -/
instance : RDebug EVPNESI where
  dbg x := .struct "EVPNESI" [("v", .vec .num x.v.toList)]

/-- `src/afi/evpn.rs:52-61`, derived. -/
instance : RDebug BgpEVPN1 where
  dbg x := .struct "BgpEVPN1" [("rd", RDebug.dbg x.rd), ("esi_type", .num x.esiType), ("esi", RDebug.dbg x.esi),
    ("ether_tag", .num x.etherTag), ("labels", RDebug.dbg x.labels)]

/-- `src/afi/evpn.rs:108-119`, derived. -/
instance : RDebug BgpEVPN2 where
  dbg x := .struct "BgpEVPN2" [("rd", RDebug.dbg x.rd), ("esi_type", .num x.esiType), ("esi", RDebug.dbg x.esi),
    ("ether_tag", .num x.etherTag), ("mac", RDebug.dbg x.mac), ("ip", .opt .ip x.ip), ("labels", RDebug.dbg x.labels)]

/-- `src/afi/evpn.rs:224-232`, derived. -/
instance : RDebug BgpEVPN3 where
  dbg x := .struct "BgpEVPN3" [("rd", RDebug.dbg x.rd), ("ether_tag", .num x.etherTag), ("ip", .ip x.ip)]

/-- `src/afi/evpn.rs:291-299`, derived. -/
instance : RDebug BgpEVPN4 where
  dbg x := .struct "BgpEVPN4" [("rd", RDebug.dbg x.rd), ("esi_type", .num x.esiType), ("esi", RDebug.dbg x.esi), ("ip", .ip x.ip)]

/-- `src/afi/evpn.rs:366-378`, derived. -/
instance : RDebug BgpEVPN5 where
  dbg x := .struct "BgpEVPN5" [("rd", RDebug.dbg x.rd), ("esi_type", .num x.esiType), ("esi", RDebug.dbg x.esi),
    ("ether_tag", .num x.etherTag), ("len", .num x.len), ("prefix", .ip x.pfx), ("gw_ip", .ip x.gwIp), ("labels", RDebug.dbg x.labels)]

/-- `src/afi/evpn.rs:468-477`, derived. -/
instance : RDebug BgpEVPN where
  dbg
    | .evpn1 r => .tuple "EVPN1" [RDebug.dbg r]
    | .evpn2 r => .tuple "EVPN2" [RDebug.dbg r]
    | .evpn3 r => .tuple "EVPN3" [RDebug.dbg r]
    | .evpn4 r => .tuple "EVPN4" [RDebug.dbg r]
    | .evpn5 r => .tuple "EVPN5" [RDebug.dbg r]

/-- `src/afi/flowspec.rs:40-46`, derived. -/
instance : RDebug FS6 where
  dbg x := .struct "FS6" [("ipv6", RDebug.dbg x.ipv6), ("offset", .num x.offset)]

/-- `src/afi/flowspec.rs:81-87`, derived. -/
instance : RDebug FSV4U where
  dbg x := .struct "FSV4U" [("prefix", RDebug.dbg x.pfx)]

/-- `src/afi/flowspec.rs:123-132`, derived. -/
instance : RDebug FSOperValItem where
  dbg x := .struct "FSOperValItem" [("and_bit", .bool x.andBit), ("lt_cmp", .bool x.ltCmp), ("gt_cmp", .bool x.gtCmp),
    ("eq_cmp", .bool x.eqCmp), ("value", .num x.value)]

/-- `src/afi/flowspec.rs:298-306`, derived. -/
instance : RDebug FSOperMaskItem where
  dbg x := .struct "FSOperMaskItem" [("and_bit", .bool x.andBit), ("bit_not", .bool x.bitNot), ("bit_match", .bool x.bitMatch),
    ("value", .num x.value)]

/-- `src/afi/flowspec.rs:232-235`, derived. -/
instance {T : Type} [RDebug T] : RDebug (FSOperVec T) where
  dbg x := .struct "FSOperVec" [("items", .vec RDebug.dbg x.items)]

/-- `src/afi/flowspec.rs:405-420`, derived. -/
instance {T : Type} [RDebug T] : RDebug (BgpFlowSpec T) where
  dbg
    | .prefixDst a => .tuple "PrefixDst" [RDebug.dbg a]
    | .prefixSrc a => .tuple "PrefixSrc" [RDebug.dbg a]
    | .proto v => .tuple "Proto" [RDebug.dbg v]
    | .portAny v => .tuple "PortAny" [RDebug.dbg v]
    | .portDst v => .tuple "PortDst" [RDebug.dbg v]
    | .portSrc v => .tuple "PortSrc" [RDebug.dbg v]
    | .icmpType v => .tuple "IcmpType" [RDebug.dbg v]
    | .icmpCode v => .tuple "IcmpCode" [RDebug.dbg v]
    | .tcpFlags v => .tuple "TcpFlags" [RDebug.dbg v]
    | .packetLength v => .tuple "PacketLength" [RDebug.dbg v]
    | .dscp v => .tuple "Dscp" [RDebug.dbg v]
    | .fragment v => .tuple "Fragment" [RDebug.dbg v]
    | .flowLabel v => .tuple "FlowLabel" [RDebug.dbg v]

/-! ## Addresses of an UPDATE -/

/-- A variant of `BgpAddrs`: its name and a `Vec`. -/
def Dbg.addrs {T : Type} [RDebug T] (name : String) (v : List T) : Dbg := .tuple name [.vec RDebug.dbg v]

/-- `src/afi/mod.rs:159-194`, derived. -/
instance : RDebug BgpAddrs where
  dbg
    | .None => .unit "None"
    | .IPV4U v => .addrs "IPV4U" v
    | .IPV4M v => .addrs "IPV4M" v
    | .IPV4LU v => .addrs "IPV4LU" v
    | .VPNV4U v => .addrs "VPNV4U" v
    | .VPNV4M v => .addrs "VPNV4M" v
    | .IPV4MDT v => .addrs "IPV4MDT" v
    | .IPV4MDTP v => .addrs "IPV4MDTP" v
    | .IPV6U v => .addrs "IPV6U" v
    | .IPV6M v => .addrs "IPV6M" v
    | .IPV6LU v => .addrs "IPV6LU" v
    | .VPNV6U v => .addrs "VPNV6U" v
    | .VPNV6M v => .addrs "VPNV6M" v
    | .IPV6MDT v => .addrs "IPV6MDT" v
    | .IPV6MDTP v => .addrs "IPV6MDTP" v
    | .L2VPLS v => .addrs "L2VPLS" v
    | .MVPN v => .addrs "MVPN" v
    | .EVPN v => .addrs "EVPN" v
    | .FS4U v => .addrs "FS4U" v
    | .FS6U v => .addrs "FS6U" v
    | .FSV4U v => .addrs "FSV4U" v
    | .IPV4UP v => .addrs "IPV4UP" v
    | .IPV4MP v => .addrs "IPV4MP" v
    | .IPV4LUP v => .addrs "IPV4LUP" v
    | .VPNV4UP v => .addrs "VPNV4UP" v
    | .VPNV4MP v => .addrs "VPNV4MP" v
    | .IPV6UP v => .addrs "IPV6UP" v
    | .IPV6MP v => .addrs "IPV6MP" v
    | .IPV6LUP v => .addrs "IPV6LUP" v
    | .VPNV6UP v => .addrs "VPNV6UP" v
    | .VPNV6MP v => .addrs "VPNV6MP" v

/-- `src/afi/mod.rs:50-61`, derived. -/
instance : RDebug BgpAddr where
  dbg
    | .None => .unit "None"
    | .V4 a => .tuple "V4" [.v4 a]
    | .V6 a => .tuple "V6" [.v6 a]
    | .V4RD a => .tuple "V4RD" [RDebug.dbg a]
    | .V6RD a => .tuple "V6RD" [RDebug.dbg a]
    | .L2 a => .tuple "L2" [RDebug.dbg a]
    | .MVPN a => .tuple "MVPN" [RDebug.dbg a]

/-! ## Path attributes -/

/-- `src/message/attributes/mod.rs:48-54`, derived. -/
instance : RDebug BgpAttrParams where
  dbg x := .struct "BgpAttrParams" [("typecode", .num x.typecode), ("flags", .num x.flags)]

/-- `src/message/attributes/origin.rs:16-23`, derived. -/
instance : RDebug BgpAttrOrigin where
  dbg
    | .Igp => .unit "Igp"
    | .Egp => .unit "Egp"
    | .Incomplete => .unit "Incomplete"

/-- `src/message/attributes/origin.rs:65-71`. -/
instance : RDebug BgpOrigin where
  dbg x := .struct "BgpOrigin" [("value", RDebug.dbg x.value)]

/-- `src/message/attributes/aspath.rs:18-24`, derived. -/
instance : RDebug BgpAS where
  dbg x := .struct "BgpAS" [("value", .num x.value)]

/-- `src/message/attributes/aspath.rs:118-124`. -/
instance : RDebug BgpASpath where
  dbg x := .struct "BgpASpath" [("value", .vec RDebug.dbg x.value)]

/-- `src/message/attributes/nexthop.rs:42-48`. -/
instance : RDebug BgpNextHop where
  dbg x := .struct "BgpNextHop" [("value", .ip x.value)]

/-- `src/message/attributes/med.rs:37-43`. -/
instance : RDebug BgpMED where
  dbg x := .struct "BgpMED" [("value", .num x.value)]

/-- `src/message/attributes/localpref.rs:37-43`. -/
instance : RDebug BgpLocalpref where
  dbg x := .struct "BgpLocalpref" [("value", .num x.value)]

/-- `src/message/attributes/atomicaggregate.rs:37-43`. -/
instance : RDebug BgpAtomicAggregate where
  dbg x := .struct "BgpAtomicAggregate" [("value", .ip x.value)]

/-- `src/message/attributes/aggregatoras.rs:42-49`. -/
instance : RDebug BgpAggregatorAS where
  dbg x := .struct "BgpAggregatorAS" [("asn", .num x.asn), ("addr", .v4 x.addr)]

/-- `src/message/attributes/community.rs:177-183`. -/
instance : RDebug BgpCommunity where
  dbg x := .struct "Community" [("value", .num x.value)]

/-- `src/message/attributes/community.rs:255-261`. -/
instance : RDebug BgpCommunityList where
  dbg x := .struct "BgpCommunityList" [("value", .bset RDebug.dbg x.value)]

/-- `src/message/attributes/originatorid.rs:43-49`. -/
instance : RDebug BgpOriginatorID where
  dbg x := .struct "BgpOriginatorID" [("value", .ip x.value)]

/-- `src/message/attributes/clusterlist.rs:38-44`. -/
instance : RDebug BgpClusterList where
  dbg x := .struct "BgpClusterList" [("value", .vec .ip x.value)]

/-- `src/message/attributes/multiproto.rs:151-158`. -/
instance : RDebug BgpMPUpdates where
  dbg x := .struct "BgpMPUpdates" [("nexthop", RDebug.dbg x.nexthop), ("addrs", RDebug.dbg x.addrs)]

/-- `src/message/attributes/multiproto.rs:210-216`. -/
instance : RDebug BgpMPWithdraws where
  dbg x := .struct "BgpMPWithdraws" [("addrs", RDebug.dbg x.addrs)]

/-- `src/message/attributes/extcommunity.rs:80-89`. -/
instance : RDebug BgpExtCommunity where
  dbg x := .struct "BgpExtCommunity" [("ctype", .num x.ctype), ("subtype", .num x.subtype), ("a", .num x.a), ("b", .num x.b)]

/-- `src/message/attributes/extcommunity.rs:205-211`. -/
instance : RDebug BgpExtCommunityList where
  dbg x := .struct "BgpExtCommunityList" [("value", .bset RDebug.dbg x.value)]

/-- `src/message/attributes/community.rs:82-90`. -/
instance : RDebug BgpLargeCommunity where
  dbg x := .struct "Community" [("ga", .num x.ga), ("ldp1", .num x.ldp1), ("ldp2", .num x.ldp2)]

/-- `src/message/attributes/community.rs:112-118`. -/
instance : RDebug BgpLargeCommunityList where
  dbg x := .struct "BgpLargeCommunityList" [("value", .bset RDebug.dbg x.value)]

/-- `src/message/attributes/pmsitunnelattr.rs:16-24,34-40,46-52,59-67`, derived. -/
instance : RDebug BgpPMSITunnelAttr where
  dbg
    | .None => .unit "None"
    | .RSVPTe e r t p => .tuple "RSVPTe" [.struct "BgpPMSITaRSVP" [("ext_tunnel_id", .v4 e), ("reserved", .num r),
        ("tunnel_id", .num t), ("p2mp_id", .v4 p)]]
    | .IngressRepl e => .tuple "IngressRepl" [.struct "BgpPMSITaIngressRepl" [("endpoint", .v4 e)]]
    | .MLDP r o => .tuple "MLDP" [.struct "BgpPMSITaMLDP" [("rootnode", .ip r), ("opaque", .vec .num o)]]

/-- `src/message/attributes/pmsitunnelattr.rs:188-197`. -/
instance : RDebug BgpPMSITunnel where
  dbg x := .struct "BgpPMSITunnel" [("flags", .num x.flags), ("tunnel_type", .num x.tunnelType), ("label", RDebug.dbg x.label),
    ("tunnel_attribute", RDebug.dbg x.tunnelAttribute)]

/-- `src/message/attributes/connector.rs:44-52`. -/
instance : RDebug BgpConnector where
  dbg x := .struct "BgpConnector" [("asn", .num x.asn), ("addr", .v4 x.addr), ("orig", .v4 x.orig)]

/-- `src/message/attributes/unknown.rs:48-55`. -/
instance : RDebug BgpAttrUnknown where
  dbg x := .struct "BgpAttrUnknown" [("params", RDebug.dbg x.params), ("value", .vec .num x.value)]

mutual

/-- `src/message/attributes/mod.rs:62-84`, derived; `BgpAttrSet`: `src/message/attributes/attrset.rs:65-72`. -/
def BgpAttrItem.dbg : BgpAttrItem → Dbg
  | .Origin x => .tuple "Origin" [RDebug.dbg x]
  | .ASPath x => .tuple "ASPath" [RDebug.dbg x]
  | .NextHop x => .tuple "NextHop" [RDebug.dbg x]
  | .MED x => .tuple "MED" [RDebug.dbg x]
  | .LocalPref x => .tuple "LocalPref" [RDebug.dbg x]
  | .AtomicAggregate x => .tuple "AtomicAggregate" [RDebug.dbg x]
  | .AggregatorAS x => .tuple "AggregatorAS" [RDebug.dbg x]
  | .CommunityList x => .tuple "CommunityList" [RDebug.dbg x]
  | .OriginatorID x => .tuple "OriginatorID" [RDebug.dbg x]
  | .ClusterList x => .tuple "ClusterList" [RDebug.dbg x]
  | .MPUpdates x => .tuple "MPUpdates" [RDebug.dbg x]
  | .MPWithdraws x => .tuple "MPWithdraws" [RDebug.dbg x]
  | .ExtCommunityList x => .tuple "ExtCommunityList" [RDebug.dbg x]
  | .LargeCommunityList x => .tuple "LargeCommunityList" [RDebug.dbg x]
  | .PMSITunnel x => .tuple "PMSITunnel" [RDebug.dbg x]
  | .AttrSet asn attrs => .tuple "AttrSet" [.struct "BgpAttrSet" [("asn", .num asn), ("attrs", .list (BgpAttrItem.dbgs attrs))]]
  | .Connector x => .tuple "Connector" [RDebug.dbg x]
  | .Unknown x => .tuple "Unknown" [RDebug.dbg x]

/-- The elements of a `Vec<BgpAttrItem>`. -/
def BgpAttrItem.dbgs : List BgpAttrItem → List Dbg
  | [] => []
  | x :: xs => BgpAttrItem.dbg x :: BgpAttrItem.dbgs xs

end

instance : RDebug BgpAttrItem := ⟨BgpAttrItem.dbg⟩

/-- `src/message/update/mod.rs:15-23`, derived. -/
instance : RDebug BgpUpdateMessage where
  dbg x := .struct "BgpUpdateMessage" [("updates", RDebug.dbg x.updates), ("withdraws", RDebug.dbg x.withdraws),
    ("attrs", .list (BgpAttrItem.dbgs x.attrs))]

/-! ## OPEN, NOTIFICATION, KEEPALIVE, the session -/

/-- `src/lib.rs:134-139`, derived. -/
instance : RDebug BgpCapGR where
  dbg x := .struct "BgpCapGR" [("afi", .num x.afi), ("safi", .num x.safi), ("forwarding_state", .bool x.forwardingState)]

/-- `src/lib.rs:198-204`, derived. -/
instance : RDebug BgpCapLLGR where
  dbg x := .struct "BgpCapLLGR" [("afi", .num x.afi), ("safi", .num x.safi), ("flags", .num x.flags), ("stale_time", .num x.staleTime)]

/-- `src/lib.rs:249-255`, derived. -/
instance : RDebug BgpCapAddPath where
  dbg x := .struct "BgpCapAddPath" [("afi", .num x.afi), ("safi", .num x.safi), ("send", .bool x.send), ("receive", .bool x.receive)]

/-- `src/lib.rs:301-357`, derived. -/
instance : RDebug BgpCapability where
  dbg
    | .SafiIPv4u => .unit "SafiIPv4u"
    | .SafiIPv4m => .unit "SafiIPv4m"
    | .SafiIPv4mvpn => .unit "SafiIPv4mvpn"
    | .SafiIPv4fu => .unit "SafiIPv4fu"
    | .SafiVPNv4u => .unit "SafiVPNv4u"
    | .SafiVPNv4fu => .unit "SafiVPNv4fu"
    | .SafiVPNv4m => .unit "SafiVPNv4m"
    | .SafiIPv4lu => .unit "SafiIPv4lu"
    | .SafiIPv4mdt => .unit "SafiIPv4mdt"
    | .SafiIPv6u => .unit "SafiIPv6u"
    | .SafiIPv6lu => .unit "SafiIPv6lu"
    | .SafiIPv6fu => .unit "SafiIPv6fu"
    | .SafiVPNv6u => .unit "SafiVPNv6u"
    | .SafiVPNv6m => .unit "SafiVPNv6m"
    | .SafiIPv6mdt => .unit "SafiIPv6mdt"
    | .SafiVPLS => .unit "SafiVPLS"
    | .SafiEVPN => .unit "SafiEVPN"
    | .CapGR t s afis => .struct "CapGR" [("restart_time", .num t), ("restart_state", .bool s), ("afis", .vec RDebug.dbg afis)]
    | .CapASN32 n => .tuple "CapASN32" [.num n]
    | .CapRR => .unit "CapRR"
    | .CapAddPath v => .tuple "CapAddPath" [.vec RDebug.dbg v]
    | .CapEnhancedRR => .unit "CapEnhancedRR"
    | .CapLLGR v => .tuple "CapLLGR" [.vec RDebug.dbg v]
    | .CapFQDN h d => .tuple "CapFQDN" [.string h, .string d]
    | .CapBFD => .unit "CapBFD"

/-- `src/message/open.rs:12-22`, derived. -/
instance : RDebug BgpOpenMessage where
  dbg x := .struct "BgpOpenMessage" [("as_num", .num x.asNum), ("hold_time", .num x.holdTime), ("router_id", .v4 x.routerId),
    ("caps", .vec RDebug.dbg x.caps)]

/-- `src/message/notification.rs:110-118`. -/
instance : RDebug BgpNotificationMessage where
  dbg x := .struct "BgpNotificationMessage" [("error_code", .num x.errorCode), ("error_subcode", .num x.errorSubcode),
    ("data", .num x.data)]

/-- `src/message/mod.rs:29-35`, derived. -/
instance : RDebug BgpMessageType where
  dbg
    | .Open => .unit "Open"
    | .Update => .unit "Update"
    | .Notification => .unit "Notification"
    | .Keepalive => .unit "Keepalive"

/-- `src/lib.rs:101-105`, derived. -/
instance : RDebug BgpTransportMode where
  dbg
    | .IPv4 => .unit "IPv4"
    | .IPv6 => .unit "IPv6"

/-- `src/lib.rs:670-686`, derived. -/
instance : RDebug BgpSessionParams where
  dbg x := .struct "BgpSessionParams" [("as_num", .num x.asNum), ("hold_time", .num x.holdTime), ("peer_mode", RDebug.dbg x.peerMode),
    ("has_as32bit", .bool x.hasAs32bit), ("router_id", .v4 x.routerId), ("caps", .vec RDebug.dbg x.caps),
    ("fuzzy_pathid", .bool x.fuzzyPathid)]

/-! ## BMP -/

/-- `src/bmp/bmputl.rs:56-72`, derived. -/
instance : RDebug BmpMessagePeerHeader where
  dbg x := .struct "BmpMessagePeerHeader" [("peertype", .num x.peertype), ("flags", .num x.flags),
    ("peerdistinguisher", RDebug.dbg x.peerdistinguisher), ("peeraddress", .ip x.peeraddress), ("asnum", .num x.asnum),
    ("routerid", .v4 x.routerid), ("timestamp", .num x.timestamp)]

/-- `src/bmp/msgrmon.rs:17-23`, derived. -/
instance : RDebug BmpMessageRouteMonitoring where
  dbg x := .struct "BmpMessageRouteMonitoring" [("peer", RDebug.dbg x.peer), ("update", RDebug.dbg x.update)]

/-- `src/bmp/msgpeer.rs:18-26`, derived. -/
instance : RDebug BmpMessagePeerUp where
  dbg x := .struct "BmpMessagePeerUp" [("peer", RDebug.dbg x.peer), ("localaddress", .ip x.localaddress), ("localport", .num x.localport),
    ("remoteport", .num x.remoteport), ("msg1", RDebug.dbg x.msg1), ("msg2", RDebug.dbg x.msg2)]

/-- `src/bmp/msgpeer.rs:28-35`, derived. -/
instance : RDebug BmpMessagePeerDownReason where
  dbg
    | .AdministrativelyClosed m => .tuple "AdministrativelyClosed" [RDebug.dbg m]
    | .LocalSystemState s => .tuple "LocalSystemState" [.num s]
    | .RemoteNotification m => .tuple "RemoteNotification" [RDebug.dbg m]
    | .Remote => .unit "Remote"
    | .BmpDisabled => .unit "BmpDisabled"

/-- `src/bmp/msgpeer.rs:37-41`, derived. -/
instance : RDebug BmpMessagePeerDown where
  dbg x := .struct "BmpMessagePeerDown" [("peer", RDebug.dbg x.peer), ("reason", RDebug.dbg x.reason)]

/-- `src/bmp/msginit.rs:56-64`, derived. -/
instance : RDebug BmpMessageInitiation where
  dbg x := .struct "BmpMessageInitiation" [("str0", .opt .string x.str0), ("sys_descr", .opt .string x.sysDescr),
    ("sys_name", .opt .string x.sysName)]

/-- `src/bmp/msgterm.rs:14-20`, derived. -/
instance : RDebug BmpMessageTermination where
  dbg x := .struct "BmpMessageTermination" [("str0", .opt .string x.str0), ("reason", .opt .num x.reason)]

/-- `src/bmp/mod.rs:114-123`, derived. -/
instance : RDebug BmpMessage where
  dbg
    | .RouteMonitoring m => .tuple "RouteMonitoring" [RDebug.dbg m]
    | .StatisticsReport => .unit "StatisticsReport"
    | .PeerDownNotification m => .tuple "PeerDownNotification" [RDebug.dbg m]
    | .PeerUpNotification m => .tuple "PeerUpNotification" [RDebug.dbg m]
    | .Initiation m => .tuple "Initiation" [RDebug.dbg m]
    | .Termination m => .tuple "Termination" [RDebug.dbg m]
    | .RouteMirroring => .unit "RouteMirroring"

/-- `src/bmp/mod.rs:27-31`, derived. -/
instance : RDebug BgpSessionKey where
  dbg x := .struct "BgpSessionKey" [("peer_rd", RDebug.dbg x.peerRd), ("peer_ip", .ip x.peerIp)]

/-! ## The example program -/

/-- `examples/bgpdumper.rs:114-118`: the line printed for a NOTIFICATION. `error_text()` is a `String`, printed with `{:?}`. -/
def BgpNotificationMessage.dumperLine (u : UnicodeTables) (m : BgpNotificationMessage) : Txt :=
  "BGP notification: ".toList ++ (debugText u m ++ (" - ".toList ++ Dbg.render u (.str (m.errorText.map Char.toNat))))

/-- `examples/bgpdumper.rs:101-130`: the line that is printed to the standard output, if there is one. -/
def DumperEvent.line (u : UnicodeTables) : DumperEvent → Option Txt
  | .incorrectOpen => none
  | .notification m => some (m.dumperLine u)
  | .notificationError _ => none
  | .update m => some (debugText u m)
  | .updateError _ => none

/-- `println!`: the lines, each followed by a line feed. -/
def dumperText (u : UnicodeTables) (l : List DumperEvent) : Txt := (l.filterMap (DumperEvent.line u)).flatMap (· ++ ['\n'])

end Zbgp
