import Verif.Model.Bmp
import Verif.Model.Vpls
import Verif.Model.Mdt
import Verif.Model.Evpn
import Verif.Model.Flowspec

/-!
# Model of the constructors
-/

namespace Zbgp

/-- `src/afi/mod.rs:311-313` `BgpRD::new`. -/
def BgpRD.new (h l : U32) : BgpRD := { rdh := h, rdl := l }

/-- `src/afi/mod.rs:406-408` `MplsLabels::new`, and `Default`, `src/afi/mod.rs:414-418`. -/
def MplsLabels.new : MplsLabels := { labels := [] }

/-- `src/afi/mod.rs:410-412` `MplsLabels::fromvec`. -/
def MplsLabels.fromvec (lbls : List U32) : MplsLabels := { labels := lbls }

/-- `src/afi/mod.rs:509-514` `Labeled::new`. -/
def Labeled.new {T : Type} (lb : MplsLabels) (inner : T) : Labeled T := { labels := lb, pfx := inner }

/-- `src/afi/mod.rs:516-521` `Labeled::new_nl`. -/
def Labeled.newNl {T : Type} (inner : T) : Labeled T := { labels := .new, pfx := inner }

/-- `src/afi/mod.rs:581-583` `WithRd::new`. -/
def WithRd.new {T : Type} (rd : BgpRD) (pfx : T) : WithRd T := { rd := rd, pfx := pfx }

/-- `src/afi/mod.rs:667-669` `WithPathId::new`. -/
def WithPathId.new {T : Type} (pathid : U32) (nlri : T) : WithPathId T := { pathid := pathid, nlri := nlri }

/-- `src/afi/mod.rs:718-720` `BgpAddrs::new`, and `Default`, `src/afi/mod.rs:711-715`. -/
def BgpAddrs.new : BgpAddrs := .None

/-- `src/afi/mdt.rs:43-45` `BgpMdtV4::new`. -/
def BgpMdtV4.new (addr : BgpAddrV4) (group : IPv4) : BgpMdtV4 := { addr := addr, group := group }

/-- `src/afi/mdt.rs:144-146` `BgpMdtV6::new`. -/
def BgpMdtV6.new (addr : BgpAddrV6) (group : IPv6) : BgpMdtV6 := { addr := addr, group := group }

/-- `src/afi/ipv4.rs:43-48` `BgpAddrV4::new`: the address is kept as given. -/
def BgpAddrV4.new (address : IPv4) (prefixLen : U8) : BgpAddrV4 := { addr := address, prefixlen := prefixLen }

/-- `src/afi/ipv6.rs:42-47` `BgpAddrV6::new`: the address is kept as given. -/
def BgpAddrV6.new (address : IPv6) (prefixLen : U8) : BgpAddrV6 := { addr := address, prefixlen := prefixLen }

/-- `src/afi/ipv4.rs:27-34` `BgpAddrV4::default`. -/
def BgpAddrV4.default : BgpAddrV4 := { addr := 127#8 ++ 0#8 ++ 0#8 ++ 1#8, prefixlen := 32 }

/-- `src/afi/ipv6.rs:26-33` `BgpAddrV6::default`. -/
def BgpAddrV6.default : BgpAddrV6 := { addr := 0#112 ++ 1#16, prefixlen := 128 }

/-- `src/afi/mdt.rs:27-34` `BgpMdtV4::default`. -/
def BgpMdtV4.default : BgpMdtV4 := { addr := .default, group := 224#8 ++ 0#8 ++ 0#8 ++ 0#8 }

/-- `src/afi/mdt.rs:128-135` `BgpMdtV6::default`. -/
def BgpMdtV6.default : BgpMdtV6 := { addr := .default, group := 0xfe00#16 ++ 0#112 }

/-- `src/afi/vpls.rs:75-82` `BgpL2::new`. -/
def BgpL2.new (srd : BgpRD) (st ofs rng : U16) : BgpL2 := { rd := srd, site := st, offset := ofs, range := rng }

/-- `src/bmp/mod.rs:33-35` `BgpSessionKey::new`. -/
def BgpSessionKey.new (peerRd : BgpRD) (peerIp : IpAddr) : BgpSessionKey := { peerRd := peerRd, peerIp := peerIp }

/-- `src/message/attributes/aspath.rs:35-37` `BgpAS::new`; `From<u32>`, `src/message/attributes/aspath.rs:46-50`, is the same. -/
def BgpAS.new (v : U32) : BgpAS := { value := v }

/-- `src/message/attributes/aspath.rs:82-84` `BgpASpath::new`, and `Default`, `src/message/attributes/aspath.rs:113-117`. -/
def BgpASpath.new : BgpASpath := { value := [] }

/-- `src/message/attributes/aspath.rs:85-89` `BgpASpath::from`, for a list of numbers. -/
def BgpASpath.from (sv : List U32) : BgpASpath := { value := sv.map .new }

/-- `src/message/attributes/origin.rs:43-45`. -/
def BgpOrigin.new (v : BgpAttrOrigin) : BgpOrigin := { value := v }

/-- `src/message/attributes/nexthop.rs:25-27`. -/
def BgpNextHop.new (v : IpAddr) : BgpNextHop := { value := v }

/-- `src/message/attributes/med.rs:24-26`. -/
def BgpMED.new (v : U32) : BgpMED := { value := v }

/-- `src/message/attributes/localpref.rs:24-26`. -/
def BgpLocalpref.new (v : U32) : BgpLocalpref := { value := v }

/-- `src/message/attributes/originatorid.rs:25-27`. -/
def BgpOriginatorID.new (o : IpAddr) : BgpOriginatorID := { value := o }

/-- `src/message/attributes/connector.rs:26-28`. -/
def BgpConnector.new (asn : U32) (addr orig : IPv4) : BgpConnector := { asn := asn, addr := addr, orig := orig }

/-- `src/message/attributes/unknown.rs:26-34`. -/
def BgpAttrUnknown.new (tc flg : U8) : BgpAttrUnknown := { params := { typecode := tc, flags := flg }, value := [] }

/-- `src/message/attributes/community.rs:153-155` `BgpCommunity::new`. -/
def BgpCommunity.new (v : U32) : BgpCommunity := { value := v }

/-- `src/message/attributes/community.rs:228-232` `BgpCommunityList::new`, and `Default`, `src/message/attributes/community.rs:239-243`. -/
def BgpCommunityList.new : BgpCommunityList := { value := [] }

/-- `src/message/attributes/community.rs:97-101` `BgpLargeCommunityList::new`, and `Default`, `src/message/attributes/community.rs:139-143`. -/
def BgpLargeCommunityList.new : BgpLargeCommunityList := { value := [] }

/-- `src/message/attributes/extcommunity.rs:178-182` `BgpExtCommunityList::new`, and `Default`, `src/message/attributes/extcommunity.rs:200-204`. -/
def BgpExtCommunityList.new : BgpExtCommunityList := { value := [] }

/-- `src/afi/evpn.rs:26-28` `EVPNESI::empty`. -/
def EVPNESI.empty : EVPNESI := { v := Vector.replicate 9 0 }

/-- `src/afi/evpn.rs:29-31` `EVPNESI::new`. -/
def EVPNESI.new (src : Vector U8 9) : EVPNESI := { v := src }

/-- `src/afi/mac.rs:25-29` `MacAddress::new`, and `Default`, `src/afi/mac.rs:62-66`. -/
def MacAddress.new : MacAddress := ⟨0, 0, 0, 0, 0, 0⟩

/-- `src/afi/mac.rs:128-133` `BgpAddrMac::new`. -/
def BgpAddrMac.new (address : MacAddress) (prefixLen : U8) : BgpAddrMac := { addr := address, prefixlen := prefixLen }

/-- `src/afi/ipv4.rs:211-213` `BgpIPv4RD::new`. -/
def BgpIPv4RD.new (crd : BgpRD) (adr : IPv4) : BgpIPv4RD := { rd := crd, addr := adr }

/-- `src/afi/flowspec.rs:48-53` `FS6::new`. -/
def FS6.new (ofs : U8) (v6 : BgpAddrV6) : FS6 := { ipv6 := v6, offset := ofs }

/-- `src/afi/flowspec.rs:89-91` `FSV4U::new`. -/
def FSV4U.new (p : WithRd BgpAddrV4) : FSV4U := { pfx := p }

/-- `src/afi/flowspec.rs:134-142` `FSOperValItem::new`. -/
def FSOperValItem.new (v : U32) (bAnd bLt bGt bEq : Bool) : FSOperValItem :=
  { andBit := bAnd, ltCmp := bLt, gtCmp := bGt, eqCmp := bEq, value := v }

/-- `src/afi/flowspec.rs:308-315` `FSOperMaskItem::new`. -/
def FSOperMaskItem.new (v : U32) (bAnd bNot bMatch : Bool) : FSOperMaskItem :=
  { andBit := bAnd, bitNot := bNot, bitMatch := bMatch, value := v }

/-- `src/afi/flowspec.rs:237-239` `FSOperVec::new_empty`. -/
def FSOperVec.newEmpty {T : Type} : FSOperVec T := { items := [] }

/-- `src/afi/flowspec.rs:240-242` `FSOperVec::new`. -/
def FSOperVec.new {T : Type} (v : List T) : FSOperVec T := { items := v }

/-- `src/afi/flowspec.rs:243-245` `FSOperVec::push`. -/
def FSOperVec.push {T : Type} (v : FSOperVec T) (i : T) : FSOperVec T := { items := v.items ++ [i] }

end Zbgp
