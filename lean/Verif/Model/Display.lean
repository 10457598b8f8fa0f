import Verif.Model.Text
import Verif.Model.Evpn
import Verif.Model.Mvpn
import Verif.Model.Vpls
import Verif.Model.Flowspec
import Verif.Model.Open

/-!
# Model of the texts without a parser: `Display` of routes, AS numbers, communities and notifications
-/

namespace Zbgp

open Std

/-- `{:08x}` of an unsigned integer: at least eight hexadecimal digits. -/
def Std.hex8 (n : Nat) : Txt := List.replicate (8 - (hex n).length) '0' ++ hex n

/-- `Display` of `std::net::IpAddr`. -/
def Std.showIp : IpAddr → Txt
  | .v4 a => showV4 a
  | .v6 a => showV6 a

/-- The trait `std::fmt::Display`. -/
class RDisplay (T : Type) where
  display : T → Txt

instance : RDisplay BgpAddrV4 := ⟨BgpAddrV4.display⟩
instance : RDisplay BgpAddrV6 := ⟨BgpAddrV6.display⟩
instance : RDisplay BgpAddrMac := ⟨BgpAddrMac.display⟩
instance : RDisplay BgpMdtV4 := ⟨BgpMdtV4.display⟩
instance : RDisplay BgpMdtV6 := ⟨BgpMdtV6.display⟩

/-! ## Labels, route distinguishers, path identifiers -/

/-- The loop of `Display`, `src/afi/mod.rs:444-450`, from the second label on: `first` is false. -/
def MplsLabels.displayRest : List U32 → Txt
  | [] => []
  | l :: r => ',' :: dec l.toNat ++ displayRest r

/-- `src/afi/mod.rs:440-453`, `Display`. -/
def MplsLabels.display (x : MplsLabels) : Txt :=
  match x.labels with
  | [] => []
  | l :: r => dec l.toNat ++ displayRest r

/-- `src/afi/mod.rs:565-573`, `Display`. -/
instance {T : Type} [RDisplay T] : RDisplay (Labeled T) where
  display x :=
    if x.labels.labels.isEmpty then RDisplay.display x.pfx
    else "<l:".toList ++ x.labels.display ++ "> ".toList ++ RDisplay.display x.pfx

/-- `src/afi/mod.rs:638-646`, `Display`. -/
instance {T : Type} [RDisplay T] : RDisplay (WithRd T) where
  display x :=
    if x.rd.isZero then RDisplay.display x.pfx
    else "<rd:".toList ++ x.rd.display ++ "> ".toList ++ RDisplay.display x.pfx

/-- `src/afi/mod.rs:700-710`, `Display`. -/
instance {T : Type} [RDisplay T] : RDisplay (WithPathId T) where
  display x :=
    if x.pathid = 0 then RDisplay.display x.nlri
    else "<pathid:".toList ++ dec x.pathid.toNat ++ "> ".toList ++ RDisplay.display x.nlri

/-- `src/afi/ipv4.rs:215-223`, `Display`. -/
instance : RDisplay BgpIPv4RD where
  display x := if x.rd.isZero then showV4 x.addr else '<' :: x.rd.display ++ '>' :: showV4 x.addr

/-- `src/afi/ipv6.rs:220-228`, `Display`. -/
instance : RDisplay BgpIPv6RD where
  display x := if x.rd.isZero then showV6 x.addr else '<' :: x.rd.display ++ '>' :: showV6 x.addr

/-- `src/afi/vpls.rs:56-64`, `Display`. -/
instance : RDisplay BgpAddrL2 where
  display x := '<' :: x.rd.display ++ "> ".toList ++ dec x.site.toNat ++ "::".toList ++ dec x.offset.toNat ++ "..".toList ++
    dec x.range.toNat

/-- `src/afi/vpls.rs:84-92`, `Display`. -/
instance : RDisplay BgpL2 where
  display x := '<' :: x.rd.display ++ ">site ".toList ++ dec x.site.toNat ++ '-' :: dec x.offset.toNat ++ "..".toList ++
    dec x.range.toNat

/-! ## Multicast VPN routes -/

/-- `src/afi/mvpn.rs:24-28`, `Display`. -/
def BgpMVPN1.display (x : BgpMVPN1) : Txt := x.rd.display ++ ':' :: showIp x.originator

/-- `src/afi/mvpn.rs:67-71`, `Display`. -/
def BgpMVPN2.display (x : BgpMVPN2) : Txt := x.rd.display ++ ':' :: dec x.asn.toNat

/-- `src/afi/mvpn.rs:103-111`, `Display`. -/
def BgpMVPN3.display (x : BgpMVPN3) : Txt :=
  x.rd.display ++ ':' :: showIp x.source ++ ':' :: showIp x.group ++ ':' :: showIp x.originator

/-- `src/afi/mvpn.rs:165-169`, `Display`. -/
def BgpMVPN4.display (x : BgpMVPN4) : Txt := x.spmsi.display ++ ':' :: showIp x.originator

/-- `src/afi/mvpn.rs:208-212`, `Display`. -/
def BgpMVPN5.display (x : BgpMVPN5) : Txt := x.rd.display ++ ':' :: showIp x.source ++ ':' :: showIp x.group

/-- `src/afi/mvpn.rs:263-267`, `Display`. -/
def BgpMVPN67.display (x : BgpMVPN67) : Txt :=
  x.rd.display ++ ':' :: dec x.asn.toNat ++ ':' :: showIp x.rp ++ ':' :: showIp x.group

/-- `src/afi/mvpn.rs:323-335`, `Display`. -/
def BgpMVPN.display : BgpMVPN → Txt
  | .t1 s => '1' :: ':' :: s.display
  | .t2 s => '2' :: ':' :: s.display
  | .t3 s => '3' :: ':' :: s.display
  | .t4 s => '4' :: ':' :: s.display
  | .t5 s => '5' :: ':' :: s.display
  | .t6 s => '6' :: ':' :: s.display
  | .t7 s => '7' :: ':' :: s.display

/-! ## EVPN routes -/

/-- `src/afi/evpn.rs:39-50`, `Display`. -/
def EVPNESI.display (x : EVPNESI) : Txt := if x.isZero then [] else x.v.toList.flatMap fun b => hex2 b.toNat

/-- `if self.esi_type != 0 { write!(f, "{}:", self.esi_type)? }`, `src/afi/evpn.rs:100-102`, `213-215`, `456-458`. -/
def esiTypeText (t : U8) : Txt := if t ≠ 0 then dec t.toNat ++ [':'] else []

/-- `src/afi/evpn.rs:97-105`, `Display`. -/
def BgpEVPN1.display (x : BgpEVPN1) : Txt :=
  x.rd.display ++ ':' :: esiTypeText x.esiType ++ x.esi.display ++ ':' :: hex8 x.etherTag.toNat ++ ' ' :: x.labels.display

/-- `src/afi/evpn.rs:210-222`, `Display`. -/
def BgpEVPN2.display (x : BgpEVPN2) : Txt :=
  x.rd.display ++ ':' :: esiTypeText x.esiType ++ x.esi.display ++ ':' :: hex8 x.etherTag.toNat ++ "::".toList ++ x.mac.display ++
    "::".toList ++ (match x.ip with | some ip => showIp ip | none => []) ++ ' ' :: x.labels.display

/-- `src/afi/evpn.rs:284-288`, `Display`. -/
def BgpEVPN3.display (x : BgpEVPN3) : Txt := x.rd.display ++ ':' :: hex8 x.etherTag.toNat ++ ':' :: showIp x.ip

/-- `src/afi/evpn.rs:359-363`, `Display`. -/
def BgpEVPN4.display (x : BgpEVPN4) : Txt :=
  x.rd.display ++ ':' :: dec x.esiType.toNat ++ ':' :: x.esi.display ++ ':' :: showIp x.ip

/-- `src/afi/evpn.rs:453-465`, `Display`. -/
def BgpEVPN5.display (x : BgpEVPN5) : Txt :=
  x.rd.display ++ ':' :: esiTypeText x.esiType ++ x.esi.display ++ ':' :: dec x.etherTag.toNat ++ ':' :: showIp x.pfx ++
    '/' :: dec x.len.toNat ++ ':' :: showIp x.gwIp ++ ':' :: x.labels.display

/-- `src/afi/evpn.rs:478-488`, `Display`. -/
def BgpEVPN.display : BgpEVPN → Txt
  | .evpn1 s => '1' :: ':' :: s.display
  | .evpn2 s => '2' :: ':' :: s.display
  | .evpn3 s => '3' :: ':' :: s.display
  | .evpn4 s => '4' :: ':' :: s.display
  | .evpn5 s => '5' :: ':' :: s.display

/-- `src/afi/evpn.rs:478-488`. -/
instance : RDisplay BgpEVPN := ⟨BgpEVPN.display⟩

/-- `src/afi/mvpn.rs:323-335`. -/
instance : RDisplay BgpMVPN := ⟨BgpMVPN.display⟩

/-! ## FlowSpec operators -/

/-- `src/afi/flowspec.rs:144-157`, `Display`. -/
def FSOperValItem.display (x : FSOperValItem) : Txt :=
  (if x.andBit then "&&" else "||").toList ++ (if x.ltCmp then "<" else "").toList ++ (if x.eqCmp then "=" else "").toList ++
    (if x.gtCmp then ">" else "").toList ++ ' ' :: dec x.value.toNat

/-- `src/afi/flowspec.rs:317-329`, `Display`. -/
def FSOperMaskItem.display (x : FSOperMaskItem) : Txt :=
  (if x.andBit then "&&" else "||").toList ++ (if x.bitNot then "!" else "").toList ++ (if x.bitMatch then "==" else "").toList ++
    ' ' :: dec x.value.toNat

/-- `src/afi/flowspec.rs:144-157`. -/
instance : RDisplay FSOperValItem := ⟨FSOperValItem.display⟩

/-- `src/afi/flowspec.rs:317-329`. -/
instance : RDisplay FSOperMaskItem := ⟨FSOperMaskItem.display⟩

/-- `src/afi/mod.rs:340-366`, modelled in `Verif/Model/Text.lean`. -/
instance : RDisplay BgpRD := ⟨BgpRD.display⟩

/-! ## AS numbers and communities -/

/-- `src/message/attributes/aspath.rs:72-80`, `Display`. -/
def BgpAS.display (x : BgpAS) : Txt :=
  if x.value &&& 0xffff = 0 then dec (x.value >>> 16).toNat else dec x.value.toNat

/-- `src/message/attributes/community.rs:91-95`, `Display`. -/
def BgpLargeCommunity.display (x : BgpLargeCommunity) : Txt :=
  dec x.ga.toNat ++ ':' :: dec x.ldp1.toNat ++ ':' :: dec x.ldp2.toNat

namespace BgpExtCommunity

/-- `"{}:{}", self.get_ipv4(), self.get_num()`. -/
def ipNum (x : BgpExtCommunity) : Txt := showV4 x.getIpv4 ++ ':' :: dec x.getNum.toNat

/-- `"{}:{}:{}", self.ctype, self.a, self.b`. -/
def typeAB (x : BgpExtCommunity) : Txt := dec x.ctype.toNat ++ ':' :: dec x.a.toNat ++ ':' :: dec x.b.toNat

/-- `"0x{:x}:0x{:x}:0x{:x}:0x{:x}", self.ctype, self.subtype, self.a, self.b`. -/
def hexAll (x : BgpExtCommunity) : Txt :=
  "0x".toList ++ hex x.ctype.toNat ++ ":0x".toList ++ hex x.subtype.toNat ++ ":0x".toList ++ hex x.a.toNat ++ ":0x".toList ++
    hex x.b.toNat

/-- `"0x{:02x}:0x{:02x}:0x{:x}:0x{:x}", self.ctype, self.subtype, self.a, self.b`. -/
def hexAll2 (x : BgpExtCommunity) : Txt :=
  "0x".toList ++ hex2 x.ctype.toNat ++ ":0x".toList ++ hex2 x.subtype.toNat ++ ":0x".toList ++ hex x.a.toNat ++ ":0x".toList ++
    hex x.b.toNat

/-- `src/message/attributes/extcommunity.rs:90-156`, `Display`. -/
def display (x : BgpExtCommunity) : Txt :=
  if x.subtype = 2 ∧ x.ctype = 0 then "ext-target:".toList ++ dec x.a.toNat ++ ':' :: dec x.b.toNat
  else if x.subtype = 2 ∧ x.ctype = 1 then "ext-target:".toList ++ x.ipNum
  else if x.subtype = 2 ∧ x.ctype = 2 then "ext-target:".toList ++ x.typeAB
  else if x.subtype = 3 ∧ x.ctype = 1 then "ext-origin:".toList ++ x.ipNum
  else if x.subtype = 3 ∧ x.ctype.toNat < 3 then "ext-origin:".toList ++ x.typeAB
  else if x.subtype = 9 then "ext-src-as:".toList ++ x.typeAB
  else if x.subtype = 11 ∧ x.ctype = 1 then "ext-rt-import:".toList ++ x.ipNum
  else if x.subtype = 11 ∧ x.ctype.toNat < 3 then "ext-rt-import:".toList ++ x.typeAB
  else if x.ctype = 0 ∨ x.ctype = 0x40 then "ext-as-specific:".toList ++ x.hexAll
  else if x.subtype = 10 ∧ (x.ctype = 1 ∨ x.ctype = 0x41) then "ext-import-rt:".toList ++ x.ipNum
  else if x.ctype = 1 ∨ x.ctype = 0x41 then "ext-ipv4a-specific:".toList ++ x.hexAll
  else if x.ctype = 3 ∧ x.subtype = 12 then "encapsulation:0x".toList ++ hex x.b.toNat
  else if x.ctype = 6 ∧ x.subtype = 4 then
    "evpn-l2-info:cf=".toList ++ dec x.a.toNat ++ ":mtu=".toList ++ dec (x.b >>> 16).toNat
  else if x.ctype = 6 ∧ x.subtype = 1 then
    "esi-label:".toList ++ dec x.a.toNat ++ ":label=".toList ++ dec (x.b >>> 8).toNat ++ ':' :: dec (x.b &&& 0xff).toNat
  else if x.ctype = 3 ∨ x.ctype = 0x43 then "ext-opaque:".toList ++ x.hexAll2
  else "ext-unknown:".toList ++ x.hexAll2

end BgpExtCommunity

/-! ## Notifications -/

namespace BgpNotificationMessage

/-- `String::from(" subcode ") + n.to_string()`. -/
def subcodeText (n : U8) : Txt := " subcode ".toList ++ dec n.toNat

/-- The match on `error_subcode` in the case of code 1, `src/message/notification.rs:34-39`. -/
def headerText (n : U8) : Txt :=
  if n = 1 then "Connection not synchronized".toList
  else if n = 2 then "Bad Message Length".toList
  else if n = 3 then "Bad Message Type".toList
  else subcodeText n

/-- The match on `error_subcode` in the case of code 2, `src/message/notification.rs:44-53`. -/
def openText (n : U8) : Txt :=
  if n = 1 then "Unsupported Version Number".toList
  else if n = 2 then "Bad Peer AS".toList
  else if n = 3 then "Bad BGP Identifier".toList
  else if n = 4 then "Unsupported Optional Parameter".toList
  else if n = 5 then "Deprecated(5)".toList
  else if n = 6 then "Unacceptable Hold Time".toList
  else if n = 7 then "Unsupported capability".toList
  else subcodeText n

/-- The match on `error_subcode` in the case of code 3, `src/message/notification.rs:58-71`. -/
def updateText (n : U8) : Txt :=
  if n = 1 then "Malformed Attribute List".toList
  else if n = 2 then "Unrecognized Well-known Attribute".toList
  else if n = 3 then "Missing Well-known Attribute".toList
  else if n = 4 then "Attribute Flags Error".toList
  else if n = 5 then "Attribute Length Error".toList
  else if n = 6 then "Invalid ORIGIN Attribute".toList
  else if n = 7 then "Deprecated(7)".toList
  else if n = 8 then "Invalid NEXT_HOP Attribute".toList
  else if n = 9 then "Optional Attribute Error".toList
  else if n = 10 then "Invalid Network Field".toList
  else if n = 11 then "Malformed AS_PATH".toList
  else subcodeText n

/-- `src/message/notification.rs:76-81`, the same in `84-91` and `92-99`. -/
def otherText (n : U8) : Txt := if n ≠ 0 then subcodeText n else "(0)".toList

/-- `src/message/notification.rs:30-108` `error_text`. -/
def errorText (m : BgpNotificationMessage) : Txt :=
  if m.errorCode = 1 then "Message Header Error: ".toList ++ headerText m.errorSubcode
  else if m.errorCode = 2 then "OPEN Message Error: ".toList ++ openText m.errorSubcode
  else if m.errorCode = 3 then "Update Message Error: ".toList ++ updateText m.errorSubcode
  else if m.errorCode = 4 then "Hold Timer Expired".toList ++ otherText m.errorSubcode
  else if m.errorCode = 5 then "Finite State Machine Error".toList ++ otherText m.errorSubcode
  else if m.errorCode = 6 then "Cease".toList ++ otherText m.errorSubcode
  else "Unknown code ".toList ++ dec m.errorCode.toNat ++ " subcode ".toList ++ dec m.errorSubcode.toNat

end BgpNotificationMessage

end Zbgp
