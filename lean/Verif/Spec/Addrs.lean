import Verif.Model.Addrs
import Verif.Spec.Session
import Verif.Spec.Families
import Verif.Spec.Flowspec

/-!
# Address families and NLRI collections

The IANA AFI and SAFI numbers of the families, which collection belongs to which family, and the octets of a
collection.  Only the data types of the model are used, none of its functions.
-/

namespace Zbgp.Spec

open Zbgp

/-- The address families the library has a collection for. -/
inductive Family
  | ipv4Unicast | ipv4Multicast | ipv4Labeled | ipv4Mvpn | ipv4Mdt | ipv4Vpn | ipv4VpnMulticast
  | ipv4FlowSpec | ipv4VpnFlowSpec
  | ipv6Unicast | ipv6Multicast | ipv6Labeled | ipv6Mdt | ipv6Vpn | ipv6VpnMulticast | ipv6FlowSpec
  | l2Vpls | l2Evpn
deriving DecidableEq, Repr

/-- The IANA numbers: AFI 1 IPv4, 2 IPv6, 25 L2VPN; SAFI 1 unicast, 2 multicast, 4 labeled, 5 MCAST-VPN, 65 VPLS, 66 MDT,
70 EVPN, 128 VPN, 129 multicast VPN, 133 FlowSpec, 134 VPN FlowSpec. -/
def familyCode : Family → U16 × U8
  | .ipv4Unicast => (1, 1)
  | .ipv4Multicast => (1, 2)
  | .ipv4Labeled => (1, 4)
  | .ipv4Mvpn => (1, 5)
  | .ipv4Mdt => (1, 66)
  | .ipv4Vpn => (1, 128)
  | .ipv4VpnMulticast => (1, 129)
  | .ipv4FlowSpec => (1, 133)
  | .ipv4VpnFlowSpec => (1, 134)
  | .ipv6Unicast => (2, 1)
  | .ipv6Multicast => (2, 2)
  | .ipv6Labeled => (2, 4)
  | .ipv6Mdt => (2, 66)
  | .ipv6Vpn => (2, 128)
  | .ipv6VpnMulticast => (2, 129)
  | .ipv6FlowSpec => (2, 133)
  | .l2Vpls => (25, 65)
  | .l2Evpn => (25, 70)

/-- The families that have an AddPath form. -/
def hasAddPath : Family → Bool
  | .ipv4Mvpn => false
  | .ipv4FlowSpec => false
  | .ipv4VpnFlowSpec => false
  | .ipv6FlowSpec => false
  | .l2Vpls => false
  | .l2Evpn => false
  | _ => true

/-- The family of a collection, and whether it is the AddPath form. -/
def kindOf : BgpAddrs → Option (Family × Bool)
  | .None => none
  | .IPV4U _ => some (.ipv4Unicast, false)
  | .IPV4UP _ => some (.ipv4Unicast, true)
  | .IPV4M _ => some (.ipv4Multicast, false)
  | .IPV4MP _ => some (.ipv4Multicast, true)
  | .IPV4LU _ => some (.ipv4Labeled, false)
  | .IPV4LUP _ => some (.ipv4Labeled, true)
  | .VPNV4U _ => some (.ipv4Vpn, false)
  | .VPNV4UP _ => some (.ipv4Vpn, true)
  | .VPNV4M _ => some (.ipv4VpnMulticast, false)
  | .VPNV4MP _ => some (.ipv4VpnMulticast, true)
  | .IPV4MDT _ => some (.ipv4Mdt, false)
  | .IPV4MDTP _ => some (.ipv4Mdt, true)
  | .IPV6U _ => some (.ipv6Unicast, false)
  | .IPV6UP _ => some (.ipv6Unicast, true)
  | .IPV6M _ => some (.ipv6Multicast, false)
  | .IPV6MP _ => some (.ipv6Multicast, true)
  | .IPV6LU _ => some (.ipv6Labeled, false)
  | .IPV6LUP _ => some (.ipv6Labeled, true)
  | .VPNV6U _ => some (.ipv6Vpn, false)
  | .VPNV6UP _ => some (.ipv6Vpn, true)
  | .VPNV6M _ => some (.ipv6VpnMulticast, false)
  | .VPNV6MP _ => some (.ipv6VpnMulticast, true)
  | .IPV6MDT _ => some (.ipv6Mdt, false)
  | .IPV6MDTP _ => some (.ipv6Mdt, true)
  | .L2VPLS _ => some (.l2Vpls, false)
  | .MVPN _ => some (.ipv4Mvpn, false)
  | .EVPN _ => some (.l2Evpn, false)
  | .FS4U _ => some (.ipv4FlowSpec, false)
  | .FS6U _ => some (.ipv6FlowSpec, false)
  | .FSV4U _ => some (.ipv4VpnFlowSpec, false)

/-- The family a multiprotocol capability is named after. -/
def capFamily : BgpCapability → Option Family
  | .SafiIPv4u => some .ipv4Unicast
  | .SafiIPv4m => some .ipv4Multicast
  | .SafiIPv4mvpn => some .ipv4Mvpn
  | .SafiIPv4fu => some .ipv4FlowSpec
  | .SafiVPNv4u => some .ipv4Vpn
  | .SafiVPNv4fu => some .ipv4VpnFlowSpec
  | .SafiVPNv4m => some .ipv4VpnMulticast
  | .SafiIPv4lu => some .ipv4Labeled
  | .SafiIPv4mdt => some .ipv4Mdt
  | .SafiIPv6u => some .ipv6Unicast
  | .SafiIPv6lu => some .ipv6Labeled
  | .SafiIPv6fu => some .ipv6FlowSpec
  | .SafiVPNv6u => some .ipv6Vpn
  | .SafiVPNv6m => some .ipv6VpnMulticast
  | .SafiIPv6mdt => some .ipv6Mdt
  | .SafiVPLS => some .l2Vpls
  | .SafiEVPN => some .l2Evpn
  | _ => none

/-- The multiprotocol capability of RFC 4760 8: code 1, length 4, AFI, a zero octet, SAFI. -/
def mpCapability (f : Family) : Bytes := [1, 4] ++ be 2 (familyCode f).1.toNat ++ [0, (familyCode f).2]

/-- The session receives AddPath for the family: the first AddPath entry for it has the receive bit. -/
def ReceivesAddPath (caps : List BgpCapability) (fam : U16 × U8) : Bool :=
  match (addPathLists caps).flatten.find? fun a => decide (family a = fam) with
  | some a => a.receive
  | none => false

/-- The capabilities announce to send path identifiers for the family: the first AddPath entry for it has the send bit. -/
def SendsAddPath (caps : List BgpCapability) (fam : U16 × U8) : Bool :=
  match (addPathLists caps).flatten.find? fun a => decide (family a = fam) with
  | some a => a.send
  | none => false

/-- The field looks like AddPath NLRI: at least five octets, the first two zero. -/
def LooksAddPath (buf : Bytes) : Bool := decide (5 ≤ buf.length ∧ buf.take 2 = [0, 0])

/-- AddPath decoding is called for. -/
def AddPathExpected (p : BgpSessionParams) (fam : U16 × U8) (buf : Bytes) : Bool :=
  ReceivesAddPath p.caps fam || (p.fuzzyPathid && LooksAddPath buf)

/-- The octets of a collection. VPLS collections, which do not round trip, are left empty. -/
def addrsWire : BgpAddrs → Bytes
  | .None => []
  | .IPV4U v => v.flatMap nlriWire
  | .IPV4UP v => v.flatMap pathIdWire
  | .IPV4M v => v.flatMap nlriWire
  | .IPV4MP v => v.flatMap pathIdWire
  | .IPV4LU v => v.flatMap nlriWire
  | .IPV4LUP v => v.flatMap pathIdWire
  | .VPNV4U v => v.flatMap nlriWire
  | .VPNV4UP v => v.flatMap pathIdWire
  | .VPNV4M v => v.flatMap nlriWire
  | .VPNV4MP v => v.flatMap pathIdWire
  | .IPV4MDT v => v.flatMap nlriWire
  | .IPV4MDTP v => v.flatMap pathIdWire
  | .IPV6U v => v.flatMap nlriWire
  | .IPV6UP v => v.flatMap pathIdWire
  | .IPV6M v => v.flatMap nlriWire
  | .IPV6MP v => v.flatMap pathIdWire
  | .IPV6LU v => v.flatMap nlriWire
  | .IPV6LUP v => v.flatMap pathIdWire
  | .VPNV6U v => v.flatMap nlriWire
  | .VPNV6UP v => v.flatMap pathIdWire
  | .VPNV6M v => v.flatMap nlriWire
  | .VPNV6MP v => v.flatMap pathIdWire
  | .IPV6MDT v => v.flatMap nlriWire
  | .IPV6MDTP v => v.flatMap pathIdWire
  | .L2VPLS _ => []
  | .MVPN v => v.flatMap mvpnWire
  | .EVPN v => v.flatMap evpnWire
  | .FS4U v => v.flatMap fsWire
  | .FS6U v => v.flatMap fsWire
  | .FSV4U v => v.flatMap fsWire

/-- The items can be put on the wire and recovered. For MVPN: types 1 and 2 with IPv4 addresses (C50); for EVPN: no
IPv6 prefix routes (C49); for FlowSpec: the components of C53; VPLS: only empty collections (C51). -/
def AddrsWF : BgpAddrs → Prop
  | .None => False
  | .IPV4U v => ∀ x ∈ v, NlriKind.WF x
  | .IPV4UP v => ∀ x ∈ v, NlriKind.WF x.nlri
  | .IPV4M v => ∀ x ∈ v, NlriKind.WF x
  | .IPV4MP v => ∀ x ∈ v, NlriKind.WF x.nlri
  | .IPV4LU v => ∀ x ∈ v, NlriKind.WF x
  | .IPV4LUP v => ∀ x ∈ v, NlriKind.WF x.nlri
  | .VPNV4U v => ∀ x ∈ v, NlriKind.WF x
  | .VPNV4UP v => ∀ x ∈ v, NlriKind.WF x.nlri
  | .VPNV4M v => ∀ x ∈ v, NlriKind.WF x
  | .VPNV4MP v => ∀ x ∈ v, NlriKind.WF x.nlri
  | .IPV4MDT v => ∀ x ∈ v, NlriKind.WF x
  | .IPV4MDTP v => ∀ x ∈ v, NlriKind.WF x.nlri
  | .IPV6U v => ∀ x ∈ v, NlriKind.WF x
  | .IPV6UP v => ∀ x ∈ v, NlriKind.WF x.nlri
  | .IPV6M v => ∀ x ∈ v, NlriKind.WF x
  | .IPV6MP v => ∀ x ∈ v, NlriKind.WF x.nlri
  | .IPV6LU v => ∀ x ∈ v, NlriKind.WF x
  | .IPV6LUP v => ∀ x ∈ v, NlriKind.WF x.nlri
  | .VPNV6U v => ∀ x ∈ v, NlriKind.WF x
  | .VPNV6UP v => ∀ x ∈ v, NlriKind.WF x.nlri
  | .VPNV6M v => ∀ x ∈ v, NlriKind.WF x
  | .VPNV6MP v => ∀ x ∈ v, NlriKind.WF x.nlri
  | .IPV6MDT v => ∀ x ∈ v, NlriKind.WF x
  | .IPV6MDTP v => ∀ x ∈ v, NlriKind.WF x.nlri
  | .L2VPLS v => v = []
  | .MVPN v => ∀ x ∈ v, MvpnWF .IPv4 x ∧ (mvpnType x = 1 ∨ mvpnType x = 2)
  | .EVPN v => ∀ x ∈ v, EvpnWF x ∧ ¬ EvpnV6Prefix x
  | .FS4U v => FsListOk v
  | .FS6U v => FsListOk v
  | .FSV4U v => FsListOk v

/-- The item with a path identifier a receiver gets. -/
def receivedP {T : Type} [NlriKind T] (x : WithPathId T) : WithPathId T := ⟨x.pathid, NlriKind.received x.nlri⟩

/-- What a receiver gets: the same items, the octets of prefixes that are not sent are zero. -/
def addrsReceived : BgpAddrs → BgpAddrs
  | .IPV4U v => .IPV4U (v.map NlriKind.received)
  | .IPV4UP v => .IPV4UP (v.map receivedP)
  | .IPV4M v => .IPV4M (v.map NlriKind.received)
  | .IPV4MP v => .IPV4MP (v.map receivedP)
  | .IPV4LU v => .IPV4LU (v.map NlriKind.received)
  | .IPV4LUP v => .IPV4LUP (v.map receivedP)
  | .VPNV4U v => .VPNV4U (v.map NlriKind.received)
  | .VPNV4UP v => .VPNV4UP (v.map receivedP)
  | .VPNV4M v => .VPNV4M (v.map NlriKind.received)
  | .VPNV4MP v => .VPNV4MP (v.map receivedP)
  | .IPV4MDT v => .IPV4MDT (v.map NlriKind.received)
  | .IPV4MDTP v => .IPV4MDTP (v.map receivedP)
  | .IPV6U v => .IPV6U (v.map NlriKind.received)
  | .IPV6UP v => .IPV6UP (v.map receivedP)
  | .IPV6M v => .IPV6M (v.map NlriKind.received)
  | .IPV6MP v => .IPV6MP (v.map receivedP)
  | .IPV6LU v => .IPV6LU (v.map NlriKind.received)
  | .IPV6LUP v => .IPV6LUP (v.map receivedP)
  | .VPNV6U v => .VPNV6U (v.map NlriKind.received)
  | .VPNV6UP v => .VPNV6UP (v.map receivedP)
  | .VPNV6M v => .VPNV6M (v.map NlriKind.received)
  | .VPNV6MP v => .VPNV6MP (v.map receivedP)
  | .IPV6MDT v => .IPV6MDT (v.map NlriKind.received)
  | .IPV6MDTP v => .IPV6MDTP (v.map receivedP)
  | .FS4U v => .FS4U (v.map fsReceived)
  | .FS6U v => .FS6U (v.map fsReceived)
  | x => x

/-- The number of octets a receiver reports as taken: behind a FlowSpec prefix component one too many. -/
def addrsTaken (x : BgpAddrs) : Nat :=
  (addrsWire x).length +
    match x with
    | .FS4U v => (fsEndsInPrefix v).toNat
    | .FS6U v => (fsEndsInPrefix v).toNat
    | _ => 0

/-- The collection is of the form (AddPath or plain) the session calls for on its octets. -/
def FormExpected (p : BgpSessionParams) (x : BgpAddrs) : Prop :=
  ∀ f addpath, kindOf x = some (f, addpath) → hasAddPath f = true →
    addpath = AddPathExpected p (familyCode f) (addrsWire x)

end Zbgp.Spec
