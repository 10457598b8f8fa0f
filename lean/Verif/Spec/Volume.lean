import Verif.Spec.Bmp

/-!
# How much a decoded value holds

The number of entries of all the lists in a value, at every depth: routes, labels, operators, AS numbers, communities,
cluster ids, attributes, capabilities and their entries, and the octets of uninterpreted parts and of texts. Whatever is
allocated for a value on the heap is allocated for these. Only the data types of the model are used, none of its functions.
-/

namespace Zbgp.Spec

open Zbgp

/-- The sum over a list. -/
def total {α : Type} (vol : α → Nat) (l : List α) : Nat := (l.map vol).sum

/-- A route of any kind counts one, and one more for everything in a list in it. -/
class Volume (α : Type) where
  vol : α → Nat

export Volume (vol)

instance : Volume BgpAddrV4 := ⟨fun _ => 1⟩
instance : Volume BgpAddrV6 := ⟨fun _ => 1⟩
instance : Volume BgpMdtV4 := ⟨fun _ => 1⟩
instance : Volume BgpMdtV6 := ⟨fun _ => 1⟩
instance : Volume BgpMVPN := ⟨fun _ => 1⟩
instance {T : Type} [Volume T] : Volume (Labeled T) := ⟨fun x => x.labels.labels.length + vol x.pfx⟩
instance {T : Type} [Volume T] : Volume (WithRd T) := ⟨fun x => vol x.pfx⟩
instance {T : Type} [Volume T] : Volume (WithPathId T) := ⟨fun x => vol x.nlri⟩
instance : Volume BgpAddrL2 := ⟨fun x => 1 + x.labels.labels.length⟩
instance : Volume BgpEVPN := ⟨fun x => match x with
  | .evpn1 r => 1 + r.labels.labels.length
  | .evpn2 r => 1 + r.labels.labels.length
  | .evpn3 _ => 1
  | .evpn4 _ => 1
  | .evpn5 r => 1 + r.labels.labels.length⟩
instance {T : Type} : Volume (BgpFlowSpec T) := ⟨fun x => match x with
  | .prefixDst _ => 1
  | .prefixSrc _ => 1
  | .proto v => 1 + v.items.length
  | .portAny v => 1 + v.items.length
  | .portDst v => 1 + v.items.length
  | .portSrc v => 1 + v.items.length
  | .icmpType v => 1 + v.items.length
  | .icmpCode v => 1 + v.items.length
  | .tcpFlags v => 1 + v.items.length
  | .packetLength v => 1 + v.items.length
  | .dscp v => 1 + v.items.length
  | .fragment v => 1 + v.items.length
  | .flowLabel v => 1 + v.items.length⟩

/-- Lists of routes. -/
def addrsVolume : BgpAddrs → Nat
  | .None => 0
  | .IPV4U v => total vol v
  | .IPV4M v => total vol v
  | .IPV4LU v => total vol v
  | .VPNV4U v => total vol v
  | .VPNV4M v => total vol v
  | .IPV4MDT v => total vol v
  | .IPV4MDTP v => total vol v
  | .IPV6U v => total vol v
  | .IPV6M v => total vol v
  | .IPV6LU v => total vol v
  | .VPNV6U v => total vol v
  | .VPNV6M v => total vol v
  | .IPV6MDT v => total vol v
  | .IPV6MDTP v => total vol v
  | .L2VPLS v => total vol v
  | .MVPN v => total vol v
  | .EVPN v => total vol v
  | .FS4U v => total vol v
  | .FS6U v => total vol v
  | .FSV4U v => total vol v
  | .IPV4UP v => total vol v
  | .IPV4MP v => total vol v
  | .IPV4LUP v => total vol v
  | .VPNV4UP v => total vol v
  | .VPNV4MP v => total vol v
  | .IPV6UP v => total vol v
  | .IPV6MP v => total vol v
  | .IPV6LUP v => total vol v
  | .VPNV6UP v => total vol v
  | .VPNV6MP v => total vol v

/-- The octets of a tunnel identifier that are not interpreted. -/
def tunnelVolume : BgpPMSITunnelAttr → Nat
  | .MLDP _ opaq => opaq.length
  | _ => 0

mutual

/-- An attribute counts one, and one more for everything in a list in it; the attributes of an attribute set count as they
do elsewhere. -/
def attrVolume : BgpAttrItem → Nat
  | .ASPath x => 1 + x.value.length
  | .CommunityList x => 1 + x.value.length
  | .ClusterList x => 1 + x.value.length
  | .MPUpdates x => 1 + addrsVolume x.addrs
  | .MPWithdraws x => 1 + addrsVolume x.addrs
  | .ExtCommunityList x => 1 + x.value.length
  | .LargeCommunityList x => 1 + x.value.length
  | .PMSITunnel x => 1 + x.label.labels.length + tunnelVolume x.tunnelAttribute
  | .AttrSet _ l => 1 + attrsVolume l
  | .Unknown x => 1 + x.value.length
  | _ => 1

/-- The attributes of a list together. -/
def attrsVolume : List BgpAttrItem → Nat
  | [] => 0
  | x :: l => attrVolume x + attrsVolume l

end

mutual

/-- How deep attribute sets are nested: nothing but an attribute set has a depth, and that is one more than what is in it. -/
def setDepth : BgpAttrItem → Nat
  | .AttrSet _ l => 1 + setsDepth l
  | _ => 0

/-- The greatest depth in a list of attributes. -/
def setsDepth : List BgpAttrItem → Nat
  | [] => 0
  | x :: l => max (setDepth x) (setsDepth l)

end

/-- A whole UPDATE message. -/
def updateVolume (m : BgpUpdateMessage) : Nat :=
  addrsVolume m.withdraws + attrsVolume m.attrs + addrsVolume m.updates

/-- A capability counts one, and one more for every entry or octet in it. -/
def capVolume : BgpCapability → Nat
  | .CapGR _ _ afis => 1 + afis.length
  | .CapAddPath v => 1 + v.length
  | .CapLLGR v => 1 + v.length
  | .CapFQDN host domain => 1 + host.length + domain.length
  | _ => 1

/-- A text that may be absent. -/
def textVolume : Option Bytes → Nat
  | none => 0
  | some s => s.length

/-- A BMP message. -/
def bmpVolume : BmpMessage → Nat
  | .RouteMonitoring m => updateVolume m.update
  | .PeerUpNotification m => total capVolume m.msg1.caps + total capVolume m.msg2.caps
  | .Initiation m => textVolume m.str0 + textVolume m.sysDescr + textVolume m.sysName
  | .Termination m => textVolume m.str0
  | _ => 0

end Zbgp.Spec
