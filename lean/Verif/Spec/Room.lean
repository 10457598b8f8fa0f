import Verif.Spec.Buffers
import Verif.Spec.Update
import Verif.Spec.Bmp

/-!
# What the encoder of UPDATE messages does on buffers that are too small
-/

namespace Zbgp.Spec

open Zbgp

/-- In a buffer of `room` octets, fewer than the multicast VPN route (of type 1 or 2) needs, its encoder returns an error: the
buffer ends inside the address of the originating router, which begins behind ten octets. Otherwise it panics. -/
def mvpnErrorIn : BgpMVPN → Nat → Prop
  | .t1 _, room => 10 ≤ room
  | _, _ => False

/-- In a buffer of `room` octets, fewer than the EVPN route needs, its encoder returns an error: the buffer ends inside the
address of the originating router (types 3 and 4) or inside one of the two addresses of an IP prefix route (type 5).
Otherwise it panics. -/
def evpnErrorIn : BgpEVPN → Nat → Prop
  | .evpn3 _, room => 15 ≤ room
  | .evpn4 _, room => 21 ≤ room
  | .evpn5 _, room => 25 ≤ room ∧ room < 33
  | _, _ => False

/-- A buffer of `room` octets is too small for the list, and the item that does not fit is one that is an error in the octets
left to it. -/
def listErrorIn {α : Type} (wire : α → Bytes) (e : α → Nat → Prop) (l : List α) (room : Nat) : Prop :=
  ∃ a b c, l = a ++ b :: c ∧ (a.flatMap wire).length ≤ room ∧ room < (a.flatMap wire).length + (wire b).length ∧
    e b (room - (a.flatMap wire).length)

/-- In a buffer of `room` octets, fewer than the NLRI need, their encoder returns an error: always for flow specifications,
never for prefixes. -/
def nlriErrorIn : BgpAddrs → Nat → Prop
  | .MVPN v, room => listErrorIn mvpnWire mvpnErrorIn v room
  | .EVPN v, room => listErrorIn evpnWire evpnErrorIn v room
  | .FS4U _, _ | .FSV4U _, _ | .FS6U _, _ => True
  | _, _ => False

/-- The octets of the next hop in front of the address: the route distinguisher, if there is one. -/
def nexthopRd : BgpAddr → Nat
  | .V4RD _ | .V6RD _ => 8
  | _ => 0

/-- In a buffer of `room` octets, fewer than the attribute needs, its encoder returns an error: the buffer has room for the
attribute header, or
* in MP_REACH_NLRI, whose next hop begins behind eight octets, it ends inside the address of the next hop, or inside the NLRI
  (or right before them) where their encoder returns an error;
* in MP_UNREACH_NLRI, it ends inside the NLRI (or right before them) where their encoder returns an error.
Otherwise it panics; for unknown attributes always. -/
def ErrorIn (x : BgpAttrItem) (room : Nat) : Prop :=
  match x with
  | .MPUpdates m =>
    (8 + nexthopRd m.nexthop ≤ room ∧ room < 8 + (nexthopWire m.nexthop).length) ∨
    (9 + (nexthopWire m.nexthop).length ≤ room ∧ nlriErrorIn m.addrs (room - (9 + (nexthopWire m.nexthop).length)))
  | .MPWithdraws m => 7 ≤ room ∧ nlriErrorIn m.addrs (room - 7)
  | .Unknown _ => False
  | x => (if extended (attrCode x).2 then 4 else 3) ≤ room

/-- The encoder of the message panics in a buffer of `room` octets, fewer than it needs: the buffer ends
* before the withdrawn routes length, if there are no withdrawn routes;
* inside the withdrawn routes;
* inside an attribute (or right before it), at a place where its encoder panics; or
* inside the announced routes, or right before them. -/
def PanicsIn (p : BgpSessionParams) (x : BgpUpdateMessage) (room : Nat) : Prop :=
  (room < 2 ∧ x.withdraws = .None) ∨
  (2 ≤ room ∧ room < 2 + (addrsWire x.withdraws).length) ∨
  (∃ a b c, x.attrs = a ++ b :: c ∧ 4 + (addrsWire x.withdraws).length + (attrsWire p a).length ≤ room ∧
    room < 4 + (addrsWire x.withdraws).length + (attrsWire p a).length + (attrWire p.hasAs32bit b).length ∧
    ¬ ErrorIn b (room - (4 + (addrsWire x.withdraws).length + (attrsWire p a).length))) ∨
  4 + (addrsWire x.withdraws).length + (attrsWire p x.attrs).length ≤ room

/-- The encoder of the OPEN message panics in a buffer of `room` octets, fewer than it needs. -/
def OpenPanicsIn (m : BgpOpenMessage) (room : Nat) : Prop := 10 ≤ room ∧ CapBoundary m.caps (room - 10)

/-- The octets of an OPEN message without header. -/
def openSize (m : BgpOpenMessage) : Nat := 10 + (capsParams m.caps).length

/-- The encoder of a BMP peer-up message panics in a buffer of `room` octets, fewer than it needs: there is room for the type,
the per-peer header, the local address and the ports (63 octets), and the buffer ends inside the header of one of the
OPEN messages, or inside its body where its encoder panics. -/
def PeerUpPanicsIn (x : BmpMessagePeerUp) (room : Nat) : Prop :=
  (63 ≤ room ∧ room < 82) ∨
  (82 ≤ room ∧ room < 82 + openSize x.msg1 ∧ OpenPanicsIn x.msg1 (room - 82)) ∨
  (82 + openSize x.msg1 ≤ room ∧ room < 101 + openSize x.msg1) ∨
  (101 + openSize x.msg1 ≤ room ∧ OpenPanicsIn x.msg2 (room - (101 + openSize x.msg1)))

/-- The encoder of a BMP route monitoring message panics in a buffer of `room` octets, fewer than it needs: there is room for the
type, the per-peer header, the message header and one octet more, and the encoder of the UPDATE message panics in the rest. -/
def RmonPanicsIn (x : BmpMessageRouteMonitoring) (room : Nat) : Prop :=
  63 ≤ room ∧ PanicsIn (.ofPeerHeader x.peer) x.update (room - 62)

/-- The texts of an initiation message, in the order they are written. -/
def initTexts (x : BmpMessageInitiation) : List Bytes := [x.str0, x.sysDescr, x.sysName].filterMap id

/-- The octets of information elements. -/
def infoSize (l : List Bytes) : Nat := (l.map fun s => 4 + s.length).sum

/-- The encoder of a BMP initiation message panics in a buffer of `room` octets, fewer than it needs: the buffer ends behind the
header of an information element, inside its text or right before it. -/
def InitPanicsIn (x : BmpMessageInitiation) (room : Nat) : Prop :=
  ∃ a s b, initTexts x = a ++ s :: b ∧ 1 + infoSize a + 4 ≤ room ∧ room < 1 + infoSize a + 4 + s.length

end Zbgp.Spec
