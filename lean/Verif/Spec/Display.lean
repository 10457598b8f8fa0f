import Verif.Model.Display

/-!
# Texts of routes, communities and notifications
-/

namespace Zbgp.Spec

/-- Different values of a type have different texts. -/
def TextTellsApart (T : Type) [RDisplay T] : Prop :=
  ∀ x y : T, RDisplay.display x = RDisplay.display y → x = y

/-- The addresses in a multicast VPN route. -/
def mvpnAddrs : BgpMVPN → List IpAddr
  | .t1 r => [r.originator]
  | .t2 _ => []
  | .t3 r => [r.source, r.group, r.originator]
  | .t4 r => [r.spmsi.source, r.spmsi.group, r.spmsi.originator, r.originator]
  | .t5 r => [r.source, r.group]
  | .t6 r => [r.rp, r.group]
  | .t7 r => [r.rp, r.group]

/-- The pairs of different extended communities that are shown alike: import route targets with IPv4 address, transitive and
not; encapsulations that differ in the reserved octets; EVPN layer 2 attributes that differ in the reserved octets. -/
inductive SameExtText : BgpExtCommunity → BgpExtCommunity → Prop
  | importRt (c d : U8) (a : U16) (b : U32) (hc : c ∈ [0x01, 0x41]) (hd : d ∈ [0x01, 0x41]) :
      SameExtText ⟨c, 10, a, b⟩ ⟨d, 10, a, b⟩
  | encapsulation (a a' : U16) (b : U32) : SameExtText ⟨3, 12, a, b⟩ ⟨3, 12, a', b⟩
  | l2info (a : U16) (b b' : U32) (h : b.toNat / 65536 = b'.toNat / 65536) : SameExtText ⟨6, 4, a, b⟩ ⟨6, 4, a, b'⟩

/-- RFC 4271, section 4.5: the error codes. -/
def errorNames : List (Nat × String) :=
  [(1, "Message Header Error"), (2, "OPEN Message Error"), (3, "Update Message Error"), (4, "Hold Timer Expired"),
   (5, "Finite State Machine Error"), (6, "Cease")]

/-- RFC 4271, section 4.5, RFC 5492: the subcodes of the codes 1, 2 and 3. -/
def subcodeNames : Nat → List (Nat × String)
  | 1 => [(1, "Connection not synchronized"), (2, "Bad Message Length"), (3, "Bad Message Type")]
  | 2 => [(1, "Unsupported Version Number"), (2, "Bad Peer AS"), (3, "Bad BGP Identifier"), (4, "Unsupported Optional Parameter"),
      (5, "Deprecated(5)"), (6, "Unacceptable Hold Time"), (7, "Unsupported capability")]
  | 3 => [(1, "Malformed Attribute List"), (2, "Unrecognized Well-known Attribute"), (3, "Missing Well-known Attribute"),
      (4, "Attribute Flags Error"), (5, "Attribute Length Error"), (6, "Invalid ORIGIN Attribute"), (7, "Deprecated(7)"),
      (8, "Invalid NEXT_HOP Attribute"), (9, "Optional Attribute Error"), (10, "Invalid Network Field"), (11, "Malformed AS_PATH")]
  | _ => []

end Zbgp.Spec
