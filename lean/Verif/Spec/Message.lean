import Verif.Spec.Wire
import Verif.Model.Session

/-!
# Specification of the BGP message header, OPEN and NOTIFICATION wire formats

Written from RFC 4271 section 4 and RFC 5492 / 2858 / 4724 / 7911 / 6793; uses only the data types of
the API, none of the model's functions.
-/

namespace Zbgp.Spec

open Zbgp

/-- RFC 4271 4.1: message type codes. -/
def typeCode : BgpMessageType → Nat
  | .Open => 1
  | .Update => 2
  | .Notification => 3
  | .Keepalive => 4

/-- RFC 4271 4.1: the 19-octet header of a message with a body of `bodyLen` octets. -/
def header (ty : BgpMessageType) (bodyLen : Nat) : Bytes :=
  List.replicate 16 255 ++ (be 2 (bodyLen + 19) ++ be 1 (typeCode ty))

/-- A message on the wire. -/
def message (ty : BgpMessageType) (body : Bytes) : Bytes := header ty body.length ++ body

/-- The octets `s` of the reserved/flags byte of a graceful-restart AFI entry. -/
def grEntry (g : BgpCapGR) : Bytes :=
  be 2 g.afi.toNat ++ [g.safi, if g.forwardingState then 128 else 0]

/-- RFC 7911: AFI, SAFI, send/receive (1 = receive, 2 = send, 3 = both). -/
def addPathEntry (a : BgpCapAddPath) : Bytes :=
  be 2 a.afi.toNat ++ [a.safi, BitVec.ofNat 8 ((if a.receive then 1 else 0) + (if a.send then 2 else 0))]

/-- LLGR: AFI, SAFI, flags, 24-bit stale time. -/
def llgrEntry (l : BgpCapLLGR) : Bytes :=
  be 2 l.afi.toNat ++ ([l.safi, l.flags] ++ be 3 l.staleTime.toNat)

/-- The (code, value) of each capability that the library can put on the wire
(`none`: the FQDN capability, see `fqdnCap`). -/
def capValue : BgpCapability → Option (Nat × Bytes)
  | .SafiIPv4u => some (1, be 2 1 ++ [0, 1])
  | .SafiIPv4m => some (1, be 2 1 ++ [0, 4])
  | .SafiIPv4mvpn => some (1, be 2 1 ++ [0, 5])
  | .SafiIPv4fu => some (1, be 2 1 ++ [0, 133])
  | .SafiVPNv4u => some (1, be 2 1 ++ [0, 128])
  | .SafiVPNv4fu => some (1, be 2 1 ++ [0, 134])
  | .SafiVPNv4m => some (1, be 2 1 ++ [0, 129])
  | .SafiIPv4lu => some (1, be 2 1 ++ [0, 2])
  | .SafiIPv4mdt => some (1, be 2 1 ++ [0, 66])
  | .SafiIPv6u => some (1, be 2 2 ++ [0, 1])
  | .SafiIPv6lu => some (1, be 2 2 ++ [0, 4])
  | .SafiIPv6fu => some (1, be 2 2 ++ [0, 133])
  | .SafiVPNv6u => some (1, be 2 2 ++ [0, 128])
  | .SafiVPNv6m => some (1, be 2 2 ++ [0, 129])
  | .SafiIPv6mdt => some (1, be 2 2 ++ [0, 66])
  | .SafiVPLS => some (1, be 2 25 ++ [0, 65])
  | .SafiEVPN => some (1, be 2 25 ++ [0, 70])
  | .CapGR t s afis => some (64, be 2 (t.toNat + if s then 2 ^ 15 else 0) ++ afis.flatMap grEntry)
  | .CapASN32 n => some (65, be 4 n.toNat)
  | .CapRR => some (2, [])
  | .CapAddPath v => some (69, v.flatMap addPathEntry)
  | .CapEnhancedRR => some (70, [])
  | .CapLLGR v => some (71, v.flatMap llgrEntry)
  | .CapFQDN _ _ => none
  | .CapBFD => some (74, [])

/-- draft-walton-bgp-hostname-capability: the FQDN capability value. -/
def fqdnValue (h d : Bytes) : Bytes := be 1 h.length ++ h ++ be 1 d.length ++ d

/-- A type-length-value triple with one-octet type and length. -/
def tlv (t : Nat) (v : Bytes) : Bytes := be 1 t ++ (be 1 v.length ++ v)

/-- The TLV of a capability. -/
def capTlv (c : BgpCapability) : Bytes :=
  match capValue c with
  | some (t, v) => tlv t v
  | none => []

/-- The capability can be put on the wire: timers fit their fields, the value fits the one-octet lengths of
the capability TLV and of the optional parameter that carries it. -/
def CapEncodable (c : BgpCapability) : Prop :=
  (match c with
   | .CapGR t _ _ => t.toNat < 2 ^ 12
   | .CapLLGR v => ∀ l ∈ v, l.staleTime.toNat < 2 ^ 24
   | .CapFQDN _ _ => False
   | _ => True) ∧ (capTlv c).length ≤ 255

/-- One OPEN optional parameter of type 2 (capabilities) holding the given octets. -/
def capParam (body : Bytes) : Bytes := tlv 2 body

/-- The two-octet "My Autonomous System" field: AS_TRANS for four-octet numbers. -/
def as2 (asNum : Nat) : Nat := if asNum < 65536 then asNum else 23456

/-- RFC 4271 4.2: an OPEN message with the given optional parameters. -/
def openWire (asNum holdTime routerId : Nat) (params : Bytes) : Bytes :=
  be 1 4 ++ (be 2 (as2 asNum) ++ (be 2 holdTime ++ (be 4 routerId ++ (be 1 params.length ++ params))))

/-- The optional parameters this library writes: one parameter per capability. -/
def capsParams (caps : List BgpCapability) : Bytes := caps.flatMap fun c => capParam (capTlv c)

end Zbgp.Spec

namespace Zbgp.Spec

open Zbgp

/-- An entry of an OPEN capability parameter: a capability this library knows, or a TLV with some other
code. -/
inductive CapItem
  | known (c : BgpCapability)
  | unknown (code : Nat) (data : Bytes)

/-- The capability codes the library interprets. -/
def knownCodes : List Nat := [1, 2, 64, 65, 69, 70, 71, 73, 74]

/-- A capability entry that may appear on the wire. -/
def CapItem.WF : CapItem → Prop
  | .known c => CapEncodable c
  | .unknown code data => code < 256 ∧ code ∉ knownCodes ∧ data.length ≤ 255

/-- Its TLV. -/
def CapItem.wire : CapItem → Bytes
  | .known c => capTlv c
  | .unknown code data => tlv code data

/-- The capabilities of known kind in a parameter, in order. -/
def knownOf : List CapItem → List BgpCapability
  | [] => []
  | .known c :: r => c :: knownOf r
  | .unknown _ _ :: r => knownOf r

/-- An optional parameter carrying several capability TLVs. -/
def itemsParam (items : List CapItem) : Bytes := tlv 2 (items.flatMap CapItem.wire)

/-- RFC 4271 4.5: the NOTIFICATION body with two octets of data. -/
def notificationWire (code subcode data : Nat) : Bytes := be 1 code ++ (be 1 subcode ++ be 2 data)

end Zbgp.Spec
