import Verif.Spec.Outcome
import Verif.Spec.Bmp

/-!
# What comes of encoding an OPEN, a message with its header, and a BMP message, for every value

Continues `Verif/Spec/Outcome.lean`.
-/

namespace Zbgp.Spec

open Zbgp

/-- The number of octets a capability is given in an OPEN. For a host name this is two more than are written. -/
def capSize : BgpCapability → Nat
  | .CapFQDN h d => 4 + h.length + d.length
  | c => (capTlv c).length

/-- The optional parameter for a capability. Timers that do not fit are refused; lengths that do not fit an octet are reduced to
one. A host name is sent with its length overwritten by its first octet, and with two octets behind it that are not written. -/
def capFate : BgpCapability → Fate
  | .CapFQDN h d => .sent ((be 1 2 ++ be 1 (4 + h.length + d.length) ++ [73] ++ h ++ be 1 d.length ++ d).map some ++ [none, none])
  | .CapGR t s afis => if t.toNat < 2 ^ 12 then .octets (capParam (capTlv (.CapGR t s afis))) else .refused
  | .CapLLGR v => if ∀ l ∈ v, l.staleTime.toNat < 2 ^ 24 then .octets (capParam (capTlv (.CapLLGR v))) else .refused
  | c => .octets (capParam (capTlv c))

/-- The octets of an OPEN in front of its optional parameters; their length is reduced to an octet. -/
def openHead (m : BgpOpenMessage) : Bytes :=
  be 1 4 ++ be 2 (as2 m.asNum.toNat) ++ be 2 m.holdTime.toNat ++ be 4 m.routerId.toNat ++
    be 1 (m.caps.map fun c => capSize c + 2).sum

/-- An OPEN. -/
def openFate (m : BgpOpenMessage) : Fate := (Fate.octets (openHead m)).andThen (.all capFate m.caps)

/-- A message with its header. With overflow checks, the length of the body is reduced to two octets, and as many of its octets are
sent as that says; if there is no room left for the header in the length, there is a panic. Without them, the length of the whole
message is reduced to two octets, and as many octets are sent of the message, maybe none. -/
def messageFate (m : Build) (ty : BgpMessageType) : Fate → Fate
  | .sent w =>
    match m with
    | .checked =>
      if w.length % 65536 ≤ 65516 then .sent ((header ty (w.length % 65536)).map some ++ w.take (w.length % 65536)) else .crash
    | .release => .sent (((header ty w.length).map some ++ w).take ((w.length + 19) % 65536))
  | o => o

/-- The encoder, followed by sending, comes to this end: what is written to the connection is of the pattern; or there is an
error; or a panic. -/
def Transmits (f : Bytes → Res Bytes) (fate : Fate) : Prop :=
  ∃ room, ∀ buf : Bytes, room ≤ buf.length →
    match fate with
    | .sent pattern => ∃ w, Fits pattern w ∧ f buf = .ok w
    | .refused => (f buf).IsErr
    | .crash => f buf = .panic

/-- A BMP message, behind the common header. The three texts of an initiation are all sent with the type 0. -/
def bmpFate (m : Build) : BmpMessage → Fate
  | .RouteMonitoring x =>
    (Fate.octets (0 :: peerHeaderWire x.peer)).andThen (messageFate m .Update (updateFate m (headerParams x.peer) x.update))
  | .StatisticsReport => .crash
  | .PeerDownNotification x => .octets (2 :: peerDownWire x)
  | .PeerUpNotification x =>
    (Fate.octets (3 :: (peerHeaderWire x.peer ++ bmpAddr x.localaddress ++ be 2 x.localport.toNat ++ be 2 x.remoteport.toNat))).andThen
      ((messageFate m .Open (openFate x.msg1)).andThen (messageFate m .Open (openFate x.msg2)))
  | .Initiation x => .octets (4 :: (optInfo 0 x.str0 ++ optInfo 0 x.sysDescr ++ optInfo 0 x.sysName))
  | .Termination x => .octets (5 :: terminationWire x)
  | .RouteMirroring => .crash

end Zbgp.Spec
