import Verif.Spec.ReturnsMsg
import Verif.Spec.OutcomeMsg
import Verif.Spec.Station

/-!
# Which BMP messages come back without overflow checks

As in `Spec/ReturnsMsg.lean`, for the messages of a monitoring station.
-/

namespace Zbgp.Spec

open Zbgp

/-- The BMP messages that come back: addresses must be told apart in their fields. The UPDATE of a route-monitoring message must come
back in the session of the peer header and be short enough for the length in a BGP header. Both OPEN messages of a peer-up must be
ones that can be put on the wire. An initiation has only the free text, and texts are well-formed and fit their length field. The two
kinds that can not be sent never come back. -/
def BmpBack : BmpMessage → Prop
  | .RouteMonitoring x => Distinct x.peer.peeraddress ∧ MessageBack (headerParams x.peer) x.update ∧
      ∃ w, updateFate .release (headerParams x.peer) x.update = .octets w ∧ w.length ≤ 65516
  | .PeerDownNotification x => Distinct x.peer.peeraddress
  | .PeerUpNotification x => Distinct x.peer.peeraddress ∧ Distinct x.localaddress ∧ OpenOk x.msg1 ∧ OpenOk x.msg2
  | .Initiation x => x.sysDescr = none ∧ x.sysName = none ∧ ∀ s, x.str0 = some s → InfoOk s
  | .Termination x => ∀ s, x.str0 = some s → InfoOk s
  | .StatisticsReport => False
  | .RouteMirroring => False

end Zbgp.Spec
