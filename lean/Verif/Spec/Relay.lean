import Verif.Spec.UpdateReads

/-!
# What was received and can be sent on

Only the data types of the model are used, none of its functions.
-/

namespace Zbgp.Spec

open Zbgp

/-- The collections of received NLRI that can be sent on: of VPLS routes only none; of MVPN routes only those of types 1
and 2; of FlowSpec the lists whose lengths the library announces correctly and that have a prefix component at most at
the end; all others. -/
def Relayable : BgpAddrs → Prop
  | .None => False
  | .L2VPLS v => v = []
  | .MVPN v => ∀ x ∈ v, mvpnType x = 1 ∨ mvpnType x = 2
  | .FS4U v => FsListOk v
  | .FS6U v => FsListOk v
  | .FSV4U v => FsListOk v
  | _ => True

/-- The received attributes whose values are written as they were read: AS paths if the session has 32-bit AS numbers, or
if they are empty; an originator of the family of the session; multiprotocol NLRI that can be sent on; neither AGGREGATOR
nor PMSI tunnels nor attribute sets; all others. -/
def ValueRelayable (p : BgpSessionParams) (x : BgpAttrItem) : Prop :=
  match x with
  | .ASPath l => l.value = [] ∨ p.hasAs32bit = true
  | .AggregatorAS _ => False
  | .OriginatorID a => addrFamily a.value = p.peerMode
  | .MPUpdates u => Relayable u.addrs
  | .MPWithdraws w => Relayable w.addrs
  | .PMSITunnel _ => False
  | .AttrSet _ _ => False
  | _ => True

/-- The received attributes that can be sent on in the same session: those with such a value, if it fits the length field:
the library uses that of one octet for some attributes, where the sender may have used the one of two. -/
def AttrRelayable (p : BgpSessionParams) (x : BgpAttrItem) : Prop :=
  ValueRelayable p x ∧ (valueWire p.hasAs32bit x).length ≤ maxValue (attrCode x).2

end Zbgp.Spec
