import Verif.Model.Session

/-!
# Specification vocabulary for capability negotiation (C46-C48)

Uses only the data types of the API.
-/

namespace Zbgp.Spec

open Zbgp

/-- Two capabilities of the same kind (same enum variant, whatever the payload). -/
def SameKind (a b : BgpCapability) : Prop := a.ctorIdx = b.ctorIdx

instance (a b : BgpCapability) : Decidable (SameKind a b) := inferInstanceAs (Decidable (_ = _))

/-- `ap` is one of the AddPath entries advertised in the capability list. -/
def Advertises (caps : List BgpCapability) (ap : BgpCapAddPath) : Prop :=
  ∃ v, BgpCapability.CapAddPath v ∈ caps ∧ ap ∈ v

/-- The peer advertised `c`: AS4 is matched by kind whatever the number, everything else literally. -/
def PeerHas (peer : List BgpCapability) : BgpCapability → Prop
  | .CapASN32 _ => ∃ n, BgpCapability.CapASN32 n ∈ peer
  | c => c ∈ peer

open Classical in
/-- The own capabilities other than AddPath that the peer also advertised, in own order. -/
noncomputable def common (own peer : List BgpCapability) : List BgpCapability :=
  own.filter fun c => decide (¬ SameKind c (.CapAddPath []) ∧ PeerHas peer c)

/-- A capability list without the AddPath capabilities. -/
def withoutAddPath (caps : List BgpCapability) : List BgpCapability :=
  caps.filter fun c => !decide (SameKind c (.CapAddPath []))

/-- The AddPath entry lists of a capability list, in order. -/
def addPathLists (caps : List BgpCapability) : List (List BgpCapAddPath) :=
  caps.filterMap fun c => match c with | .CapAddPath v => some v | _ => none

/-- The (AFI, SAFI) of an AddPath entry. -/
def family (a : BgpCapAddPath) : U16 × U8 := (a.afi, a.safi)

/-- The peer's offer is clear: it has at most one AddPath capability, and that one lists every family once. -/
def ClearOffer (peer : List BgpCapability) : Prop :=
  (addPathLists peer).length ≤ 1 ∧ ∀ v ∈ addPathLists peer, (v.map family).Nodup

/-- Two capability lists say the same: the same capabilities other than AddPath, in any order and number, and the same
AddPath entries, in any order. -/
def SameOffer (a b : List BgpCapability) : Prop :=
  (∀ c, ¬ SameKind c (.CapAddPath []) → (c ∈ a ↔ c ∈ b)) ∧
  (addPathLists a = [] ↔ addPathLists b = []) ∧ ∀ ap, Advertises a ap ↔ Advertises b ap

end Zbgp.Spec
