import Verif.Spec.Reads

/-!
# Fields of routes, one behind the other, in sessions that guess at path identifiers
-/

namespace Zbgp.Spec

open Zbgp

/-- The octets of two fields, and of the one behind the other, are all taken to have path identifiers or all not to. -/
def AgreedPathIds (p : BgpSessionParams) (f : Family) (a b : Bytes) : Prop :=
  AddPathExpected p (familyCode f) b = AddPathExpected p (familyCode f) a ∧
    AddPathExpected p (familyCode f) (a ++ b) = AddPathExpected p (familyCode f) a

end Zbgp.Spec
