import Verif.Spec.Station

/-!
# Specification for C113: which messages come back

Uses the data types of the API, what can be put on the wire (`CapEncodable`, `OpenOk`, `AsSent`, `InfoOk`) and which addresses
are told apart in a 16-octet field (`Distinct`).
-/

namespace Zbgp.Spec

open Zbgp

/-- The BMP message, encoded into some buffer (of a size with `P`) and decoded from the octets reported, is the same. -/
def ComesBack (x : BmpMessage) (P : Nat → Prop) : Prop :=
  ∃ buf buf' n, P buf.length ∧ x.encodeTo buf = .ok (buf', n) ∧ BmpMessage.decodeFrom (buf'.take n) = .ok x

end Zbgp.Spec
