import Verif.Model.Flowspec
import Verif.Spec.Wire

/-!
# What decoders read
-/

namespace Zbgp.Spec

open Zbgp

/-- An NLRI made of a type octet, a length octet and as many octets as the length says. The decoder reads these octets
alone, which are all there, and reports no more than them, but perhaps less. -/
def StaysInFrame {α : Type} (dec : Bytes → Res (α × Nat)) : Prop :=
  ∀ b x n, dec b = .ok (x, n) → ∃ len, b[1]? = some len ∧ 2 ≤ n ∧ n ≤ 2 + len.toNat ∧ 2 + len.toNat ≤ b.length ∧
    ∀ rest, dec (b.take (2 + len.toNat) ++ rest) = .ok (x, n)

/-- A FlowSpec component that is a list of operators, not a prefix. -/
def FsIsOps {T : Type} : BgpFlowSpec T → Prop
  | .prefixDst _ => False
  | .prefixSrc _ => False
  | _ => True

end Zbgp.Spec
