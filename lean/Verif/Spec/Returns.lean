import Verif.Spec.Outcome
import Verif.Spec.Release

/-!
# Which prefixes come back from the wire without overflow checks

Sent and read by builds without overflow checks, the length octet wraps around on both sides. The length of the address is bound as
ever; the sum of the bits is not.
-/

namespace Zbgp.Spec

open Zbgp

/-- What was encoded into the buffer is decoded as the same value. -/
def Returns {α : Type} (enc : Enc) (dec : Bytes → Res (α × Nat)) (x : α) (buf : Bytes) : Prop :=
  ∃ buf' k n, enc buf = .ok (buf', k) ∧ dec (buf'.take k) = .ok (x, n)

/-- The bits of labels, route distinguisher and address, and which prefixes come back. -/
class ReturnsUnchecked (T : Type) where
  bits : T → Nat
  Back : T → Prop

/-- At most 32 bits, and all octets behind those of the prefix are zero. -/
instance : ReturnsUnchecked BgpAddrV4 where
  bits x := x.prefixlen.toNat
  Back x := x.prefixlen.toNat ≤ 32 ∧ ∀ o ∈ (be 4 x.addr.toNat).drop (octets x.prefixlen.toNat), o = 0

/-- At most 128 bits. -/
instance : ReturnsUnchecked BgpAddrV6 where
  bits x := x.prefixlen.toNat
  Back x := x.prefixlen.toNat ≤ 128 ∧ ∀ o ∈ (be 16 x.addr.toNat).drop (octets x.prefixlen.toNat), o = 0

instance : ReturnsUnchecked BgpMdtV4 where
  bits x := x.addr.prefixlen.toNat + 32
  Back x := ReturnsUnchecked.Back x.addr

/-- At most 126 bits. -/
instance : ReturnsUnchecked BgpMdtV6 where
  bits x := x.addr.prefixlen.toNat + 128
  Back x := x.addr.prefixlen.toNat ≤ 126 ∧ ReturnsUnchecked.Back x.addr

/-- A stack of labels that can be told apart from its end, such that the bits left over before one of the labels are never a
multiple of 256, at which the reader takes the stack as ended. No labels at all come back only if there are no bits. -/
instance {T : Type} [ReturnsUnchecked T] : ReturnsUnchecked (Labeled T) where
  bits x := 24 * x.labels.labels.length + ReturnsUnchecked.bits x.pfx
  Back x := ReturnsUnchecked.Back x.pfx ∧
    ((x.labels.labels = [] ∧ ReturnsUnchecked.bits x.pfx % 256 = 0) ∨
      (LabelStackWF x.labels.labels ∧
        ∀ j, 1 ≤ j → j ≤ x.labels.labels.length → (24 * j + ReturnsUnchecked.bits x.pfx) % 256 ≠ 0))

/-- Every route distinguisher comes back, with whatever length. -/
instance {T : Type} [ReturnsUnchecked T] : ReturnsUnchecked (WithRd T) where
  bits x := 64 + ReturnsUnchecked.bits x.pfx
  Back x := ReturnsUnchecked.Back x.pfx

/-- The kinds of NLRI that are prefixes with a length in bits. -/
inductive ReturnsKind : (T : Type) → [BgpItemIn T] → [ReturnsUnchecked T] → Prop
  | v4 : ReturnsKind BgpAddrV4
  | v6 : ReturnsKind BgpAddrV6
  | mdt4 : ReturnsKind BgpMdtV4
  | mdt6 : ReturnsKind BgpMdtV6
  | labeled {T : Type} [BgpItemIn T] [ReturnsUnchecked T] : ReturnsKind T → ReturnsKind (Labeled T)
  | withRd {T : Type} [BgpItemIn T] [ReturnsUnchecked T] : ReturnsKind T → ReturnsKind (WithRd T)

end Zbgp.Spec
