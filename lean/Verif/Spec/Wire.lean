import Verif.Basic

/-!
# Wire-level specification vocabulary

Network byte order, written with division and remainder, and what it means for an encoder to
write given bytes.  Nothing here refers to the model of the code.
-/

namespace Zbgp.Spec

open Zbgp

/-- The `n`-octet network-byte-order (big-endian) representation of `v`. -/
def be : Nat → Nat → Bytes
  | 0, _ => []
  | n + 1, v => BitVec.ofNat 8 (v / 256 ^ n) :: be n v

/-- The number a big-endian octet string stands for. -/
def unbe (bs : Bytes) : Nat := bs.foldl (fun acc b => acc * 256 + b.toNat) 0

/-- `f` writes exactly the octets `w` at the start of any buffer that is large enough, reports their
count, and leaves every other byte of the buffer as it was. -/
def Writes (f : Enc) (w : Bytes) : Prop :=
  ∀ buf : Bytes, w.length ≤ buf.length → f buf = .ok (w ++ buf.drop w.length, w.length)

end Zbgp.Spec

namespace Zbgp.Spec

open Zbgp

/-- `dec` reads the octets `w` as `x`, whatever follows them, and reports their count. -/
def Reads {α : Type} (dec : Bytes → Res (α × Nat)) (w : Bytes) (x : α) : Prop :=
  ∀ rest : Bytes, dec (w ++ rest) = .ok (x, w.length)

/-- A successful run of `dec` reports no more bytes than there are, and its result depends on those bytes
only. -/
def Local {α : Type} (dec : Bytes → Res (α × Nat)) : Prop :=
  ∀ b x n, dec b = .ok (x, n) → n ≤ b.length ∧ ∀ rest, dec (b.take n ++ rest) = .ok (x, n)

end Zbgp.Spec

namespace Zbgp.Spec

open Zbgp

/-- `b'` is `b` with nothing but its first `n` bytes changed: same length, same bytes from `n` on. -/
def SameBehind (n : Nat) (b b' : Bytes) : Prop := b'.length = b.length ∧ b'.drop n = b.drop n

/-- Whenever the encoder succeeds, on any buffer, the number of bytes it reports lies inside the buffer, the buffer
keeps its length and every byte behind the reported ones is as it was. -/
def Frame (f : Enc) : Prop :=
  ∀ buf buf' n, f buf = .ok (buf', n) → n ≤ buf.length ∧ SameBehind n buf buf'

end Zbgp.Spec
