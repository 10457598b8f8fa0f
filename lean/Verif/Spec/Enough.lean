import Verif.Model.Bmp

/-!
# Buffers that are large enough
-/

namespace Zbgp.Spec

open Zbgp

/-- From some size of the buffer on, the outcome of the encoder is the same on all buffers: it succeeds and reports the same
number of octets, or it returns the same error, which does not say that the buffer is too small, or it panics. -/
def Settles (f : Enc) : Prop :=
  ∃ enough : Nat,
    (∃ n, ∀ buf : Bytes, enough ≤ buf.length → ∃ buf', f buf = .ok (buf', n)) ∨
    (∃ e, e ≠ .insufficientBufferSize ∧ ∀ buf : Bytes, enough ≤ buf.length → f buf = .err e) ∨
    (∀ buf : Bytes, enough ≤ buf.length → f buf = .panic)

/-- However large the buffer, the encoder says that it is too small. -/
def NeverEnough (f : Enc) : Prop := ∀ buf, f buf = .err .insufficientBufferSize

/-- What the library counts for a numeric operator (it counts one octet for small values, which take two). -/
def countedVal (x : FSOperValItem) : Nat := if x.value.toNat < 2 ^ 8 then 1 else if x.value.toNat < 2 ^ 16 then 3 else 5

/-- What the library counts for a bit mask operator. -/
def countedMask (x : FSOperMaskItem) : Nat :=
  if x.value.toNat < 2 ^ 8 then 1 else if x.value.toNat < 2 ^ 16 then 2 else if x.value.toNat < 2 ^ 24 then 3 else 5

/-- The operators of a component are counted as more than the 4094 octets that the library writes. -/
def TooLong {T : Type} : BgpFlowSpec T → Prop
  | .prefixDst _ => False
  | .prefixSrc _ => False
  | .proto v => 4094 < 2 + (v.items.map countedVal).sum
  | .portAny v => 4094 < 2 + (v.items.map countedVal).sum
  | .portDst v => 4094 < 2 + (v.items.map countedVal).sum
  | .portSrc v => 4094 < 2 + (v.items.map countedVal).sum
  | .icmpType v => 4094 < 2 + (v.items.map countedVal).sum
  | .icmpCode v => 4094 < 2 + (v.items.map countedVal).sum
  | .tcpFlags v => 4094 < 2 + (v.items.map countedMask).sum
  | .packetLength v => 4094 < 2 + (v.items.map countedVal).sum
  | .dscp v => 4094 < 2 + (v.items.map countedVal).sum
  | .fragment v => 4094 < 2 + (v.items.map countedMask).sum
  | .flowLabel v => 4094 < 2 + (v.items.map countedVal).sum

/-- No FlowSpec component among the routes is too long. -/
def AddrsFit : BgpAddrs → Prop
  | .FS4U v => ∀ x ∈ v, ¬ TooLong x
  | .FS6U v => ∀ x ∈ v, ¬ TooLong x
  | .FSV4U v => ∀ x ∈ v, ¬ TooLong x
  | _ => True

/-- No FlowSpec component in the attribute is too long. -/
def AttrFits : BgpAttrItem → Prop
  | .MPUpdates m => AddrsFit m.addrs
  | .MPWithdraws m => AddrsFit m.addrs
  | _ => True

/-- No FlowSpec component in the message is too long. -/
def UpdateFits (m : BgpUpdateMessage) : Prop := AddrsFit m.withdraws ∧ AddrsFit m.updates ∧ ∀ a ∈ m.attrs, AttrFits a

end Zbgp.Spec
