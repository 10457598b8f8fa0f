import Verif.Spec.Buffers

/-!
# What the buffer held before
-/

namespace Zbgp.Spec

open Zbgp

/-- Two runs of an encoder of which a caller sees the same: both succeed, report the same number of octets, and the octets
reported are the same; or both fail in the same way. -/
def SameOutcome : Res (Bytes × Nat) → Res (Bytes × Nat) → Prop
  | .ok (r, n), .ok (r', n') => n = n' ∧ r.take n = r'.take n
  | .err e, .err e' => e = e'
  | .panic, .panic => True
  | .hang, .hang => True
  | _, _ => False

/-- What the encoder produces does not depend on what the buffer held. -/
def IgnoresOld (f : Enc) : Prop := ∀ a b : Bytes, a.length = b.length → SameOutcome (f a) (f b)

/-- The octet at `k` is inside the buffer and among the `n` octets reported, and whatever octet the buffer had held there,
the encoder succeeds, reports `n` octets, and that octet is one of them. -/
def LeaksAt (k : Nat) (f : Enc) (buf : Bytes) (n : Nat) : Prop :=
  k < n ∧ k < buf.length ∧ ∀ old : U8, ∃ r, f (buf.set k old) = .ok (r, n) ∧ r[k]? = some old

/-- How the programs of this library send: the message is encoded behind 19 octets of the buffer, and `send_message_buf`
puts the header into them. The octets handed to the socket. -/
def sent (f : Enc) (ty : BgpMessageType) (buf : Bytes) : Res Bytes := do
  let (buf, n) ← onFrom buf 19 f
  let (_, out) ← BgpSessionParams.sendMessageBuf buf ty n
  .ok out

/-- The same with `prepare_message_buf`, which leaves the sending to the caller. -/
def prepared (f : Enc) (ty : BgpMessageType) : Enc := fun buf => do
  let (buf, n) ← onFrom buf 19 f
  BgpSessionParams.prepareMessageBuf buf ty n

/-- no AGGREGATOR -/
def NoAggregator (l : List BgpAttrItem) : Prop := ∀ x ∈ l, ∀ v, x ≠ .AggregatorAS v

/-- no FQDN capability -/
def NoFqdn (l : List BgpCapability) : Prop := ∀ c ∈ l, ∀ h d, c ≠ .CapFQDN h d

/-- the octets of the parameters of an OPEN message with these capabilities -/
def paramsSize (l : List BgpCapability) : Nat := (l.map fun c => 2 + c.bytesLen).sum

/-- no AGGREGATOR and no FQDN capability in what a BMP message carries -/
def BmpFresh : BmpMessage → Prop
  | .RouteMonitoring m => NoAggregator m.update.attrs
  | .PeerUpNotification m => NoFqdn m.msg1.caps ∧ NoFqdn m.msg2.caps
  | _ => True

end Zbgp.Spec
