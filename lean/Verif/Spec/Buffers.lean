import Verif.Spec.Bmp

/-!
# What encoders do with the buffer they are given
-/

namespace Zbgp.Spec

open Zbgp

/-- Whenever the encoder succeeds, on any buffer, the buffer keeps its length. -/
def SizeKept (f : Enc) : Prop := ∀ buf buf' n, f buf = .ok (buf', n) → buf'.length = buf.length

/-- On buffers of at most 65535 octets: whenever the encoder succeeds, the number of octets it reports lies inside the
buffer, the buffer keeps its length and every octet behind the reported ones is as it was; or, if `clears`, is zero. -/
def FrameBmp (clears : Bool) (f : Enc) : Prop :=
  ∀ buf buf' n, buf.length ≤ 65535 → f buf = .ok (buf', n) →
    n ≤ buf.length ∧ buf'.length = buf.length ∧ buf'.drop n = behind clears (buf.drop n)

/-- What the encoder does in a buffer, it does in every longer one: same octets, same number reported, nothing else
changed. -/
def SizeIndependent (f : Enc) : Prop :=
  ∀ buf buf' n ext, f buf = .ok (buf', n) → f (buf ++ ext) = .ok (buf' ++ ext, n)

/-- The encoder panics on no buffer. -/
def NeverPanics (f : Enc) : Prop := ∀ buf, (f buf).Returns

/-- The encoder writes `w` into every buffer with room for it and returns an error on every other buffer. -/
def ErrsWhenShort (f : Enc) (w : Bytes) : Prop := Writes f w ∧ ∀ buf, buf.length < w.length → (f buf).IsErr

/-- The encoder writes `w` into every buffer with room for it and panics on every other buffer. -/
def PanicsWhenShort (f : Enc) (w : Bytes) : Prop := Writes f w ∧ ∀ buf, buf.length < w.length → f buf = .panic

/-- The attributes whose value encoders check the size of the buffer. -/
def ChecksSize : BgpAttrItem → Prop
  | .MPUpdates _ => False
  | .MPWithdraws _ => False
  | .Unknown _ => False
  | _ => True

/-- A buffer with `room` octets for the parameters of an OPEN message ends where one of its capability parameters begins, or
one octet behind that. -/
def CapBoundary (caps : List BgpCapability) (room : Nat) : Prop :=
  ∃ k, k < caps.length ∧ (capsParams (caps.take k)).length ≤ room ∧ room ≤ (capsParams (caps.take k)).length + 1

end Zbgp.Spec
