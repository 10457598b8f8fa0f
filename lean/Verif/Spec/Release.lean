import Verif.Spec.Reads
import Verif.Model.Release

/-!
# What a build without overflow checks reads

The announced length of a prefix is one octet. Labels and a route distinguisher are taken off it; without overflow checks
the difference is taken modulo 256, and a length that does not cover them goes on as a larger one.
-/

namespace Zbgp.Spec

/-- `bits - n` as computed on octets without overflow checks. -/
def wrapSub (bits n : Nat) : Nat := (bits + 256 - n % 256) % 256

/-- Labels as read without overflow checks: as `LabelsRead`, but the entries are not held to be within the announced
bits. The reader stops at an entry that ends the stack, or when exactly no bits are left. -/
inductive WrapLabels : Nat → Bytes → List U32 → Nat → Prop
  | done (b : Bytes) : WrapLabels 0 b [] 0
  | last (bits v : Nat) (b : Bytes) (hv : v < 2 ^ 24) (hb : 0 < bits) (he : EndsStack v) :
      WrapLabels bits (be 3 v ++ b) [BitVec.ofNat 32 (v / 16)] 3
  | more (bits v : Nat) (b : Bytes) (ls : List U32) (n : Nat) (hv : v < 2 ^ 24) (hb : 0 < bits) (he : ¬ EndsStack v)
      (hr : WrapLabels (wrapSub bits 24) b ls n) :
      WrapLabels bits (be 3 v ++ b) (BitVec.ofNat 32 (v / 16) :: ls) (3 + n)

/-- The octets end where a further entry should be. -/
inductive WrapLabelsCrash : Nat → Bytes → Prop
  | short (bits : Nat) (b : Bytes) (h0 : 0 < bits) (h : b.length < 3) : WrapLabelsCrash bits b
  | more (bits v : Nat) (b : Bytes) (hv : v < 2 ^ 24) (hb : 0 < bits) (he : ¬ EndsStack v)
      (hr : WrapLabelsCrash (wrapSub bits 24) b) : WrapLabelsCrash bits (be 3 v ++ b)

/-- How prefixes are read without overflow checks. -/
class WrapReads (T : Type) where
  Read : Nat → Bytes → T → Nat → Prop
  Crash : Nat → Bytes → Prop

/-- Plain prefixes are read as with the checks, and nothing crashes. -/
instance : WrapReads BgpAddrV4 where
  Read := PrefixReads.Read
  Crash _ _ := False

instance : WrapReads BgpAddrV6 where
  Read := PrefixReads.Read
  Crash _ _ := False

/-- The MDT items hold their lengths to the bounds first: nothing changes. -/
instance : WrapReads BgpMdtV4 where
  Read := PrefixReads.Read
  Crash := PrefixReads.Crash BgpMdtV4

instance : WrapReads BgpMdtV6 where
  Read := PrefixReads.Read
  Crash := PrefixReads.Crash BgpMdtV6

/-- Labels, then the prefix with what is left of the length, modulo 256. -/
instance {T : Type} [WrapReads T] : WrapReads (Labeled T) where
  Read bits b x n := ∃ k m, WrapLabels bits b x.labels.labels k ∧
    WrapReads.Read (wrapSub bits (8 * k)) (b.drop k) x.pfx m ∧ n = k + m
  Crash bits b := WrapLabelsCrash bits b ∨
    ∃ ls k, WrapLabels bits b ls k ∧ WrapReads.Crash T (wrapSub bits (8 * k)) (b.drop k)

/-- A route distinguisher, then the prefix with what is left of the length, modulo 256. -/
instance {T : Type} [WrapReads T] : WrapReads (WithRd T) where
  Read bits b x n := ∃ t m, b = rdBody x.rd ++ t ∧ WrapReads.Read (wrapSub bits 64) t x.pfx m ∧ n = 8 + m
  Crash bits b := 8 ≤ b.length ∧ WrapReads.Crash T (wrapSub bits 64) (b.drop 8)

/-- The reading relation as one of items with a length octet (`NlriRead`, `PathIdRead`). -/
@[reducible] def wrapReads (T : Type) [WrapReads T] : PrefixReads T where
  Read := WrapReads.Read
  Crash := WrapReads.Crash T

/-- The kinds of NLRI that are prefixes with a length in bits. -/
inductive WrapKind : (T : Type) → [BgpItemIn T] → [WrapReads T] → Prop
  | v4 : WrapKind BgpAddrV4
  | v6 : WrapKind BgpAddrV6
  | mdt4 : WrapKind BgpMdtV4
  | mdt6 : WrapKind BgpMdtV6
  | labeled {T : Type} [BgpItemIn T] [WrapReads T] : WrapKind T → WrapKind (Labeled T)
  | withRd {T : Type} [BgpItemIn T] [WrapReads T] : WrapKind T → WrapKind (WithRd T)

/-- Prefixes that an encoder puts on the wire without overflow checks: only the length of the address prefix is bound, not
the number of labels. -/
class WrapWritable (T : Type) where
  Ok : T → Prop

instance : WrapWritable BgpAddrV4 := ⟨fun x => x.prefixlen.toNat ≤ 32⟩
instance : WrapWritable BgpAddrV6 := ⟨fun x => x.prefixlen.toNat ≤ 128⟩
instance {T : Type} [WrapWritable T] : WrapWritable (Labeled T) := ⟨fun x => WrapWritable.Ok x.pfx⟩
instance {T : Type} [WrapWritable T] : WrapWritable (WithRd T) := ⟨fun x => WrapWritable.Ok x.pfx⟩

/-- The unicast, labelled and VPN kinds, whose wire form is `nlriWire`. -/
inductive WrapWireKind : (T : Type) → [BgpItemIn T] → [NlriKind T] → [WrapWritable T] → Prop
  | v4 : WrapWireKind BgpAddrV4
  | v6 : WrapWireKind BgpAddrV6
  | labeled {T : Type} [BgpItemIn T] [NlriKind T] [WrapWritable T] : WrapWireKind T → WrapWireKind (Labeled T)
  | withRd {T : Type} [BgpItemIn T] [NlriKind T] [WrapWritable T] : WrapWireKind T → WrapWireKind (WithRd T)

/-- The prefix length that a host mask computed without overflow checks stands for: `w - p` is computed on octets, and a
shift takes the amount modulo the width. -/
def effectiveLen (w p : Nat) : Nat := w - (w + 256 - p) % 256 % w

end Zbgp.Spec
