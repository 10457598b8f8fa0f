import Verif.Model.Ip
import Verif.Spec.Wire

/-!
# NLRI wire formats and prefix sets

The wire formats of RFC 4271 4.3, RFC 8277, RFC 4364 and RFC 7911, and the set of addresses a prefix stands
for.  Only the data types of the model are used, none of its functions.
-/

namespace Zbgp.Spec

open Zbgp

/-- The number of octets that hold `plen` bits. -/
def octets (plen : Nat) : Nat := (plen + 7) / 8

/-- The first octets, as many as hold `plen` bits, of an address of `n` octets. -/
def prefixBody (n addr plen : Nat) : Bytes := (be n addr).take (octets plen)

/-- The address with the octets behind the first `k` of `n` cleared. -/
def keepOctets (n k addr : Nat) : Nat := addr / 256 ^ (n - k) * 256 ^ (n - k)

/-- An NLRI kind whose items are a length in bits and a body. -/
class NlriKind (T : Type) where
  /-- the value of the length octet -/
  bits : T → Nat
  /-- the octets behind the length octet -/
  body : T → Bytes
  /-- the item can be put on the wire and recovered -/
  WF : T → Prop
  /-- what a receiver gets: octets that are not sent are zero -/
  received : T → T

instance : NlriKind BgpAddrV4 where
  bits a := a.prefixlen.toNat
  body a := prefixBody 4 a.addr.toNat a.prefixlen.toNat
  WF a := a.prefixlen.toNat ≤ 32
  received a := { a with addr := BitVec.ofNat 32 (keepOctets 4 (octets a.prefixlen.toNat) a.addr.toNat) }

instance : NlriKind BgpAddrV6 where
  bits a := a.prefixlen.toNat
  body a := prefixBody 16 a.addr.toNat a.prefixlen.toNat
  WF a := a.prefixlen.toNat ≤ 128
  received a := { a with addr := BitVec.ofNat 128 (keepOctets 16 (octets a.prefixlen.toNat) a.addr.toNat) }

/-- RFC 8277 2.2-2.3: the label stack, three octets per label (20 bits of label, 3 bits zero, one bit that marks the
last entry). -/
def labelsBody : List U32 → Bytes
  | [] => []
  | [l] => be 3 (l.toNat * 16 + 1)
  | l :: ls => be 3 (l.toNat * 16) ++ labelsBody ls

/-- Label values at which the library takes the stack as ended: 0, 2, 3 (reserved) and 0x80000 (withdrawn). -/
def stackEnding : List Nat := [0, 2, 3, 0x80000]

/-- A non-empty stack of 20-bit labels, none but the last of which ends a stack by its value. -/
def LabelStackWF (ls : List U32) : Prop :=
  ls ≠ [] ∧ (∀ l ∈ ls, l.toNat < 2 ^ 20) ∧ ∀ l ∈ ls.dropLast, l.toNat ∉ stackEnding

/-- A label field in front of a prefix of `bits` bits that can be recovered: such a stack; or no label, if the prefix has no
bits either. -/
def LabelFieldWF (ls : List U32) (bits : Nat) : Prop := LabelStackWF ls ∨ (ls = [] ∧ bits = 0)

/-- Among the whole labels in the first `bits` bits of `body` there is one with the bottom-of-stack bit. -/
def StackEnds (bits : Nat) (body : Bytes) : Prop :=
  ∃ j b, 24 * (j + 1) ≤ bits ∧ body[3 * j + 2]? = some b ∧ b.toNat % 2 = 1

/-- A route distinguisher on the wire. -/
def rdBody (r : BgpRD) : Bytes := be 4 r.rdh.toNat ++ be 4 r.rdl.toNat

instance {T : Type} [NlriKind T] : NlriKind (Labeled T) where
  bits x := 24 * x.labels.labels.length + NlriKind.bits x.pfx
  body x := labelsBody x.labels.labels ++ NlriKind.body x.pfx
  WF x := LabelFieldWF x.labels.labels (NlriKind.bits x.pfx) ∧ NlriKind.WF x.pfx ∧
    24 * x.labels.labels.length + NlriKind.bits x.pfx < 256
  received x := { x with pfx := NlriKind.received x.pfx }

instance {T : Type} [NlriKind T] : NlriKind (WithRd T) where
  bits x := 64 + NlriKind.bits x.pfx
  body x := rdBody x.rd ++ NlriKind.body x.pfx
  WF x := NlriKind.WF x.pfx ∧ 64 + NlriKind.bits x.pfx < 256
  received x := { x with pfx := NlriKind.received x.pfx }

/-- One NLRI item on the wire. -/
def nlriWire {T : Type} [NlriKind T] (x : T) : Bytes :=
  BitVec.ofNat 8 (NlriKind.bits x) :: NlriKind.body x

/-- RFC 7911: an NLRI item with a path identifier. -/
def pathIdWire {T : Type} [NlriKind T] (x : WithPathId T) : Bytes :=
  be 4 x.pathid.toNat ++ nlriWire x.nlri

/-- The address `ip` of `w` bits is covered by the prefix `addr/plen`: the first `plen` bits agree. -/
def Covers (w addr plen ip : Nat) : Prop := ip / 2 ^ (w - plen) = addr / 2 ^ (w - plen)

instance (w addr plen ip : Nat) : Decidable (Covers w addr plen ip) :=
  inferInstanceAs (Decidable (_ = _))

/-- Every address covered by `b/pb` is covered by `a/pa`. -/
def Included (w a pa b pb : Nat) : Prop :=
  ∀ ip, ip < 2 ^ w → Covers w b pb ip → Covers w a pa ip

/-- The host bits of the prefix are zero. -/
def NetworkForm (w addr plen : Nat) : Prop := addr % 2 ^ (w - plen) = 0

instance (w addr plen : Nat) : Decidable (NetworkForm w addr plen) :=
  inferInstanceAs (Decidable (_ = _))

end Zbgp.Spec
