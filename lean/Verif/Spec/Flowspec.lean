import Verif.Model.Flowspec
import Verif.Spec.Nlri

/-!
# FlowSpec wire format

RFC 8955 4.1-4.2 and RFC 8956.  Only the data types of the model are used, none of its functions.
-/

namespace Zbgp.Spec

open Zbgp

/-- An operator with a value: the bits of the operator octet other than the end-of-list bit and the length code, and
the value. -/
class FsOperator (I : Type) where
  flags : I → Nat
  value : I → Nat

/-- RFC 8955 4.2.1.1: AND 0x40, less than 0x04, greater than 0x02, equal 0x01. -/
instance : FsOperator FSOperValItem where
  flags x := 64 * x.andBit.toNat + 4 * x.ltCmp.toNat + 2 * x.gtCmp.toNat + x.eqCmp.toNat
  value x := x.value.toNat

/-- RFC 8955 4.2.1.2: AND 0x40, NOT 0x02, match 0x01. -/
instance : FsOperator FSOperMaskItem where
  flags x := 64 * x.andBit.toNat + 2 * x.bitNot.toNat + x.bitMatch.toNat
  value x := x.value.toNat

/-- The length code: the value takes `2 ^ code` octets, the fewest of 1, 2, 4 that hold it. -/
def fsLenCode (v : Nat) : Nat := if v < 2 ^ 8 then 0 else if v < 2 ^ 16 then 1 else 2

section ops
variable {I : Type} [FsOperator I]

/-- The operator octet: end-of-list bit 0x80, flags, length code at 0x30. -/
def fsOpOctet (last : Bool) (x : I) : U8 :=
  BitVec.ofNat 8 (128 * last.toNat + 16 * fsLenCode (FsOperator.value x) + FsOperator.flags x)

/-- An operator and its value. -/
def fsOpWire (last : Bool) (x : I) : Bytes :=
  fsOpOctet last x :: be (2 ^ fsLenCode (FsOperator.value x)) (FsOperator.value x)

/-- A list of operators; the last one, and only the last one, carries the end-of-list bit. -/
def fsOpsWire : List I → Bytes
  | [] => []
  | [x] => fsOpWire true x
  | x :: y :: r => fsOpWire false x ++ fsOpsWire (y :: r)

end ops

/-- The prefix of a destination or source component. -/
class FsPrefix (T : Type) where
  body : T → Bytes
  WF : T → Prop
  received : T → T

/-- RFC 8955 4.2.2.1: length in bits, octets. -/
instance : FsPrefix BgpAddrV4 where
  body x := x.prefixlen :: prefixBody 4 x.addr.toNat x.prefixlen.toNat
  WF x := x.prefixlen.toNat ≤ 32
  received x := NlriKind.received x

/-- RFC 8956 3.1: length in bits, offset, octets. -/
instance : FsPrefix FS6 where
  body x := x.ipv6.prefixlen :: x.offset :: prefixBody 16 x.ipv6.addr.toNat x.ipv6.prefixlen.toNat
  WF x := x.ipv6.prefixlen.toNat ≤ 128
  received x := { x with ipv6 := NlriKind.received x.ipv6 }

/-- The library writes two zero octets in place of the length, RD and octets, and can not read them. -/
instance : FsPrefix FSV4U where
  body x := [0, 0] ++ rdBody x.pfx.rd ++ prefixBody 4 x.pfx.pfx.addr.toNat x.pfx.pfx.prefixlen.toNat
  WF _ := False
  received x := x

/-- The kinds of addresses in FlowSpec NLRI with a wire format here: IPv4 and IPv6. -/
inductive FsPrefixKind : (T : Type) → [FSItem T] → [FsPrefix T] → Prop
  | v4 : FsPrefixKind BgpAddrV4
  | v6 : FsPrefixKind FS6

section component
variable {T : Type} [FsPrefix T]

/-- The component type and what follows it. -/
def fsComponent : BgpFlowSpec T → Bytes
  | .prefixDst a => 1 :: FsPrefix.body a
  | .prefixSrc a => 2 :: FsPrefix.body a
  | .proto v => 3 :: fsOpsWire v.items
  | .portAny v => 4 :: fsOpsWire v.items
  | .portDst v => 5 :: fsOpsWire v.items
  | .portSrc v => 6 :: fsOpsWire v.items
  | .icmpType v => 7 :: fsOpsWire v.items
  | .icmpCode v => 8 :: fsOpsWire v.items
  | .tcpFlags v => 9 :: fsOpsWire v.items
  | .packetLength v => 10 :: fsOpsWire v.items
  | .dscp v => 11 :: fsOpsWire v.items
  | .fragment v => 12 :: fsOpsWire v.items
  | .flowLabel v => 13 :: fsOpsWire v.items

/-- RFC 8955 4.1: lengths below 240 take one octet, longer ones two with the upper four bits set. -/
def fsLen (n : Nat) : Bytes := if n < 240 then [BitVec.ofNat 8 n] else be 2 (0xf000 + n)

/-- A FlowSpec NLRI with its correct length. -/
def fsWire (x : BgpFlowSpec T) : Bytes := fsLen (fsComponent x).length ++ fsComponent x

/-- The value lists of numeric components whose length the library announces correctly: exactly one value is below
256. -/
def FsValsOk (v : FSOperVec FSOperValItem) : Prop :=
  (v.items.filter (fun i => i.value.toNat < 2 ^ 8)).length = 1

/-- The same for bit mask components: one value is below 65536, all others are 2 ^ 24 or more. -/
def FsMasksOk (v : FSOperVec FSOperMaskItem) : Prop :=
  (v.items.filter (fun i => i.value.toNat < 2 ^ 16)).length = 1 ∧
    ∀ i ∈ v.items, i.value.toNat < 2 ^ 16 ∨ 2 ^ 24 ≤ i.value.toNat

/-- An operator component whose length the library announces correctly. -/
def FsOpsOk : BgpFlowSpec T → Prop
  | .prefixDst _ => False
  | .prefixSrc _ => False
  | .tcpFlags v => FsMasksOk v
  | .fragment v => FsMasksOk v
  | .proto v => FsValsOk v
  | .portAny v => FsValsOk v
  | .portDst v => FsValsOk v
  | .portSrc v => FsValsOk v
  | .icmpType v => FsValsOk v
  | .icmpCode v => FsValsOk v
  | .packetLength v => FsValsOk v
  | .dscp v => FsValsOk v
  | .flowLabel v => FsValsOk v

/-- A prefix component. -/
def FsPrefixOk : BgpFlowSpec T → Prop
  | .prefixDst a => FsPrefix.WF a
  | .prefixSrc a => FsPrefix.WF a
  | _ => False

/-- What a receiver gets: octets of a prefix that are not sent are zero. -/
def fsReceived : BgpFlowSpec T → BgpFlowSpec T
  | .prefixDst a => .prefixDst (FsPrefix.received a)
  | .prefixSrc a => .prefixSrc (FsPrefix.received a)
  | x => x

/-- The lists of FlowSpec NLRI that can be recovered: the length of each is announced correctly, and a prefix component,
after which the library reads on at a wrong place, is at most the last one. -/
def FsListOk (l : List (BgpFlowSpec T)) : Prop :=
  (∀ x ∈ l, (FsOpsOk x ∨ FsPrefixOk x) ∧ (fsComponent x).length ≤ 4094) ∧ ∀ x ∈ l.dropLast, FsOpsOk x

/-- The last NLRI of the list is a prefix component. -/
def fsEndsInPrefix (l : List (BgpFlowSpec T)) : Bool :=
  match l.getLast? with
  | some (.prefixDst _) => true
  | some (.prefixSrc _) => true
  | _ => false

end component

end Zbgp.Spec
