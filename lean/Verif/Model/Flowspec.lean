import Verif.Model.Ip

/-!
# Model of `src/afi/flowspec.rs`
-/

namespace Zbgp

/-- `src/afi/flowspec.rs:15-20` trait `FSItem`. `prefixlen`, used for display only, is left out. -/
class FSItem (T : Type) where
  decodeFs : Bytes → Res (T × Nat)
  encodeFs : T → Bytes → Res Bytes
  storeSize : T → Nat

/-- `src/afi/flowspec.rs:21-37`. -/
instance : FSItem BgpAddrV4 where
  decodeFs buf := do
    let l ← idx buf 0
    let r ← BgpAddrV4.fromBits l (← rfrom buf 1)
    .ok (r.1, r.2 + 1)
  encodeFs x buf := do
    let buf ← setIdx buf 0 x.prefixlen
    let (buf, _) ← onFrom buf 1 x.toBits
    .ok buf
  storeSize x := 1 + (x.prefixlen.toNat + 7) / 8

/-- `src/afi/flowspec.rs:43-46`. -/
structure FS6 where
  ipv6 : BgpAddrV6
  offset : U8
deriving DecidableEq, Repr

/-- `src/afi/flowspec.rs:55-78`. -/
instance : FSItem FS6 where
  decodeFs buf := do
    let l ← idx buf 0
    let v6 ← BgpAddrV6.fromBits l (← rfrom buf 2)
    .ok (⟨v6.1, ← idx buf 1⟩, v6.2 + 2)
  encodeFs x buf := do
    let buf ← setIdx buf 0 x.ipv6.prefixlen
    let buf ← setIdx buf 1 x.offset
    let (buf, _) ← onFrom buf 2 x.ipv6.toBits
    .ok buf
  storeSize x := 2 + (x.ipv6.prefixlen.toNat + 7) / 8

/-- `src/afi/flowspec.rs:85-87`. -/
structure FSV4U where
  pfx : WithRd BgpAddrV4
deriving DecidableEq, Repr

/-- `src/afi/flowspec.rs:93-116`. -/
instance : FSItem FSV4U where
  decodeFs buf := do
    let rd ← BgpRD.decodeFrom (← rfrom buf 1)
    let l ← subC (← idx buf 0) 64
    let pf ← BgpAddrV4.fromBits l (← rfrom buf (rd.2 + 1))
    .ok (⟨⟨pf.1, rd.1⟩⟩, rd.2 + pf.2 + 1)
  encodeFs x buf := do
    let buf ← setIdx buf 0 0
    let buf ← setIdx buf 1 0
    let (buf, _) ← onFrom buf 2 (BgpItem.setBits x.pfx)
    .ok buf
  storeSize x := 10 + (x.pfx.pfx.prefixlen.toNat + 7) / 8

/-- `src/afi/flowspec.rs:118-122` trait `FSOperItem`. -/
class FSOperItem (T : Type) where
  bytesLen : T → Nat
  encodeTo : T → Enc
  decodeFrom : Bytes → Res (T × Nat)

/-- `src/afi/flowspec.rs:126-132`. -/
structure FSOperValItem where
  andBit : Bool
  ltCmp : Bool
  gtCmp : Bool
  eqCmp : Bool
  value : U32
deriving DecidableEq, Repr

/-- `if b { opbyte |= m; }`. -/
def orIf (b : Bool) (m : U8) (op : U8) : U8 := if b then op ||| m else op

/-- The value part of the operator encoders, `src/afi/flowspec.rs:182-196` and `354-368`. -/
def fsEncodeVal (op : U8) (value : U32) (buf : Bytes) : Res (Bytes × Nat) :=
  if value.toNat > 0xffff then do
    let buf ← setIdx buf 0 (op ||| (2 <<< 4))
    let buf ← modFrom buf 1 (setn32 value)
    .ok (buf, 5)
  else if value.toNat > 0xff then do
    let buf ← setIdx buf 0 (op ||| (1 <<< 4))
    let buf ← modFrom buf 1 (setn16 (value.setWidth 16))
    .ok (buf, 3)
  else do
    let buf ← setIdx buf 0 op
    let buf ← setIdx buf 1 (value.setWidth 8)
    .ok (buf, 2)

/-- The value part of the operator decoders, `src/afi/flowspec.rs:199-219` and `371-391`: operator octet, value and
length. -/
def fsDecodeVal (buf : Bytes) : Res (U8 × U32 × Nat) := do
  let op ← idx buf 0
  let sel := (op >>> 4) &&& 3
  if sel = 0 then do .ok (op, (← idx buf 1).setWidth 32, 2)
  else if sel = 1 then do .ok (op, (← getn16 (← rfrom buf 1)).setWidth 32, 3)
  else if sel = 2 then do .ok (op, ← getn32 (← rfrom buf 1), 5)
  else .err .static

/-- `src/afi/flowspec.rs:158-231`. -/
instance : FSOperItem FSOperValItem where
  bytesLen x := if x.value.toNat > 0xffff then 5 else if x.value.toNat > 0xff then 3 else 1
  encodeTo x buf :=
    fsEncodeVal (orIf x.eqCmp 1 (orIf x.gtCmp 2 (orIf x.ltCmp 4 (orIf x.andBit 64 0)))) x.value buf
  decodeFrom buf := do
    let (op, vl, lng) ← fsDecodeVal buf
    .ok (⟨op &&& 64 != 0, op &&& 4 != 0, op &&& 2 != 0, op &&& 1 != 0, vl⟩, lng)

/-- `src/afi/flowspec.rs:301-306`. -/
structure FSOperMaskItem where
  andBit : Bool
  bitNot : Bool
  bitMatch : Bool
  value : U32
deriving DecidableEq, Repr

/-- `src/afi/flowspec.rs:331-402`. -/
instance : FSOperItem FSOperMaskItem where
  bytesLen x := if x.value.toNat > 0xffffff then 5 else if x.value.toNat > 0xffff then 3
    else if x.value.toNat > 0xff then 2 else 1
  encodeTo x buf :=
    fsEncodeVal (orIf x.bitMatch 1 (orIf x.bitNot 2 (orIf x.andBit 64 0))) x.value buf
  decodeFrom buf := do
    let (op, vl, lng) ← fsDecodeVal buf
    .ok (⟨op &&& 64 != 0, op &&& 2 != 0, op &&& 1 != 0, vl⟩, lng)

/-- `src/afi/flowspec.rs:233-235`. -/
structure FSOperVec (T : Type) where
  items : List T
deriving DecidableEq, Repr

namespace FSOperVec

variable {T : Type} [FSOperItem T]

/-- `src/afi/flowspec.rs:246-252` `getbyteslen`. -/
def bytesLen (v : FSOperVec T) : Nat := v.items.foldl (fun a c => a + FSOperItem.bytesLen c) 0

/-- The loop of `encode_to`, `src/afi/flowspec.rs:259-262`: buffer, `pos` and `lpos`. -/
def encodeLoop : List T → Bytes → Nat → Nat → Res (Bytes × Nat × Nat)
  | [], b, pos, lpos => .ok (b, pos, lpos)
  | c :: cs, b, pos, _ => do
    let (b, n) ← onFrom b pos (FSOperItem.encodeTo c)
    encodeLoop cs b (pos + n) pos

/-- `src/afi/flowspec.rs:253-265` `encode_to`. -/
def encodeTo (v : FSOperVec T) (buf : Bytes) : Res (Bytes × Nat) :=
  if v.items.isEmpty then .ok (buf, 0) else do
    let (buf, pos, lpos) ← encodeLoop v.items buf 0 0
    let buf ← setIdx buf lpos ((← idx buf lpos) ||| 128)
    .ok (buf, pos)

/-- `src/afi/flowspec.rs:266-275` `decode_from`. -/
def decodeFrom (buf : Bytes) : Res (FSOperVec T × Nat) := do
  let (xs, n) ← decList 0 FSOperItem.decodeFrom buf
  .ok (⟨xs⟩, n)

end FSOperVec

/-- `src/afi/flowspec.rs:406-420`. -/
inductive BgpFlowSpec (T : Type)
  | prefixDst (a : T)
  | prefixSrc (a : T)
  | proto (v : FSOperVec FSOperValItem)
  | portAny (v : FSOperVec FSOperValItem)
  | portDst (v : FSOperVec FSOperValItem)
  | portSrc (v : FSOperVec FSOperValItem)
  | icmpType (v : FSOperVec FSOperValItem)
  | icmpCode (v : FSOperVec FSOperValItem)
  | tcpFlags (v : FSOperVec FSOperMaskItem)
  | packetLength (v : FSOperVec FSOperValItem)
  | dscp (v : FSOperVec FSOperValItem)
  | fragment (v : FSOperVec FSOperMaskItem)
  | flowLabel (v : FSOperVec FSOperValItem)
deriving DecidableEq, Repr

namespace BgpFlowSpec

variable {T : Type} [FSItem T]

/-- `src/afi/flowspec.rs:494-508`: the announced length. -/
def nlen : BgpFlowSpec T → Nat
  | .prefixDst a => 1 + FSItem.storeSize a
  | .prefixSrc a => 1 + FSItem.storeSize a
  | .proto v => 2 + v.bytesLen
  | .portAny v => 2 + v.bytesLen
  | .portDst v => 2 + v.bytesLen
  | .portSrc v => 2 + v.bytesLen
  | .icmpType v => 2 + v.bytesLen
  | .icmpCode v => 2 + v.bytesLen
  | .tcpFlags v => 2 + v.bytesLen
  | .packetLength v => 2 + v.bytesLen
  | .dscp v => 2 + v.bytesLen
  | .fragment v => 2 + v.bytesLen
  | .flowLabel v => 2 + v.bytesLen

/-- `buf[pos] = code; pos + 1 + v.encode_to(&mut buf[pos + 1..])?`, `src/afi/flowspec.rs:537-580`. -/
def putOps {I : Type} [FSOperItem I] (code : U8) (v : FSOperVec I) (buf : Bytes) (pos : Nat) :
    Res (Bytes × Nat) := do
  let buf ← setIdx buf pos code
  let (buf, n) ← onFrom buf (pos + 1) v.encodeTo
  .ok (buf, pos + 1 + n)

/-- `src/afi/flowspec.rs:527-536`. -/
def putPrefix (code : U8) (a : T) (buf : Bytes) (pos : Nat) : Res (Bytes × Nat) := do
  let buf ← setIdx buf pos code
  let buf ← modFrom buf (pos + 1) (FSItem.encodeFs a)
  .ok (buf, pos + FSItem.storeSize a + 1)

/-- `src/afi/flowspec.rs:526-581`: the component at `pos`. -/
def putBody (x : BgpFlowSpec T) (buf : Bytes) (pos : Nat) : Res (Bytes × Nat) :=
  match x with
  | .prefixDst a => putPrefix 1 a buf pos
  | .prefixSrc a => putPrefix 2 a buf pos
  | .proto v => putOps 3 v buf pos
  | .portAny v => putOps 4 v buf pos
  | .portDst v => putOps 5 v buf pos
  | .portSrc v => putOps 6 v buf pos
  | .icmpType v => putOps 7 v buf pos
  | .icmpCode v => putOps 8 v buf pos
  | .tcpFlags v => putOps 9 v buf pos
  | .packetLength v => putOps 10 v buf pos
  | .dscp v => putOps 11 v buf pos
  | .fragment v => putOps 12 v buf pos
  | .flowLabel v => putOps 13 v buf pos

/-- `src/afi/flowspec.rs:492-583` `encode_to`. -/
def encodeTo (x : BgpFlowSpec T) (buf : Bytes) : Res (Bytes × Nat) := do
  let nlen := x.nlen
  if nlen > 4094 then .err .insufficientBufferSize
  else if nlen < 240 then do
    if buf.length < nlen + 1 then .err .insufficientBufferSize else do
      let buf ← setIdx buf 0 (BitVec.ofNat 8 nlen)
      putBody x buf 1
  else do
    if buf.length < nlen + 2 then .err .insufficientBufferSize else do
      let buf ← setn16 (BitVec.ofNat 16 nlen) buf
      let buf ← setIdx buf 0 ((← idx buf 0) ||| 0xf0)
      putBody x buf 2

/-- `let r = FSOperVec::decode_from(&buf[pos + 1..nlen])?; Ok((C(r.0), r.1 + pos + 1))`,
`src/afi/flowspec.rs:445-488`. -/
def getOps {I : Type} [FSOperItem I] (c : FSOperVec I → BgpFlowSpec T) (buf : Bytes) (pos nlen : Nat) :
    Res (BgpFlowSpec T × Nat) := do
  let r ← FSOperVec.decodeFrom (← rslice buf (pos + 1) nlen)
  .ok (c r.1, r.2 + pos + 1)

/-- `let r = T::decode_from_fs(&buf[pos + 1..nlen])?; Ok((C(r.0), pos + 2 + r.1))`, `src/afi/flowspec.rs:437-444`. -/
def getPrefix (c : T → BgpFlowSpec T) (buf : Bytes) (pos nlen : Nat) : Res (BgpFlowSpec T × Nat) := do
  let r ← FSItem.decodeFs (← rslice buf (pos + 1) nlen)
  .ok (c r.1, pos + 2 + r.2)

/-- `src/afi/flowspec.rs:436-490`. -/
def getBody (buf : Bytes) (pos nlen : Nat) : Res (BgpFlowSpec T × Nat) := do
  let code ← idx buf pos
  if code = 1 then getPrefix .prefixDst buf pos nlen
  else if code = 2 then getPrefix .prefixSrc buf pos nlen
  else if code = 3 then getOps .proto buf pos nlen
  else if code = 4 then getOps .portAny buf pos nlen
  else if code = 5 then getOps .portDst buf pos nlen
  else if code = 6 then getOps .portSrc buf pos nlen
  else if code = 7 then getOps .icmpType buf pos nlen
  else if code = 8 then getOps .icmpCode buf pos nlen
  else if code = 9 then getOps .tcpFlags buf pos nlen
  else if code = 10 then getOps .packetLength buf pos nlen
  else if code = 11 then getOps .dscp buf pos nlen
  else if code = 12 then getOps .fragment buf pos nlen
  else if code = 13 then getOps .flowLabel buf pos nlen
  else .err .static

/-- `src/afi/flowspec.rs:427-491` `decode_from`. -/
def decodeFrom (buf : Bytes) : Res (BgpFlowSpec T × Nat) := do
  let b0 ← idx buf 0
  if b0 &&& 0xf0 = 0xf0 then do
    let v ← getn16 buf
    getBody buf 2 ((v &&& 0xfff).toNat + 2)
  else getBody buf 1 (b0.toNat + 1)

end BgpFlowSpec

/-- `src/afi/flowspec.rs:426-584`. -/
instance {T : Type} [FSItem T] : BgpAddrItem (BgpFlowSpec T) where
  decodeFrom _ buf := BgpFlowSpec.decodeFrom buf
  encodeTo x _ buf := x.encodeTo buf

end Zbgp
