import Verif.Model.Session

/-!
# Model of the generic NLRI machinery of `src/afi/mod.rs`: item loops, route distinguishers, MPLS labels,
`Labeled`, `WithRd`, `WithPathId`
-/

namespace Zbgp

/-- `src/afi/mod.rs:37-41` trait `BgpItem` (NLRI with a length in bits). `setBits` returns the new buffer and the
pair (bits, bytes) of the Rust function. `prefixlen`, used for display only, is left out. -/
class BgpItem (T : Type) where
  extractBits : U8 → Bytes → Res (T × Nat)
  setBits : T → Bytes → Res (Bytes × (U8 × Nat))

/-- `src/lib.rs:126-131` trait `BgpAddrItem`. -/
class BgpAddrItem (T : Type) where
  decodeFrom : BgpTransportMode → Bytes → Res (T × Nat)
  encodeTo : T → BgpTransportMode → Enc

/-- `src/afi/mod.rs:43-48` trait `BgpItemLong`. -/
class BgpItemLong (T : Type) where
  extractFrom : Nat → Bytes → Res T
  packTo : T → Enc

/-- The loop `while curpos + lim < buf.len() { let r = dec(&buf[curpos..])?; v.push(r.0); curpos += r.1; }`.
The argument is `buf[curpos..]`; the result is the items and the number of bytes passed. -/
def decLoop {α : Type} (lim : Nat) (dec : Bytes → Res (α × Nat)) : Nat → Bytes → Res (List α × Nat)
  | 0, _ => .hang
  | fuel + 1, b =>
    if lim < b.length then do
      let (x, n) ← dec b
      let (xs, m) ← decLoop lim dec fuel (b.drop n)
      .ok (x :: xs, n + m)
    else .ok ([], 0)

/-- The whole loop over `buf`, starting at position 0. Every round that advances consumes a byte, so a run that
needs more rounds than there are bytes is endless. -/
def decList {α : Type} (lim : Nat) (dec : Bytes → Res (α × Nat)) (buf : Bytes) : Res (List α × Nat) :=
  decLoop lim dec (buf.length + 1) buf

/-- The loop `for i in v { curpos += enc(i, &mut buf[curpos..])?; }`. -/
def encLoop {α : Type} (enc : α → Enc) : List α → Bytes → Nat → Res (Bytes × Nat)
  | [], b, curpos => .ok (b, curpos)
  | x :: xs, b, curpos => do
    let (b, n) ← onFrom b curpos (enc x)
    encLoop enc xs b (curpos + n)

section items

variable {T : Type}

/-- `src/afi/mod.rs:196-200` `decode_bgpitem_from`. -/
def decodeItem [BgpItem T] (buf : Bytes) : Res (T × Nat) := do
  let bits ← idx buf 0
  let (x, n) ← BgpItem.extractBits bits (← rfrom buf 1)
  .ok (x, n + 1)

/-- `src/afi/mod.rs:201-210` `decode_bgpitems_from`. -/
def decodeItems [BgpItem T] (buf : Bytes) : Res (List T × Nat) :=
  decList 0 decodeItem buf

/-- The body of the loop of `encode_bgpitems_to`, `src/afi/mod.rs:214-216`, on `buf[curpos..]`. -/
def encodeItem [BgpItem T] (x : T) (buf : Bytes) : Res (Bytes × Nat) := do
  let (buf, r) ← onFrom buf 1 (BgpItem.setBits x)
  let buf ← setIdx buf 0 r.1
  .ok (buf, r.2 + 1)

/-- `src/afi/mod.rs:211-219` `encode_bgpitems_to`. -/
def encodeItems [BgpItem T] (v : List T) (buf : Bytes) : Res (Bytes × Nat) :=
  encLoop encodeItem v buf 0

/-- `src/afi/mod.rs:220-232` `decode_bgpaddritems_from`. -/
def decodeAddrItems [BgpAddrItem T] (mode : BgpTransportMode) (buf : Bytes) : Res (List T × Nat) :=
  decList 0 (BgpAddrItem.decodeFrom mode) buf

/-- `src/afi/mod.rs:233-243` `encode_bgpaddritems_to`. -/
def encodeAddrItems [BgpAddrItem T] (v : List T) (mode : BgpTransportMode) (buf : Bytes) :
    Res (Bytes × Nat) :=
  encLoop (fun x => BgpAddrItem.encodeTo x mode) v buf 0

/-- The body of the loop of `decode_long_bgpitems_from`, `src/afi/mod.rs:250-255`, on `buf[curpos..]`. -/
def decodeLongItem [BgpItemLong T] (buf : Bytes) : Res (T × Nat) := do
  let itemlen := (← getn16 (← rslice buf 0 2)).toNat
  let x ← BgpItemLong.extractFrom itemlen (← rslice buf 2 (itemlen + 2))
  .ok (x, itemlen + 2)

/-- `src/afi/mod.rs:244-258` `decode_long_bgpitems_from`. -/
def decodeLongItems [BgpItemLong T] (buf : Bytes) : Res (List T × Nat) :=
  decList 0 decodeLongItem buf

/-- The body of the loop of `encode_long_bgpitems_to`, `src/afi/mod.rs:265-267`, on `buf[curpos..]`. The
position is advanced by the size of the packed item only, as in the code. -/
def encodeLongItem [BgpItemLong T] (x : T) (buf : Bytes) : Res (Bytes × Nat) := do
  let (buf, sz) ← onFrom buf 2 (BgpItemLong.packTo x)
  let buf ← modRange buf 0 2 (setn16 (BitVec.ofNat 16 sz))
  .ok (buf, sz)

/-- `src/afi/mod.rs:259-270` `encode_long_bgpitems_to`. -/
def encodeLongItems [BgpItemLong T] (v : List T) (buf : Bytes) : Res (Bytes × Nat) :=
  encLoop encodeLongItem v buf 0

/-- `src/afi/mod.rs:649-653` `WithPathId`. -/
structure WithPathId (T : Type) where
  pathid : U32
  nlri : T
deriving DecidableEq, Repr

/-- The body of the loop of `decode_pathid_bgpitems_from`, `src/afi/mod.rs:277-281`, on `buf[curpos..]`. -/
def decodePathIdItem [BgpItem T] (b : Bytes) : Res (WithPathId T × Nat) := do
  let pathid ← getn32 b
  let (x, n) ← decodeItem (← rfrom b 4)
  .ok (⟨pathid, x⟩, 4 + n)

/-- `src/afi/mod.rs:271-284` `decode_pathid_bgpitems_from`: the loop runs while more than four bytes are left. -/
def decodePathIdItems [BgpItem T] (buf : Bytes) : Res (List (WithPathId T) × Nat) :=
  decList 4 decodePathIdItem buf

/-- The body of the loop of `encode_pathid_bgpitems_to`, `src/afi/mod.rs:291-295`, on `buf[curpos..]`. -/
def encodePathIdItem [BgpItem T] (x : WithPathId T) (buf : Bytes) : Res (Bytes × Nat) := do
  let buf ← setn32 x.pathid buf
  let (buf, r) ← onFrom buf 5 (BgpItem.setBits x.nlri)
  let buf ← setIdx buf 4 r.1
  .ok (buf, 4 + (r.2 + 1))

/-- `src/afi/mod.rs:285-298` `encode_pathid_bgpitems_to`. -/
def encodePathIdItems [BgpItem T] (v : List (WithPathId T)) (buf : Bytes) : Res (Bytes × Nat) :=
  encLoop encodePathIdItem v buf 0

end items

/-! ## Route distinguishers -/

/-- `src/afi/mod.rs:303-308`. -/
structure BgpRD where
  rdh : U32
  rdl : U32
deriving DecidableEq, Repr

namespace BgpRD

/-- `src/afi/mod.rs:315-317` `is_zero`. -/
def isZero (r : BgpRD) : Bool := r.rdh == 0 && r.rdl == 0

/-- `src/afi/mod.rs:319-331` `decode_rd_from`. -/
def decodeFrom (buf : Bytes) : Res (BgpRD × Nat) :=
  if buf.length ≥ 8 then do
    let rdh ← getn32 (← rslice buf 0 4)
    let rdl ← getn32 (← rslice buf 4 8)
    .ok (⟨rdh, rdl⟩, 8)
  else .err .static

/-- `src/afi/mod.rs:333-337` `encode_rd_to`. -/
def encodeTo (r : BgpRD) (buf : Bytes) : Res (Bytes × Nat) := do
  let buf ← setn32 r.rdh buf
  let buf ← modRange buf 4 8 (setn32 r.rdl)
  .ok (buf, 8)

end BgpRD

/-- `src/afi/mod.rs:357-364`. -/
instance : BgpAddrItem BgpRD where
  decodeFrom _ buf := BgpRD.decodeFrom buf
  encodeTo r _ buf := r.encodeTo buf

/-! ## MPLS labels -/

/-- `src/afi/mod.rs:401-403`. -/
structure MplsLabels where
  labels : List U32
deriving DecidableEq, Repr

namespace MplsLabels

/-- `src/afi/mod.rs:461-463`: the label value of three octets. -/
def labelVal (b0 b1 b2 : U8) : U32 :=
  (b0.setWidth 32 <<< 12) ||| (b1.setWidth 32 <<< 4) ||| (b2.setWidth 32 >>> 4)

/-- The loop of `extract_bits_from`, `src/afi/mod.rs:460-478`; the argument is `buf[curpos..]`. -/
def extractLoop : Nat → U8 → Bytes → Res (List U32 × Nat)
  | 0, _, _ => .hang
  | fuel + 1, leftbits, b =>
    if leftbits.toNat > 0 then do
      let b0 ← idx b 0
      let b1 ← idx b 1
      let b2 ← idx b 2
      let labelval := labelVal b0 b1 b2
      let leftbits ← subC leftbits 24
      if labelval = 524288 ∨ labelval = 0 ∨ labelval = 2 ∨ labelval = 3 then .ok ([labelval], 3)
      else if b2 &&& 1 != 0 then .ok ([labelval], 3)
      else do
        let (ls, n) ← extractLoop fuel leftbits (b.drop 3)
        .ok (labelval :: ls, 3 + n)
    else .ok ([], 0)

/-- `src/afi/mod.rs:456-480` `extract_bits_from`. -/
def extractBits (bits : U8) (buf : Bytes) : Res (MplsLabels × Nat) := do
  let (ls, n) ← extractLoop (bits.toNat + 1) bits buf
  .ok (⟨ls⟩, n)

/-- The loop of `set_bits_to`, `src/afi/mod.rs:486-491`. -/
def setLoop : List U32 → Bytes → Nat → Res (Bytes × Nat)
  | [], buf, curpos => .ok (buf, curpos)
  | l :: ls, buf, curpos => do
    let buf ← setIdx buf curpos ((l >>> 12).setWidth 8)
    let buf ← setIdx buf (curpos + 1) (((l >>> 4) &&& 0xff).setWidth 8)
    let buf ← setIdx buf (curpos + 2) (((l <<< 4) &&& 0xff).setWidth 8)
    setLoop ls buf (curpos + 3)

/-- `src/afi/mod.rs:481-494` `set_bits_to`. -/
def setBits (m : MplsLabels) (buf : Bytes) : Res (Bytes × (U8 × Nat)) :=
  if m.labels.isEmpty then .ok (buf, (0, 0)) else do
    let (buf, curpos) ← setLoop m.labels buf 0
    let last ← subN curpos 1
    let x ← idx buf last
    let buf ← setIdx buf last (x ||| 1)
    .ok (buf, (BitVec.ofNat 8 (curpos * 8), curpos))

end MplsLabels

instance : BgpItem MplsLabels where
  extractBits := MplsLabels.extractBits
  setBits := MplsLabels.setBits

/-! ## Labeled, WithRd -/

/-- `src/afi/mod.rs:501-506`. -/
structure Labeled (T : Type) where
  pfx : T
  labels : MplsLabels
deriving DecidableEq, Repr

/-- `src/afi/mod.rs:544-564`. -/
instance {T : Type} [BgpItem T] : BgpItem (Labeled T) where
  extractBits bits buf := do
    let (l, n) ← MplsLabels.extractBits bits buf
    let left ← subC bits (BitVec.ofNat 8 (n * 8))
    let (p, m) ← BgpItem.extractBits left (← rfrom buf n)
    .ok (⟨p, l⟩, n + m)
  setBits x buf := do
    let (buf, lblp) ← MplsLabels.setBits x.labels buf
    let (buf, pfxp) ← onFrom buf lblp.2 (BgpItem.setBits x.pfx)
    let bits ← addC lblp.1 pfxp.1
    .ok (buf, (bits, lblp.2 + pfxp.2))

/-- `src/afi/mod.rs:576-579`. -/
structure WithRd (T : Type) where
  pfx : T
  rd : BgpRD
deriving DecidableEq, Repr

/-- `src/afi/mod.rs:606-629`. -/
instance {T : Type} [BgpItem T] : BgpItem (WithRd T) where
  extractBits bits buf :=
    if buf.length < 8 then .err .insufficientBufferSize else do
      let (rd, n) ← BgpRD.decodeFrom (← rslice buf 0 8)
      let left ← subC bits (BitVec.ofNat 8 (n * 8))
      let (p, m) ← BgpItem.extractBits left (← rfrom buf n)
      .ok (⟨p, rd⟩, n + m)
  setBits x buf := do
    let (buf, rdpos) ← x.rd.encodeTo buf
    let (buf, pfxp) ← onFrom buf rdpos (BgpItem.setBits x.pfx)
    let bits ← addC (BitVec.ofNat 8 (rdpos * 8)) pfxp.1
    .ok (buf, (bits, rdpos + pfxp.2))

end Zbgp
