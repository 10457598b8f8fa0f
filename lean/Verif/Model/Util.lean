import Verif.Spec.Wire

/-!
# Model of `src/util.rs`
-/

namespace Zbgp

/-- `std::net::Ipv4Addr`; modelled by its 32-bit value. -/
abbrev IPv4 := BitVec 32
/-- `std::net::Ipv6Addr`; modelled by its 128-bit value. -/
abbrev IPv6 := BitVec 128

/-- `std::net::IpAddr`. -/
inductive IpAddr
  | v4 (a : IPv4)
  | v6 (a : IPv6)
deriving DecidableEq, Repr

/-- `Ipv4Addr::octets` (std): the four octets in network order. -/
def ipv4Octets (a : IPv4) : Bytes := Spec.be 4 a.toNat
/-- `Ipv6Addr::octets` (std): the sixteen octets in network order. -/
def ipv6Octets (a : IPv6) : Bytes := Spec.be 16 a.toNat

/-- `src/util.rs:67-69` `ntoh16`. -/
def ntoh16 (a : U16) : U16 := (a >>> 8) ||| ((a &&& 0xff) <<< 8)

/-- `src/util.rs:70-73` `setn_u16`. -/
def setn16 (s : U16) (a : Bytes) : Res Bytes := do
  let a ← setIdx a 0 ((s >>> 8).setWidth 8)
  setIdx a 1 ((s &&& 0xff).setWidth 8)

/-- `src/util.rs:74-76` `getn_u16`. -/
def getn16 (a : Bytes) : Res U16 := do
  let b0 ← idx a 0
  let b1 ← idx a 1
  .ok ((b0.setWidth 16 <<< 8) ||| b1.setWidth 16)

/-- `src/util.rs:77-79` `getn_u32`. -/
def getn32 (a : Bytes) : Res U32 := do
  let b0 ← idx a 0
  let b1 ← idx a 1
  let b2 ← idx a 2
  let b3 ← idx a 3
  .ok ((b0.setWidth 32 <<< 24) ||| (b1.setWidth 32 <<< 16) ||| (b2.setWidth 32 <<< 8)
    ||| b3.setWidth 32)

/-- `src/util.rs:80-85` `setn_u32`. -/
def setn32 (s : U32) (a : Bytes) : Res Bytes := do
  let a ← setIdx a 0 ((s >>> 24).setWidth 8)
  let a ← setIdx a 1 (((s >>> 16) &&& 0xff).setWidth 8)
  let a ← setIdx a 2 (((s >>> 8) &&& 0xff).setWidth 8)
  setIdx a 3 ((s &&& 0xff).setWidth 8)

/-- `src/util.rs:86-88` `getn_u64`. -/
def getn64 (a : Bytes) : Res U64 := do
  let hi ← getn32 a
  let t ← rslice a 4 8
  let lo ← getn32 t
  .ok ((hi.setWidth 64 <<< 32) ||| lo.setWidth 64)

/-- `src/util.rs:89-98` `setn_u64`. -/
def setn64 (s : U64) (a : Bytes) : Res Bytes := do
  let a ← setIdx a 0 ((s >>> 56).setWidth 8)
  let a ← setIdx a 1 (((s >>> 48) &&& 0xff).setWidth 8)
  let a ← setIdx a 2 (((s >>> 40) &&& 0xff).setWidth 8)
  let a ← setIdx a 3 (((s >>> 32) &&& 0xff).setWidth 8)
  let a ← setIdx a 4 (((s >>> 24) &&& 0xff).setWidth 8)
  let a ← setIdx a 5 (((s >>> 16) &&& 0xff).setWidth 8)
  let a ← setIdx a 6 (((s >>> 8) &&& 0xff).setWidth 8)
  setIdx a 7 ((s &&& 0xff).setWidth 8)

/-- `src/util.rs:99-101` `getn_u128`. -/
def getn128 (a : Bytes) : Res U128 := do
  let hi ← getn64 a
  let t ← rslice a 8 16
  let lo ← getn64 t
  .ok ((hi.setWidth 128 <<< 64) ||| lo.setWidth 128)

/-- `src/util.rs:14-19` `decode_addrv4_from`. `Ipv4Addr::new(a,b,c,d)` is the address with these
octets in network order. -/
def decodeAddrV4 (buf : Bytes) : Res IPv4 :=
  if buf.length < 4 then .err .static else do
    let b0 ← idx buf 0
    let b1 ← idx buf 1
    let b2 ← idx buf 2
    let b3 ← idx buf 3
    .ok (BitVec.ofNat 32 (Spec.unbe [b0, b1, b2, b3]))

/-- `src/util.rs:21-27` `encode_addrv4_to`. -/
def encodeAddrV4 (addr : IPv4) (buf : Bytes) : Res (Bytes × Nat) :=
  if buf.length < 4 then .err .static else do
    let buf ← copyAt buf 0 4 (ipv4Octets addr)
    .ok (buf, 4)

/-- `src/util.rs:29-43` `decode_addrv6_from`. `Ipv6Addr::new` takes the eight 16-bit groups, most
significant first. -/
def decodeAddrV6 (buf : Bytes) : Res IPv6 :=
  if buf.length < 16 then .err .static else do
    let g0 ← getn16 (← rslice buf 0 2)
    let g1 ← getn16 (← rslice buf 2 4)
    let g2 ← getn16 (← rslice buf 4 6)
    let g3 ← getn16 (← rslice buf 6 8)
    let g4 ← getn16 (← rslice buf 8 10)
    let g5 ← getn16 (← rslice buf 10 12)
    let g6 ← getn16 (← rslice buf 12 14)
    let g7 ← getn16 (← rslice buf 14 16)
    .ok (g0 ++ g1 ++ g2 ++ g3 ++ g4 ++ g5 ++ g6 ++ g7)

/-- `src/util.rs:45-51` `encode_addrv6_to`. -/
def encodeAddrV6 (addr : IPv6) (buf : Bytes) : Res (Bytes × Nat) :=
  if buf.length < 16 then .err .static else do
    let buf ← copyAt buf 0 16 (ipv6Octets addr)
    .ok (buf, 16)

/-- `src/util.rs:53-59` `decode_addr_from`. -/
def decodeAddr (buf : Bytes) : Res IpAddr :=
  if buf.length = 16 then do .ok (.v6 (← decodeAddrV6 buf))
  else if buf.length = 4 then do .ok (.v4 (← decodeAddrV4 buf))
  else .err .static

/-- `src/util.rs:61-66` `encode_addr_to`. -/
def encodeAddr (addr : IpAddr) (buf : Bytes) : Res (Bytes × Nat) :=
  match addr with
  | .v4 a => encodeAddrV4 a buf
  | .v6 a => encodeAddrV6 a buf

/-- `src/util.rs:102-108` `is_addpath_nlri`. -/
def isAddpathNlri (b : Bytes) : Bool :=
  if b.length < 5 then false else b[0]? == some 0 && b[1]? == some 0

/-- `src/util.rs:110-116` `slice`. -/
def sliceE {α : Type} (buf : List α) (s e : Nat) : Res (List α) :=
  if s ≤ e ∧ e ≤ buf.length then .ok ((buf.take e).drop s) else .err .insufficientBufferSize

/-- `f(slice_mut(buf, s, e)?)`, `src/util.rs:118-124` `slice_mut` with its one use in every caller: run a writer on
the checked sub-slice. -/
def onSliceE {α : Type} (b : Bytes) (s e : Nat) (f : Bytes → Res (Bytes × α)) :
    Res (Bytes × α) :=
  if s ≤ e ∧ e ≤ b.length then do
    let (t, a) ← f ((b.take e).drop s)
    .ok (b.take s ++ t ++ b.drop e, a)
  else .err .insufficientBufferSize

end Zbgp
