import Verif.Model.Session

/-!
# Model of `src/message/open.rs`, `src/message/notification.rs` and `src/message/keepalive.rs`
-/

namespace Zbgp

/-- Reading a `u16` field of the packed struct `BgpOpenHead` through the raw pointer
(`src/message/open.rs:24-30,40-42`), on a little-endian host. -/
def loadLe16 (b0 b1 : U8) : U16 := b0.setWidth 16 ||| (b1.setWidth 16 <<< 8)

/-- Storing a `u16` field of the packed struct on a little-endian host. -/
def storeLe16 (v : U16) : Bytes := [v.setWidth 8, (v >>> 8).setWidth 8]

namespace BgpOpenMessage

/-- The inner loop of `decode_from`, `src/message/open.rs:62-74`. The argument is `buf[pos..]`; the result
is the capabilities pushed and the rest of the buffer. -/
def decodeCaps : Nat → Bytes → Nat → Res (List BgpCapability × Bytes)
  | 0, _, _ => .hang
  | fuel + 1, rest, optlen =>
    if optlen = 0 then .ok ([], rest) else do
      let sl ← sliceE rest 0 optlen
      let (cap, n) ← BgpCapability.fromBuffer sl
      let optlen ← subN optlen n
      let (caps, rest) ← decodeCaps fuel (rest.drop n) optlen
      match cap with
      | .inl cap => .ok (cap :: caps, rest)
      | .inr _ => .ok (caps, rest)

/-- The outer loop of `decode_from`, `src/message/open.rs:53-75`. The argument is `buf[pos..]`. -/
def decodeParams : Nat → Bytes → Res (List BgpCapability)
  | 0, _ => .hang
  | fuel + 1, rest =>
    if 1 < rest.length then do
      let t ← idx rest 0
      if t != 2 then .err .dynStr else do
        let optlen := (← idx rest 1).toNat
        let (caps, rest) ← decodeCaps (rest.length + 1) (rest.drop 2) optlen
        let more ← decodeParams fuel rest
        .ok (caps ++ more)
    else .ok []

/-- `src/message/open.rs:33-77` `decode_from`. `self` is the message object before the call; the
capabilities are pushed onto `self.caps` after it was cleared. -/
def decodeFrom (self : BgpOpenMessage) (buf : Bytes) : Res BgpOpenMessage :=
  if buf.length < 10 then .err .insufficientBufferSize else do
    let v ← idx buf 0
    if v != 4 then .err .static else do
      let head ← sliceE buf 1 buf.length
      let self := { self with asNum := (ntoh16 (loadLe16 (← idx head 0) (← idx head 1))).setWidth 32 }
      let self := { self with holdTime := ntoh16 (loadLe16 (← idx head 2) (← idx head 3)) }
      let rid := BitVec.ofNat 32
        (Spec.unbe [← idx head 4, ← idx head 5, ← idx head 6, ← idx head 7])
      let self := { self with routerId := rid }
      let self := { self with caps := [] }
      let caps ← decodeParams (buf.length + 1) (buf.drop 10)
      .ok { self with caps := self.caps ++ caps }

/-- The loop of `encode_to`, `src/message/open.rs:98-104`. The argument is `buf[pos..]`; the result is the
new tail and the number of bytes used. -/
def encodeCaps : List BgpCapability → Bytes → Res (Bytes × Nat)
  | [], t => .ok (t, 0)
  | cp :: cps, t => do
    let caplen := cp.bytesLen
    let t ← setIdx t 0 2
    let t ← setIdx t 1 (BitVec.ofNat 8 caplen)
    let (t, _) ← onSliceE t 2 (caplen + 2) (fun b => do .ok (← cp.fillBuffer b, ()))
    let (t, n) ← onFrom t (2 + caplen) (encodeCaps cps)
    .ok (t, 2 + caplen + n)

/-- `src/message/open.rs:78-106` `encode_to`. The `u32` sum of capability lengths cannot overflow for
capability lists that fit in memory and is a `Nat` here. -/
def encodeTo (m : BgpOpenMessage) (buf : Bytes) : Res (Bytes × Nat) :=
  if buf.length < 10 then .err .insufficientBufferSize else do
    let buf ← setIdx buf 0 4
    let buf ← copyAt buf 1 3
      (storeLe16 (ntoh16 (if m.asNum.toNat < 65536 then m.asNum.setWidth 16 else 23456)))
    let buf ← copyAt buf 3 5 (storeLe16 (ntoh16 m.holdTime))
    let buf ← copyAt buf 5 9 (ipv4Octets m.routerId)
    let buf ← setIdx buf 9
      (BitVec.ofNat 8 (m.caps.foldl (fun sum i => sum + i.bytesLen + 2) 0))
    let (buf, n) ← onFrom buf 10 (encodeCaps m.caps)
    .ok (buf, 10 + n)

end BgpOpenMessage

/-- `src/message/notification.rs:12-19`. -/
structure BgpNotificationMessage where
  errorCode : U8
  errorSubcode : U8
  data : U16
deriving DecidableEq, Repr

/-- `src/message/notification.rs:22-28` `new`. -/
def BgpNotificationMessage.new : BgpNotificationMessage :=
  { errorCode := 0, errorSubcode := 0, data := 0 }

/-- `src/message/notification.rs:137-150` `decode_from`; `self` is the object before the call. -/
def BgpNotificationMessage.decodeFrom (self : BgpNotificationMessage) (buf : Bytes) :
    Res BgpNotificationMessage :=
  if buf.length < 2 then .err .static else do
    let errorCode ← idx buf 0
    let errorSubcode ← idx buf 1
    let data ← if buf.length = 3 then do .ok ((← idx buf 2).setWidth 16) else .ok self.data
    let data ← if buf.length > 3 then do
        .ok (((← idx buf 2).setWidth 16 <<< 8) ||| (← idx buf 3).setWidth 16)
      else .ok data
    .ok { errorCode, errorSubcode, data }

/-- `src/message/notification.rs:151-160` `encode_to`. -/
def BgpNotificationMessage.encodeTo (m : BgpNotificationMessage) (buf : Bytes) :
    Res (Bytes × Nat) :=
  if buf.length < 4 then .err .static else do
    let buf ← setIdx buf 0 m.errorCode
    let buf ← setIdx buf 1 m.errorSubcode
    let buf ← setIdx buf 2 ((m.data >>> 8).setWidth 8)
    let buf ← setIdx buf 3 ((m.data &&& 0xff).setWidth 8)
    .ok (buf, 4)

/-- `src/message/keepalive.rs:16-18` `decode_from`. -/
def keepaliveDecode (_buf : Bytes) : Res Unit := .ok ()

/-- `src/message/keepalive.rs:19-21` `encode_to`. -/
def keepaliveEncode (buf : Bytes) : Res (Bytes × Nat) := .ok (buf, 0)

end Zbgp
