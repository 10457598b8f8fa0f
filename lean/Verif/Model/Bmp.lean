import Verif.Model.Order
import Verif.Model.Open
import Verif.Model.Update

/-!
# BMP: `src/bmp/*.rs`

Strings are modelled by their UTF-8 octets.
-/

namespace Zbgp

/-- `src/bmp/bmputl.rs:15-36` `decode_bmp_addr_from`. -/
def decodeBmpAddr (buf : Bytes) : Res IpAddr :=
  if buf.length < 16 then .err .insufficientBufferSize
  else do
    let b0 ← idx buf 0
    let b1 ← idx buf 1
    let b2 ← idx buf 2
    let b3 ← idx buf 3
    let b4 ← idx buf 4
    let b5 ← idx buf 5
    let b6 ← idx buf 6
    let b7 ← idx buf 7
    let b8 ← idx buf 8
    let b9 ← idx buf 9
    let b10 ← idx buf 10
    let b11 ← idx buf 11
    if b0 == 0 && b1 == 0 && b2 == 0 && b3 == 0 && b4 == 0 && b5 == 0 && b6 == 0 && b7 == 0 && b8 == 0 && b9 == 0 &&
        b10 == 0 && b11 == 0 then do
      .ok (.v4 (← decodeAddrV4 (← rfrom buf 12)))
    else do .ok (.v6 (← decodeAddrV6 buf))

/-- `src/bmp/bmputl.rs:37-53` `encode_bmp_addr_to`. For IPv4 the whole slice is cleared first. -/
def encodeBmpAddr (addr : IpAddr) (buf : Bytes) : Res (Bytes × Nat) :=
  if buf.length < 16 then .err .insufficientBufferSize
  else
    match addr with
    | .v4 v4 => do
      let buf := buf.map fun _ => 0
      let (buf, _) ← onFrom buf 12 (encodeAddrV4 v4)
      .ok (buf, 16)
    | .v6 v6 => do
      let (buf, _) ← encodeAddrV6 v6 buf
      .ok (buf, 16)

namespace BmpMessagePeerHeader

/-- `src/bmp/bmputl.rs:75-91` `decode_from`. -/
def decodeFrom (buf : Bytes) : Res (BmpMessagePeerHeader × Nat) :=
  if buf.length < 42 then .err .insufficientBufferSize
  else do
    let peertype ← idx buf 0
    let flags ← idx buf 1
    let (peerdistinguisher, _) ← BgpRD.decodeFrom (← rfrom buf 2)
    let peeraddress ← decodeBmpAddr (← rfrom buf 10)
    let asnum ← getn32 (← rfrom buf 26)
    let routerid ← decodeAddrV4 (← rfrom buf 30)
    let timestamp ← getn64 (← rfrom buf 34)
    .ok (⟨peertype, flags, peerdistinguisher, peeraddress, asnum, routerid, timestamp⟩, 42)

/-- `src/bmp/bmputl.rs:92-105` `encode_to`. -/
def encodeTo (x : BmpMessagePeerHeader) (buf : Bytes) : Res (Bytes × Nat) :=
  if buf.length < 42 then .err .insufficientBufferSize
  else do
    let buf ← setIdx buf 0 x.peertype
    let buf ← setIdx buf 1 x.flags
    let (buf, _) ← onFrom buf 2 x.peerdistinguisher.encodeTo
    let (buf, _) ← onFrom buf 10 (encodeBmpAddr x.peeraddress)
    let buf ← modFrom buf 26 (setn32 x.asnum)
    let (buf, _) ← onFrom buf 30 (encodeAddrV4 x.routerid)
    let buf ← modFrom buf 34 (setn64 x.timestamp)
    .ok (buf, 42)

end BmpMessagePeerHeader

/-- `src/bmp/bmputl.rs:184-195` `From<&BmpMessagePeerHeader> for BgpSessionParams`. -/
def BgpSessionParams.ofPeerHeader (h : BmpMessagePeerHeader) : BgpSessionParams :=
  .new h.asnum 0 (.ofAddr h.peeraddress) h.routerid []

/-- `src/bmp/mod.rs:127-132`. -/
structure BmpMessageHeader where
  version : U8
  msglength : Nat
deriving DecidableEq, Repr

namespace BmpMessageHeader

/-- `src/bmp/mod.rs:135-149` `decode_from`. -/
def decodeFrom (buf : Bytes) : Res (BmpMessageHeader × Nat) :=
  if buf.length < 5 then .err .insufficientBufferSize
  else do
    let v ← idx buf 0
    if v != 3 then .err .static
    else do
      let n ← getn32 (← rslice buf 1 5)
      .ok (⟨v, n.toNat⟩, 5)

/-- `src/bmp/mod.rs:150-157` `encode_to`. -/
def encodeTo (x : BmpMessageHeader) (buf : Bytes) : Res (Bytes × Nat) :=
  if buf.length < 5 then .err .insufficientBufferSize
  else do
    let buf ← setIdx buf 0 x.version
    let buf ← modFrom buf 1 (setn32 (BitVec.ofNat 32 x.msglength))
    .ok (buf, 5)

end BmpMessageHeader

/-- `src/bmp/msginit.rs:14-19`. -/
structure BmpInfoVal where
  infotype : U16
  info : Bytes
deriving DecidableEq, Repr

namespace BmpInfoVal

/-- `src/bmp/msginit.rs:22-38` `decode_from`. -/
def decodeFrom (buf : Bytes) : Res (BmpInfoVal × Nat) :=
  if buf.length < 4 then .err .insufficientBufferSize
  else do
    let tp ← getn16 buf
    let ln := (← getn16 (← rslice buf 2 4)).toNat
    if ln > buf.length - 4 then .err .insufficientBufferSize
    else do
      let info ← BgpCapability.fromUtf8 (← rslice buf 4 (4 + ln))
      .ok (⟨tp, info⟩, ln + 4)

/-- `src/bmp/msginit.rs:39-52` `encode_to`. -/
def encodeTo (x : BmpInfoVal) (buf : Bytes) : Res (Bytes × Nat) :=
  if buf.length < 4 then .err .insufficientBufferSize
  else do
    let buf ← modFrom buf 0 (setn16 x.infotype)
    let buf ← modFrom buf 2 (setn16 (BitVec.ofNat 16 x.info.length))
    let buf ← copyAt buf 4 (4 + x.info.length) x.info
    .ok (buf, 4 + x.info.length)

end BmpInfoVal

/-- `src/bmp/msginit.rs:57-64`. -/
structure BmpMessageInitiation where
  str0 : Option Bytes
  sysDescr : Option Bytes
  sysName : Option Bytes
deriving DecidableEq, Repr

namespace BmpMessageInitiation

/-- `src/bmp/msginit.rs:67-73` `new`. -/
def new : BmpMessageInitiation := ⟨none, none, none⟩

/-- The loop `src/bmp/msginit.rs:77-86`. The fuel is the number of rounds allowed. -/
def loop (buf : Bytes) : Nat → Nat → BmpMessageInitiation → Res (BmpMessageInitiation × Nat)
  | fuel, pos, ret =>
    if pos < buf.length then
      match fuel with
      | 0 => .hang
      | fuel + 1 => do
        let (c, n) ← BmpInfoVal.decodeFrom (← rfrom buf pos)
        let ret := match c.infotype.toNat with
          | 0 => { ret with str0 := some c.info }
          | 1 => { ret with sysDescr := some c.info }
          | 2 => { ret with sysName := some c.info }
          | _ => ret
        loop buf fuel (pos + n) ret
    else .ok (ret, pos)

/-- `src/bmp/msginit.rs:74-88` `decode_from`. -/
def decodeFrom (buf : Bytes) : Res (BmpMessageInitiation × Nat) := loop buf buf.length 0 new

/-- One of the three blocks of `src/bmp/msginit.rs:91-111`: the string, if there is one, with information type `ty`. -/
def encodeInfo (ty : U16) (s : Option Bytes) (buf : Bytes) (curpos : Nat) : Res (Bytes × Nat) :=
  match s with
  | none => .ok (buf, curpos)
  | some s => do
    let (buf, n) ← onFrom buf curpos (BmpInfoVal.encodeTo ⟨ty, s⟩)
    .ok (buf, curpos + n)

/-- `src/bmp/msginit.rs:89-113` `encode_to`. All three strings are written with information type 0. -/
def encodeTo (x : BmpMessageInitiation) (buf : Bytes) : Res (Bytes × Nat) := do
  let (buf, curpos) ← encodeInfo 0 x.str0 buf 0
  let (buf, curpos) ← encodeInfo 0 x.sysDescr buf curpos
  encodeInfo 0 x.sysName buf curpos

end BmpMessageInitiation

/-- `src/bmp/msgterm.rs:15-20`. -/
structure BmpMessageTermination where
  str0 : Option Bytes
  reason : Option U16
deriving DecidableEq, Repr

namespace BmpMessageTermination

/-- `src/bmp/msgterm.rs:23-28` `new`. -/
def new : BmpMessageTermination := ⟨none, none⟩

/-- The loop `src/bmp/msgterm.rs:32-45`. The fuel is the number of rounds allowed. -/
def loop (buf : Bytes) : Nat → Nat → BmpMessageTermination → Res (BmpMessageTermination × Nat)
  | fuel, pos, ret => do
    let left ← subN buf.length pos
    if left ≥ 4 then
      match fuel with
      | 0 => .hang
      | fuel + 1 => do
        let infotype ← getn16 (← rfrom buf pos)
        let infolen := (← getn16 (← rfrom buf (pos + 2))).toNat
        let pos := pos + 4
        let left ← subN buf.length pos
        if left < infolen then .err .insufficientBufferSize
        else do
          let ret ← match infotype.toNat with
            | 0 => do
              let s ← BgpCapability.fromUtf8 (← rslice buf pos (pos + infolen))
              .ok { ret with str0 := some s }
            | 1 => do
              let r ← getn16 (← rfrom buf pos)
              .ok { ret with reason := some r }
            | _ => .ok ret
          loop buf fuel (pos + infolen) ret
    else .ok (ret, pos)

/-- `src/bmp/msgterm.rs:29-47` `decode_from`. -/
def decodeFrom (buf : Bytes) : Res (BmpMessageTermination × Nat) := loop buf buf.length 0 new

/-- `src/bmp/msgterm.rs:50-61`: the reason string. -/
def encodeStr (s : Option Bytes) (buf : Bytes) (curpos : Nat) : Res (Bytes × Nat) :=
  match s with
  | none => .ok (buf, curpos)
  | some str0 => do
    let left ← subN buf.length curpos
    if left < 4 + str0.length then .err .insufficientBufferSize
    else do
      let buf ← modFrom buf curpos (setn16 0)
      let buf ← modFrom buf (curpos + 2) (setn16 (BitVec.ofNat 16 str0.length))
      let buf ← copyAt buf (curpos + 4) (curpos + 4 + str0.length) str0
      .ok (buf, curpos + 4 + str0.length)

/-- `src/bmp/msgterm.rs:62-72`: the reason code. -/
def encodeReason (r : Option U16) (buf : Bytes) (curpos : Nat) : Res (Bytes × Nat) :=
  match r with
  | none => .ok (buf, curpos)
  | some reason => do
    let left ← subN buf.length curpos
    if left < 6 then .err .insufficientBufferSize
    else do
      let buf ← modFrom buf curpos (setn16 1)
      let buf ← modFrom buf (curpos + 2) (setn16 2)
      let buf ← modFrom buf (curpos + 4) (setn16 reason)
      .ok (buf, curpos + 6)

/-- `src/bmp/msgterm.rs:48-74` `encode_to`. -/
def encodeTo (x : BmpMessageTermination) (buf : Bytes) : Res (Bytes × Nat) := do
  let (buf, curpos) ← encodeStr x.str0 buf 0
  encodeReason x.reason buf curpos

end BmpMessageTermination

/-- The steps all BMP decoders take for an embedded BGP message, `src/bmp/msgpeer.rs:59-65`, `66-72`, `117-124`,
`137-144`, `src/bmp/msgrmon.rs:33-42`, `src/bmp/mod.rs:97-105`: read the header at `pos`, check the type, decode
the body with `dec`; the new position is behind the message. -/
def decodeEmbedded {α : Type} (ty : BgpMessageType) (dec : Bytes → Res α) (buf : Bytes) (pos : Nat) : Res (α × Nat) := do
  let (t, len) ← BgpSessionParams.decodeMessageHead (← rfrom buf pos)
  if t != ty then .err .static
  else do
    let pos := pos + 19
    let m ← dec (← rslice buf pos (pos + len))
    .ok (m, pos + len)

/-- The steps all BMP encoders take for an embedded BGP message, `src/bmp/msgpeer.rs:91-94`, `96-99`, `170-176`,
`197-203`, `src/bmp/msgrmon.rs:59-62`: the body behind the place of the header, then the header; the new
position is `curpos` and what `prepare_message_buf` reports. -/
def encodeEmbedded (ty : BgpMessageType) (enc : Enc) (buf : Bytes) (curpos : Nat) : Res (Bytes × Nat) := do
  let (buf, messagelen) ← onFrom buf (curpos + 19) enc
  let (buf, blen) ← onFrom buf curpos fun b => BgpSessionParams.prepareMessageBuf b ty messagelen
  .ok (buf, curpos + blen)

/-- `src/bmp/msgrmon.rs:18-23`. -/
structure BmpMessageRouteMonitoring where
  peer : BmpMessagePeerHeader
  update : BgpUpdateMessage

namespace BmpMessageRouteMonitoring

/-- `src/bmp/msgrmon.rs:26-50` `decode_from`. -/
def decodeFrom (buf : Bytes) : Res (BmpMessageRouteMonitoring × Nat) :=
  if buf.length < 62 then .err .insufficientBufferSize
  else do
    let (peer, pos) ← BmpMessagePeerHeader.decodeFrom buf
    let sesspars := BgpSessionParams.ofPeerHeader peer
    let (update, pos) ← decodeEmbedded .Update (BgpUpdateMessage.new.decodeFrom sesspars) buf pos
    .ok (⟨peer, update⟩, pos)

/-- `src/bmp/msgrmon.rs:51-65` `encode_to`. -/
def encodeTo (x : BmpMessageRouteMonitoring) (buf : Bytes) : Res (Bytes × Nat) :=
  if buf.length < 62 then .err .insufficientBufferSize
  else do
    let (buf, curpos) ← x.peer.encodeTo buf
    let sesspars := BgpSessionParams.ofPeerHeader x.peer
    encodeEmbedded .Update (x.update.encodeTo sesspars) buf curpos

end BmpMessageRouteMonitoring

/-- `src/bmp/msgpeer.rs:19-26`. -/
structure BmpMessagePeerUp where
  peer : BmpMessagePeerHeader
  localaddress : IpAddr
  localport : U16
  remoteport : U16
  msg1 : BgpOpenMessage
  msg2 : BgpOpenMessage
deriving DecidableEq, Repr

namespace BmpMessagePeerUp

/-- `src/bmp/msgpeer.rs:44-74` `decode_from`. -/
def decodeFrom (buf : Bytes) : Res (BmpMessagePeerUp × Nat) :=
  if buf.length < 62 then .err .insufficientBufferSize
  else do
    let (peer, n) ← BmpMessagePeerHeader.decodeFrom buf
    let localaddress ← decodeBmpAddr (← rfrom buf n)
    let localport ← getn16 (← rfrom buf (n + 16))
    let remoteport ← getn16 (← rfrom buf (n + 18))
    let (msg1, pos) ← decodeEmbedded .Open BgpOpenMessage.new.decodeFrom buf (n + 20)
    let (msg2, pos) ← decodeEmbedded .Open BgpOpenMessage.new.decodeFrom buf pos
    .ok (⟨peer, localaddress, localport, remoteport, msg1, msg2⟩, pos)

/-- `src/bmp/msgpeer.rs:75-102` `encode_to`. -/
def encodeTo (x : BmpMessagePeerUp) (buf : Bytes) : Res (Bytes × Nat) :=
  if buf.length < 62 then .err .insufficientBufferSize
  else do
    let (buf, curpos) ← x.peer.encodeTo buf
    let (buf, _) ← onFrom buf curpos (encodeBmpAddr x.localaddress)
    let curpos := curpos + 16
    let buf ← modFrom buf curpos (setn16 x.localport)
    let curpos := curpos + 2
    let buf ← modFrom buf curpos (setn16 x.remoteport)
    let curpos := curpos + 2
    let (buf, curpos) ← encodeEmbedded .Open x.msg1.encodeTo buf curpos
    encodeEmbedded .Open x.msg2.encodeTo buf curpos

end BmpMessagePeerUp

/-- `src/bmp/msgpeer.rs:29-35`. -/
inductive BmpMessagePeerDownReason
  | AdministrativelyClosed (m : BgpNotificationMessage)
  | LocalSystemState (s : U16)
  | RemoteNotification (m : BgpNotificationMessage)
  | Remote
  | BmpDisabled
deriving DecidableEq, Repr

/-- `src/bmp/msgpeer.rs:38-41`. -/
structure BmpMessagePeerDown where
  peer : BmpMessagePeerHeader
  reason : BmpMessagePeerDownReason
deriving DecidableEq, Repr

namespace BmpMessagePeerDown

/-- `src/bmp/msgpeer.rs:114-150`: the reason with code `code`, whose data is at `pos`, and the position behind it. -/
def decodeReason (code : U8) (buf : Bytes) (pos : Nat) : Res (BmpMessagePeerDownReason × Nat) :=
  match code.toNat with
  | 1 => do
    let (m, pos) ← decodeEmbedded .Notification BgpNotificationMessage.new.decodeFrom buf pos
    .ok (.AdministrativelyClosed m, pos)
  | 2 => do
    let left ← subN buf.length pos
    if left < 2 then .err .insufficientBufferSize
    else do
      let state := BitVec.ofNat 16 (Spec.unbe (← rslice buf pos (pos + 2)))
      .ok (.LocalSystemState state, pos + 2)
  | 3 => do
    let (m, pos) ← decodeEmbedded .Notification BgpNotificationMessage.new.decodeFrom buf pos
    .ok (.RemoteNotification m, pos)
  | 4 => .ok (.Remote, pos)
  | 5 => .ok (.BmpDisabled, pos)
  | _ => .err .static

/-- `src/bmp/msgpeer.rs:106-152` `decode_from`. -/
def decodeFrom (buf : Bytes) : Res (BmpMessagePeerDown × Nat) :=
  if buf.length < 43 then .err .insufficientBufferSize
  else do
    let (peer, pos) ← BmpMessagePeerHeader.decodeFrom buf
    let code ← idx buf pos
    let (reason, pos) ← decodeReason code buf (pos + 1)
    .ok (⟨peer, reason⟩, pos)

/-- `src/bmp/msgpeer.rs:162-176` and `189-203`: a reason with a NOTIFICATION. -/
def encodeNotification (code : U8) (m : BgpNotificationMessage) (buf : Bytes) (curpos : Nat) : Res (Bytes × Nat) := do
  let buf ← setIdx buf curpos code
  let curpos := curpos + 1
  let left ← subN buf.length curpos
  if left < 19 then .err .insufficientBufferSize
  else encodeEmbedded .Notification m.encodeTo buf curpos

/-- `src/bmp/msgpeer.rs:153-216` `encode_to`. -/
def encodeTo (x : BmpMessagePeerDown) (buf : Bytes) : Res (Bytes × Nat) :=
  if buf.length < 43 then .err .insufficientBufferSize
  else do
    let (buf, curpos) ← x.peer.encodeTo buf
    match x.reason with
    | .AdministrativelyClosed m => encodeNotification 1 m buf curpos
    | .LocalSystemState s => do
      let buf ← setIdx buf curpos 2
      let curpos := curpos + 1
      let left ← subN buf.length curpos
      if left < 2 then .err .insufficientBufferSize
      else do
        let buf ← modFrom buf curpos (setn16 s)
        .ok (buf, curpos + 2)
    | .RemoteNotification m => encodeNotification 3 m buf curpos
    | .Remote => do
      let buf ← setIdx buf curpos 4
      .ok (buf, curpos + 1)
    | .BmpDisabled => do
      let buf ← setIdx buf curpos 5
      .ok (buf, curpos + 1)

end BmpMessagePeerDown

/-- `src/bmp/mod.rs:115-123`. -/
inductive BmpMessage
  | RouteMonitoring (m : BmpMessageRouteMonitoring)
  | StatisticsReport
  | PeerDownNotification (m : BmpMessagePeerDown)
  | PeerUpNotification (m : BmpMessagePeerUp)
  | Initiation (m : BmpMessageInitiation)
  | Termination (m : BmpMessageTermination)
  | RouteMirroring

namespace BmpMessage

/-- `src/bmp/mod.rs:161-183` `decode_from`. -/
def decodeFrom (buf : Bytes) : Res BmpMessage := do
  let msgtype ← idx buf 0
  match msgtype.toNat with
  | 0 => do
    let (m, _) ← BmpMessageRouteMonitoring.decodeFrom (← rfrom buf 1)
    .ok (.RouteMonitoring m)
  | 1 => .ok .StatisticsReport
  | 2 => do
    let (m, _) ← BmpMessagePeerDown.decodeFrom (← rfrom buf 1)
    .ok (.PeerDownNotification m)
  | 3 => do
    let (m, _) ← BmpMessagePeerUp.decodeFrom (← rfrom buf 1)
    .ok (.PeerUpNotification m)
  | 4 => do
    let (m, _) ← BmpMessageInitiation.decodeFrom (← rfrom buf 1)
    .ok (.Initiation m)
  | 5 => do
    let (m, _) ← BmpMessageTermination.decodeFrom (← rfrom buf 1)
    .ok (.Termination m)
  | 6 => .ok .RouteMirroring
  | _ => .err .static

/-- The type octet and the body behind it, `src/bmp/mod.rs:190-194` and its copies. -/
def encodeTyped (code : U8) (enc : Enc) (buf : Bytes) : Res (Bytes × Nat) := do
  let buf ← setIdx buf 0 code
  let (buf, n) ← onFrom buf 1 enc
  .ok (buf, 1 + n)

/-- `src/bmp/mod.rs:184-223` `encode_to`. `unimplemented!()` is a panic. -/
def encodeTo (x : BmpMessage) (buf : Bytes) : Res (Bytes × Nat) :=
  if buf.isEmpty then .err .insufficientBufferSize
  else
    match x with
    | .RouteMonitoring m => encodeTyped 0 m.encodeTo buf
    | .StatisticsReport => .panic
    | .PeerDownNotification m => encodeTyped 2 m.encodeTo buf
    | .PeerUpNotification m => encodeTyped 3 m.encodeTo buf
    | .Initiation m => encodeTyped 4 m.encodeTo buf
    | .Termination m => encodeTyped 5 m.encodeTo buf
    | .RouteMirroring => .panic

end BmpMessage

/-! ## `std::collections::BTreeMap`

A map is the list of its entries in ascending order of the keys by `Ord::cmp`. This is the documented behaviour of the
standard library, not its implementation. -/

/-- `BTreeMap::get`. -/
def BTree.get {K V : Type} [ROrd K] (k : K) : List (K × V) → Option V
  | [] => none
  | (k', v) :: r =>
    match ROrd.cmp k k' with
    | .lt => none
    | .eq => some v
    | .gt => BTree.get k r

/-- `BTreeMap::insert`. -/
def BTree.insert {K V : Type} [ROrd K] (k : K) (v : V) : List (K × V) → List (K × V)
  | [] => [(k, v)]
  | (k', v') :: r =>
    match ROrd.cmp k k' with
    | .lt => (k, v) :: (k', v') :: r
    | .eq => (k', v) :: r
    | .gt => (k', v') :: BTree.insert k v r

/-- `BTreeMap::remove`. -/
def BTree.remove {K V : Type} [ROrd K] (k : K) : List (K × V) → List (K × V)
  | [] => []
  | (k', v') :: r =>
    match ROrd.cmp k k' with
    | .lt => (k', v') :: r
    | .eq => r
    | .gt => (k', v') :: BTree.remove k r

/-- `src/bmp/mod.rs:28-31`. -/
structure BgpSessionKey where
  peerRd : BgpRD
  peerIp : IpAddr
deriving DecidableEq, Repr

/-- Derived, `src/bmp/mod.rs:27`; there is no `Hash`, `hash` is what would be consistent with `eq`. -/
instance : ROrd BgpSessionKey where
  eq a b := ROrd.eq a.peerRd b.peerRd && ROrd.eq a.peerIp b.peerIp
  pcmp a b := lexP (ROrd.pcmp a.peerRd b.peerRd) (ROrd.pcmp a.peerIp b.peerIp)
  cmp a b := (ROrd.cmp a.peerRd b.peerRd).then (ROrd.cmp a.peerIp b.peerIp)
  hash a := ROrd.hash a.peerRd ++ ROrd.hash a.peerIp

/-- `src/bmp/mod.rs:37-44` `From<&BmpMessagePeerHeader> for BgpSessionKey`. -/
def BgpSessionKey.ofPeer (h : BmpMessagePeerHeader) : BgpSessionKey := ⟨h.peerdistinguisher, h.peeraddress⟩

/-- `src/bmp/mod.rs:47-49`. -/
structure BMPSession where
  sessions : List (BgpSessionKey × BmpMessagePeerUp)

namespace BMPSession

/-- `#[derive(Default)]`, `src/bmp/mod.rs:46`. -/
def default : BMPSession := ⟨[]⟩

/-- `src/bmp/mod.rs:86-96`: the session parameters for the messages of a peer. -/
def params (s : BMPSession) (h : BmpMessagePeerHeader) : BgpSessionParams :=
  match BTree.get (BgpSessionKey.ofPeer h) s.sessions with
  | none => .ofPeerHeader h
  | some peer => if peer.peer.routerid == peer.msg1.routerId then .ofOpen peer.msg1 else .ofOpen peer.msg2

/-- `src/bmp/mod.rs:80-111` `decode_rm`. -/
def decodeRm (s : BMPSession) (buf : Bytes) : Res BmpMessageRouteMonitoring :=
  if buf.length < 62 then .err .insufficientBufferSize
  else do
    let (peer, pos) ← BmpMessagePeerHeader.decodeFrom buf
    let sesspars := s.params peer
    let (update, _) ← decodeEmbedded .Update (BgpUpdateMessage.new.decodeFrom sesspars) buf pos
    .ok ⟨peer, update⟩

/-- `src/bmp/mod.rs:51-79` `decode_from`: the result and the session after the call (a call that panics has not changed
the table). -/
def decodeFrom (s : BMPSession) (buf : Bytes) : Res BmpMessage × BMPSession :=
  match idx buf 0 with
  | .ok msgtype =>
    match msgtype.toNat with
    | 0 => ((do let m ← s.decodeRm (← rfrom buf 1); .ok (.RouteMonitoring m)), s)
    | 1 => (.ok .StatisticsReport, s)
    | 2 =>
      match (do BmpMessagePeerDown.decodeFrom (← rfrom buf 1) : Res (BmpMessagePeerDown × Nat)) with
      | .ok (m, _) => (.ok (.PeerDownNotification m), ⟨BTree.remove (.ofPeer m.peer) s.sessions⟩)
      | .err e => (.err e, s)
      | .panic => (.panic, s)
      | .hang => (.hang, s)
    | 3 =>
      match (do BmpMessagePeerUp.decodeFrom (← rfrom buf 1) : Res (BmpMessagePeerUp × Nat)) with
      | .ok (m, _) => (.ok (.PeerUpNotification m), ⟨BTree.insert (.ofPeer m.peer) m s.sessions⟩)
      | .err e => (.err e, s)
      | .panic => (.panic, s)
      | .hang => (.hang, s)
    | 4 => ((do let (m, _) ← BmpMessageInitiation.decodeFrom (← rfrom buf 1); .ok (.Initiation m)), s)
    | 5 => ((do let (m, _) ← BmpMessageTermination.decodeFrom (← rfrom buf 1); .ok (.Termination m)), s)
    | 6 => (.ok .RouteMirroring, s)
    | _ => (.err .static, s)
  | _ => (.panic, s)

end BMPSession

end Zbgp
