import Verif.Model.Release
import Verif.Model.Bmp

/-!
# BMP as built without overflow checks

As `Model/Release.lean`: the BMP functions with arithmetic that can overflow, and those that call them, for both builds.
Initiation messages, information elements and the two headers have none.
-/

namespace Zbgp

/-- The steps for an embedded BGP message (`decodeEmbedded`), `src/bmp/msgpeer.rs:59-65`, `66-72`, `117-124`, `137-144`,
`src/bmp/msgrmon.rs:33-42`, `src/bmp/mod.rs:97-105`. -/
def decodeEmbeddedIn {α : Type} (m : Build) (ty : BgpMessageType) (dec : Bytes → Res α) (buf : Bytes) (pos : Nat) :
    Res (α × Nat) := do
  let (t, len) ← BgpSessionParams.decodeMessageHeadIn m (← rfrom buf pos)
  if t != ty then .err .static
  else do
    let pos := pos + 19
    let x ← dec (← rslice buf pos (pos + len))
    .ok (x, pos + len)

/-- The steps for an embedded BGP message (`encodeEmbedded`), `src/bmp/msgpeer.rs:91-94`, `96-99`, `170-176`, `197-203`,
`src/bmp/msgrmon.rs:59-62`. -/
def encodeEmbeddedIn (m : Build) (ty : BgpMessageType) (enc : Enc) (buf : Bytes) (curpos : Nat) : Res (Bytes × Nat) := do
  let (buf, messagelen) ← onFrom buf (curpos + 19) enc
  let (buf, blen) ← onFrom buf curpos fun b => BgpSessionParams.prepareMessageBufIn m b ty messagelen
  .ok (buf, curpos + blen)

namespace BmpMessageTermination

/-- The loop `src/bmp/msgterm.rs:32-45`. The fuel is the number of rounds allowed. -/
def loopIn (m : Build) (buf : Bytes) : Nat → Nat → BmpMessageTermination → Res (BmpMessageTermination × Nat)
  | fuel, pos, ret => do
    let left ← m.subN buf.length pos
    if left ≥ 4 then
      match fuel with
      | 0 => .hang
      | fuel + 1 => do
        let infotype ← getn16 (← rfrom buf pos)
        let infolen := (← getn16 (← rfrom buf (pos + 2))).toNat
        let pos := pos + 4
        let left ← m.subN buf.length pos
        if left < infolen then .err .insufficientBufferSize
        else do
          let ret ← match infotype.toNat with
            | 0 => do
              let s ← BgpCapability.fromUtf8 (← rslice buf pos (pos + infolen))
              .ok { ret with str0 := some s }
            | 1 => do
              let r ← getn16 (← rfrom buf pos)
              .ok { ret with reason := some r }
            | _ => .ok ret
          loopIn m buf fuel (pos + infolen) ret
    else .ok (ret, pos)

/-- `src/bmp/msgterm.rs:29-47` `decode_from`. -/
def decodeFromIn (m : Build) (buf : Bytes) : Res (BmpMessageTermination × Nat) := loopIn m buf buf.length 0 new

/-- `src/bmp/msgterm.rs:50-61`: the reason string. -/
def encodeStrIn (m : Build) (s : Option Bytes) (buf : Bytes) (curpos : Nat) : Res (Bytes × Nat) :=
  match s with
  | none => .ok (buf, curpos)
  | some str0 => do
    let left ← m.subN buf.length curpos
    if left < 4 + str0.length then .err .insufficientBufferSize
    else do
      let buf ← modFrom buf curpos (setn16 0)
      let buf ← modFrom buf (curpos + 2) (setn16 (BitVec.ofNat 16 str0.length))
      let buf ← copyAt buf (curpos + 4) (curpos + 4 + str0.length) str0
      .ok (buf, curpos + 4 + str0.length)

/-- `src/bmp/msgterm.rs:62-72`: the reason code. -/
def encodeReasonIn (m : Build) (r : Option U16) (buf : Bytes) (curpos : Nat) : Res (Bytes × Nat) :=
  match r with
  | none => .ok (buf, curpos)
  | some reason => do
    let left ← m.subN buf.length curpos
    if left < 6 then .err .insufficientBufferSize
    else do
      let buf ← modFrom buf curpos (setn16 1)
      let buf ← modFrom buf (curpos + 2) (setn16 2)
      let buf ← modFrom buf (curpos + 4) (setn16 reason)
      .ok (buf, curpos + 6)

/-- `src/bmp/msgterm.rs:48-74` `encode_to`. -/
def encodeToIn (m : Build) (x : BmpMessageTermination) (buf : Bytes) : Res (Bytes × Nat) := do
  let (buf, curpos) ← encodeStrIn m x.str0 buf 0
  encodeReasonIn m x.reason buf curpos

end BmpMessageTermination

namespace BmpMessageRouteMonitoring

/-- `src/bmp/msgrmon.rs:26-50` `decode_from`. -/
def decodeFromIn (m : Build) (buf : Bytes) : Res (BmpMessageRouteMonitoring × Nat) :=
  if buf.length < 62 then .err .insufficientBufferSize
  else do
    let (peer, pos) ← BmpMessagePeerHeader.decodeFrom buf
    let sesspars := BgpSessionParams.ofPeerHeader peer
    let (update, pos) ← decodeEmbeddedIn m .Update (BgpUpdateMessage.new.decodeFromIn m sesspars) buf pos
    .ok (⟨peer, update⟩, pos)

/-- `src/bmp/msgrmon.rs:51-65` `encode_to`. -/
def encodeToIn (m : Build) (x : BmpMessageRouteMonitoring) (buf : Bytes) : Res (Bytes × Nat) :=
  if buf.length < 62 then .err .insufficientBufferSize
  else do
    let (buf, curpos) ← x.peer.encodeTo buf
    let sesspars := BgpSessionParams.ofPeerHeader x.peer
    encodeEmbeddedIn m .Update (x.update.encodeToIn m sesspars) buf curpos

end BmpMessageRouteMonitoring

namespace BmpMessagePeerUp

/-- `src/bmp/msgpeer.rs:44-74` `decode_from`. -/
def decodeFromIn (m : Build) (buf : Bytes) : Res (BmpMessagePeerUp × Nat) :=
  if buf.length < 62 then .err .insufficientBufferSize
  else do
    let (peer, n) ← BmpMessagePeerHeader.decodeFrom buf
    let localaddress ← decodeBmpAddr (← rfrom buf n)
    let localport ← getn16 (← rfrom buf (n + 16))
    let remoteport ← getn16 (← rfrom buf (n + 18))
    let (msg1, pos) ← decodeEmbeddedIn m .Open BgpOpenMessage.new.decodeFrom buf (n + 20)
    let (msg2, pos) ← decodeEmbeddedIn m .Open BgpOpenMessage.new.decodeFrom buf pos
    .ok (⟨peer, localaddress, localport, remoteport, msg1, msg2⟩, pos)

/-- `src/bmp/msgpeer.rs:75-102` `encode_to`. -/
def encodeToIn (m : Build) (x : BmpMessagePeerUp) (buf : Bytes) : Res (Bytes × Nat) :=
  if buf.length < 62 then .err .insufficientBufferSize
  else do
    let (buf, curpos) ← x.peer.encodeTo buf
    let (buf, _) ← onFrom buf curpos (encodeBmpAddr x.localaddress)
    let curpos := curpos + 16
    let buf ← modFrom buf curpos (setn16 x.localport)
    let curpos := curpos + 2
    let buf ← modFrom buf curpos (setn16 x.remoteport)
    let curpos := curpos + 2
    let (buf, curpos) ← encodeEmbeddedIn m .Open x.msg1.encodeTo buf curpos
    encodeEmbeddedIn m .Open x.msg2.encodeTo buf curpos

end BmpMessagePeerUp

namespace BmpMessagePeerDown

/-- `src/bmp/msgpeer.rs:114-150`: the reason with code `code`, whose data is at `pos`, and the position behind it. -/
def decodeReasonIn (m : Build) (code : U8) (buf : Bytes) (pos : Nat) : Res (BmpMessagePeerDownReason × Nat) :=
  match code.toNat with
  | 1 => do
    let (n, pos) ← decodeEmbeddedIn m .Notification BgpNotificationMessage.new.decodeFrom buf pos
    .ok (.AdministrativelyClosed n, pos)
  | 2 => do
    let left ← m.subN buf.length pos
    if left < 2 then .err .insufficientBufferSize
    else do
      let state := BitVec.ofNat 16 (Spec.unbe (← rslice buf pos (pos + 2)))
      .ok (.LocalSystemState state, pos + 2)
  | 3 => do
    let (n, pos) ← decodeEmbeddedIn m .Notification BgpNotificationMessage.new.decodeFrom buf pos
    .ok (.RemoteNotification n, pos)
  | 4 => .ok (.Remote, pos)
  | 5 => .ok (.BmpDisabled, pos)
  | _ => .err .static

/-- `src/bmp/msgpeer.rs:106-152` `decode_from`. -/
def decodeFromIn (m : Build) (buf : Bytes) : Res (BmpMessagePeerDown × Nat) :=
  if buf.length < 43 then .err .insufficientBufferSize
  else do
    let (peer, pos) ← BmpMessagePeerHeader.decodeFrom buf
    let code ← idx buf pos
    let (reason, pos) ← decodeReasonIn m code buf (pos + 1)
    .ok (⟨peer, reason⟩, pos)

/-- `src/bmp/msgpeer.rs:162-176` and `189-203`: a reason with a NOTIFICATION. -/
def encodeNotificationIn (m : Build) (code : U8) (n : BgpNotificationMessage) (buf : Bytes) (curpos : Nat) :
    Res (Bytes × Nat) := do
  let buf ← setIdx buf curpos code
  let curpos := curpos + 1
  let left ← m.subN buf.length curpos
  if left < 19 then .err .insufficientBufferSize
  else encodeEmbeddedIn m .Notification n.encodeTo buf curpos

/-- `src/bmp/msgpeer.rs:153-216` `encode_to`. -/
def encodeToIn (m : Build) (x : BmpMessagePeerDown) (buf : Bytes) : Res (Bytes × Nat) :=
  if buf.length < 43 then .err .insufficientBufferSize
  else do
    let (buf, curpos) ← x.peer.encodeTo buf
    match x.reason with
    | .AdministrativelyClosed n => encodeNotificationIn m 1 n buf curpos
    | .LocalSystemState s => do
      let buf ← setIdx buf curpos 2
      let curpos := curpos + 1
      let left ← m.subN buf.length curpos
      if left < 2 then .err .insufficientBufferSize
      else do
        let buf ← modFrom buf curpos (setn16 s)
        .ok (buf, curpos + 2)
    | .RemoteNotification n => encodeNotificationIn m 3 n buf curpos
    | .Remote => do
      let buf ← setIdx buf curpos 4
      .ok (buf, curpos + 1)
    | .BmpDisabled => do
      let buf ← setIdx buf curpos 5
      .ok (buf, curpos + 1)

end BmpMessagePeerDown

namespace BmpMessage

/-- `src/bmp/mod.rs:161-183` `decode_from`. -/
def decodeFromIn (m : Build) (buf : Bytes) : Res BmpMessage := do
  let msgtype ← idx buf 0
  match msgtype.toNat with
  | 0 => do
    let (x, _) ← BmpMessageRouteMonitoring.decodeFromIn m (← rfrom buf 1)
    .ok (.RouteMonitoring x)
  | 1 => .ok .StatisticsReport
  | 2 => do
    let (x, _) ← BmpMessagePeerDown.decodeFromIn m (← rfrom buf 1)
    .ok (.PeerDownNotification x)
  | 3 => do
    let (x, _) ← BmpMessagePeerUp.decodeFromIn m (← rfrom buf 1)
    .ok (.PeerUpNotification x)
  | 4 => do
    let (x, _) ← BmpMessageInitiation.decodeFrom (← rfrom buf 1)
    .ok (.Initiation x)
  | 5 => do
    let (x, _) ← BmpMessageTermination.decodeFromIn m (← rfrom buf 1)
    .ok (.Termination x)
  | 6 => .ok .RouteMirroring
  | _ => .err .static

/-- `src/bmp/mod.rs:184-223` `encode_to`. `unimplemented!()` is a panic. -/
def encodeToIn (m : Build) (x : BmpMessage) (buf : Bytes) : Res (Bytes × Nat) :=
  if buf.isEmpty then .err .insufficientBufferSize
  else
    match x with
    | .RouteMonitoring x => encodeTyped 0 (x.encodeToIn m) buf
    | .StatisticsReport => .panic
    | .PeerDownNotification x => encodeTyped 2 (x.encodeToIn m) buf
    | .PeerUpNotification x => encodeTyped 3 (x.encodeToIn m) buf
    | .Initiation x => encodeTyped 4 x.encodeTo buf
    | .Termination x => encodeTyped 5 (x.encodeToIn m) buf
    | .RouteMirroring => .panic

end BmpMessage

namespace BMPSession

/-- `src/bmp/mod.rs:80-111` `decode_rm`. -/
def decodeRmIn (m : Build) (s : BMPSession) (buf : Bytes) : Res BmpMessageRouteMonitoring :=
  if buf.length < 62 then .err .insufficientBufferSize
  else do
    let (peer, pos) ← BmpMessagePeerHeader.decodeFrom buf
    let sesspars := s.params peer
    let (update, _) ← decodeEmbeddedIn m .Update (BgpUpdateMessage.new.decodeFromIn m sesspars) buf pos
    .ok ⟨peer, update⟩

/-- `src/bmp/mod.rs:51-79` `decode_from`: the result and the session after the call. -/
def decodeFromIn (m : Build) (s : BMPSession) (buf : Bytes) : Res BmpMessage × BMPSession :=
  match idx buf 0 with
  | .ok msgtype =>
    match msgtype.toNat with
    | 0 => ((do let x ← s.decodeRmIn m (← rfrom buf 1); .ok (.RouteMonitoring x)), s)
    | 1 => (.ok .StatisticsReport, s)
    | 2 =>
      match (do BmpMessagePeerDown.decodeFromIn m (← rfrom buf 1) : Res (BmpMessagePeerDown × Nat)) with
      | .ok (x, _) => (.ok (.PeerDownNotification x), ⟨BTree.remove (.ofPeer x.peer) s.sessions⟩)
      | .err e => (.err e, s)
      | .panic => (.panic, s)
      | .hang => (.hang, s)
    | 3 =>
      match (do BmpMessagePeerUp.decodeFromIn m (← rfrom buf 1) : Res (BmpMessagePeerUp × Nat)) with
      | .ok (x, _) => (.ok (.PeerUpNotification x), ⟨BTree.insert (.ofPeer x.peer) x s.sessions⟩)
      | .err e => (.err e, s)
      | .panic => (.panic, s)
      | .hang => (.hang, s)
    | 4 => ((do let (x, _) ← BmpMessageInitiation.decodeFrom (← rfrom buf 1); .ok (.Initiation x)), s)
    | 5 => ((do let (x, _) ← BmpMessageTermination.decodeFromIn m (← rfrom buf 1); .ok (.Termination x)), s)
    | 6 => (.ok .RouteMirroring, s)
    | _ => (.err .static, s)
  | _ => (.panic, s)

end BMPSession

end Zbgp
