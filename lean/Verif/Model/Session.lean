import Verif.Model.Caps

/-!
# Model of `BgpSessionParams` (`src/lib.rs:669-926`) and `BgpMessageType` (`src/message/mod.rs:29-57`)
-/

namespace Zbgp

/-- `src/message/open.rs:13-22`. -/
structure BgpOpenMessage where
  asNum : U32
  holdTime : U16
  routerId : IPv4
  caps : List BgpCapability
deriving DecidableEq, Repr

/-- `src/message/open.rs:109-116` `BgpOpenMessage::new` (127.0.0.1 as router id). -/
def BgpOpenMessage.new : BgpOpenMessage :=
  { asNum := 0, holdTime := 180, routerId := 0x7f000001, caps := [] }

/-- `src/message/mod.rs:30-35`. -/
inductive BgpMessageType
  | Open
  | Update
  | Notification
  | Keepalive
deriving DecidableEq, Repr

/-- `src/message/mod.rs:39-47` `BgpMessageType::decode_from`. -/
def BgpMessageType.decodeFrom (code : U8) : Res BgpMessageType :=
  match code.toNat with
  | 1 => .ok .Open
  | 2 => .ok .Update
  | 3 => .ok .Notification
  | 4 => .ok .Keepalive
  | _ => .err .static

/-- `src/message/mod.rs:49-56` `BgpMessageType::encode`. -/
def BgpMessageType.encode : BgpMessageType → U8
  | .Open => 1
  | .Update => 2
  | .Notification => 3
  | .Keepalive => 4

/-- `src/lib.rs:671-686`. -/
structure BgpSessionParams where
  asNum : U32
  holdTime : U16
  peerMode : BgpTransportMode
  hasAs32bit : Bool
  routerId : IPv4
  caps : List BgpCapability
  fuzzyPathid : Bool
deriving DecidableEq, Repr

namespace BgpSessionParams

/-- `src/lib.rs:689-705` `new`. -/
def new (asnum : U32) (holdtime : U16) (peermode : BgpTransportMode) (routerid : IPv4)
    (cps : List BgpCapability) : BgpSessionParams :=
  { asNum := asnum, holdTime := holdtime, peerMode := peermode, hasAs32bit := true,
    routerId := routerid, caps := cps, fuzzyPathid := true }

/-- `src/lib.rs:707-714` `open_message`. -/
def openMessage (p : BgpSessionParams) : BgpOpenMessage :=
  { BgpOpenMessage.new with
    asNum := p.asNum, routerId := p.routerId, caps := p.caps, holdTime := p.holdTime }

/-- `src/lib.rs:716-731` `check_caps` (the log call is not modelled). -/
def checkCaps (p : BgpSessionParams) : BgpSessionParams :=
  p.caps.foldl (fun p cap =>
    match cap with
    | .CapASN32 n => { p with hasAs32bit := true, asNum := n }
    | _ => p) { p with hasAs32bit := false }

/-- `src/lib.rs:732-743` `match_addpath_caps`. -/
def matchAddpathCaps (vcaps rcaps : List BgpCapAddPath) : List BgpCapAddPath :=
  (vcaps.filterMap fun vq =>
    rcaps.find? fun rq => vq.afi == rq.afi && vq.safi == rq.safi).map BgpCapAddPath.response

/-- `matches!(q, BgpCapability::CapASN32(_))`. -/
def isASN32 : BgpCapability → Bool
  | .CapASN32 _ => true
  | _ => false

/-- `matches!(q, BgpCapability::CapAddPath(_))`. -/
def isAddPath : BgpCapability → Bool
  | .CapAddPath _ => true
  | _ => false

/-- The closure of `match_caps`, `src/lib.rs:750-779`. -/
def matchCap (rcaps : List BgpCapability) (x : BgpCapability) : Option BgpCapability :=
  match x with
  | .CapASN32 _ => if rcaps.any isASN32 then some x else none
  | .CapAddPath cap =>
    match rcaps.find? isAddPath with
    | some (.CapAddPath icap) => some (.CapAddPath (matchAddpathCaps cap icap))
    | _ => none
  | _ => if rcaps.any (fun q => q == x) then some x else none

/-- `src/lib.rs:745-783` `match_caps`. -/
def matchCaps (p : BgpSessionParams) (rcaps : List BgpCapability) : BgpSessionParams :=
  checkCaps { p with hasAs32bit := false, caps := p.caps.filterMap (matchCap rcaps) }

/-- `src/lib.rs:785-794` `find_addpath`: the loop over `self.caps`. -/
def findAddpathIn (afi : U16) (safi : U8) : List BgpCapability → Option BgpCapAddPath
  | [] => none
  | .CapAddPath mcap :: rest =>
    match mcap.find? fun ap => ap.afi == afi && ap.safi == safi with
    | some r => some r
    | none => findAddpathIn afi safi rest
  | _ :: rest => findAddpathIn afi safi rest

/-- `src/lib.rs:785-794` `find_addpath`. -/
def findAddpath (p : BgpSessionParams) (afi : U16) (safi : U8) : Option BgpCapAddPath :=
  findAddpathIn afi safi p.caps

/-- `src/lib.rs:796-801` `check_addpath_send`. -/
def checkAddpathSend (p : BgpSessionParams) (afi : U16) (safi : U8) : Bool :=
  match p.findAddpath afi safi with
  | none => false
  | some x => x.send

/-- `src/lib.rs:803-808` `check_addpath_receive`. -/
def checkAddpathReceive (p : BgpSessionParams) (afi : U16) (safi : U8) : Bool :=
  match p.findAddpath afi safi with
  | none => false
  | some x => x.receive

/-- `src/lib.rs:810-812` `check_capability`. -/
def checkCapability (p : BgpSessionParams) (cp : BgpCapability) : Bool :=
  p.caps.any (fun x => x == cp)

/-- `src/lib.rs:820-832`: edit the first AddPath capability in place. -/
def editFirstAddPath (f : List BgpCapAddPath → List BgpCapAddPath) :
    List BgpCapability → List BgpCapability
  | [] => []
  | .CapAddPath cvc :: rest => .CapAddPath (f cvc) :: rest
  | c :: rest => c :: editFirstAddPath f rest

/-- `src/lib.rs:814-841` `remove_capability`. `retain(p)` is `List.filter p`. -/
def removeCapability (p : BgpSessionParams) (cp : BgpCapability) : BgpSessionParams :=
  match cp with
  | .CapASN32 _ => { p with caps := p.caps.filter fun x => !isASN32 x }
  | .CapAddPath vc =>
    if p.caps.any isAddPath then
      let edited := editFirstAddPath
        (fun cvc => vc.foldl (fun cvc cp => cvc.filter fun x => x != cp) cvc) p.caps
      { p with caps := edited.filter fun x =>
          match x with
          | .CapAddPath vc => !vc.isEmpty
          | _ => true }
    else p
  | n => { p with caps := p.caps.filter fun x => x != n }

/-- `src/lib.rs:842-845` `remove_capability_addpath`. -/
def removeCapabilityAddpath (p : BgpSessionParams) : BgpSessionParams :=
  { p with caps := p.caps.filter fun x => !isAddPath x }

/-- `src/lib.rs:847-863` `decode_message_head`. -/
def decodeMessageHead (buf : Bytes) : Res (BgpMessageType × Nat) :=
  if buf.length < 19 then .err .static else do
    let marker ← rslice buf 0 16
    if marker.any (fun q => q != 255) then .err .static else do
      let messagetype ← BgpMessageType.decodeFrom (← idx buf 18)
      let len ← subC (← getn16 (← rslice buf 16 18)) 19
      .ok (messagetype, len.toNat)

/-- `src/lib.rs:865-872` `recv_message_head` on a byte stream: the 19 header bytes are taken from the
stream, which is returned as its unread rest. `read_exact` on a stream with fewer bytes is an error. -/
def recvMessageHead (stream : Bytes) : Res ((BgpMessageType × Nat) × Bytes) :=
  if stream.length < 19 then .err .other else do
    let h ← decodeMessageHead (stream.take 19)
    .ok (h, stream.drop 19)

/-- `src/lib.rs:874-889` `prepare_message_buf`. -/
def prepareMessageBuf (buf : Bytes) (messagetype : BgpMessageType) (messagelen : Nat) :
    Res (Bytes × Nat) :=
  if buf.length < messagelen + 19 then .err .insufficientBufferSize else do
    let buf ← copyAt buf 0 16 (List.replicate 16 255)
    let lng ← addC (BitVec.ofNat 16 messagelen) 19
    let buf ← setIdx buf 16 ((lng >>> 8).setWidth 8)
    let buf ← setIdx buf 17 ((lng &&& 0xff).setWidth 8)
    let buf ← setIdx buf 18 messagetype.encode
    .ok (buf, lng.toNat)

/-- `src/lib.rs:891-910` `send_message_buf`. The writer is modelled by the bytes it received;
`write_all` is taken to succeed. Returns the new buffer and the bytes written. -/
def sendMessageBuf (buf : Bytes) (messagetype : BgpMessageType) (messagelen : Nat) :
    Res (Bytes × Bytes) :=
  if buf.length < messagelen + 19 then .err .insufficientBufferSize else do
    let buf ← copyAt buf 0 16 (List.replicate 16 255)
    let lng ← addC (BitVec.ofNat 16 messagelen) 19
    let buf ← setIdx buf 16 ((lng >>> 8).setWidth 8)
    let buf ← setIdx buf 17 ((lng &&& 0xff).setWidth 8)
    let buf ← setIdx buf 18 messagetype.encode
    let out ← rslice buf 0 lng.toNat
    .ok (buf, out)

/-- `src/lib.rs:912-926` `From<&BgpOpenMessage> for BgpSessionParams`. -/
def ofOpen (bom : BgpOpenMessage) : BgpSessionParams :=
  checkCaps
    { asNum := bom.asNum, holdTime := bom.holdTime, peerMode := .IPv4, hasAs32bit := true,
      routerId := bom.routerId, caps := bom.caps, fuzzyPathid := false }

end BgpSessionParams

end Zbgp
