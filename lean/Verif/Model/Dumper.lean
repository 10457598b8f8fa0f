import Verif.Model.Open
import Verif.Model.Update

/-!
# The example program: `examples/bgpdumper.rs`

The TCP stream is modelled by the octets the peer sends before it closes the connection and by the octets written to it;
writing is taken to succeed. `read_exact` with too few octets left is an error. What is printed is modelled by the messages;
their texts are in `Verif/Model/Debug.lean`. The thread that sends keepalives (lines 76-86) is modelled by what it sends.
-/

namespace Zbgp

/-- What the program prints while it runs, `examples/bgpdumper.rs:101-130`. -/
inductive DumperEvent
  | incorrectOpen
  | notification (m : BgpNotificationMessage)
  | notificationError (e : BgpError)
  | update (m : BgpUpdateMessage)
  | updateError (e : BgpError)

/-- `examples/bgpdumper.rs:164-185`: the parameters `main` makes for the peer with the AS number given. -/
def dumperParams (targetasn : U32) : BgpSessionParams :=
  .new targetasn 180 .IPv4 0x01000000
    [.SafiIPv4u, .SafiIPv4m, .SafiIPv4lu, .SafiIPv6lu, .SafiVPNv4u, .SafiVPNv4m, .SafiVPNv6u, .SafiVPNv6m, .SafiIPv4mvpn,
      .SafiVPLS, .CapRR, .CapASN32 targetasn]

/-- `examples/bgpdumper.rs:37-48`: what is written to the peer before anything is read, with the buffer. -/
def dumperOpen (p : BgpSessionParams) : Res (Bytes × Bytes) := do
  let buf : Bytes := List.replicate 4096 255
  let (buf, messagelen) ← onFrom buf 19 p.openMessage.encodeTo
  let (buf, blen) ← BgpSessionParams.prepareMessageBuf buf .Open messagelen
  let out ← rslice buf 0 blen
  .ok (buf, out)

/-- `examples/bgpdumper.rs:49-63`: the answer of the peer. The slice `buf[0..msg.1]` of the buffer of 4096 octets, and then
`read_exact` into it. `bom` is the own message, whose fields are overwritten. -/
def dumperAnswer (p : BgpSessionParams) (buf : Bytes) (stream : Bytes) : Res (BgpSessionParams × Bytes) := do
  let ((ty, n), stream) ← BgpSessionParams.recvMessageHead stream
  if ty ≠ .Open then .err .static
  else do
    let _ ← rslice buf 0 n
    if stream.length < n then .err .other
    else do
      let bom ← p.openMessage.decodeFrom (stream.take n)
      .ok ({ p with holdTime := bom.holdTime, caps := bom.caps }.checkCaps, stream.drop n)

/-- `examples/bgpdumper.rs:36-64` `start_active`: what was written, and how it ended: the parameters of the session and what
the peer sent after its OPEN. -/
def startActive (p : BgpSessionParams) (stream : Bytes) : Bytes × Res (BgpSessionParams × Bytes) :=
  match dumperOpen p with
  | .ok (buf, out) => (out, dumperAnswer p buf stream)
  | .err e => ([], .err e)
  | .panic => ([], .panic)
  | .hang => ([], .hang)

/-- `examples/bgpdumper.rs:65-75` `send_keepalive`: what is written. -/
def sendKeepalive : Res Bytes := do
  let buf : Bytes := List.replicate 19 255
  let buf ← copyAt buf 0 16 (List.replicate 16 255)
  let buf ← setIdx buf 16 0
  let buf ← setIdx buf 17 19
  setIdx buf 18 4

/-- `examples/bgpdumper.rs:90-132`: the loop of `lifecycle`: what is printed, and how it ended. The buffer has 65536 octets.
One step takes at least 19 octets from the stream; running out of fuel would be `hang`. -/
def lifecycleLoop (p : BgpSessionParams) : Nat → Bytes → List DumperEvent × Res Unit
  | 0, _ => ([], .hang)
  | fuel + 1, stream =>
    match BgpSessionParams.recvMessageHead stream with
    | .err e => ([], .err e)
    | .panic => ([], .panic)
    | .hang => ([], .hang)
    | .ok ((ty, n), stream) =>
      if ty = .Keepalive then lifecycleLoop p fuel stream
      else if 65536 < n then ([], .panic)
      else if stream.length < n then ([], .err .other)
      else
        match ty with
        | .Open => ([.incorrectOpen], .ok ())
        | .Keepalive => lifecycleLoop p fuel (stream.drop n)
        | .Notification =>
          match BgpNotificationMessage.new.decodeFrom (stream.take n) with
          | .ok m => ([.notification m], .ok ())
          | .err e => ([.notificationError e], .ok ())
          | .panic => ([], .panic)
          | .hang => ([], .hang)
        | .Update =>
          match BgpUpdateMessage.new.decodeFrom p (stream.take n) with
          | .ok m =>
            let (l, r) := lifecycleLoop p fuel (stream.drop n)
            (.update m :: l, r)
          | .err e =>
            let (l, r) := lifecycleLoop p fuel (stream.drop n)
            (.updateError e :: l, r)
          | .panic => ([], .panic)
          | .hang => ([], .hang)

/-- `examples/bgpdumper.rs:87-134` `lifecycle`. -/
def lifecycle (p : BgpSessionParams) (stream : Bytes) : List DumperEvent × Res Unit :=
  lifecycleLoop p (stream.length + 1) stream

/-- `examples/bgpdumper.rs:163-197` `main`, from the connection on: what was sent to the peer, what was printed about its
messages, and how it ended: `lifecycle().unwrap()` panics on an error. -/
def dumperMain (p : BgpSessionParams) (stream : Bytes) : Bytes × List DumperEvent × Res Unit :=
  match startActive p stream with
  | (out, .ok (p', rest)) =>
    match lifecycle p' rest with
    | (l, .err _) => (out, l, .panic)
    | (l, r) => (out, l, r)
  | (out, .err _) => (out, [], .ok ())
  | (out, .panic) => (out, [], .panic)
  | (out, .hang) => (out, [], .hang)

end Zbgp
