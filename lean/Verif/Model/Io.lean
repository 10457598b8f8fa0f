import Verif.Model.Dumper

/-!
# Connections that hand out and take octets piece by piece

`std::io::Read` and `std::io::Write` as the library and the example program use them. A connection is modelled by the octets
that come in or went out, and by what its next calls do; when these are used up it hands out or takes all it is asked for.
`read_exact` and `write_all` are the default methods of the standard library, which `TcpStream` does not override. An error of
the connection becomes `BgpError::Other` by `From<std::io::Error>` (`src/error.rs:73-78`).
-/

namespace Zbgp

/-- What one call of `read` or `write` does. -/
inductive IoEvent
  /-- up to `n + 1` octets -/
  | some (n : Nat)
  /-- `ErrorKind::Interrupted` -/
  | interrupted
  /-- `Ok(0)` -/
  | nothing
  /-- any other error -/
  | failed
deriving DecidableEq

/-- What one call of `read` returns. -/
inductive IoRead
  | ok (b : Bytes)
  | interrupted
  | failed

/-- A connection to read from: how the next calls go, and the octets the other end sends before it closes the connection. -/
structure Incoming where
  events : List IoEvent
  octets : Bytes

/-- `std::io::Read::read` into a buffer of `want` octets. -/
def Incoming.read (r : Incoming) (want : Nat) : IoRead × Incoming :=
  match r.events with
  | [] => (.ok (r.octets.take want), ⟨[], r.octets.drop want⟩)
  | .some n :: ev => (.ok (r.octets.take (min (n + 1) want)), ⟨ev, r.octets.drop (min (n + 1) want)⟩)
  | .interrupted :: ev => (.interrupted, ⟨ev, r.octets⟩)
  | .nothing :: ev => (.ok [], ⟨ev, r.octets⟩)
  | .failed :: ev => (.failed, ⟨ev, r.octets⟩)

/-- The loop of `std::io::Read::read_exact`: `want` octets are still missing, `acc` is what was read. The fuel is the number of
calls allowed. -/
def Incoming.readLoop : Nat → Incoming → Nat → Bytes → Res Bytes × Incoming
  | 0, r, want, acc => if want = 0 then (.ok acc, r) else (.hang, r)
  | fuel + 1, r, want, acc =>
    if want = 0 then (.ok acc, r)
    else
      match r.read want with
      | (.ok b, r) => if b.length = 0 then (.err .other, r) else Incoming.readLoop fuel r (want - b.length) (acc ++ b)
      | (.interrupted, r) => Incoming.readLoop fuel r want acc
      | (.failed, r) => (.err .other, r)

/-- `std::io::Read::read_exact`. -/
def Incoming.readExact (r : Incoming) (want : Nat) : Res Bytes × Incoming :=
  Incoming.readLoop (want + r.events.length + 1) r want []

/-- A connection to write to: how the next calls go, and the octets it took. -/
structure Outgoing where
  events : List IoEvent
  sent : Bytes

/-- `std::io::Write::write`: the number of octets taken. -/
def Outgoing.write (w : Outgoing) (b : Bytes) : IoRead × Outgoing :=
  match w.events with
  | [] => (.ok b, ⟨[], w.sent ++ b⟩)
  | .some n :: ev => (.ok (b.take (n + 1)), ⟨ev, w.sent ++ b.take (n + 1)⟩)
  | .interrupted :: ev => (.interrupted, ⟨ev, w.sent⟩)
  | .nothing :: ev => (.ok [], ⟨ev, w.sent⟩)
  | .failed :: ev => (.failed, ⟨ev, w.sent⟩)

/-- The loop of `std::io::Write::write_all`. -/
def Outgoing.writeLoop : Nat → Outgoing → Bytes → Res Unit × Outgoing
  | 0, w, b => if b.isEmpty then (.ok (), w) else (.hang, w)
  | fuel + 1, w, b =>
    if b.isEmpty then (.ok (), w)
    else
      match w.write b with
      | (.ok t, w) => if t.length = 0 then (.err .other, w) else Outgoing.writeLoop fuel w (b.drop t.length)
      | (.interrupted, w) => Outgoing.writeLoop fuel w b
      | (.failed, w) => (.err .other, w)

/-- `std::io::Write::write_all`. -/
def Outgoing.writeAll (w : Outgoing) (b : Bytes) : Res Unit × Outgoing :=
  Outgoing.writeLoop (b.length + w.events.length + 1) w b

namespace BgpSessionParams

/-- `src/lib.rs:865-872` `recv_message_head`, and the same function in `examples/bgpdumper.rs:31-35`. -/
def recvMessageHeadOn (r : Incoming) : Res (BgpMessageType × Nat) × Incoming :=
  match r.readExact 19 with
  | (.ok buf, r) => (decodeMessageHead buf, r)
  | (.err e, r) => (.err e, r)
  | (.panic, r) => (.panic, r)
  | (.hang, r) => (.hang, r)

/-- `src/lib.rs:891-910` `send_message_buf`: how it ends, and the buffer and the connection afterwards (if the header cannot be
made: as they were; the buffer is not looked at then). -/
def sendMessageBufOn (buf : Bytes) (messagetype : BgpMessageType) (messagelen : Nat) (w : Outgoing) :
    Res Unit × Bytes × Outgoing :=
  match sendMessageBuf buf messagetype messagelen with
  | .ok (buf, out) =>
    match w.writeAll out with
    | (r, w) => (r, buf, w)
  | .err e => (.err e, buf, w)
  | .panic => (.panic, buf, w)
  | .hang => (.hang, buf, w)

end BgpSessionParams

/-! ## The example program -/

/-- `examples/bgpdumper.rs:49-63`: `dumperAnswer` with a connection. -/
def dumperAnswerOn (p : BgpSessionParams) (buf : Bytes) (r : Incoming) : Res BgpSessionParams × Incoming :=
  match BgpSessionParams.recvMessageHeadOn r with
  | (.err e, r) => (.err e, r)
  | (.panic, r) => (.panic, r)
  | (.hang, r) => (.hang, r)
  | (.ok (ty, n), r) =>
    if ty ≠ .Open then (.err .static, r)
    else if buf.length < n then (.panic, r)
    else
      match r.readExact n with
      | (.err e, r) => (.err e, r)
      | (.panic, r) => (.panic, r)
      | (.hang, r) => (.hang, r)
      | (.ok body, r) =>
        ((do
          let bom ← p.openMessage.decodeFrom body
          .ok { p with holdTime := bom.holdTime, caps := bom.caps }.checkCaps), r)

/-- `examples/bgpdumper.rs:36-64` `start_active`, with the connection in both directions. -/
def startActiveOn (p : BgpSessionParams) (r : Incoming) (w : Outgoing) : Res BgpSessionParams × Incoming × Outgoing :=
  match dumperOpen p with
  | .ok (buf, out) =>
    match w.writeAll out with
    | (.ok (), w) =>
      match dumperAnswerOn p buf r with
      | (x, r) => (x, r, w)
    | (.err e, w) => (.err e, r, w)
    | (.panic, w) => (.panic, r, w)
    | (.hang, w) => (.hang, r, w)
  | .err e => (.err e, r, w)
  | .panic => (.panic, r, w)
  | .hang => (.hang, r, w)

/-- `examples/bgpdumper.rs:76-86` `start_keepalives`: `n` rounds of the thread, without the time it sleeps: whether it still runs,
and the connection. -/
def keepalivesOn : Nat → Outgoing → Bool × Outgoing
  | 0, w => (true, w)
  | n + 1, w =>
    match sendKeepalive with
    | .ok b =>
      match w.writeAll b with
      | (.ok (), w) => keepalivesOn n w
      | (_, w) => (false, w)
    | _ => (false, w)

/-- `examples/bgpdumper.rs:90-132`: `lifecycleLoop` with a connection. -/
def lifecycleLoopOn (p : BgpSessionParams) : Nat → Incoming → List DumperEvent × Res Unit
  | 0, _ => ([], .hang)
  | fuel + 1, r =>
    match BgpSessionParams.recvMessageHeadOn r with
    | (.err e, _) => ([], .err e)
    | (.panic, _) => ([], .panic)
    | (.hang, _) => ([], .hang)
    | (.ok (ty, n), r) =>
      if ty = .Keepalive then lifecycleLoopOn p fuel r
      else if 65536 < n then ([], .panic)
      else
        match r.readExact n with
        | (.err e, _) => ([], .err e)
        | (.panic, _) => ([], .panic)
        | (.hang, _) => ([], .hang)
        | (.ok body, r) =>
          match ty with
          | .Open => ([.incorrectOpen], .ok ())
          | .Keepalive => lifecycleLoopOn p fuel r
          | .Notification =>
            match BgpNotificationMessage.new.decodeFrom body with
            | .ok m => ([.notification m], .ok ())
            | .err e => ([.notificationError e], .ok ())
            | .panic => ([], .panic)
            | .hang => ([], .hang)
          | .Update =>
            match BgpUpdateMessage.new.decodeFrom p body with
            | .ok m =>
              let (l, x) := lifecycleLoopOn p fuel r
              (.update m :: l, x)
            | .err e =>
              let (l, x) := lifecycleLoopOn p fuel r
              (.updateError e :: l, x)
            | .panic => ([], .panic)
            | .hang => ([], .hang)

/-- `examples/bgpdumper.rs:87-134` `lifecycle`. -/
def lifecycleOn (p : BgpSessionParams) (r : Incoming) : List DumperEvent × Res Unit :=
  lifecycleLoopOn p (r.octets.length + 1) r

/-- `examples/bgpdumper.rs:163-197` `main`, from the connection on: what was sent, what was printed, and how it ended. -/
def dumperMainOn (p : BgpSessionParams) (r : Incoming) (w : Outgoing) : Bytes × List DumperEvent × Res Unit :=
  match startActiveOn p r w with
  | (.ok p', r, w) =>
    match lifecycleOn p' r with
    | (l, .err _) => (w.sent, l, .panic)
    | (l, x) => (w.sent, l, x)
  | (.err _, _, w) => (w.sent, [], .ok ())
  | (.panic, _, w) => (w.sent, [], .panic)
  | (.hang, _, w) => (w.sent, [], .hang)

end Zbgp
