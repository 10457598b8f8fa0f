import Verif.Model.Open
import Verif.Model.Update
import Verif.Spec.TwoEnds
import Verif.Spec.Update

/-!
# Two programs that talk BGP with the library

Both ends of a connection are programs that use the library the way its documentation does (`src/lib.rs:63-85`): a message is
encoded into the buffer behind the 19 octets of the header, the header is put before it, and this much of the buffer is written to
the connection; the other end reads the header, then the body, and decodes it.
-/

namespace Zbgp.Spec

open Zbgp

/-- What is said once the session is up. -/
inductive Said
  | keepalive
  | update (m : BgpUpdateMessage)
  | notification (m : BgpNotificationMessage)

/-- Says one message, from a buffer that is used for all messages: the buffer afterwards and what is written. -/
def say (ty : BgpMessageType) (enc : Enc) (buf : Bytes) : Res (Bytes × Bytes) := do
  let (buf, n) ← onFrom buf 19 enc
  let (buf, len) ← BgpSessionParams.prepareMessageBuf buf ty n
  let out ← rslice buf 0 len
  .ok (buf, out)

/-- The first message. -/
def greet (own : BgpSessionParams) (buf : Bytes) : Res (Bytes × Bytes) := say .Open own.openMessage.encodeTo buf

/-- Reads the first message of the other end and settles the session: the session, and the octets behind the message. -/
def meet (own : BgpSessionParams) (stream : Bytes) : Res (BgpSessionParams × Bytes) := do
  let ((ty, n), stream) ← BgpSessionParams.recvMessageHead stream
  if ty ≠ .Open ∨ stream.length < n then .err .other
  else do
    let m ← BgpOpenMessage.new.decodeFrom (stream.take n)
    .ok (own.matchCaps m.caps, stream.drop n)

/-- The encoder of a message in a session. -/
def sayer (p : BgpSessionParams) : Said → BgpMessageType × Enc
  | .keepalive => (.Keepalive, keepaliveEncode)
  | .update m => (.Update, m.encodeTo p)
  | .notification m => (.Notification, m.encodeTo)

/-- Says one message after the other. -/
def sayAll (p : BgpSessionParams) : List Said → Bytes → Res Bytes
  | [], _ => .ok []
  | m :: ms, buf => do
    let (buf, out) ← say (sayer p m).1 (sayer p m).2 buf
    let more ← sayAll p ms buf
    .ok (out ++ more)

/-- Decodes one message in a session. -/
def understand (p : BgpSessionParams) (ty : BgpMessageType) (body : Bytes) : Res Said :=
  match ty with
  | .Open => .err .other
  | .Keepalive => do
    let _ ← keepaliveDecode body
    .ok .keepalive
  | .Update => do
    let m ← BgpUpdateMessage.new.decodeFrom p body
    .ok (.update m)
  | .Notification => do
    let m ← BgpNotificationMessage.new.decodeFrom body
    .ok (.notification m)

/-- Reads one message after the other, until the connection is closed: the messages, and how it ended. One message takes at
least 19 octets; running out of fuel would be `hang`. -/
def hearLoop (p : BgpSessionParams) : Nat → Bytes → List Said × Res Unit
  | 0, _ => ([], .hang)
  | fuel + 1, stream =>
    if stream.isEmpty then ([], .ok ())
    else
      match BgpSessionParams.recvMessageHead stream with
      | .err e => ([], .err e)
      | .panic => ([], .panic)
      | .hang => ([], .hang)
      | .ok ((ty, n), stream) =>
        if stream.length < n then ([], .err .other)
        else
          match understand p ty (stream.take n) with
          | .ok m => (m :: (hearLoop p fuel (stream.drop n)).1, (hearLoop p fuel (stream.drop n)).2)
          | .err e => ([], .err e)
          | .panic => ([], .panic)
          | .hang => ([], .hang)

/-- Reads all that comes. -/
def hear (p : BgpSessionParams) (stream : Bytes) : List Said × Res Unit := hearLoop p (stream.length + 1) stream

/-- The message can be said in the session from a buffer of this size: an UPDATE in the form the session calls for, with sections
and a message of at most 65535 octets. -/
def Sayable (p : BgpSessionParams) (size : Nat) : Said → Prop
  | .keepalive => 19 ≤ size
  | .update m => SendOk p m ∧ (addrsWire m.withdraws).length ≤ 65535 ∧ (attrsWire p m.attrs).length ≤ 65535 ∧
      (updateWire p m).length ≤ 65516 ∧ 19 + (updateWire p m).length ≤ size
  | .notification _ => 23 ≤ size

/-- The message as the other end has it: an UPDATE with what cannot be told from its octets filled in. -/
def asHeard (p : BgpSessionParams) : Said → Said
  | .update m => .update (messageReceived p m)
  | m => m

end Zbgp.Spec
