import Verif.Model.Io
import Verif.Spec.Dialogue

/-!
# Programs that talk over connections with short reads, short writes, interruptions and failures
-/

namespace Zbgp.Spec

open Zbgp

/-- The call does not fail: it hands out or takes at least one octet if there is one, or is interrupted. -/
def Steady : IoEvent → Prop
  | .some _ => True
  | .interrupted => True
  | .nothing => False
  | .failed => False

/-- No call fails. -/
def AllSteady (ev : List IoEvent) : Prop := ∀ e ∈ ev, Steady e

/-- How many octets the calls before the first one that fails hand out or take at most; `none`: none of them fails. -/
def room : List IoEvent → Option Nat
  | [] => none
  | .some n :: ev => (room ev).map (· + (n + 1))
  | .interrupted :: ev => room ev
  | .nothing :: _ => some 0
  | .failed :: _ => some 0

/-- This many octets get through before a call fails. -/
def Admits (ev : List IoEvent) (n : Nat) : Prop := ∀ k, room ev = some k → n ≤ k

/-- Says one message after the other on a connection, from one buffer, until one cannot be sent: each is encoded behind the
header and sent with `send_message_buf`. -/
def speak (p : BgpSessionParams) : List Said → Bytes → Outgoing → Res Unit × Outgoing
  | [], _, w => (.ok (), w)
  | m :: ms, buf, w =>
    match onFrom buf 19 (sayer p m).2 with
    | .ok (buf, n) =>
      match BgpSessionParams.sendMessageBufOn buf (sayer p m).1 n w with
      | (.ok (), buf, w) => speak p ms buf w
      | (r, _, w) => (r, w)
    | .err e => (.err e, w)
    | .panic => (.panic, w)
    | .hang => (.hang, w)

/-- Reads one message after the other from a connection with `recv_message_head` and `read_exact`, until this fails: the
messages, and how it ended. -/
def listenLoop (p : BgpSessionParams) : Nat → Incoming → List Said × Res Unit
  | 0, _ => ([], .hang)
  | fuel + 1, r =>
    match BgpSessionParams.recvMessageHeadOn r with
    | (.err e, _) => ([], .err e)
    | (.panic, _) => ([], .panic)
    | (.hang, _) => ([], .hang)
    | (.ok (ty, n), r) =>
      match r.readExact n with
      | (.err e, _) => ([], .err e)
      | (.panic, _) => ([], .panic)
      | (.hang, _) => ([], .hang)
      | (.ok body, r) =>
        match understand p ty body with
        | .ok m => (m :: (listenLoop p fuel r).1, (listenLoop p fuel r).2)
        | .err e => ([], .err e)
        | .panic => ([], .panic)
        | .hang => ([], .hang)

/-- Reads all that comes. -/
def listen (p : BgpSessionParams) (r : Incoming) : List Said × Res Unit := listenLoop p (r.octets.length + 1) r

end Zbgp.Spec
