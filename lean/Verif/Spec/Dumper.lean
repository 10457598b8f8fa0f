import Verif.Model.Dumper
import Verif.Spec.UpdateReads
import Verif.Spec.OpenReads
import Verif.Spec.Message

/-!
# What the example program does with the octets it gets

Only the data types of the model are used, none of its functions.
-/

namespace Zbgp.Spec

open Zbgp

/-- The octets begin with a message header: sixteen octets 255, a size, the number of a message type. -/
def HeadIs (s : Bytes) (size : Nat) (ty : BgpMessageType) (rest : Bytes) : Prop :=
  size < 65536 ∧ s = List.replicate 16 255 ++ (be 2 size ++ (be 1 (typeCode ty) ++ rest))

/-- No message header: too few octets, or no marker, or no such type. -/
def NoHead (s : Bytes) : Prop := ¬ ∃ size ty rest, HeadIs s size ty rest

/-- **The loop of the program**: what it prints of a stream of octets, and how that ends, `err` with some error. A header that is
cut off or malformed and a message that is cut off end it with an error, a size of less than the header brings it down. KEEPALIVE is
taken to be the header alone, whatever its size. OPEN and NOTIFICATION are the end. An UPDATE is printed if it can be read, is
complained about if it cannot, and brings the program down if it is one of those that crash the decoder. -/
inductive Dumps (p : BgpSessionParams) : Bytes → List DumperEvent → Res Unit → Prop
  | noHead (s : Bytes) (e : BgpError) (h : NoHead s) : Dumps p s [] (.err e)
  | tiny (s rest : Bytes) (size : Nat) (ty : BgpMessageType) (h : HeadIs s size ty rest) (hs : size < 19) : Dumps p s [] .panic
  | keepalive (s rest : Bytes) (size : Nat) (es : List DumperEvent) (o : Res Unit) (h : HeadIs s size .Keepalive rest)
      (hs : 19 ≤ size) (hr : Dumps p rest es o) : Dumps p s es o
  | cut (s rest : Bytes) (size : Nat) (ty : BgpMessageType) (e : BgpError) (h : HeadIs s size ty rest) (hs : 19 ≤ size)
      (hk : ty ≠ .Keepalive) (hc : rest.length + 19 < size) : Dumps p s [] (.err e)
  | openAgain (body rest : Bytes) (hl : body.length ≤ 65516) :
      Dumps p (message .Open body ++ rest) [.incorrectOpen] (.ok ())
  | notification (body rest : Bytes) (m : BgpNotificationMessage) (hl : body.length ≤ 65516) (h : NotificationRead 0 body m) :
      Dumps p (message .Notification body ++ rest) [.notification m] (.ok ())
  | badNotification (body rest : Bytes) (e : BgpError) (hl : body.length < 2) :
      Dumps p (message .Notification body ++ rest) [.notificationError e] (.ok ())
  | update (body rest : Bytes) (m : BgpUpdateMessage) (es : List DumperEvent) (o : Res Unit) (hl : body.length ≤ 65516)
      (h : UpdateRead p body m.withdraws m.attrs m.updates) (hr : Dumps p rest es o) :
      Dumps p (message .Update body ++ rest) (.update m :: es) o
  | badUpdate (body rest : Bytes) (e : BgpError) (es : List DumperEvent) (o : Res Unit) (hl : body.length ≤ 65516)
      (h : ¬ ∃ w l u, UpdateRead p body w l u) (hc : ¬ UpdateCrash p body) (hr : Dumps p rest es o) :
      Dumps p (message .Update body ++ rest) (.updateError e :: es) o
  | crash (body rest : Bytes) (hl : body.length ≤ 65516) (h : UpdateCrash p body) :
      Dumps p (message .Update body ++ rest) [] .panic

/-- The AS number advertised last. -/
def lastAs (own : U32) : List BgpCapability → U32
  | [] => own
  | .CapASN32 n :: rest => lastAs n rest
  | _ :: rest => lastAs own rest

open Classical in
/-- The session after the OPEN of the peer: its hold time, its capabilities as they are, 32-bit AS numbers if it has them, and as the
own AS number the one the peer advertised. -/
noncomputable def settled (p : BgpSessionParams) (m : BgpOpenMessage) : BgpSessionParams :=
  { p with holdTime := m.holdTime, caps := m.caps, hasAs32bit := decide (∃ n, BgpCapability.CapASN32 n ∈ m.caps),
           asNum := lastAs p.asNum m.caps }

/-- **The answer of the peer** to the OPEN: what becomes of the session, and the octets behind the answer. -/
inductive Starts (p : BgpSessionParams) : Bytes → Res (BgpSessionParams × Bytes) → Prop
  | noHead (s : Bytes) (e : BgpError) (h : NoHead s) : Starts p s (.err e)
  | tiny (s rest : Bytes) (size : Nat) (ty : BgpMessageType) (h : HeadIs s size ty rest) (hs : size < 19) : Starts p s .panic
  | other (s rest : Bytes) (size : Nat) (ty : BgpMessageType) (e : BgpError) (h : HeadIs s size ty rest) (hs : 19 ≤ size)
      (ho : ty ≠ .Open) : Starts p s (.err e)
  | large (s rest : Bytes) (size : Nat) (h : HeadIs s size .Open rest) (hs : 4096 + 19 < size) : Starts p s .panic
  | cut (s rest : Bytes) (size : Nat) (e : BgpError) (h : HeadIs s size .Open rest) (hs : 19 ≤ size) (hl : size ≤ 4096 + 19)
      (hc : rest.length + 19 < size) : Starts p s (.err e)
  | refused (body rest : Bytes) (e : BgpError) (hl : body.length ≤ 4096) (h : ¬ ∃ m, OpenRead body m) :
      Starts p (message .Open body ++ rest) (.err e)
  | answer (body rest : Bytes) (m : BgpOpenMessage) (hl : body.length ≤ 4096) (h : OpenRead body m) :
      Starts p (message .Open body ++ rest) (.ok (settled p m, rest))

/-- Which error it was does not matter. -/
def forget : DumperEvent → DumperEvent
  | .notificationError _ => .notificationError .other
  | .updateError _ => .updateError .other
  | x => x

/-- Which error it was does not matter. -/
def forgetEnd {α : Type} : Res α → Res α
  | .err _ => .err .other
  | x => x

end Zbgp.Spec
