import Verif.Model.Update
import Verif.Model.Open

/-!
# `decode_from` of the messages, with the message object after the call

`BgpMessage::decode_from` takes `&mut self` and writes its fields as it goes. `BgpUpdateMessage.decodeFrom` and
`BgpOpenMessage.decodeFrom` give the new contents if the call succeeds; the functions here also give the contents if the call
returns an error or panics. They are written down a second time after the code, statement by statement; that the two agree is a
theorem (C106).
-/

namespace Zbgp

/-- The `?` operator and a panic, in a function with `&mut self`: if `r` is not `Ok` the function ends and the object stays as
it is at this point. -/
def leave {α β σ : Type} (s : σ) (r : Res α) (f : α → Res β × σ) : Res β × σ :=
  match r with
  | .ok a => f a
  | .err e => (.err e, s)
  | .panic => (.panic, s)
  | .hang => (.hang, s)

namespace BgpUpdateMessage

/-- One round of the loop `src/message/update/mod.rs:152-177`, up to the decoded attribute, and the `curpos` behind it. -/
def attrRound (peer : BgpSessionParams) (buf : Bytes) (stop curpos : Nat) : Res (BgpAttrItem × Nat) := do
  let flags ← idx buf curpos
  let tc ← idx buf (curpos + 1)
  let (curpos, attrlen) ← (if flags &&& 16 > 0 then do
      .ok (curpos + 4, (← getn16 (← sliceE buf (curpos + 4 - 2) (curpos + 4))).toNat)
    else do
      .ok (curpos + 3, (← idx buf (curpos + 3 - 1)).toNat) : Res (Nat × Nat))
  if curpos + attrlen > stop then .err .protocolError
  else
    let x ← BgpAttrItem.decodeFrom peer tc flags attrlen (← sliceE buf curpos (curpos + attrlen))
    .ok (x, curpos + attrlen)

/-- The loop `src/message/update/mod.rs:152-177`: `self.attrs.push` after each round. The fuel is the number of rounds
allowed. -/
def attrLoopInto (peer : BgpSessionParams) (buf : Bytes) (stop : Nat) :
    Nat → Nat → BgpUpdateMessage → Res Nat × BgpUpdateMessage
  | fuel, curpos, self =>
    if curpos < stop then
      match fuel with
      | 0 => (.hang, self)
      | fuel + 1 => leave self (attrRound peer buf stop curpos) fun (x, curpos) =>
        attrLoopInto peer buf stop fuel curpos { self with attrs := self.attrs ++ [x] }
    else (.ok curpos, self)

/-- `src/message/update/mod.rs:112-204` `decode_from`: the result and the object after the call. -/
def decodeInto (self : BgpUpdateMessage) (peer : BgpSessionParams) (buf : Bytes) : Res Unit × BgpUpdateMessage :=
  leave self (do getn16 (← sliceE buf 0 2)) fun withdrawsLength =>
  let withdrawsEnd := 2 + withdrawsLength.toNat
  if buf.length ≤ withdrawsEnd then (.err .insufficientBufferSize, self) else
  leave self (do decodeNlri peer (← sliceE buf 2 withdrawsEnd)) fun withdraws =>
  let self := { self with withdraws := withdraws }
  leave self (do getn16 (← sliceE buf withdrawsEnd (withdrawsEnd + 2))) fun pathattrLen =>
  let curpos := withdrawsEnd + 2
  let pathattrEnd := curpos + pathattrLen.toNat
  if pathattrEnd > buf.length then (.err .protocolError, self) else
  let (r, self) := attrLoopInto peer buf pathattrEnd pathattrEnd curpos self
  leave self r fun curpos =>
  leave self (do decodeNlri peer (← sliceE buf curpos buf.length)) fun updates =>
  (.ok (), { self with updates := updates })

end BgpUpdateMessage

namespace BgpOpenMessage

/-- The inner loop of `decode_from`, `src/message/open.rs:62-74`: `self.caps.push` after each capability that is known. The
`Bytes` argument is `buf[pos..]`, the result what is left of it. -/
def decodeCapsInto : Nat → Bytes → Nat → BgpOpenMessage → Res Bytes × BgpOpenMessage
  | 0, _, _, self => (.hang, self)
  | fuel + 1, rest, optlen, self =>
    if optlen = 0 then (.ok rest, self) else
    leave self (do BgpCapability.fromBuffer (← sliceE rest 0 optlen)) fun (cap, n) =>
    leave self (subN optlen n) fun optlen =>
    decodeCapsInto fuel (rest.drop n) optlen
      (match cap with
        | .inl cap => { self with caps := self.caps ++ [cap] }
        | .inr _ => self)

/-- The outer loop of `decode_from`, `src/message/open.rs:53-75`. The argument is `buf[pos..]`. -/
def decodeParamsInto : Nat → Bytes → BgpOpenMessage → Res Unit × BgpOpenMessage
  | 0, _, self => (.hang, self)
  | fuel + 1, rest, self =>
    if 1 < rest.length then
      leave self (idx rest 0) fun t =>
      if t != 2 then (.err .dynStr, self) else
      leave self (idx rest 1) fun optlen =>
      let (r, self) := decodeCapsInto (rest.length + 1) (rest.drop 2) optlen.toNat self
      leave self r fun rest => decodeParamsInto fuel rest self
    else (.ok (), self)

/-- `src/message/open.rs:33-77` `decode_from`: the result and the object after the call. -/
def decodeInto (self : BgpOpenMessage) (buf : Bytes) : Res Unit × BgpOpenMessage :=
  if buf.length < 10 then (.err .insufficientBufferSize, self) else
  leave self (idx buf 0) fun v =>
  if v != 4 then (.err .static, self) else
  leave self (sliceE buf 1 buf.length) fun head =>
  leave self (do .ok (loadLe16 (← idx head 0) (← idx head 1))) fun asNum =>
  let self := { self with asNum := (ntoh16 asNum).setWidth 32 }
  leave self (do .ok (loadLe16 (← idx head 2) (← idx head 3))) fun holdTime =>
  let self := { self with holdTime := ntoh16 holdTime }
  leave self (do .ok (BitVec.ofNat 32 (Spec.unbe [← idx head 4, ← idx head 5, ← idx head 6, ← idx head 7]))) fun rid =>
  let self := { self with routerId := rid }
  let self := { self with caps := [] }
  decodeParamsInto (buf.length + 1) (buf.drop 10) self

end BgpOpenMessage

/-- `src/message/notification.rs:137-150` `decode_from`: the result and the object after the call. -/
def BgpNotificationMessage.decodeInto (self : BgpNotificationMessage) (buf : Bytes) : Res Unit × BgpNotificationMessage :=
  if buf.length < 2 then (.err .static, self) else
  leave self (idx buf 0) fun errorCode =>
  let self := { self with errorCode := errorCode }
  leave self (idx buf 1) fun errorSubcode =>
  let self := { self with errorSubcode := errorSubcode }
  leave self (if buf.length = 3 then do .ok ((← idx buf 2).setWidth 16) else .ok self.data) fun data =>
  let self := { self with data := data }
  leave self (if buf.length > 3 then do
      .ok (((← idx buf 2).setWidth 16 <<< 8) ||| (← idx buf 3).setWidth 16)
    else .ok self.data) fun data =>
  (.ok (), { self with data := data })

end Zbgp
