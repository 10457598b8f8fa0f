import Verif.Model.Attrs

/-!
# The UPDATE message: `src/message/update/mod.rs`
-/

namespace Zbgp

/-- `src/message/update/mod.rs:16-23`. -/
structure BgpUpdateMessage where
  updates : BgpAddrs
  withdraws : BgpAddrs
  attrs : List BgpAttrItem

namespace BgpUpdateMessage

/-- `src/message/update/mod.rs:26-32` `new`. -/
def new : BgpUpdateMessage := ⟨.None, .None, []⟩

/-- The loop of the accessors, `src/message/update/mod.rs:35-40` and its seven copies: the first item `f` accepts. -/
def firstAttr {α : Type} (f : BgpAttrItem → Option α) : List BgpAttrItem → Option α
  | [] => none
  | i :: r =>
    match f i with
    | some n => some n
    | none => firstAttr f r

/-- `src/message/update/mod.rs:34-41` `get_attr_origin`. -/
def getAttrOrigin (x : BgpUpdateMessage) : Option BgpOrigin := firstAttr (fun | .Origin n => some n | _ => none) x.attrs
/-- `src/message/update/mod.rs:43-50` `get_attr_aspath`. -/
def getAttrAspath (x : BgpUpdateMessage) : Option BgpASpath := firstAttr (fun | .ASPath n => some n | _ => none) x.attrs
/-- `src/message/update/mod.rs:52-59` `get_attr_communitylist`. -/
def getAttrCommunitylist (x : BgpUpdateMessage) : Option BgpCommunityList :=
  firstAttr (fun | .CommunityList n => some n | _ => none) x.attrs
/-- `src/message/update/mod.rs:61-68` `get_attr_largecommunitylist`. -/
def getAttrLargecommunitylist (x : BgpUpdateMessage) : Option BgpLargeCommunityList :=
  firstAttr (fun | .LargeCommunityList n => some n | _ => none) x.attrs
/-- `src/message/update/mod.rs:70-77` `get_attr_extcommunitylist`. -/
def getAttrExtcommunitylist (x : BgpUpdateMessage) : Option BgpExtCommunityList :=
  firstAttr (fun | .ExtCommunityList n => some n | _ => none) x.attrs
/-- `src/message/update/mod.rs:79-86` `get_attr_nexthop`. -/
def getAttrNexthop (x : BgpUpdateMessage) : Option BgpNextHop := firstAttr (fun | .NextHop n => some n | _ => none) x.attrs
/-- `src/message/update/mod.rs:88-95` `get_mpupdates`. -/
def getMpupdates (x : BgpUpdateMessage) : Option BgpMPUpdates := firstAttr (fun | .MPUpdates n => some n | _ => none) x.attrs
/-- `src/message/update/mod.rs:97-104` `get_mpwithdraws`. -/
def getMpwithdraws (x : BgpUpdateMessage) : Option BgpMPWithdraws :=
  firstAttr (fun | .MPWithdraws n => some n | _ => none) x.attrs

/-- The two `match`es on the transport, `src/message/update/mod.rs:120-143` (withdrawn) and `178-201` (announced): the
plain or the AddPath decoder of the unicast family of the transport. -/
def decodeNlri (peer : BgpSessionParams) (buf : Bytes) : Res BgpAddrs := do
  let (r, _) ← (match peer.peerMode with
    | .IPv4 => BgpAddrs.decodeAddpath peer 1 1 .IPV4UP .IPV4U buf
    | .IPv6 => BgpAddrs.decodeAddpath peer 2 1 .IPV6UP .IPV6U buf)
  .ok r

/-- The loop `src/message/update/mod.rs:152-177`: attributes from `curpos` to `stop` in the whole message `buf`, and the
final `curpos`. The fuel is the number of rounds allowed. -/
def attrLoop (peer : BgpSessionParams) (buf : Bytes) (stop : Nat) : Nat → Nat → Res (List BgpAttrItem × Nat)
  | fuel, curpos =>
    if curpos < stop then
      match fuel with
      | 0 => .hang
      | fuel + 1 => do
        let flags ← idx buf curpos
        let tc ← idx buf (curpos + 1)
        let (curpos, attrlen) ← (if flags &&& 16 > 0 then do
            .ok (curpos + 4, (← getn16 (← sliceE buf (curpos + 4 - 2) (curpos + 4))).toNat)
          else do
            .ok (curpos + 3, (← idx buf (curpos + 3 - 1)).toNat) : Res (Nat × Nat))
        if curpos + attrlen > stop then .err .protocolError
        else
          let x ← BgpAttrItem.decodeFrom peer tc flags attrlen (← sliceE buf curpos (curpos + attrlen))
          let (r, e) ← attrLoop peer buf stop fuel (curpos + attrlen)
          .ok (x :: r, e)
    else .ok ([], curpos)

/-- `src/message/update/mod.rs:112-204` `decode_from`: the new contents of the object. On an error the code leaves the
object partly changed; this function returns the error alone, and `decodeInto` in `Model/Into.lean` also what is left. -/
def decodeFrom (self : BgpUpdateMessage) (peer : BgpSessionParams) (buf : Bytes) : Res BgpUpdateMessage := do
  let withdrawsLength := (← getn16 (← sliceE buf 0 2)).toNat
  let withdrawsEnd := 2 + withdrawsLength
  if buf.length ≤ withdrawsEnd then .err .insufficientBufferSize
  else
    let withdraws ← decodeNlri peer (← sliceE buf 2 withdrawsEnd)
    let pathattrLen := (← getn16 (← sliceE buf withdrawsEnd (withdrawsEnd + 2))).toNat
    let curpos := withdrawsEnd + 2
    let pathattrEnd := curpos + pathattrLen
    if pathattrEnd > buf.length then .err .protocolError
    else
      let (attrs, curpos) ← attrLoop peer buf pathattrEnd pathattrEnd curpos
      let updates ← decodeNlri peer (← sliceE buf curpos buf.length)
      .ok ⟨updates, withdraws, self.attrs ++ attrs⟩

/-- The two `match`es on the transport and the collection, `src/message/update/mod.rs:208-250` (withdrawn) and `264-287`
(announced): the encoder of a collection of the unicast family of the transport, nothing for any other. -/
def nlriEncoder (peer : BgpSessionParams) (x : BgpAddrs) : Option Enc :=
  match peer.peerMode, x with
  | .IPv4, .IPV4U v => some (encodeItems v)
  | .IPv4, .IPV4UP v => some (encodePathIdItems v)
  | .IPv6, .IPV6U v => some (encodeItems v)
  | .IPv6, .IPV6UP v => some (encodePathIdItems v)
  | _, _ => none

/-- The loop `src/message/update/mod.rs:253-258`. -/
def encodeAttrs (peer : BgpSessionParams) (lenPos : Nat) : List BgpAttrItem → Bytes → Nat → Res (Bytes × Nat)
  | [], buf, curpos => .ok (buf, curpos)
  | a :: r, buf, curpos =>
    if curpos - lenPos > 65535 then .err .static
    else do
      let (buf, n) ← onSliceE buf curpos buf.length (a.encodeTo peer)
      encodeAttrs peer lenPos r buf (curpos + n)

/-- `src/message/update/mod.rs:208-250`: the withdrawn routes, and `curpos` behind them. -/
def encodeWithdraws (x : BgpUpdateMessage) (peer : BgpSessionParams) (buf : Bytes) : Res (Bytes × Nat) :=
  match nlriEncoder peer x.withdraws with
  | some enc => do
    let (buf, wlen) ← onSliceE buf 2 buf.length enc
    if wlen > 65535 then .err .tooManyData
    else
      let (buf, _) ← onSliceE buf 0 buf.length fun b => do .ok (← setn16 (BitVec.ofNat 16 wlen) b, ())
      .ok (buf, 2 + wlen)
  | none => do .ok (← setn16 0 buf, 2)

/-- `src/message/update/mod.rs:205-289` `encode_to`. -/
def encodeTo (x : BgpUpdateMessage) (peer : BgpSessionParams) (buf : Bytes) : Res (Bytes × Nat) := do
  let (buf, lenPos) ← x.encodeWithdraws peer buf
  let (buf, curpos) ← encodeAttrs peer lenPos x.attrs buf (lenPos + 2)
  let (buf, _) ← onSliceE buf lenPos (lenPos + 2) fun b => do
    .ok (← setn16 (BitVec.ofNat 16 (curpos - lenPos - 2)) b, ())
  match nlriEncoder peer x.updates with
  | some enc => do
    let (buf, n) ← onSliceE buf curpos buf.length enc
    .ok (buf, curpos + n)
  | none => .ok (buf, curpos)

end BgpUpdateMessage

end Zbgp
