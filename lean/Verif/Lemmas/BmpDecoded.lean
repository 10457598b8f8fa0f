import Verif.Spec.Bmp

/-! # What the BMP decoders do, said with the decoders

These predicates are used in proofs only; `Lemmas/BmpReads.lean` shows that they are those of the specification. -/

namespace Zbgp

open Spec

/-- The message is a peer-up that decodes to `m`. -/
def PeerUpDec (buf : Bytes) (m : BmpMessagePeerUp) : Prop :=
  ∃ body n, buf = 3 :: body ∧ BmpMessagePeerUp.decodeFrom body = .ok (m, n)

/-- The message is a peer-down that decodes to `m`. -/
def PeerDownDec (buf : Bytes) (m : BmpMessagePeerDown) : Prop :=
  ∃ body n, buf = 2 :: body ∧ BmpMessagePeerDown.decodeFrom body = .ok (m, n)

/-- The message is about the peer: a peer-up or peer-down of it that decodes. -/
def AboutDec (rd : BgpRD) (ip : IpAddr) (buf : Bytes) : Prop :=
  (∃ m, PeerUpDec buf m ∧ OfPeer rd ip m.peer) ∨ (∃ m, PeerDownDec buf m ∧ OfPeer rd ip m.peer)

/-- In the history, the last message about the peer is the peer-up `m`. -/
def LastUpDec (hist : List Bytes) (rd : BgpRD) (ip : IpAddr) (m : BmpMessagePeerUp) : Prop :=
  ∃ pre b post, hist = pre ++ b :: post ∧ PeerUpDec b m ∧ OfPeer rd ip m.peer ∧ ∀ b' ∈ post, ¬ AboutDec rd ip b'

/-- At the beginning of the octets is a BGP header that crashes its reader, or a header of a message of the type with a
body that is cut off, or at which its decoder does not return. -/
def EmbeddedDecCrash {α : Type} (ty : BgpMessageType) (dec : Bytes → Res α) (b : Bytes) : Prop :=
  EmbeddedCrash ty (fun b => ¬ (dec b).Returns) b

/-- At the beginning of the octets is a BGP message of the type that decodes to `m`; `rest` is behind it. -/
def EmbeddedDec {α : Type} (ty : BgpMessageType) (dec : Bytes → Res α) (b : Bytes) (m : α) (rest : Bytes) : Prop :=
  EmbeddedRead ty (fun b m => dec b = .ok m) b m rest

/-- The messages that crash a reader which decodes UPDATE messages with the given session parameters. -/
def BmpDecCrash (params : BmpMessagePeerHeader → BgpSessionParams) (buf : Bytes) : Prop :=
  buf = [] ∨
  (∃ h body, buf = 0 :: (peerHeaderWire h ++ body) ∧ Distinct h.peeraddress ∧ 20 ≤ body.length ∧
    EmbeddedDecCrash .Update (BgpUpdateMessage.new.decodeFrom (params h)) body) ∨
  (∃ h code body, buf = 2 :: (peerHeaderWire h ++ code :: body) ∧ (code = 1 ∨ code = 3) ∧
    EmbeddedDecCrash .Notification BgpNotificationMessage.new.decodeFrom body) ∨
  (∃ h addr body, buf = 3 :: (peerHeaderWire h ++ (addr ++ body)) ∧ addr.length = 20 ∧
    (EmbeddedDecCrash .Open BgpOpenMessage.new.decodeFrom body ∨
      ∃ m rest, EmbeddedDec .Open BgpOpenMessage.new.decodeFrom body m rest ∧
        EmbeddedDecCrash .Open BgpOpenMessage.new.decodeFrom rest)) ∨
  (∃ body, buf = 5 :: body ∧ TermCrash body)

end Zbgp
