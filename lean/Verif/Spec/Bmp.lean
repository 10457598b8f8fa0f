import Verif.Spec.Update
import Verif.Spec.UpdateReads
import Verif.Spec.OpenReads
import Verif.Model.Bmp

/-!
# BMP on the wire (RFC 7854)

Only the data types of the model are used, and, for a session object that has seen a history of messages, the call that
shows it a message.
-/

namespace Zbgp.Spec

open Zbgp

/-- An address field: 16 octets, IPv4 addresses in the last four. -/
def bmpAddr : IpAddr → Bytes
  | .v4 a => List.replicate 12 0 ++ be 4 a.toNat
  | .v6 a => be 16 a.toNat

/-- The per-peer header. -/
def peerHeaderWire (h : BmpMessagePeerHeader) : Bytes :=
  be 1 h.peertype.toNat ++ (be 1 h.flags.toNat ++ (be 4 h.peerdistinguisher.rdh.toNat ++ (be 4 h.peerdistinguisher.rdl.toNat ++
    (bmpAddr h.peeraddress ++ (be 4 h.asnum.toNat ++ (be 4 h.routerid.toNat ++ be 8 h.timestamp.toNat))))))

/-- The common header up to the length. -/
def commonHeaderWire (h : BmpMessageHeader) : Bytes := be 1 h.version.toNat ++ be 4 h.msglength

/-- The address is not an IPv6 address of which the first 96 bits are zero (there is no telling it from IPv4). -/
def Distinct : IpAddr → Prop
  | .v4 _ => True
  | .v6 a => 2 ^ 32 ≤ a.toNat

instance : (a : IpAddr) → Decidable (Distinct a)
  | .v4 _ => inferInstanceAs (Decidable True)
  | .v6 a => inferInstanceAs (Decidable (2 ^ 32 ≤ a.toNat))

/-- What an address field with the address is read as. -/
def addrRead : IpAddr → IpAddr
  | .v4 a => .v4 a
  | .v6 a => if 2 ^ 32 ≤ a.toNat then .v6 a else .v4 (BitVec.ofNat 32 a.toNat)

/-- An information TLV. -/
def infoWire (ty : Nat) (value : Bytes) : Bytes := be 2 ty ++ (be 2 value.length ++ value)

/-- A string fits a TLV. -/
def InfoOk (s : Bytes) : Prop := Utf8 s ∧ s.length ≤ 65535

/-- The last TLV of the type. -/
def lastOf (ty : Nat) (l : List (Nat × Bytes)) : Option Bytes := ((l.filter fun t => t.1 == ty).getLast?).map Prod.snd

/-- A TLV for a string that may be absent. -/
def optInfo (ty : Nat) : Option Bytes → Bytes
  | none => []
  | some s => infoWire ty s

/-- RFC 7854 4.5: reason string (type 0) and reason code (type 1). -/
def terminationWire (x : BmpMessageTermination) : Bytes :=
  optInfo 0 x.str0 ++ optInfo 1 (x.reason.map fun r => be 2 r.toNat)

/-- What stays behind the octets written: nothing is changed, unless an IPv4 address field was written before. -/
def behind (clears : Bool) (rest : Bytes) : Bytes := if clears then List.replicate rest.length 0 else rest

/-- The address is IPv4. -/
def isV4 : IpAddr → Bool
  | .v4 _ => true
  | .v6 _ => false

/-- RFC 7854 4.10: peer up, with the two OPEN messages `open1`, `open2` (without header). -/
def peerUpWire (x : BmpMessagePeerUp) (open1 open2 : Bytes) : Bytes :=
  peerHeaderWire x.peer ++ (bmpAddr x.localaddress ++ (be 2 x.localport.toNat ++ (be 2 x.remoteport.toNat ++
    (message .Open open1 ++ message .Open open2))))

/-- The body of a NOTIFICATION. -/
def notifWire (m : BgpNotificationMessage) : Bytes :=
  notificationWire m.errorCode.toNat m.errorSubcode.toNat m.data.toNat

/-- RFC 7854 4.9: peer down reasons. -/
def reasonWire : BmpMessagePeerDownReason → Bytes
  | .AdministrativelyClosed m => be 1 1 ++ message .Notification (notifWire m)
  | .LocalSystemState s => be 1 2 ++ be 2 s.toNat
  | .RemoteNotification m => be 1 3 ++ message .Notification (notifWire m)
  | .Remote => be 1 4
  | .BmpDisabled => be 1 5

/-- RFC 7854 4.9: peer down. -/
def peerDownWire (x : BmpMessagePeerDown) : Bytes := peerHeaderWire x.peer ++ reasonWire x.reason

/-! ## Messages as they are read -/

/-- At the beginning of the octets is a BGP message of the type whose body is read as `m`; `rest` is behind it. -/
def EmbeddedRead {α : Type} (ty : BgpMessageType) (R : Bytes → α → Prop) (b : Bytes) (m : α) (rest : Bytes) : Prop :=
  ∃ body, b = message ty body ++ rest ∧ body.length ≤ 65516 ∧ R body m

/-- The octets behind the type of a peer-up are read as `m`; octets behind the two OPEN messages are ignored. -/
def PeerUpRead (b : Bytes) (m : BmpMessagePeerUp) : Prop :=
  ∃ opens rest1 rest2,
    b = peerHeaderWire m.peer ++ (bmpAddr m.localaddress ++ (be 2 m.localport.toNat ++ (be 2 m.remoteport.toNat ++ opens))) ∧
    Distinct m.peer.peeraddress ∧ Distinct m.localaddress ∧
    EmbeddedRead .Open OpenRead opens m.msg1 rest1 ∧ EmbeddedRead .Open OpenRead rest1 m.msg2 rest2

/-- The reason of a peer-down; octets behind it are ignored. -/
inductive ReasonRead : Bytes → BmpMessagePeerDownReason → Prop
  | admin (b rest : Bytes) (m : BgpNotificationMessage) (h : EmbeddedRead .Notification (NotificationRead 0) b m rest) :
      ReasonRead (1 :: b) (.AdministrativelyClosed m)
  | state (s : U16) (rest : Bytes) : ReasonRead (2 :: (be 2 s.toNat ++ rest)) (.LocalSystemState s)
  | notification (b rest : Bytes) (m : BgpNotificationMessage) (h : EmbeddedRead .Notification (NotificationRead 0) b m rest) :
      ReasonRead (3 :: b) (.RemoteNotification m)
  | remote (rest : Bytes) : ReasonRead (4 :: rest) .Remote
  | disabled (rest : Bytes) : ReasonRead (5 :: rest) .BmpDisabled

/-- The octets behind the type of a peer-down are read as `m`. -/
def PeerDownRead (b : Bytes) (m : BmpMessagePeerDown) : Prop :=
  ∃ rest, b = peerHeaderWire m.peer ++ rest ∧ Distinct m.peer.peeraddress ∧ ReasonRead rest m.reason

/-- The octets behind the type of an initiation are TLVs with texts; of several of a type the last one counts, and those
of types other than 0, 1 and 2 are ignored. -/
def InitiationRead (b : Bytes) (m : BmpMessageInitiation) : Prop :=
  ∃ l : List (Nat × Bytes), b = (l.flatMap fun t => infoWire t.1 t.2) ∧ (∀ t ∈ l, t.1 < 65536 ∧ InfoOk t.2) ∧
    m = ⟨lastOf 0 l, lastOf 1 l, lastOf 2 l⟩

/-- The octets behind the type of a termination are TLVs, and up to three further octets that are ignored; of several of a
type the last one counts. The reason code is the two octets behind the length, whatever the length is (the library does
not look at it), even if they belong to the next TLV. -/
inductive TerminationRead : Bytes → BmpMessageTermination → Prop
  | done (b : Bytes) (h : b.length < 4) : TerminationRead b ⟨none, none⟩
  | text (s rest : Bytes) (x : BmpMessageTermination) (h : InfoOk s) (hr : TerminationRead rest x) :
      TerminationRead (infoWire 0 s ++ rest) ⟨some (x.str0.getD s), x.reason⟩
  | reason (v rest rest' : Bytes) (r : U16) (x : BmpMessageTermination) (hv : v.length ≤ 65535)
      (h : v ++ rest = be 2 r.toNat ++ rest') (hr : TerminationRead rest x) :
      TerminationRead (infoWire 1 v ++ rest) ⟨x.str0, some (x.reason.getD r)⟩
  | other (ty : Nat) (v rest : Bytes) (x : BmpMessageTermination) (ht : 2 ≤ ty) (ht' : ty < 65536) (hv : v.length ≤ 65535)
      (hr : TerminationRead rest x) : TerminationRead (infoWire ty v ++ rest) x

/-- The message is read as `msg`. `P h p` says that the UPDATE messages of the peer with the header `h` are read with the
session parameters `p`. Route monitoring messages must have an UPDATE of at least one octet besides its header (the library
asks for 62 octets in all), and of statistics reports and route mirroring nothing but the type is looked at. -/
inductive BmpRead (P : BmpMessagePeerHeader → BgpSessionParams → Prop) : Bytes → BmpMessage → Prop
  | monitoring (h : BmpMessagePeerHeader) (p : BgpSessionParams) (body rest : Bytes) (u : BgpUpdateMessage)
      (hd : Distinct h.peeraddress) (hp : P h p) (hl : 20 ≤ body.length)
      (hu : EmbeddedRead .Update (fun b (u : BgpUpdateMessage) => UpdateRead p b u.withdraws u.attrs u.updates) body u rest) :
      BmpRead P (0 :: (peerHeaderWire h ++ body)) (.RouteMonitoring ⟨h, u⟩)
  | statistics (b : Bytes) : BmpRead P (1 :: b) .StatisticsReport
  | down (b : Bytes) (m : BmpMessagePeerDown) (h : PeerDownRead b m) : BmpRead P (2 :: b) (.PeerDownNotification m)
  | up (b : Bytes) (m : BmpMessagePeerUp) (h : PeerUpRead b m) : BmpRead P (3 :: b) (.PeerUpNotification m)
  | initiation (b : Bytes) (m : BmpMessageInitiation) (h : InitiationRead b m) : BmpRead P (4 :: b) (.Initiation m)
  | termination (b : Bytes) (m : BmpMessageTermination) (h : TerminationRead b m) : BmpRead P (5 :: b) (.Termination m)
  | mirroring (b : Bytes) : BmpRead P (6 :: b) .RouteMirroring

/-! ## Histories -/

/-- The message is a peer-up that is read as `m`. -/
def PeerUpIs (buf : Bytes) (m : BmpMessagePeerUp) : Prop := ∃ body, buf = 3 :: body ∧ PeerUpRead body m

/-- The message is a peer-down that is read as `m`. -/
def PeerDownIs (buf : Bytes) (m : BmpMessagePeerDown) : Prop := ∃ body, buf = 2 :: body ∧ PeerDownRead body m

/-- The header is of the peer with the route distinguisher and address. -/
def OfPeer (rd : BgpRD) (ip : IpAddr) (h : BmpMessagePeerHeader) : Prop := h.peerdistinguisher = rd ∧ h.peeraddress = ip

/-- The message is about the peer: a peer-up or peer-down of it that decodes. -/
def About (rd : BgpRD) (ip : IpAddr) (buf : Bytes) : Prop :=
  (∃ m, PeerUpIs buf m ∧ OfPeer rd ip m.peer) ∨ (∃ m, PeerDownIs buf m ∧ OfPeer rd ip m.peer)

/-- In the history, the last message about the peer is the peer-up `m`. -/
def LastUp (hist : List Bytes) (rd : BgpRD) (ip : IpAddr) (m : BmpMessagePeerUp) : Prop :=
  ∃ pre b post, hist = pre ++ b :: post ∧ PeerUpIs b m ∧ OfPeer rd ip m.peer ∧ ∀ b' ∈ post, ¬ About rd ip b'

/-- A session object that has seen the messages. -/
def after (hist : List Bytes) : BMPSession := hist.foldl (fun s b => (s.decodeFrom b).2) .default

/-- The OPEN message the peer sent, of the two in a peer-up: the one with the router id of the peer (the first, if that is
in both; the second, if it is in none). -/
def peerOpen (m : BmpMessagePeerUp) : BgpOpenMessage := if m.msg1.routerId = m.peer.routerid then m.msg1 else m.msg2

/-- A whole message of the given type, as it is after the common header. -/
def typed (code : U8) (body : Bytes) : Bytes := code :: body

/-- The session parameters for the messages of a peer about which nothing is known but the per-peer header. -/
def headerParams (h : BmpMessagePeerHeader) : BgpSessionParams :=
  { asNum := h.asnum, holdTime := 0, peerMode := if isV4 h.peeraddress then .IPv4 else .IPv6, hasAs32bit := true,
    routerId := h.routerid, caps := [], fuzzyPathid := true }

/-- The four-octet AS numbers announced in the capabilities. -/
def asns (caps : List BgpCapability) : List U32 :=
  caps.filterMap fun c => match c with
    | .CapASN32 n => some n
    | _ => none

/-- The session parameters for the messages of a peer that sent the OPEN message. -/
def openParams (o : BgpOpenMessage) : BgpSessionParams :=
  { asNum := (asns o.caps).getLast?.getD o.asNum, holdTime := o.holdTime, peerMode := .IPv4, hasAs32bit := !(asns o.caps).isEmpty,
    routerId := o.routerId, caps := o.caps, fuzzyPathid := false }

/-- After the history, the messages of the peer with the header are read with the parameters: those of the OPEN message of
the last peer-up, if that was not followed by a peer-down, and those of the header otherwise. -/
def ParamsAfter (hist : List Bytes) (h : BmpMessagePeerHeader) (p : BgpSessionParams) : Prop :=
  (∃ m, LastUp hist h.peerdistinguisher h.peeraddress m ∧ p = openParams (peerOpen m)) ∨
  ((¬ ∃ m, LastUp hist h.peerdistinguisher h.peeraddress m) ∧ p = headerParams h)

/-! ## Crashes -/

/-- At the beginning of the octets is a BGP header with a length below 19, or a header of a message of the type with a body
that is cut off or is one of those in `C`. -/
def EmbeddedCrash (ty : BgpMessageType) (C : Bytes → Prop) (b : Bytes) : Prop :=
  ∃ n t rest, b = List.replicate 16 255 ++ (be 2 n ++ (be 1 (typeCode t) ++ rest)) ∧ n < 65536 ∧
    (n < 19 ∨ (t = ty ∧ (rest.length < n - 19 ∨ C (rest.take (n - 19)))))

/-- Information TLVs, each with a valid string if it is one, and then a reason code TLV of which fewer than two octets are
left in the message. -/
def TermCrash (b : Bytes) : Prop :=
  ∃ (l : List (Nat × Bytes)) (n : Nat) (r : Bytes),
    b = (l.flatMap fun t => infoWire t.1 t.2) ++ (be 2 1 ++ (be 2 n ++ r)) ∧ n ≤ r.length ∧ r.length < 2 ∧
    ∀ t ∈ l, t.1 < 65536 ∧ t.2.length ≤ 65535 ∧ (t.1 = 0 → Utf8 t.2)

/-- No body of an OPEN or NOTIFICATION message crashes its decoder. -/
def NoBody (_ : Bytes) : Prop := False

/-- The messages that crash a reader which reads UPDATE messages with the session parameters in `P`: no octets at all;
or, behind a per-peer header, a BGP message that does (for peer up, the first or the second one); or a short reason code. -/
def BmpCrash (P : BmpMessagePeerHeader → BgpSessionParams → Prop) (buf : Bytes) : Prop :=
  buf = [] ∨
  (∃ h p body, buf = 0 :: (peerHeaderWire h ++ body) ∧ Distinct h.peeraddress ∧ P h p ∧ 20 ≤ body.length ∧
    EmbeddedCrash .Update (UpdateCrash p) body) ∨
  (∃ h code body, buf = 2 :: (peerHeaderWire h ++ code :: body) ∧ (code = 1 ∨ code = 3) ∧
    EmbeddedCrash .Notification NoBody body) ∨
  (∃ h addr body, buf = 3 :: (peerHeaderWire h ++ (addr ++ body)) ∧ addr.length = 20 ∧
    (EmbeddedCrash .Open NoBody body ∨
      ∃ m rest, EmbeddedRead .Open OpenRead body m rest ∧ EmbeddedCrash .Open NoBody rest)) ∨
  (∃ body, buf = 5 :: body ∧ TermCrash body)

end Zbgp.Spec
