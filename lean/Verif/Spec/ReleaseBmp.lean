import Verif.Spec.Bmp
import Verif.Spec.ReleaseUpdate
import Verif.Model.ReleaseBmp

/-!
# What a build without overflow checks reads: BMP messages

As in `Spec/Bmp.lean`. The body of a BGP message inside has its length less 19, modulo 65536, and its UPDATE messages are read
as `WrapUpdateRead` and `WrapUpdateCrash` say. Everything else is read as with the checks.
-/

namespace Zbgp.Spec

open Zbgp

/-- A BGP header that announces `n` octets. -/
def announced (ty : BgpMessageType) (n : Nat) : Bytes := List.replicate 16 255 ++ (be 2 n ++ be 1 (typeCode ty))

/-- As `EmbeddedRead`: at the beginning is a header that announces `n` octets; the body that is read as `m` has `n - 19`
octets, modulo 65536. -/
def WrapEmbeddedRead {α : Type} (ty : BgpMessageType) (R : Bytes → α → Prop) (b : Bytes) (m : α) (rest : Bytes) : Prop :=
  ∃ n body, b = announced ty n ++ (body ++ rest) ∧ n < 65536 ∧ body.length = (n + 65517) % 65536 ∧ R body m

/-- As `EmbeddedCrash`: the body is cut off or is one of those in `C`. A length below 19 alone is no crash. -/
def WrapEmbeddedCrash (ty : BgpMessageType) (C : Bytes → Prop) (b : Bytes) : Prop :=
  ∃ n rest, b = announced ty n ++ rest ∧ n < 65536 ∧
    (rest.length < (n + 65517) % 65536 ∨ C (rest.take ((n + 65517) % 65536)))

/-- As `PeerUpRead`. -/
def WrapPeerUpRead (b : Bytes) (m : BmpMessagePeerUp) : Prop :=
  ∃ opens rest1 rest2,
    b = peerHeaderWire m.peer ++ (bmpAddr m.localaddress ++ (be 2 m.localport.toNat ++ (be 2 m.remoteport.toNat ++ opens))) ∧
    Distinct m.peer.peeraddress ∧ Distinct m.localaddress ∧
    WrapEmbeddedRead .Open OpenRead opens m.msg1 rest1 ∧ WrapEmbeddedRead .Open OpenRead rest1 m.msg2 rest2

/-- As `ReasonRead`. -/
inductive WrapReasonRead : Bytes → BmpMessagePeerDownReason → Prop
  | admin (b rest : Bytes) (m : BgpNotificationMessage)
      (h : WrapEmbeddedRead .Notification (NotificationRead 0) b m rest) : WrapReasonRead (1 :: b) (.AdministrativelyClosed m)
  | state (s : U16) (rest : Bytes) : WrapReasonRead (2 :: (be 2 s.toNat ++ rest)) (.LocalSystemState s)
  | notification (b rest : Bytes) (m : BgpNotificationMessage)
      (h : WrapEmbeddedRead .Notification (NotificationRead 0) b m rest) : WrapReasonRead (3 :: b) (.RemoteNotification m)
  | remote (rest : Bytes) : WrapReasonRead (4 :: rest) .Remote
  | disabled (rest : Bytes) : WrapReasonRead (5 :: rest) .BmpDisabled

/-- As `PeerDownRead`. -/
def WrapPeerDownRead (b : Bytes) (m : BmpMessagePeerDown) : Prop :=
  ∃ rest, b = peerHeaderWire m.peer ++ rest ∧ Distinct m.peer.peeraddress ∧ WrapReasonRead rest m.reason

/-- As `BmpRead`. -/
inductive WrapBmpRead (P : BmpMessagePeerHeader → BgpSessionParams → Prop) : Bytes → BmpMessage → Prop
  | monitoring (h : BmpMessagePeerHeader) (p : BgpSessionParams) (body rest : Bytes) (u : BgpUpdateMessage)
      (hd : Distinct h.peeraddress) (hp : P h p) (hl : 20 ≤ body.length)
      (hu : WrapEmbeddedRead .Update (fun b (u : BgpUpdateMessage) => WrapUpdateRead p b u.withdraws u.attrs u.updates) body u rest) :
      WrapBmpRead P (0 :: (peerHeaderWire h ++ body)) (.RouteMonitoring ⟨h, u⟩)
  | statistics (b : Bytes) : WrapBmpRead P (1 :: b) .StatisticsReport
  | down (b : Bytes) (m : BmpMessagePeerDown) (h : WrapPeerDownRead b m) : WrapBmpRead P (2 :: b) (.PeerDownNotification m)
  | up (b : Bytes) (m : BmpMessagePeerUp) (h : WrapPeerUpRead b m) : WrapBmpRead P (3 :: b) (.PeerUpNotification m)
  | initiation (b : Bytes) (m : BmpMessageInitiation) (h : InitiationRead b m) : WrapBmpRead P (4 :: b) (.Initiation m)
  | termination (b : Bytes) (m : BmpMessageTermination) (h : TerminationRead b m) : WrapBmpRead P (5 :: b) (.Termination m)
  | mirroring (b : Bytes) : WrapBmpRead P (6 :: b) .RouteMirroring

/-- As `BmpCrash`. -/
def WrapBmpCrash (P : BmpMessagePeerHeader → BgpSessionParams → Prop) (buf : Bytes) : Prop :=
  buf = [] ∨
  (∃ h p body, buf = 0 :: (peerHeaderWire h ++ body) ∧ Distinct h.peeraddress ∧ P h p ∧ 20 ≤ body.length ∧
    WrapEmbeddedCrash .Update (WrapUpdateCrash p) body) ∨
  (∃ h code body, buf = 2 :: (peerHeaderWire h ++ code :: body) ∧ (code = 1 ∨ code = 3) ∧
    WrapEmbeddedCrash .Notification NoBody body) ∨
  (∃ h addr body, buf = 3 :: (peerHeaderWire h ++ (addr ++ body)) ∧ addr.length = 20 ∧
    (WrapEmbeddedCrash .Open NoBody body ∨
      ∃ m rest, WrapEmbeddedRead .Open OpenRead body m rest ∧ WrapEmbeddedCrash .Open NoBody rest)) ∨
  (∃ body, buf = 5 :: body ∧ TermCrash body)

/-! ## Histories -/

/-- As `PeerUpIs`. -/
def WrapPeerUpIs (buf : Bytes) (m : BmpMessagePeerUp) : Prop := ∃ body, buf = 3 :: body ∧ WrapPeerUpRead body m

/-- As `PeerDownIs`. -/
def WrapPeerDownIs (buf : Bytes) (m : BmpMessagePeerDown) : Prop := ∃ body, buf = 2 :: body ∧ WrapPeerDownRead body m

/-- As `About`. -/
def WrapAbout (rd : BgpRD) (ip : IpAddr) (buf : Bytes) : Prop :=
  (∃ m, WrapPeerUpIs buf m ∧ OfPeer rd ip m.peer) ∨ (∃ m, WrapPeerDownIs buf m ∧ OfPeer rd ip m.peer)

/-- As `LastUp`. -/
def WrapLastUp (hist : List Bytes) (rd : BgpRD) (ip : IpAddr) (m : BmpMessagePeerUp) : Prop :=
  ∃ pre b post, hist = pre ++ b :: post ∧ WrapPeerUpIs b m ∧ OfPeer rd ip m.peer ∧ ∀ b' ∈ post, ¬ WrapAbout rd ip b'

/-- A session object of a build without overflow checks that has seen the messages. -/
def afterRelease (hist : List Bytes) : BMPSession := hist.foldl (fun s b => (s.decodeFromIn .release b).2) .default

/-- As `ParamsAfter`. -/
def WrapParamsAfter (hist : List Bytes) (h : BmpMessagePeerHeader) (p : BgpSessionParams) : Prop :=
  (∃ m, WrapLastUp hist h.peerdistinguisher h.peeraddress m ∧ p = openParams (peerOpen m)) ∨
  ((¬ ∃ m, WrapLastUp hist h.peerdistinguisher h.peeraddress m) ∧ p = headerParams h)

end Zbgp.Spec
