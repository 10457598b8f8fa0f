import Verif.Spec.Bmp
import Verif.Spec.Update
import Verif.Spec.Message

/-! # A monitored router and a monitoring station that use the crate (C109)

The crate has the messages and a session object; the two loops around them are its user's. They are given here. -/

namespace Zbgp.Spec

open Zbgp

/-- A router sends messages: each is encoded into a fresh buffer, a common header with the version 3 and the length of the
message, itself included, goes before it. -/
def exporter (room : Nat) : List BmpMessage → Res Bytes
  | [] => .ok []
  | m :: ms => do
    let (buf, n) ← m.encodeTo (List.replicate room 0)
    let (hdr, k) ← (⟨3, 5 + n⟩ : BmpMessageHeader).encodeTo (List.replicate 5 0)
    let rest ← exporter room ms
    .ok (hdr.take k ++ (buf.take n ++ rest))

/-- A station reads what it received with a session object: a common header, as many octets as that says, and so on. It stops at
a header that does not decode and at a message that is not complete. -/
def stationLoop : Nat → BMPSession → Bytes → List (Res BmpMessage)
  | 0, _, _ => []
  | fuel + 1, s, stream =>
    if stream = [] then []
    else
      match BmpMessageHeader.decodeFrom stream with
      | .ok (h, k) =>
        if h.msglength < k ∨ stream.length < h.msglength then [.err .other]
        else
          (s.decodeFrom ((stream.take h.msglength).drop k)).1 ::
            stationLoop fuel (s.decodeFrom ((stream.take h.msglength).drop k)).2 (stream.drop h.msglength)
      | .err e => [.err e]
      | .panic => [.panic]
      | .hang => [.hang]

/-- The station starts with a new session object; every message is at least one octet. -/
def station (stream : Bytes) : List (Res BmpMessage) := stationLoop stream.length .default stream

/-- RFC 7854 4.1: a message with its common header. -/
def bmpFrame (body : Bytes) : Bytes := be 1 3 ++ (be 4 (5 + body.length) ++ body)

instance (rd : BgpRD) (ip : IpAddr) (h : BmpMessagePeerHeader) : Decidable (OfPeer rd ip h) :=
  inferInstanceAs (Decidable (h.peerdistinguisher = rd ∧ h.peeraddress = ip))

/-- The peer-up that is in force for the peer after the messages: the last one of the peer, unless a peer-down came after it. -/
def upNow (rd : BgpRD) (ip : IpAddr) (hist : List BmpMessage) : Option BmpMessagePeerUp :=
  hist.foldl (fun o m =>
    match m with
    | .PeerUpNotification u => if OfPeer rd ip u.peer then some u else o
    | .PeerDownNotification d => if OfPeer rd ip d.peer then none else o
    | _ => o) none

/-- Parameters of a session in which the peer has sent the OPEN and the station announces nothing of its own. -/
def ReadAs (o : BgpOpenMessage) (q : BgpSessionParams) : Prop :=
  q.caps = o.caps ∧ q.peerMode = .IPv4 ∧ q.fuzzyPathid = false ∧ (q.hasAs32bit = true ↔ ∃ n, BgpCapability.CapASN32 n ∈ o.caps)

/-- The UPDATE comes out of the octets as it went in, in a session with the parameters. -/
def AsSent (q : BgpSessionParams) (x : BgpUpdateMessage) : Prop :=
  PartsOk q x ∧
    (⟨sectionReceived q x.updates, sectionReceived q x.withdraws, x.attrs.map attrReceived⟩ : BgpUpdateMessage) = x

/-- The OPEN can be put into a peer-up. -/
def OpenOk (m : BgpOpenMessage) : Prop :=
  (∀ c ∈ m.caps, CapEncodable c) ∧ m.asNum.toNat < 65536 ∧ (capsParams m.caps).length ≤ 65506

/-- What can be sent after the messages. The UPDATE of a route-monitoring message goes out in the form for a session with 4-octet AS
numbers and the transport of the peer's address; if a peer-up of the peer is in force, the station reads it in the form for an
IPv4 session with the peer's OPEN, so that OPEN must announce 4-octet AS numbers and the peer must be an IPv4 one. -/
def Sendable (pre : List BmpMessage) : BmpMessage → Prop
  | .RouteMonitoring m =>
    Distinct m.peer.peeraddress ∧ (updateWire (.new 0 0 (addrFamily m.peer.peeraddress) 0 []) m.update).length ≤ 65516 ∧
    match upNow m.peer.peerdistinguisher m.peer.peeraddress pre with
    | none => AsSent (.new m.peer.asnum 0 (addrFamily m.peer.peeraddress) m.peer.routerid []) m.update
    | some up => (∃ a, m.peer.peeraddress = .v4 a) ∧ (∃ n, BgpCapability.CapASN32 n ∈ (peerOpen up).caps) ∧
        ∀ q, ReadAs (peerOpen up) q → AsSent q m.update
  | .PeerUpNotification m =>
    Distinct m.peer.peeraddress ∧ Distinct m.localaddress ∧ OpenOk m.msg1 ∧ OpenOk m.msg2
  | .PeerDownNotification m => Distinct m.peer.peeraddress
  | .Initiation m => m.sysDescr = none ∧ m.sysName = none ∧ ∀ s, m.str0 = some s → InfoOk s
  | .Termination m => ∀ s, m.str0 = some s → InfoOk s
  | _ => False

/-- An AS number of four octets read as two of two octets. -/
def halves (a : BgpAS) : List BgpAS := [⟨a.value >>> 16⟩, ⟨a.value &&& 0xffff⟩]

end Zbgp.Spec
