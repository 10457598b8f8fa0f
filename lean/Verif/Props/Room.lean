import Verif.Lemmas.Room

/-!
# C63: path attributes and UPDATE messages in buffers that are too small, exactly
-/

namespace Zbgp.Props

open Spec

/-- **C63**, exactly, for every path attribute that can be written, with multiprotocol NLRI of any family: in a buffer that
is too small the encoder returns an error where `ErrorIn` says so and panics everywhere else. -/
theorem C63_attribute_room (p : BgpSessionParams) (x : BgpAttrItem) (h : AttrOk p x)
    (hl : (valueWire p.hasAs32bit x).length ≤ maxValue (attrCode x).2) (buf : Bytes)
    (hb : buf.length < (attrWire p.hasAs32bit x).length) :
    (ErrorIn x buf.length → (x.encodeTo p buf).IsErr) ∧ (¬ ErrorIn x buf.length → x.encodeTo p buf = .panic) :=
  attr_room p x h hl buf hb

/-- MP_REACH_NLRI with an IPv4 VPN next hop needs 34 octets here: from 16 to 19 octets are an error, other sizes panic -/
example :
    let p : BgpSessionParams := .new 1 180 .IPv4 0 []
    let x : BgpAttrItem := .MPUpdates ⟨.V4RD ⟨⟨0, 1⟩, 0x0a000001⟩, .VPNV4U [⟨⟨⟨0x0a000000, 8⟩, ⟨1, 2⟩⟩, ⟨[1000]⟩⟩]⟩
    AttrOk p x ∧ (attrWire p.hasAs32bit x).length = 34 ∧
    x.encodeTo p (List.replicate 15 9) = .panic ∧ (x.encodeTo p (List.replicate 16 9)).IsErr ∧
    (x.encodeTo p (List.replicate 19 9)).IsErr ∧ x.encodeTo p (List.replicate 20 9) = .panic ∧
    x.encodeTo p (List.replicate 33 9) = .panic := by
  refine ⟨⟨?_, ?_, ?_⟩, rfl, rfl, trivial, trivial, rfl, rfl⟩
  · simp [AddrsWF, NlriKind.WF, NlriKind.bits, LabelFieldWF, LabelStackWF]
  · intro f ap h _
    simp only [kindOf, Option.some.injEq, Prod.mk.injEq] at h
    obtain ⟨rfl, rfl⟩ := h
    decide
  · exact ⟨.ipv4Vpn, false, rfl, trivial, fun h => by cases h⟩

/-- withdrawn EVPN routes: two routes of type 3, one with an IPv4 and one with an IPv6 address, of 19 and 31 octets behind seven.
The buffer may end inside the address of either route (22 to 25 and 41 to 56 octets), which is an error; other sizes panic. -/
example :
    let p : BgpSessionParams := .new 1 180 .IPv4 0 []
    let x : BgpAttrItem := .MPWithdraws ⟨.EVPN [.evpn3 ⟨⟨0, 1⟩, 5, .v4 0x0a000001⟩, .evpn3 ⟨⟨0, 1⟩, 6, .v6 1⟩]⟩
    AttrOk p x ∧ (attrWire p.hasAs32bit x).length = 57 ∧
    x.encodeTo p (List.replicate 21 9) = .panic ∧ (x.encodeTo p (List.replicate 22 9)).IsErr ∧
    (x.encodeTo p (List.replicate 25 9)).IsErr ∧ x.encodeTo p (List.replicate 26 9) = .panic ∧
    x.encodeTo p (List.replicate 40 9) = .panic ∧ (x.encodeTo p (List.replicate 41 9)).IsErr ∧
    (x.encodeTo p (List.replicate 56 9)).IsErr := by
  refine ⟨⟨?_, ?_⟩, rfl, rfl, trivial, trivial, rfl, rfl, trivial, trivial⟩
  · simp [AddrsWF, EvpnWF, EvpnV6Prefix]
  · intro f ap h h2
    simp only [kindOf, Option.some.injEq, Prod.mk.injEq] at h
    obtain ⟨rfl, rfl⟩ := h
    first | exact (h2 rfl).elim | cases h2 | decide

/-- withdrawn multicast VPN routes of types 1 and 2: only the address at the end of the first is checked -/
example :
    let p : BgpSessionParams := .new 1 180 .IPv4 0 []
    let x : BgpAttrItem := .MPWithdraws ⟨.MVPN [.t1 ⟨⟨0, 1⟩, .v4 0x0a000001⟩, .t2 ⟨⟨0, 1⟩, 7⟩]⟩
    (attrWire p.hasAs32bit x).length = 35 ∧ ErrorIn x 17 ∧ ErrorIn x 20 ∧
    x.encodeTo p (List.replicate 16 9) = .panic ∧ (x.encodeTo p (List.replicate 17 9)).IsErr ∧
    (x.encodeTo p (List.replicate 20 9)).IsErr ∧ x.encodeTo p (List.replicate 21 9) = .panic ∧
    x.encodeTo p (List.replicate 34 9) = .panic := by
  refine ⟨rfl, ⟨by omega, [], _, _, rfl, ?_⟩, ⟨by omega, [], _, _, rfl, ?_⟩, rfl, trivial, trivial, rfl, rfl⟩ <;>
    simp [mvpnWire, mvpnBody, mvpnErrorIn, ipBody]

/-- a flow specification is an error in every buffer that ends inside it or right before it -/
example :
    let p : BgpSessionParams := .new 1 180 .IPv4 0 []
    let x : BgpAttrItem := .MPWithdraws ⟨.FS4U [.prefixDst ⟨0x0a000000, 8⟩]⟩
    (attrWire p.hasAs32bit x).length = 11 ∧ ErrorIn x 7 ∧ x.encodeTo p (List.replicate 6 9) = .panic ∧
    (x.encodeTo p (List.replicate 7 9)).IsErr ∧ (x.encodeTo p (List.replicate 10 9)).IsErr :=
  ⟨rfl, ⟨by omega, trivial⟩, rfl, trivial, trivial⟩

/-- **C63**, exactly, for UPDATE: in a buffer that is too small, an UPDATE made of parts that can be written, with multiprotocol
NLRI of any family, whose sections fit their length fields, is a panic exactly where `PanicsIn` says so, and an
error everywhere else. -/
theorem C63_update_exact (p : BgpSessionParams) (x : BgpUpdateMessage) (h : PartsOk p x)
    (hw : (addrsWire x.withdraws).length ≤ 65535)
    (hfit : ∀ a b c, x.attrs = a ++ b :: c → (attrsWire p a).length ≤ 65533) (buf : Bytes)
    (hb : buf.length < (updateWire p x).length) :
    (PanicsIn p x buf.length → x.encodeTo p buf = .panic) ∧ (¬ PanicsIn p x buf.length → (x.encodeTo p buf).IsErr) :=
  update_room p x h hw hfit buf hb

/-- an UPDATE of 15 octets: withdrawn routes length, one route of two octets, attributes length, MED of seven octets, and
one announced route: sizes 2 and 3 panic, 4 and 5 are errors, 6 to 8 panic, 9 to 12 are errors, 13 and 14 panic -/
example :
    let p : BgpSessionParams := .new 1 180 .IPv4 0 []
    let x : BgpUpdateMessage := ⟨.IPV4U [⟨0x0a000000, 8⟩], .IPV4U [⟨0x0b000000, 8⟩], [.MED ⟨7⟩]⟩
    PartsOk p x ∧ (updateWire p x).length = 15 ∧
    (x.encodeTo p (List.replicate 1 9)).IsErr ∧ x.encodeTo p (List.replicate 3 9) = .panic ∧
    (x.encodeTo p (List.replicate 4 9)).IsErr ∧ (x.encodeTo p (List.replicate 5 9)).IsErr ∧
    x.encodeTo p (List.replicate 6 9) = .panic ∧ x.encodeTo p (List.replicate 8 9) = .panic ∧
    (x.encodeTo p (List.replicate 9 9)).IsErr ∧ (x.encodeTo p (List.replicate 12 9)).IsErr ∧
    x.encodeTo p (List.replicate 13 9) = .panic ∧ x.encodeTo p (List.replicate 14 9) = .panic := by
  refine ⟨⟨.inr ⟨⟨false, rfl⟩, ?_, ?_⟩, .inr ⟨⟨false, rfl⟩, ?_, ?_⟩, ?_⟩, rfl, trivial, rfl, trivial, trivial, rfl, rfl, trivial,
    trivial, rfl, rfl⟩
  · simp [AddrsWF, NlriKind.WF]
  · intro f ap h _
    simp only [kindOf, Option.some.injEq, Prod.mk.injEq] at h
    obtain ⟨rfl, rfl⟩ := h
    decide
  · simp [AddrsWF, NlriKind.WF]
  · intro f ap h _
    simp only [kindOf, Option.some.injEq, Prod.mk.injEq] at h
    obtain ⟨rfl, rfl⟩ := h
    decide
  · intro a ha
    simp only [List.mem_cons, List.not_mem_nil, or_false] at ha
    subst ha
    exact ⟨trivial, by decide⟩

/-- **C63**, exactly, for BMP peer-up messages with capabilities that can be written: on buffers that are too small the encoder
panics where `PeerUpPanicsIn` says so, and returns an error everywhere else. -/
theorem C63_peer_up_exact (x : BmpMessagePeerUp) (h1 : ∀ c ∈ x.msg1.caps, CapEncodable c) (h2 : ∀ c ∈ x.msg2.caps, CapEncodable c)
    (hl : openSize x.msg1 ≤ 65516) (buf : Bytes) (hb : buf.length < 101 + openSize x.msg1 + openSize x.msg2) :
    (PeerUpPanicsIn x buf.length → (BmpMessage.PeerUpNotification x).encodeTo buf = .panic) ∧
    (¬ PeerUpPanicsIn x buf.length → ((BmpMessage.PeerUpNotification x).encodeTo buf).IsErr) :=
  peerUp_room x h1 h2 hl buf hb

/-- two OPEN messages without capabilities need 121 octets -/
example :
    let x : BmpMessagePeerUp := ⟨⟨0, 0, ⟨0, 0⟩, .v6 1, 1, 1, 0⟩, .v6 1, 179, 179, ⟨1, 180, 1, []⟩, ⟨2, 180, 2, []⟩⟩
    101 + openSize x.msg1 + openSize x.msg2 = 121 ∧
    ((BmpMessage.PeerUpNotification x).encodeTo (List.replicate 62 9)).IsErr ∧
    (BmpMessage.PeerUpNotification x).encodeTo (List.replicate 63 9) = .panic ∧
    (BmpMessage.PeerUpNotification x).encodeTo (List.replicate 81 9) = .panic ∧
    ((BmpMessage.PeerUpNotification x).encodeTo (List.replicate 82 9)).IsErr ∧
    (BmpMessage.PeerUpNotification x).encodeTo (List.replicate 92 9) = .panic ∧
    ((BmpMessage.PeerUpNotification x).encodeTo (List.replicate 120 9)).IsErr :=
  ⟨rfl, trivial, rfl, rfl, trivial, rfl, trivial⟩

/-- **C63**, exactly, for BMP route monitoring messages with an UPDATE as in `C63_update_exact`. -/
theorem C63_route_monitoring_exact (x : BmpMessageRouteMonitoring) (h : PartsOk (.ofPeerHeader x.peer) x.update)
    (hw : (addrsWire x.update.withdraws).length ≤ 65535)
    (hfit : ∀ a b c, x.update.attrs = a ++ b :: c → (attrsWire (.ofPeerHeader x.peer) a).length ≤ 65533) (buf : Bytes)
    (hb : buf.length < 62 + (updateWire (.ofPeerHeader x.peer) x.update).length) :
    (RmonPanicsIn x buf.length → (BmpMessage.RouteMonitoring x).encodeTo buf = .panic) ∧
    (¬ RmonPanicsIn x buf.length → ((BmpMessage.RouteMonitoring x).encodeTo buf).IsErr) :=
  rmon_room x h hw hfit buf hb

/-- an UPDATE without routes and with MED: 11 octets, of which the sizes 4 to 6 panic -/
example :
    let x : BmpMessageRouteMonitoring := ⟨⟨0, 0, ⟨0, 0⟩, .v6 1, 1, 1, 0⟩, ⟨.None, .None, [.MED ⟨7⟩]⟩⟩
    PartsOk (.ofPeerHeader x.peer) x.update ∧ 62 + (updateWire (.ofPeerHeader x.peer) x.update).length = 73 ∧
    ((BmpMessage.RouteMonitoring x).encodeTo (List.replicate 62 9)).IsErr ∧
    (BmpMessage.RouteMonitoring x).encodeTo (List.replicate 63 9) = .panic ∧
    ((BmpMessage.RouteMonitoring x).encodeTo (List.replicate 64 9)).IsErr ∧
    (BmpMessage.RouteMonitoring x).encodeTo (List.replicate 68 9) = .panic ∧
    ((BmpMessage.RouteMonitoring x).encodeTo (List.replicate 72 9)).IsErr := by
  refine ⟨⟨.inl rfl, .inl rfl, ?_⟩, rfl, trivial, rfl, trivial, rfl, trivial⟩
  intro a ha
  simp only [List.mem_cons, List.not_mem_nil, or_false] at ha
  subst ha
  exact ⟨trivial, by decide⟩

/-- **C63**, exactly, for BMP initiation messages: every message, every buffer that is too small. -/
theorem C63_initiation_exact (x : BmpMessageInitiation) (buf : Bytes) (hb : buf.length < 1 + infoSize (initTexts x)) :
    (InitPanicsIn x buf.length → (BmpMessage.Initiation x).encodeTo buf = .panic) ∧
    (¬ InitPanicsIn x buf.length → ((BmpMessage.Initiation x).encodeTo buf).IsErr) :=
  init_room x buf hb

/-- two elements with texts of two and one octets: sizes 5 and 6 panic, 7 to 10 are errors, 11 panics, 12 is enough -/
example :
    let x : BmpMessageInitiation := ⟨some [65, 66], none, some [67]⟩
    1 + infoSize (initTexts x) = 12 ∧
    ((BmpMessage.Initiation x).encodeTo (List.replicate 4 9)).IsErr ∧
    (BmpMessage.Initiation x).encodeTo (List.replicate 5 9) = .panic ∧
    (BmpMessage.Initiation x).encodeTo (List.replicate 6 9) = .panic ∧
    ((BmpMessage.Initiation x).encodeTo (List.replicate 7 9)).IsErr ∧
    ((BmpMessage.Initiation x).encodeTo (List.replicate 10 9)).IsErr ∧
    (BmpMessage.Initiation x).encodeTo (List.replicate 11 9) = .panic ∧
    (∃ r, (BmpMessage.Initiation x).encodeTo (List.replicate 12 9) = .ok r) :=
  ⟨rfl, trivial, rfl, rfl, trivial, trivial, rfl, ⟨_, rfl⟩⟩

end Zbgp.Props
