import Verif.Lemmas.FrameBmp
import Verif.Props.Families
import Verif.Props.Attrs

/-!
# The buffers of encoders

C62: what encoders change.
-/

namespace Zbgp.Props

open Spec

/-- **C62**, sizes: no encoder changes the size of the buffer, whatever it encodes. -/
theorem C62_buffer_size_kept :
    (∀ a, SizeKept (encodeAddrV4 a)) ∧ (∀ a, SizeKept (encodeAddrV6 a)) ∧ (∀ a, SizeKept (encodeAddr a)) ∧
    (∀ (ty : BgpMessageType) n, SizeKept fun b => BgpSessionParams.prepareMessageBuf b ty n) ∧
    (∀ m : BgpOpenMessage, SizeKept m.encodeTo) ∧ (∀ m : BgpNotificationMessage, SizeKept m.encodeTo) ∧
    SizeKept keepaliveEncode ∧
    (∀ (x : BgpAddrs) p, SizeKept (x.encodeTo p)) ∧ (∀ (x : BgpAttrItem) p, SizeKept (x.encodeTo p)) ∧
    (∀ (x : BgpUpdateMessage) p, SizeKept (x.encodeTo p)) ∧
    (∀ h : BmpMessageHeader, SizeKept h.encodeTo) ∧ (∀ h : BmpMessagePeerHeader, SizeKept h.encodeTo) ∧
    (∀ x : BmpInfoVal, SizeKept x.encodeTo) ∧ (∀ x : BmpMessage, SizeKept x.encodeTo) ∧
    (∀ (c : BgpCapability) buf buf', c.fillBuffer buf = .ok buf' → buf'.length = buf.length) := by
  have h : ∀ (f : Enc) [KeepsSize f], SizeKept f := fun f hf buf buf' n he => hf.post buf _ he
  refine ⟨fun a => h _, fun a => h _, fun a => h _, fun _ _ => ?_, fun _ => h _, fun _ => h _, h _, fun _ _ => h _, fun _ _ => h _,
    fun _ _ => h _, fun _ => h _, fun _ => h _, fun _ => h _, fun _ => h _, fun c buf buf' he => ?_⟩
  · exact fun buf buf' n he => (Framed.post (pos := id) (f := fun b => BgpSessionParams.prepareMessageBuf b _ _) buf _ he).2.1
  · exact (Fills.post (f := c.fillBuffer) buf _ he).2.1

/-- **C62 (partial)**, BGP: addresses, the message header, OPEN, NOTIFICATION and KEEPALIVE messages, capabilities, NLRI
lists, path attributes and UPDATE messages: an encoder that succeeds reports a number of octets inside the buffer and
changes nothing behind them. Left out, see below: VPLS NLRI and EVPN routes of type 5 with IPv6 addresses (octets behind
are changed), AGGREGATOR (octets outside the buffer are reported), on their own and in attributes and messages. -/
theorem C62_frame_partial :
    (∀ a, Frame (encodeAddrV4 a)) ∧ (∀ a, Frame (encodeAddrV6 a)) ∧ (∀ a, Frame (encodeAddr a)) ∧
    (∀ (ty : BgpMessageType) n, Frame fun b => BgpSessionParams.prepareMessageBuf b ty n) ∧
    (∀ m : BgpOpenMessage, Frame m.encodeTo) ∧ (∀ m : BgpNotificationMessage, Frame m.encodeTo) ∧
    Frame keepaliveEncode ∧
    (∀ (c : BgpCapability) buf buf', c.fillBuffer buf = .ok buf' → c.bytesLen ≤ buf.length ∧ SameBehind c.bytesLen buf buf') ∧
    (∀ (x : BgpAddrs) p, AddrsFramed x → Frame (x.encodeTo p)) ∧
    (∀ (x : BgpAttrItem) p, AttrFramed x → Frame (x.encodeTo p)) ∧
    (∀ (x : BgpUpdateMessage) p, (∀ a ∈ x.attrs, AttrFramed a) → Frame (x.encodeTo p)) := by
  have h : ∀ (f : Enc) [Framed id f], Frame f := fun f hf => frame_iff.2 hf
  refine ⟨fun a => h _, fun a => h _, fun a => h _, fun _ _ => h _, fun _ => h _, fun _ => h _, h _, ?_, ?_, ?_, ?_⟩
  · intro c buf buf' he
    obtain ⟨h1, h2, h3⟩ := Fills.post (f := c.fillBuffer) buf _ he
    refine ⟨h1, h2, List.ext_getElem? fun k => ?_⟩
    rw [List.getElem?_drop, List.getElem?_drop, h3 _ (by omega)]
  · exact fun x p hx => frame_iff.2 (framed_addrs x p hx.1 hx.2)
  · exact fun x p hx => frame_iff.2 (framed_attr x p hx)
  · exact fun x p hx => frame_update p x hx

/-- the encoders succeed, on buffers with octets behind -/
example : (∃ b', encodeAddr (.v4 0x0a000001) [9, 9, 9, 9, 9] = .ok (b', 4) ∧ b'.drop 4 = [9]) ∧
    (∃ b', BgpOpenMessage.encodeTo ⟨65001, 180, 0x01010101, [.CapRR]⟩ (List.replicate 20 9) = .ok (b', 14) ∧
      b'.drop 14 = List.replicate 6 9) ∧
    (∃ b', (BgpAttrItem.MED ⟨7⟩).encodeTo (.new 1 180 .IPv4 0 []) (List.replicate 9 9) = .ok (b', 7) ∧ b'.drop 7 = [9, 9]) :=
  ⟨⟨_, rfl, rfl⟩, ⟨_, rfl, rfl⟩, ⟨_, rfl, rfl⟩⟩

/-- **C62 (partial)**, BMP: in buffers of at most 65535 octets, the BMP encoders report a number of octets inside the buffer
and change nothing behind them, if there is no IPv4 address in the message. If there is one, they clear everything behind
(which the English property rules out). -/
theorem C62_bmp_partial :
    (∀ h : BmpMessageHeader, FrameBmp false h.encodeTo) ∧
    (∀ h : BmpMessagePeerHeader, FrameBmp (isV4 h.peeraddress) h.encodeTo) ∧
    (∀ x : BmpInfoVal, FrameBmp false x.encodeTo) ∧
    (∀ x, FrameBmp false (BmpMessage.Initiation x).encodeTo) ∧
    (∀ x, FrameBmp false (BmpMessage.Termination x).encodeTo) ∧
    (∀ x, FrameBmp (isV4 x.peer.peeraddress) (BmpMessage.PeerDownNotification x).encodeTo) ∧
    (∀ x, FrameBmp (isV4 x.peer.peeraddress || isV4 x.localaddress) (BmpMessage.PeerUpNotification x).encodeTo) ∧
    (∀ x, (∀ a ∈ x.update.attrs, AttrFramed a) →
      FrameBmp (isV4 x.peer.peeraddress) (BmpMessage.RouteMonitoring x).encodeTo) := by
  have h : ∀ {c} (f : Enc) [Zeroed c f], FrameBmp c f := fun f hf buf buf' n hb he => zeroed_iff hf buf buf' n hb he
  have ht : ∀ {c} (x : BmpMessage) (code : U8) (f : Enc) [Zeroed c f],
      (∀ b : Bytes, ¬ b.isEmpty → x.encodeTo b = BmpMessage.encodeTyped code f b) → FrameBmp c x.encodeTo := by
    intro c x code f hf hx buf buf' n hb he
    have hz := zeroed_typed code f
    cases buf with
    | nil => cases he
    | cons a t =>
      rw [hx _ (by simp)] at he
      exact zeroed_iff hz _ buf' n hb he
  have hu : ∀ (x : BmpMessage) (code : U8) {c} (f : Enc) (_ : Zeroed c f), BmpMessage.encodeTo x = (fun buf =>
      if buf.isEmpty then .err .insufficientBufferSize else BmpMessage.encodeTyped code f buf) → FrameBmp c x.encodeTo := by
    intro x code c f hf hx
    refine ht x code f fun b hb => ?_
    rw [hx]; simp [hb]
  refine ⟨fun x => h _, fun x => h _, fun x => h _, fun x => hu _ 4 x.encodeTo inferInstance rfl,
    fun x => hu _ 5 x.encodeTo inferInstance rfl, fun x => hu _ 2 x.encodeTo inferInstance rfl,
    fun x => hu _ 3 x.encodeTo inferInstance rfl, fun x hx => ?_⟩
  have := framed_update (.ofPeerHeader x.peer) x.update hx
  exact hu _ 0 x.encodeTo inferInstance rfl

/-- the encoders succeed: a peer-down message of an IPv6 peer changes nothing behind, of an IPv4 peer clears it -/
example : (∃ b', (BmpMessage.PeerDownNotification ⟨⟨0, 0, ⟨0, 0⟩, .v6 1, 1, 1, 0⟩, .Remote⟩).encodeTo (List.replicate 46 9) = .ok (b', 44) ∧
      b'.drop 44 = [9, 9]) ∧
    (∃ b', (BmpMessage.PeerDownNotification ⟨⟨0, 0, ⟨0, 0⟩, .v4 1, 1, 1, 0⟩, .Remote⟩).encodeTo (List.replicate 46 9) = .ok (b', 44) ∧
      b'.drop 44 = [0, 0]) := ⟨⟨_, rfl, rfl⟩, ⟨_, rfl, rfl⟩⟩

/-- **C62 fails** for a VPLS NLRI, always: two octets behind the reported ones are overwritten with the last two of the
NLRI. -/
theorem C62_vpls_writes_behind (x : BgpAddrL2) (h : LabelStackWF x.labels.labels) (h10 : x.labels.labels.length ≤ 10)
    (p : BgpSessionParams) (buf : Bytes) (hb : (vplsWire x).length ≤ buf.length) :
    ∃ buf' n, (BgpAddrs.L2VPLS [x]).encodeTo p buf = .ok (buf', n) ∧ n + 2 = (vplsWire x).length ∧
      (buf'.drop n).take 2 = (vplsWire x).drop n := by
  have hl : (vplsWire x).length = (vplsBody x).length + 2 := by simp [vplsWire]; omega
  refine ⟨_, _, vpls_items_single x h.1 h10 buf hb, hl.symm, ?_⟩
  rw [List.drop_append_of_le_length (by omega), List.take_left' (by simp; omega)]

/-- **C62 fails** for VPLS NLRI, EVPN routes of type 5 with IPv6 addresses (octets behind are changed), AGGREGATOR (it
reports octets outside the buffer), and BMP per-peer headers of IPv4 peers. -/
theorem C62_not_framed :
    ¬ Frame ((BgpAddrs.L2VPLS [⟨⟨0, 1⟩, 2, 3, 4, ⟨[16]⟩⟩]).encodeTo (.new 1 180 .IPv4 0 [])) ∧
    ¬ Frame ((BgpAddrs.EVPN [.evpn5 ⟨⟨0, 1⟩, 0, ⟨.replicate 9 0⟩, 0, 64, .v6 1, .v6 1, ⟨[16]⟩⟩]).encodeTo (.new 1 180 .IPv4 0 [])) ∧
    (∀ x p, ¬ Frame ((BgpAttrItem.AggregatorAS x).encodeTo p)) ∧
    (∀ h : BmpMessagePeerHeader, isV4 h.peeraddress = true → ¬ Frame h.encodeTo) := by
  refine ⟨fun h => ?_, fun h => ?_, fun x p h => ?_, fun h hv hf => ?_⟩
  · exact absurd (h (List.replicate 19 9) _ _ rfl).2.2 (by decide)
  · exact absurd (h (List.replicate 70 9) _ _ rfl).2.2 (by decide)
  · have := (h _ _ _ (C32_aggregator_not_written x p 0 0 0 [])).1
    cases hp : p.hasAs32bit <;> simp [hp] at this
  · have h1 := peerHeader_clears h (List.replicate 43 9) (by simp [peerHeaderWire_length])
    have h2 := (hf _ _ _ h1).2.2
    rw [List.drop_left' rfl] at h2
    simp [peerHeaderWire_length, hv, behind] at h2

/-- **C62 fails** for BMP route monitoring messages with an UPDATE of 65536 octets or more (and for every encoder of a whole
BGP message): the length is taken modulo 65536, so that fewer octets are reported than are written. For an IPv6 peer and an
UPDATE that is encoded as `w`, all of `w` is written, and 61 and the remainder are reported. -/
theorem C62_long_update_wraps (x : BmpMessageRouteMonitoring) (hp : isV4 x.peer.peeraddress = false) (w : Bytes)
    (hw : Writes (x.update.encodeTo (.ofPeerHeader x.peer)) w) (h0 : 65536 ≤ w.length) (hl : w.length % 65536 ≤ 65516) (buf : Bytes)
    (hb : 61 + w.length ≤ buf.length) :
    ∃ buf', x.encodeTo buf = .ok (buf', 61 + w.length % 65536) ∧ (buf'.drop 61).take w.length = w := by
  unfold BmpMessageRouteMonitoring.encodeTo
  rw [if_neg (by omega), peerHeader_clears x.peer buf (by simp [peerHeaderWire_length]; omega)]
  simp only [Res.ok_bind, hp, behind]
  rw [embedded_wraps .Update hw hl _ _ (by simp [peerHeaderWire_length]; omega)]
  refine ⟨_, by rw [peerHeaderWire_length]; congr 2; omega, ?_⟩
  rw [← List.append_assoc, List.drop_left' (by simp [peerHeaderWire_length, header_length]), List.take_left' rfl]

/-- a route monitoring message with `n` IPv6 prefixes -/
def longUpdate (n : Nat) : BmpMessageRouteMonitoring :=
  ⟨⟨0, 0, ⟨0, 0⟩, .v6 1, 1, 1, 0⟩, ⟨.IPV6U (List.replicate n ⟨0x20010db8000000000000000000000000, 32⟩), .None, []⟩⟩

/-- non-vacuity of `C62_long_update_wraps`: it is written as `4 + 5 * n` octets, of which there may be any number -/
example (n : Nat) : ∃ w, Writes ((longUpdate n).update.encodeTo (.ofPeerHeader (longUpdate n).peer)) w ∧ w.length = 4 + 5 * n := by
  have hl : (updateWire (.ofPeerHeader (longUpdate n).peer) (longUpdate n).update).length = 4 + 5 * n := by
    have h5 : (nlriWire (⟨0x20010db8000000000000000000000000, 32⟩ : BgpAddrV6)).length = 5 := rfl
    simp only [longUpdate, updateWire, updateBytes, addrsWire, attrsWire, List.length_append, be_length, List.length_flatMap,
      List.map_replicate, h5, List.sum_replicate]
    simp [Nat.mul_comm]
  refine ⟨_, update_writes _ _ ?_ ?_ ?_, hl⟩
  · refine ⟨?_, ?_, ?_⟩
    · exact .inl rfl
    · refine .inr ⟨⟨_, rfl⟩, ?_, ?_⟩
      · intro x hx
        rw [List.eq_of_mem_replicate hx]
        change _ ≤ _
        decide
      · intro f a h _
        cases h
        cases n <;> rfl
    · intro a ha; cases ha
  · simp [longUpdate, addrsWire]
  · intro a b c h
    cases a <;> cases h

end Zbgp.Props
