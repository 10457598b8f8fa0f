import Verif.Lemmas.BmpReads
import Verif.Props.Session
import Verif.Props.Update

/-! # BMP: C56-C61 -/

namespace Zbgp.Props

open Zbgp Spec

/-! ## C56 -/

/-- **C56, common header.** A header with version 3 and a length below 2^32 is written as version octet and four-octet length,
nothing behind it is changed, and it is read back. -/
theorem C56_common_header_partial (h : BmpMessageHeader) (hv : h.version = 3) (hl : h.msglength < 2 ^ 32) (buf : Bytes)
    (hb : 5 ≤ buf.length) :
    ∃ buf', h.encodeTo buf = .ok (buf', 5) ∧ buf'.take 5 = be 1 3 ++ be 4 h.msglength ∧ buf'.drop 5 = buf.drop 5 ∧
      BmpMessageHeader.decodeFrom buf' = .ok (h, 5) := by
  have hlen : (commonHeaderWire h).length = 5 := by simp [commonHeaderWire]
  have h1 := commonHeader_writes h buf (by omega)
  rw [hlen] at h1
  refine ⟨_, h1, ?_, List.drop_left' hlen, ?_⟩
  · rw [List.take_left' hlen, commonHeaderWire, hv]; rfl
  · rw [commonHeader_reads h hv hl _, hlen]

/-- **C56 is violated** by common headers of another version (not read back at all) and by lengths from 2^32 on (read back
modulo 2^32). -/
theorem C56_common_header_other (h : BmpMessageHeader) (buf buf' : Bytes) (n : Nat) (he : h.encodeTo buf = .ok (buf', n)) :
    (h.version ≠ 3 → BmpMessageHeader.decodeFrom buf' = .err .static) ∧
    (h.version = 3 → BmpMessageHeader.decodeFrom buf' = .ok (⟨3, h.msglength % 2 ^ 32⟩, 5)) := by
  have hlen : ∀ h, (commonHeaderWire h).length = 5 := by intro h; simp [commonHeaderWire]
  have hb : 5 ≤ buf.length := by
    apply Classical.byContradiction
    intro hc
    unfold BmpMessageHeader.encodeTo at he
    rw [if_pos (by omega)] at he
    cases he
  have h1 := commonHeader_writes h buf (by rw [hlen]; omega)
  rw [he] at h1
  cases h1
  constructor
  · intro hv
    unfold BmpMessageHeader.decodeFrom
    rw [if_neg (by simp [hlen])]
    simp only [commonHeaderWire, List.append_assoc]
    rw [idx_be1, Res.ok_bind, if_pos]
    simpa using hv
  · intro hv
    have e : commonHeaderWire h = commonHeaderWire ⟨3, h.msglength % 2 ^ 32⟩ := by
      simp only [commonHeaderWire, hv]
      rw [← be_congr_mod 4 h.msglength]
      rfl
    rw [e, commonHeader_reads ⟨3, h.msglength % 2 ^ 32⟩ rfl (Nat.mod_lt _ (by omega)) _, hlen]

/-- both cases of `C56_common_header_other` and the case of `C56_common_header_partial` occur -/
example : (∃ b, (⟨3, 48⟩ : BmpMessageHeader).encodeTo [0, 0, 0, 0, 0, 9] = .ok (b, 5) ∧ b = [3, 0, 0, 0, 48, 9]) ∧
    (∃ b, (⟨4, 48⟩ : BmpMessageHeader).encodeTo [0, 0, 0, 0, 0] = .ok (b, 5)) ∧
    (∃ b, (⟨3, 2 ^ 32 + 7⟩ : BmpMessageHeader).encodeTo [0, 0, 0, 0, 0] = .ok (b, 5) ∧
      BmpMessageHeader.decodeFrom b = .ok (⟨3, 7⟩, 5)) :=
  ⟨⟨_, rfl, rfl⟩, ⟨_, rfl⟩, ⟨_, rfl, rfl⟩⟩

/-- **C56, per-peer header.** Into any sufficient buffer the 42 octets of RFC 7854 are written. They are read back as the same
header with the address as `addrRead` says, that is, unchanged if and only if the address is not an IPv6 address in `::/96`.
For IPv6 peers nothing behind the header is changed. Missing for the full property: IPv4 peers, see
`C56_rest_is_cleared`, and the addresses in `::/96`. -/
theorem C56_peer_header_partial (h : BmpMessagePeerHeader) (buf : Bytes) (hb : 42 ≤ buf.length) :
    ∃ buf', h.encodeTo buf = .ok (buf', 42) ∧ buf'.length = buf.length ∧ buf'.take 42 = peerHeaderWire h ∧
      BmpMessagePeerHeader.decodeFrom buf' = .ok ({ h with peeraddress := addrRead h.peeraddress }, 42) ∧
      (BmpMessagePeerHeader.decodeFrom buf' = .ok (h, 42) ↔ Distinct h.peeraddress) ∧
      (isV4 h.peeraddress = false → buf'.drop 42 = buf.drop 42) := by
  have hlen := peerHeaderWire_length h
  have h1 := peerHeader_clears h buf (by omega)
  rw [hlen] at h1
  have h2 := peerHeader_reads h (behind (isV4 h.peeraddress) (buf.drop 42))
  rw [hlen] at h2
  refine ⟨_, h1, ?_, List.take_left' hlen, h2, ?_, ?_⟩
  · simp [behind_length, hlen]; omega
  · rw [h2, ← addrRead_iff]
    constructor
    · intro e
      simp only [Res.ok.injEq, Prod.mk.injEq, and_true] at e
      exact congrArg BmpMessagePeerHeader.peeraddress e
    · intro e; rw [e]
  · intro hv
    rw [List.drop_left' hlen, hv]
    rfl

/-- **C56 is violated** (and C62): the header of an IPv4 peer clears everything behind it in the buffer. -/
theorem C56_rest_is_cleared (h : BmpMessagePeerHeader) (hv : isV4 h.peeraddress = true) (buf : Bytes) (hb : 42 ≤ buf.length) :
    ∃ buf', h.encodeTo buf = .ok (buf', 42) ∧ buf'.drop 42 = List.replicate (buf.length - 42) 0 := by
  have hlen := peerHeaderWire_length h
  have h1 := peerHeader_clears h buf (by omega)
  rw [hlen] at h1
  refine ⟨_, h1, ?_⟩
  rw [List.drop_left' hlen, hv]
  simp [behind]

/-- a header with an IPv6 address that comes back as IPv4, one with an IPv4 address and one with another IPv6 address -/
example : addrRead (.v6 1) = .v4 1 ∧ Distinct (.v4 1) ∧ Distinct (.v6 0x20010db8000000000000000000000001) := by decide

/-- a buffer in which the octet behind the header is lost -/
example : ∃ buf', (⟨0, 0, ⟨0, 0⟩, .v4 0x0a000001, 1, 2, 3⟩ : BmpMessagePeerHeader).encodeTo (List.replicate 43 7) = .ok (buf', 42) ∧
    buf'[42]? = some 0 := by
  refine ⟨_, rfl, rfl⟩

/-! ## C57 -/

/-- **C57, termination messages.** Any termination message with a reason string of valid UTF-8 of at most 65535 octets is
written as RFC 7854 information TLVs, leaves the rest of the buffer alone, and is read back. -/
theorem C57_termination_round_trip (x : BmpMessageTermination) (hs : ∀ s, x.str0 = some s → InfoOk s) (buf : Bytes)
    (hb : (terminationWire x).length < buf.length) :
    ∃ buf' n, (BmpMessage.Termination x).encodeTo buf = .ok (buf', n) ∧ buf'.take n = 5 :: terminationWire x ∧
      buf'.drop n = buf.drop n ∧ ∃ m, BmpMessage.decodeFrom (buf'.take n) = .ok (.Termination m) ∧ m = x := by
  have h := typed_clears 5 (clears_false.2 (term_writes x)) buf (by simp [typed]; omega)
  rw [encodeTo_nonempty _ _ (by omega)]
  refine ⟨_, _, h, List.take_left' rfl, ?_, x, ?_, rfl⟩
  · rw [List.drop_left' rfl]; rfl
  · rw [List.take_left' rfl]
    have := term_reads x hs [] (by simp)
    rw [List.append_nil] at this
    simp only [BmpMessage.decodeFrom, typed, idx_cons_zero, rfrom_cons_one, Res.ok_bind]
    rw [show (5 : U8).toNat = 5 from rfl]
    simp only [this, Res.ok_bind]

/-- non-vacuity -/
example : ∀ s, (⟨some [66, 121, 101], some 3⟩ : BmpMessageTermination).str0 = some s → InfoOk s := by
  intro s h
  cases h
  exact ⟨by decide, by decide⟩

/-- **C57.** Reading an initiation message: whatever TLVs it carries, each string is the last one of its type, and TLVs of
unknown type are skipped. -/
theorem C57_initiation_decode (l : List (Nat × Bytes)) (h : ∀ t ∈ l, t.1 < 65536 ∧ InfoOk t.2) :
    BmpMessage.decodeFrom (4 :: l.flatMap fun t => infoWire t.1 t.2) =
      .ok (.Initiation ⟨lastOf 0 l, lastOf 1 l, lastOf 2 l⟩) := by
  simp only [BmpMessage.decodeFrom, idx_cons_zero, rfrom_cons_one, Res.ok_bind]
  rw [show (4 : U8).toNat = 4 from rfl]
  simp only [init_decode l h, Res.ok_bind]

/-- non-vacuity: two strings of type 0, a system name and an unknown type -/
example : lastOf 0 [(0, [65]), (2, [66]), (9, [67]), (0, [68])] = some [68] ∧
    lastOf 1 [(0, [65]), (2, [66]), (9, [67]), (0, [68])] = none ∧
    lastOf 2 [(0, [65]), (2, [66]), (9, [67]), (0, [68])] = some [66] := by decide

/-- What an initiation message is read back as: every string was written as a TLV of type 0. -/
theorem C57_initiation_as_written (x : BmpMessageInitiation)
    (hs : ∀ s, (x.str0 = some s ∨ x.sysDescr = some s ∨ x.sysName = some s) → InfoOk s) (buf : Bytes)
    (hb : (optInfo 0 x.str0 ++ (optInfo 0 x.sysDescr ++ optInfo 0 x.sysName)).length < buf.length) :
    ∃ buf' n, (BmpMessage.Initiation x).encodeTo buf = .ok (buf', n) ∧
      buf'.take n = 4 :: (optInfo 0 x.str0 ++ (optInfo 0 x.sysDescr ++ optInfo 0 x.sysName)) ∧ buf'.drop n = buf.drop n ∧
      BmpMessage.decodeFrom (buf'.take n) = .ok (.Initiation ⟨(x.sysName.or x.sysDescr).or x.str0, none, none⟩) := by
  have h := typed_clears 4 (clears_false.2 (init_writes x)) buf (by simp only [typed, List.length_cons]; omega)
  rw [encodeTo_nonempty _ _ (by omega)]
  refine ⟨_, _, h, List.take_left' rfl, ?_, ?_⟩
  · rw [List.drop_left' rfl]; rfl
  · rw [List.take_left' rfl]
    obtain ⟨a, b, c⟩ := x
    simp only at hs ⊢
    have one : ∀ o : Option Bytes, optInfo 0 o = (o.toList.map fun s => (0, s)).flatMap fun t => infoWire t.1 t.2 := by
      intro o; cases o <;> simp [optInfo]
    have := C57_initiation_decode ((a.toList ++ (b.toList ++ c.toList)).map fun s => (0, s)) (by
      intro t ht
      simp only [List.mem_map, List.mem_append, Option.mem_toList] at ht
      obtain ⟨s, hs', rfl⟩ := ht
      exact ⟨by omega, hs s hs'⟩)
    rw [one, one, one, typed, ← List.flatMap_append, ← List.flatMap_append, ← List.map_append, ← List.map_append, this]
    cases a <;> cases b <;> cases c <;> rfl

/-- **C57, initiation messages, what holds.** A message with neither system description nor system name round trips.
Missing for the full property: the other messages, see `C57_initiation_loses_types`. -/
theorem C57_initiation_round_trip_partial (x : BmpMessageInitiation) (h1 : x.sysDescr = none) (h2 : x.sysName = none)
    (hs : ∀ s, x.str0 = some s → InfoOk s) (buf : Bytes) (hb : (optInfo 0 x.str0).length < buf.length) :
    ∃ buf' n, (BmpMessage.Initiation x).encodeTo buf = .ok (buf', n) ∧ buf'.take n = 4 :: optInfo 0 x.str0 ∧
      buf'.drop n = buf.drop n ∧ BmpMessage.decodeFrom (buf'.take n) = .ok (.Initiation x) := by
  have := C57_initiation_as_written x (by simpa [h1, h2] using hs) buf (by simpa [h1, h2, optInfo] using hb)
  obtain ⟨buf', n, a, b, c, d⟩ := this
  refine ⟨buf', n, a, ?_, c, ?_⟩
  · rw [b, h1, h2]; simp [optInfo]
  · rw [d]
    obtain ⟨s0, s1, s2⟩ := x
    simp only at h1 h2
    subst h1 h2
    simp

/-- **C57 is violated** by every initiation message with a system description or a system name: it comes back as another
message. -/
theorem C57_initiation_loses_types (x : BmpMessageInitiation)
    (hs : ∀ s, (x.str0 = some s ∨ x.sysDescr = some s ∨ x.sysName = some s) → InfoOk s)
    (hx : x.sysDescr ≠ none ∨ x.sysName ≠ none) (buf : Bytes)
    (hb : (optInfo 0 x.str0 ++ (optInfo 0 x.sysDescr ++ optInfo 0 x.sysName)).length < buf.length) :
    ∃ buf' n y, (BmpMessage.Initiation x).encodeTo buf = .ok (buf', n) ∧
      BmpMessage.decodeFrom (buf'.take n) = .ok (.Initiation y) ∧ y ≠ x := by
  obtain ⟨buf', n, a, -, -, d⟩ := C57_initiation_as_written x hs buf hb
  refine ⟨buf', n, _, a, d, ?_⟩
  intro e
  rw [← e] at hx
  simp at hx

/-- non-vacuity -/
example : ∀ s, ((⟨none, some [82], some [114, 49]⟩ : BmpMessageInitiation).str0 = some s ∨
    (⟨none, some [82], some [114, 49]⟩ : BmpMessageInitiation).sysDescr = some s ∨
    (⟨none, some [82], some [114, 49]⟩ : BmpMessageInitiation).sysName = some s) → InfoOk s := by
  rintro s (h | h | h) <;> cases h <;> exact ⟨by decide, by decide⟩

/-! ## C58 -/

/-- the embedded BGP message round trips: the encoder writes `w`, and from `w` the value is read -/
def EmbedsAs {α : Type} (enc : Enc) (dec : Bytes → Res α) (x : α) (w : Bytes) : Prop :=
  Writes enc w ∧ dec w = .ok x ∧ w.length ≤ 65516

/-- **C58, peer up.** Missing for the full property: addresses in `::/96`. -/
theorem C58_peer_up_partial (x : BmpMessagePeerUp) (w1 w2 : Bytes)
    (h1 : EmbedsAs x.msg1.encodeTo BgpOpenMessage.new.decodeFrom x.msg1 w1)
    (h2 : EmbedsAs x.msg2.encodeTo BgpOpenMessage.new.decodeFrom x.msg2 w2)
    (a1 : Distinct x.peer.peeraddress) (a2 : Distinct x.localaddress) (buf : Bytes)
    (hb : (peerUpWire x w1 w2).length < buf.length) :
    ∃ buf' n, (BmpMessage.PeerUpNotification x).encodeTo buf = .ok (buf', n) ∧ buf'.take n = 3 :: peerUpWire x w1 w2 ∧
      BmpMessage.decodeFrom (buf'.take n) = .ok (.PeerUpNotification x) := by
  have h := typed_clears 3 (peerUp_clears x w1 w2 h1.1 h2.1 h1.2.2 h2.2.2) buf (by simp [typed]; omega)
  rw [encodeTo_nonempty _ _ (by omega)]
  refine ⟨_, _, h, List.take_left' rfl, ?_⟩
  rw [List.take_left' rfl]
  have := peerUp_reads x w1 w2 [] _ _ h1.2.1 h2.2.1 h1.2.2 h2.2.2
  rw [List.append_nil, addrRead_distinct a1, addrRead_distinct a2] at this
  simp only [BmpMessage.decodeFrom, typed, idx_cons_zero, rfrom_cons_one, Res.ok_bind]
  rw [show (3 : U8).toNat = 3 from rfl]
  simp only [this, Res.ok_bind]

/-- OPEN messages with encodable capabilities and an AS number of two octets meet the hypothesis of `C58_peer_up_partial`. -/
theorem C58_open_embeds (m : BgpOpenMessage) (hc : ∀ c ∈ m.caps, CapEncodable c) (ha : m.asNum.toNat < 65536)
    (hl : (capsParams m.caps).length ≤ 65506) :
    EmbedsAs m.encodeTo BgpOpenMessage.new.decodeFrom m
      (openWire m.asNum.toNat m.holdTime.toNat m.routerId.toNat (capsParams m.caps)) := by
  have hlen := openWire_length m.asNum.toNat m.holdTime.toNat m.routerId.toNat (capsParams m.caps)
  refine ⟨writes_open m hc, ?_, by omega⟩
  obtain ⟨buf', n, -, h2, -, -, h5⟩ := C05_open_round_trip m hc (List.replicate (10 + (capsParams m.caps).length) 0)
    (by simp) .new
  rw [h2, if_pos ha] at h5
  exact h5

/-- **C58, peer up,** for OPEN messages as in C05: a message round trips if both addresses are outside `::/96`. -/
theorem C58_peer_up_of_opens_partial (x : BmpMessagePeerUp)
    (hc : ∀ m, m = x.msg1 ∨ m = x.msg2 → (∀ c ∈ m.caps, CapEncodable c) ∧ m.asNum.toNat < 65536 ∧ (capsParams m.caps).length ≤ 65506)
    (a1 : Distinct x.peer.peeraddress) (a2 : Distinct x.localaddress) (buf : Bytes)
    (hb : 121 + (capsParams x.msg1.caps).length + (capsParams x.msg2.caps).length ≤ buf.length) :
    ∃ buf' n, (BmpMessage.PeerUpNotification x).encodeTo buf = .ok (buf', n) ∧
      BmpMessage.decodeFrom (buf'.take n) = .ok (.PeerUpNotification x) := by
  obtain ⟨c1, c2, c3⟩ := hc x.msg1 (.inl rfl)
  obtain ⟨d1, d2, d3⟩ := hc x.msg2 (.inr rfl)
  obtain ⟨buf', n, h1, -, h2⟩ := C58_peer_up_partial x _ _ (C58_open_embeds _ c1 c2 c3) (C58_open_embeds _ d1 d2 d3) a1 a2 buf (by
    rw [peerUpWire_length, openWire_length, openWire_length]; omega)
  exact ⟨buf', n, h1, h2⟩

/-- **C58 is violated** by addresses in `::/96`: they come back as IPv4 addresses. -/
theorem C58_peer_up_addresses (x : BmpMessagePeerUp) (w1 w2 : Bytes)
    (h1 : EmbedsAs x.msg1.encodeTo BgpOpenMessage.new.decodeFrom x.msg1 w1)
    (h2 : EmbedsAs x.msg2.encodeTo BgpOpenMessage.new.decodeFrom x.msg2 w2)
    (ha : ¬ (Distinct x.peer.peeraddress ∧ Distinct x.localaddress)) (buf : Bytes)
    (hb : (peerUpWire x w1 w2).length < buf.length) :
    ∃ buf' n y, (BmpMessage.PeerUpNotification x).encodeTo buf = .ok (buf', n) ∧
      BmpMessage.decodeFrom (buf'.take n) = .ok (.PeerUpNotification y) ∧ y ≠ x := by
  have h := typed_clears 3 (peerUp_clears x w1 w2 h1.1 h2.1 h1.2.2 h2.2.2) buf (by simp [typed]; omega)
  rw [encodeTo_nonempty _ _ (by omega)]
  refine ⟨_, _, ⟨{ x.peer with peeraddress := addrRead x.peer.peeraddress }, addrRead x.localaddress, x.localport, x.remoteport,
      x.msg1, x.msg2⟩, h, ?_, ?_⟩
  · rw [List.take_left' rfl]
    have := peerUp_reads x w1 w2 [] _ _ h1.2.1 h2.2.1 h1.2.2 h2.2.2
    rw [List.append_nil] at this
    simp only [BmpMessage.decodeFrom, typed, idx_cons_zero, rfrom_cons_one, Res.ok_bind]
    rw [show (3 : U8).toNat = 3 from rfl]
    simp only [this, Res.ok_bind]
  · intro e
    apply ha
    have e1 : addrRead x.peer.peeraddress = x.peer.peeraddress := congrArg (fun y => y.peer.peeraddress) e
    have e2 : addrRead x.localaddress = x.localaddress := congrArg (fun y => y.localaddress) e
    exact ⟨addrRead_iff.1 e1, addrRead_iff.1 e2⟩

/-- **C58, peer down.** Every message round trips if the peer's address is outside `::/96`. -/
theorem C58_peer_down_partial (x : BmpMessagePeerDown) (a : Distinct x.peer.peeraddress) (buf : Bytes)
    (hb : (peerDownWire x).length < buf.length) :
    ∃ buf' n, (BmpMessage.PeerDownNotification x).encodeTo buf = .ok (buf', n) ∧ buf'.take n = 2 :: peerDownWire x ∧
      BmpMessage.decodeFrom (buf'.take n) = .ok (.PeerDownNotification x) := by
  have h := typed_clears 2 (peerDown_clears x) buf (by simp [typed]; omega)
  rw [encodeTo_nonempty _ _ (by omega)]
  refine ⟨_, _, h, List.take_left' rfl, ?_⟩
  rw [List.take_left' rfl]
  have := peerDown_reads x []
  rw [List.append_nil, addrRead_distinct a] at this
  simp only [BmpMessage.decodeFrom, typed, idx_cons_zero, rfrom_cons_one, Res.ok_bind]
  rw [show (2 : U8).toNat = 2 from rfl]
  simp only [this, Res.ok_bind]

/-- **C58, route monitoring.** Missing for the full property: addresses in `::/96`. -/
theorem C58_route_monitoring_partial (x : BmpMessageRouteMonitoring) (w : Bytes)
    (h : EmbedsAs (x.update.encodeTo (.ofPeerHeader x.peer)) (BgpUpdateMessage.new.decodeFrom (.ofPeerHeader x.peer)) x.update w)
    (a : Distinct x.peer.peeraddress) (buf : Bytes) (hb : 61 + w.length < buf.length) :
    ∃ buf' n, (BmpMessage.RouteMonitoring x).encodeTo buf = .ok (buf', n) ∧
      buf'.take n = 0 :: (peerHeaderWire x.peer ++ message .Update w) ∧
      BmpMessage.decodeFrom (buf'.take n) = .ok (.RouteMonitoring x) := by
  obtain ⟨h1, h2, h3⟩ := h
  have h0 : 1 ≤ w.length := by
    cases w with
    | nil => simp [BgpUpdateMessage.decodeFrom, sliceE] at h2
    | cons _ _ => simp
  have hc := typed_clears 0 (rmon_clears x w h1 h0 h3) buf (by simp [typed, peerHeaderWire_length, message_length]; omega)
  rw [encodeTo_nonempty _ _ (by omega)]
  refine ⟨_, _, hc, List.take_left' rfl, ?_⟩
  rw [List.take_left' rfl]
  have := rmon_reads x x.peer w [] x.update (by rw [addrRead_distinct a]) h2 h0 h3
  rw [List.append_nil] at this
  simp only [BmpMessage.decodeFrom, typed, idx_cons_zero, rfrom_cons_one, Res.ok_bind]
  rw [show (0 : U8).toNat = 0 from rfl]
  simp only [this, Res.ok_bind]

/-- UPDATE messages as in C39 meet the hypothesis of `C58_route_monitoring_partial`, if they are received as they were sent
(no superfluous prefix octets). -/
theorem C58_update_embeds (p : BgpSessionParams) (x : BgpUpdateMessage) (h : PartsOk p x)
    (hl : (updateWire p x).length ≤ 65516)
    (hr : (⟨sectionReceived p x.updates, sectionReceived p x.withdraws, x.attrs.map attrReceived⟩ : BgpUpdateMessage) = x) :
    EmbedsAs (x.encodeTo p) (BgpUpdateMessage.new.decodeFrom p) x (updateWire p x) := by
  have hlen : (updateWire p x).length = 4 + (addrsWire x.withdraws).length + (attrsWire p x.attrs).length +
      (addrsWire x.updates).length := by simp [updateWire, updateBytes]; omega
  refine ⟨update_writes p x h (by omega) (fits_of_total p _ (by omega)), ?_, hl⟩
  have := update_reads p x .new h (by omega) (by omega)
  rw [this]
  exact congrArg _ hr

/-- a header of an IPv4 peer -/
def peer4 : BmpMessagePeerHeader := ⟨0, 0, ⟨0, 7⟩, .v4 0x0a000001, 65001, 0x01010101, 5⟩

/-- an OPEN message with the router id of `peer4` and one with another -/
def open4 : BgpOpenMessage := ⟨65001, 180, 0x01010101, [.SafiIPv4u, .CapAddPath [⟨1, 1, true, false⟩]]⟩
def openOwn : BgpOpenMessage := ⟨65002, 90, 0x02020202, [.SafiIPv4u]⟩

/-- a peer-up message with them -/
def up4 : BmpMessagePeerUp := ⟨peer4, .v4 0x0a000002, 179, 32768, openOwn, open4⟩

/-- its octets -/
def up4Bytes : Bytes :=
  3 :: peerUpWire up4 (openWire openOwn.asNum.toNat openOwn.holdTime.toNat openOwn.routerId.toNat (capsParams openOwn.caps))
    (openWire open4.asNum.toNat open4.holdTime.toNat open4.routerId.toNat (capsParams open4.caps))

/-- non-vacuity: the two OPEN messages of `up4` are as C58 asks, and so are its addresses -/
theorem up4_opens : (∀ m, m = up4.msg1 ∨ m = up4.msg2 → (∀ c ∈ m.caps, CapEncodable c) ∧ m.asNum.toNat < 65536 ∧
    (capsParams m.caps).length ≤ 65506) ∧ Distinct up4.peer.peeraddress ∧ Distinct up4.localaddress := by
  refine ⟨?_, trivial, trivial⟩
  rintro m (rfl | rfl)
  · refine ⟨?_, by decide, by decide⟩
    intro c hc
    simp only [up4, openOwn, List.mem_singleton] at hc
    subst hc
    exact ⟨by simp [CapEncodable], by decide⟩
  · refine ⟨?_, by decide, by decide⟩
    intro c hc
    simp only [up4, open4, List.mem_cons, List.not_mem_nil, or_false] at hc
    rcases hc with rfl | rfl <;> exact ⟨by simp [CapEncodable], by decide⟩

theorem up4_is : PeerUpIs up4Bytes up4 := by
  obtain ⟨hc, a1, a2⟩ := up4_opens
  obtain ⟨c1, c2, c3⟩ := hc up4.msg1 (.inl rfl)
  obtain ⟨d1, d2, d3⟩ := hc up4.msg2 (.inr rfl)
  have e1 := C58_open_embeds _ c1 c2 c3
  have e2 := C58_open_embeds _ d1 d2 d3
  have := peerUp_reads up4 _ _ [] _ _ e1.2.1 e2.2.1 e1.2.2 e2.2.2
  rw [List.append_nil, addrRead_distinct a1, addrRead_distinct a2] at this
  rw [← peerUpDec_eq]
  exact ⟨_, _, rfl, this⟩

/-- non-vacuity of `C58_route_monitoring_partial`: an UPDATE from the peer -/
example : EmbedsAs (update4.encodeTo (.ofPeerHeader peer4)) (BgpUpdateMessage.new.decodeFrom (.ofPeerHeader peer4)) update4
    update4Bytes := by
  have hp : PartsOk (.ofPeerHeader peer4) update4 := by
    refine ⟨.inr ⟨⟨false, rfl⟩, ?_, ?_⟩, .inr ⟨⟨false, rfl⟩, ?_, ?_⟩, ?_⟩
    · simp [update4, AddrsWF, NlriKind.WF, NlriKind.bits]
    · intro f ap h _
      simp only [update4, kindOf, Option.some.injEq, Prod.mk.injEq] at h
      obtain ⟨rfl, rfl⟩ := h
      decide
    · simp [update4, AddrsWF, NlriKind.WF, NlriKind.bits]
    · intro f ap h _
      simp only [update4, kindOf, Option.some.injEq, Prod.mk.injEq] at h
      obtain ⟨rfl, rfl⟩ := h
      decide
    · intro a ha
      simp only [update4, List.mem_cons, List.not_mem_nil, or_false] at ha
      rcases ha with rfl | rfl | rfl | rfl
      · exact ⟨trivial, by decide⟩
      · exact ⟨.inr rfl, by decide⟩
      · exact ⟨rfl, by decide⟩
      · exact ⟨by simp [AttrOk, Spec.Ascending], by decide⟩
  have e : updateWire (.ofPeerHeader peer4) update4 = update4Bytes := by decide
  have := C58_update_embeds (.ofPeerHeader peer4) update4 hp (by rw [e]; decide) rfl
  rwa [e] at this

/-! ## C59 -/

/-- **C59, what holds.** No sequence of octets makes the BMP decoders loop, with or without a session. -/
theorem C59_no_hang_partial (s : BMPSession) (buf : Bytes) :
    BmpMessage.decodeFrom buf ≠ .hang ∧ (s.decodeFrom buf).1 ≠ .hang :=
  ⟨nh_bmp buf, nh_session s buf⟩

/-- **C59, exactly.** Decoding a BMP message returns, unless the octets are of one of the forms of `BmpCrash`: empty; a BGP
message inside with a length field below 19, or beyond the end of the message, or an UPDATE that crashes its decoder; or a
termination reason code without room for two octets. -/
theorem C59_decode_returns_iff_partial (hist : List Bytes) (buf : Bytes) :
    ((BmpMessage.decodeFrom buf).Returns ↔ ¬ BmpCrash (fun h p => p = headerParams h) buf) ∧
    (((after hist).decodeFrom buf).1.Returns ↔ ¬ BmpCrash (ParamsAfter hist) buf) := by
  constructor
  · rw [← (bmp_exactly buf).not_returns, Classical.not_not]
  · rw [← (after_exactly hist buf).not_returns, Classical.not_not]

/-- **C59 is violated** by messages of all these kinds: an empty message; a peer-down whose NOTIFICATION has length 18; one
whose NOTIFICATION is cut off; a termination whose reason code is empty; and one with a single octet. -/
theorem C59_crashes :
    BmpMessage.decodeFrom [] = .panic ∧
    BmpMessage.decodeFrom (2 :: (List.replicate 42 0 ++ 1 :: (List.replicate 16 255 ++ [0, 18, 3, 6, 2]))) = .panic ∧
    BmpMessage.decodeFrom (2 :: (List.replicate 42 0 ++ 3 :: (List.replicate 16 255 ++ [0, 21, 3, 6]))) = .panic ∧
    BmpMessage.decodeFrom [5, 0, 1, 0, 0] = .panic ∧
    BmpMessage.decodeFrom [5, 0, 1, 0, 1, 0] = .panic := by
  refine ⟨rfl, rfl, rfl, rfl, rfl⟩

/-- a message that does not crash -/
example : BmpMessage.decodeFrom [5, 0, 0, 0, 2, 72, 105, 0, 1, 0, 2, 0, 1] = .ok (.Termination ⟨some [72, 105], some 1⟩) := rfl

/-! ## C60 -/

/-- **C60.** After any history of messages, whatever became of each, the table of the session has for each route
distinguisher and peer address the last peer-up that decoded and was not followed by a peer-down (or another peer-up) for
them, and has nothing else; no key is in it twice. -/
theorem C60_session_table (hist : List Bytes) :
    (∀ rd ip m, ((⟨rd, ip⟩ : BgpSessionKey), m) ∈ (after hist).sessions ↔ LastUp hist rd ip m) ∧
    ((after hist).sessions.map Prod.fst).Nodup := by
  obtain ⟨h1, h2⟩ := after_table hist
  rw [lastUpDec_eq] at h2
  refine ⟨h2, ?_⟩
  rw [List.nodup_iff_pairwise_ne, List.pairwise_map]
  refine h1.imp ?_
  intro a b h e
  rw [e, (key_ext _ _).2 rfl] at h
  cases h

/-- **C60.** A message that is not a peer-up or peer-down that decodes leaves the session as it is. -/
theorem C60_others_change_nothing (s : BMPSession) (buf : Bytes) (h1 : ∀ m, ¬ PeerUpIs buf m) (h2 : ∀ m, ¬ PeerDownIs buf m) :
    (s.decodeFrom buf).2 = s := by
  rw [← peerUpDec_eq] at h1
  rw [← peerDownDec_eq] at h2
  exact session_other s h1 h2

/-- **C60.** What a peer-up or peer-down is decoded to does not depend on the session, and is what `BmpMessage` decodes. -/
theorem C60_results (s : BMPSession) (buf : Bytes) :
    (∀ m, PeerUpIs buf m → (s.decodeFrom buf).1 = .ok (.PeerUpNotification m) ∧ BmpMessage.decodeFrom buf = .ok (.PeerUpNotification m)) ∧
    (∀ m, PeerDownIs buf m → (s.decodeFrom buf).1 = .ok (.PeerDownNotification m) ∧
      BmpMessage.decodeFrom buf = .ok (.PeerDownNotification m)) := by
  rw [← peerUpDec_eq, ← peerDownDec_eq]
  constructor
  · intro m h
    refine ⟨by rw [session_up s h], ?_⟩
    obtain ⟨body, n, rfl, h⟩ := h
    simp only [BmpMessage.decodeFrom, idx_cons_zero, rfrom_cons_one, Res.ok_bind]
    rw [show (3 : U8).toNat = 3 from rfl]
    simp only [h, Res.ok_bind]
  · intro m h
    refine ⟨by rw [session_down s h], ?_⟩
    obtain ⟨body, n, rfl, h⟩ := h
    simp only [BmpMessage.decodeFrom, idx_cons_zero, rfrom_cons_one, Res.ok_bind]
    rw [show (2 : U8).toNat = 2 from rfl]
    simp only [h, Res.ok_bind]

/-- non-vacuity: after a statistics report, the peer-up `up4` and a message that crashes, the peer is in the table -/
theorem up4_last : LastUp [[1, 0], up4Bytes, []] peer4.peerdistinguisher peer4.peeraddress up4 := by
  refine ⟨[[1, 0]], up4Bytes, [[]], rfl, up4_is, ⟨rfl, rfl⟩, ?_⟩
  intro b hb
  simp only [List.mem_singleton] at hb
  subst hb
  rintro (⟨m, ⟨body, h, -⟩, -⟩ | ⟨m, ⟨body, h, -⟩, -⟩) <;> cases h

/-- and after a peer-down for it, it is not -/
example : let down : Bytes := 2 :: peerDownWire ⟨peer4, .Remote⟩
    (∃ m, PeerDownIs down m ∧ OfPeer peer4.peerdistinguisher peer4.peeraddress m.peer) ∧
    ¬ ∃ m, LastUp [up4Bytes, down] peer4.peerdistinguisher peer4.peeraddress m := by
  have hd : PeerDownIs (2 :: peerDownWire ⟨peer4, .Remote⟩) ⟨peer4, .Remote⟩ :=
    ⟨_, rfl, _, rfl, trivial, .remote []⟩
  refine ⟨⟨_, hd, ⟨rfl, rfl⟩⟩, ?_⟩
  rintro ⟨m, h⟩
  rw [← lastUpDec_eq] at h
  rw [← peerDownDec_eq] at hd
  have := (lastUp_concat [up4Bytes] (2 :: peerDownWire ⟨peer4, .Remote⟩) _ _ m).1 h
  rcases this with ⟨h1, -⟩ | ⟨h1, h2⟩
  · exact peerUp_not_down h1 hd
  · exact h1 (.inr ⟨_, hd, rfl, rfl⟩)

/-! ## C61 -/

/-- **C61.** After any history, the UPDATE in a route monitoring message is decoded with session parameters `p`. If the last
message about the peer was a peer-up, these have 32-bit AS numbers if and only if the peer announced them in its OPEN, and the
capabilities of that OPEN; path ids are looked for according to these only, without guessing. Otherwise `p` are the parameters
that the per-peer header gives. -/
theorem C61_parameters (hist : List Bytes) (h : BmpMessagePeerHeader) (ha : Distinct h.peeraddress) (body rest : Bytes)
    (h1 : 1 ≤ body.length) (h2 : body.length ≤ 65516) :
    ∃ p : BgpSessionParams,
      ((after hist).decodeFrom (0 :: (peerHeaderWire h ++ (message .Update body ++ rest)))).1 =
        (BgpUpdateMessage.new.decodeFrom p body >>= fun u => .ok (.RouteMonitoring ⟨h, u⟩)) ∧
      (∀ m, LastUp hist h.peerdistinguisher h.peeraddress m →
        (p.hasAs32bit = true ↔ ∃ n, BgpCapability.CapASN32 n ∈ (peerOpen m).caps) ∧ p.caps = (peerOpen m).caps ∧
        p.peerMode = .IPv4 ∧ ∀ fam buf, AddPathExpected p fam buf = ReceivesAddPath (peerOpen m).caps fam) ∧
      ((¬ ∃ m, LastUp hist h.peerdistinguisher h.peeraddress m) →
        p = .new h.asnum 0 (.ofAddr h.peeraddress) h.routerid []) := by
  obtain ⟨q1, q2⟩ := params_after hist h
  rw [lastUpDec_eq] at q1 q2
  refine ⟨(after hist).params h, ?_, ?_, ?_⟩
  · simp only [BMPSession.decodeFrom, idx_cons_zero, rfrom_cons_one, Res.ok_bind]
    rw [show (0 : U8).toNat = 0 from rfl]
    simp only
    unfold BMPSession.decodeRm
    rw [if_neg (by simp [peerHeaderWire_length, message_length]; omega), peerHeader_reads' h ha]
    simp only [Res.ok_bind]
    have e := embedded_dec .Update (BgpUpdateMessage.new.decodeFrom ((after hist).params h)) body h2 (peerHeaderWire h) rest
    rw [peerHeaderWire_length] at e
    rw [e]
    simp only [bind_assoc, Res.ok_bind]
  · intro m hm
    rw [q1 m hm]
    unfold BgpSessionParams.ofOpen
    have hc := checkCaps_eq { asNum := (peerOpen m).asNum, holdTime := (peerOpen m).holdTime, peerMode := .IPv4, hasAs32bit := true, routerId := (peerOpen m).routerId, caps := (peerOpen m).caps, fuzzyPathid := false }
    have mode : ∀ (l : List BgpCapability) (p : BgpSessionParams), (l.foldl checkStep p).peerMode = p.peerMode ∧
        (l.foldl checkStep p).fuzzyPathid = p.fuzzyPathid := by
      intro l
      induction l with
      | nil => intro p; exact ⟨rfl, rfl⟩
      | cons c l ih =>
        intro p
        rw [List.foldl_cons, (ih _).1, (ih _).2]
        cases c <;> exact ⟨rfl, rfl⟩
    rw [hc]
    refine ⟨?_, (checkFold _ _).1, (mode _ _).1, ?_⟩
    · rw [(checkFold _ _).2]; simp
    · intro fam buf
      unfold AddPathExpected
      rw [(checkFold _ _).1, (mode _ _).2]
      simp
  · intro hn
    rw [q2 hn]
    rfl

/-- **C61, path ids, what holds.** If the peer's OPEN announces, for each family, both directions or none, path ids are
expected in its UPDATE messages for exactly the families for which it announced to send them. Missing for the full property:
peers that announce one direction, see `C61_direction_ignored`. -/
theorem C61_path_ids_partial (hist : List Bytes) (h : BmpMessagePeerHeader) (m : BmpMessagePeerUp)
    (hm : LastUp hist h.peerdistinguisher h.peeraddress m)
    (hb : ∀ q, Advertises (peerOpen m).caps q → q.send = q.receive) (fam : U16 × U8) (buf : Bytes) :
    AddPathExpected ((after hist).params h) fam buf = SendsAddPath (peerOpen m).caps fam := by
  have hp : ReceivesAddPath (peerOpen m).caps fam = SendsAddPath (peerOpen m).caps fam := by
    unfold ReceivesAddPath SendsAddPath
    cases ha : List.find? (fun a => decide (family a = fam)) (addPathLists (peerOpen m).caps).flatten with
    | some a =>
      have := List.mem_of_find?_eq_some ha
      simp only [List.mem_flatten, addPathLists, List.mem_filterMap] at this
      obtain ⟨l, ⟨c, hc, hl⟩, hal⟩ := this
      cases c <;> simp at hl
      subst hl
      exact (hb a ⟨_, hc, hal⟩).symm
    | none => rfl
  rw [← lastUpDec_eq] at hm
  rw [← hp, (params_after hist h).1 m hm]
  have mode : ∀ (l : List BgpCapability) (p : BgpSessionParams), (l.foldl checkStep p).fuzzyPathid = p.fuzzyPathid := by
    intro l
    induction l with
    | nil => intro p; rfl
    | cons c l ih =>
      intro p
      rw [List.foldl_cons, ih]
      cases c <;> rfl
  unfold AddPathExpected BgpSessionParams.ofOpen
  rw [checkCaps_eq, (checkFold _ _).1, mode]
  simp

/-- **C61 is violated** when the peer announces only that it sends path ids: its UPDATE messages are decoded as if it did
not. After the peer-up `up4` an announcement of 10.0.0.0/24 with path id 1 decodes as announcements of five other prefixes. -/
theorem C61_direction_ignored :
    SendsAddPath (peerOpen up4).caps (1, 1) = true ∧
    AddPathExpected ((after [[1, 0], up4Bytes, []]).params peer4) (1, 1) [0, 0, 0, 1, 24, 10, 0, 0] = false ∧
    ((after [[1, 0], up4Bytes, []]).decodeFrom
        (0 :: (peerHeaderWire peer4 ++ (message .Update (updateBytes [] [] [0, 0, 0, 1, 24, 10, 0, 0]) ++ [])))).1 =
      .ok (.RouteMonitoring ⟨peer4, ⟨.IPV4U [⟨0, 0⟩, ⟨0, 0⟩, ⟨0, 0⟩, ⟨0x18000000, 1⟩, ⟨0, 10⟩], .IPV4U [], []⟩⟩) := by
  have hp := (params_after [[1, 0], up4Bytes, []] peer4).1 up4 (by rw [lastUpDec_eq]; exact up4_last)
  refine ⟨by decide, ?_, ?_⟩
  · rw [hp]; decide
  · simp only [BMPSession.decodeFrom, idx_cons_zero, rfrom_cons_one, Res.ok_bind]
    rw [show (0 : U8).toNat = 0 from rfl]
    simp only
    unfold BMPSession.decodeRm
    rw [if_neg (by decide), peerHeader_reads' peer4 trivial]
    simp only [Res.ok_bind]
    have e := embedded_dec .Update (BgpUpdateMessage.new.decodeFrom (.ofOpen (peerOpen up4)))
      (updateBytes [] [] [0, 0, 0, 1, 24, 10, 0, 0]) (by decide) (peerHeaderWire peer4) []
    rw [peerHeaderWire_length] at e
    rw [hp, e]
    rfl

end Zbgp.Props
