import Verif.Lemmas.RelayNeeded
import Verif.Props.Update

/-! # What was received can be sent on (C92), and what exactly comes back (C93) -/

namespace Zbgp.Props

open Spec

/-! ## C92 -/

/-- **C92** for NLRI: of the collections read from the wire, those of `Relayable` are written, to every buffer with room, as
octets that are read as the same collection; for the others there is no buffer for which that is so. -/
theorem C92_collections_partial (p : BgpSessionParams) (f : Family) (b : Bytes) (x : BgpAddrs) (n : Nat)
    (h : BgpAddrs.decodeFrom p (familyCode f).1 (familyCode f).2 b = .ok (x, n)) (hx : Relayable x) (buf : Bytes)
    (hb : (addrsWire x).length ≤ buf.length) :
    ∃ buf' k n', x.encodeTo p buf = .ok (buf', k) ∧ buf'.take k = addrsWire x ∧ buf'.drop k = buf.drop k ∧
      BgpAddrs.decodeFrom p (familyCode f).1 (familyCode f).2 (buf'.take k) = .ok (x, n') := by
  have hr := ((addrs_exactly p f b).ok (x, n)).1 h
  obtain ⟨h1, h2, h3⟩ := addrs_normal hr hx
  obtain ⟨ap, hk⟩ := addrsRead_kind hr
  have hd := addrs_reads x p h1 h3
  rw [addrs_code x hk, h2] at hd
  refine ⟨_, _, addrsTaken x, addrs_writes x p h1 buf hb, ?_, ?_, ?_⟩
  · rw [List.take_left' rfl]
  · rw [List.drop_left' rfl]
  · rw [List.take_left' rfl]; exact hd

/-- **C92** for NLRI, the condition is needed. -/
theorem C92_collections_exactly (p : BgpSessionParams) (f : Family) (b : Bytes) (x : BgpAddrs) (n : Nat)
    (h : BgpAddrs.decodeFrom p (familyCode f).1 (familyCode f).2 b = .ok (x, n)) :
    (∃ buf buf' k n', x.encodeTo p buf = .ok (buf', k) ∧
      BgpAddrs.decodeFrom p (familyCode f).1 (familyCode f).2 (buf'.take k) = .ok (x, n')) ↔ Relayable x := by
  constructor
  · rintro ⟨buf, buf', k, n', he, hd⟩
    exact relay_needed he (((addrs_exactly p f _).ok (x, n')).1 hd)
  · intro hx
    obtain ⟨buf', k, n', he, -, -, hd⟩ := C92_collections_partial p f b x n h hx (addrsWire x) (le_refl _)
    exact ⟨_, buf', k, n', he, hd⟩

/-- received IPv4 prefixes, and an MVPN route of type 1, can be sent on -/
example : (∃ n, BgpAddrs.decodeFrom session32 1 1 [24, 192, 0, 2, 8, 10] =
      .ok (.IPV4U [⟨0xc0000200, 24⟩, ⟨0x0a000000, 8⟩], n)) ∧
    Relayable (.IPV4U [⟨0xc0000200, 24⟩, ⟨0x0a000000, 8⟩]) ∧
    (∃ n, BgpAddrs.decodeFrom session32 1 5 [1, 12, 0, 0, 0, 1, 0, 0, 0, 2, 10, 0, 0, 1] =
      .ok (.MVPN [.t1 ⟨⟨1, 2⟩, .v4 0x0a000001⟩], n)) ∧
    Relayable (.MVPN [.t1 ⟨⟨1, 2⟩, .v4 0x0a000001⟩]) :=
  ⟨⟨6, rfl⟩, trivial, ⟨14, rfl⟩, by simp [Relayable, mvpnType]⟩

/-- a received VPLS route can not -/
example : ∃ x n, BgpAddrs.decodeFrom session32 25 65
      [0, 17, 0, 0, 0, 1, 0, 0, 0, 2, 0, 3, 0, 4, 0, 5, 0, 0, 0x11] = .ok (.L2VPLS [x], n) ∧ ¬ Relayable (.L2VPLS [x]) :=
  ⟨_, _, rfl, by simp [Relayable]⟩

/-- **C92** for messages: of the messages read from the wire, those with attributes of `AttrRelayable` that fit the length
field of the message are written, to every buffer with room, as octets that are read as the same message. -/
theorem C92_messages_partial (p : BgpSessionParams) (b : Bytes) (m : BgpUpdateMessage)
    (h : BgpUpdateMessage.new.decodeFrom p b = .ok m) (hx : ∀ x ∈ m.attrs, AttrRelayable p x)
    (hl : (attrsWire p m.attrs).length ≤ 65535) (buf : Bytes) (hb : (updateWire p m).length ≤ buf.length) :
    ∃ buf' k, m.encodeTo p buf = .ok (buf', k) ∧ buf'.take k = updateWire p m ∧ buf'.drop k = buf.drop k ∧
      BgpUpdateMessage.new.decodeFrom p (buf'.take k) = .ok m := by
  obtain ⟨l, ⟨w, a, u, -, hwl, -, hw, ha, hu⟩, hm⟩ := ((update_exactly .new p b).ok m).1 h
  have hm : m.attrs = l := by rw [hm]; rfl
  subst hm
  obtain ⟨w1, w2, w3⟩ := section_normal hw
  obtain ⟨u1, u2, -⟩ := section_normal hu
  obtain ⟨a1, a2⟩ := attrs_normal ha hx
  obtain ⟨buf', k, e1, e2, e3, e4⟩ := C39_update_round_trip_partial p m ⟨w1, u1, a1⟩ (by omega) hl buf hb
  rw [w2, u2, a2] at e4
  exact ⟨buf', k, e1, e2, e3, e4⟩

/-- **C92** for messages, the conditions are needed. -/
theorem C92_messages_exactly (p : BgpSessionParams) (b : Bytes) (m : BgpUpdateMessage)
    (h : BgpUpdateMessage.new.decodeFrom p b = .ok m) :
    (∃ buf buf' k, m.encodeTo p buf = .ok (buf', k) ∧ BgpUpdateMessage.new.decodeFrom p (buf'.take k) = .ok m) ↔
      (∀ x ∈ m.attrs, AttrRelayable p x) ∧ (attrsWire p m.attrs).length ≤ 65535 := by
  constructor
  · rintro ⟨buf, buf', k, he, hd⟩
    obtain ⟨l, hr, hm⟩ := ((update_exactly .new p _).ok m).1 hd
    have hm : m.attrs = l := by rw [hm]; rfl
    subst hm
    exact update_needed he hr
  · rintro ⟨hx, hl⟩
    obtain ⟨buf', k, he, -, -, hd⟩ := C92_messages_partial p b m h hx hl (updateWire p m) (le_refl _)
    exact ⟨_, buf', k, he, hd⟩

example : BgpUpdateMessage.new.decodeFrom session32 update4Bytes = .ok update4 ∧
    (∀ x ∈ update4.attrs, AttrRelayable session32 x) ∧ (attrsWire session32 update4.attrs).length ≤ 65535 := by
  refine ⟨rfl, ?_, by decide⟩
  simp [update4, AttrRelayable, ValueRelayable, session32]
  decide

/-- a message with AGGREGATOR can not be sent on -/
example : ∃ m, BgpUpdateMessage.new.decodeFrom session32
      (updateBytes [] [0xc0, 7, 8, 0, 0, 0xfd, 0xe8, 10, 0, 0, 1] [8, 10]) = .ok m ∧
    ¬ ∀ x ∈ m.attrs, AttrRelayable session32 x :=
  ⟨_, rfl, fun h => (h _ (List.mem_singleton.2 rfl)).1⟩

/-! ## C93 -/

/-- **C93** for NLRI: a collection is written, into some buffer, as octets that are read as the same collection, exactly if
it is of the family, well formed, without set bits behind the prefixes, and of the form the session calls for. -/
theorem C93_collections (p : BgpSessionParams) (f : Family) (x : BgpAddrs) :
    (∃ buf buf' k n, x.encodeTo p buf = .ok (buf', k) ∧
      BgpAddrs.decodeFrom p (familyCode f).1 (familyCode f).2 (buf'.take k) = .ok (x, n)) ↔
    (∃ ap, kindOf x = some (f, ap)) ∧ AddrsWF x ∧ addrsReceived x = x ∧ FormExpected p x := by
  constructor
  · rintro ⟨buf, buf', k, n, he, hd⟩
    have hr := ((addrs_exactly p f _).ok (x, n)).1 hd
    obtain ⟨h1, h2, h3⟩ := addrs_normal hr (relay_needed he hr)
    exact ⟨addrsRead_kind hr, h1, h2, h3⟩
  · rintro ⟨⟨ap, hk⟩, h1, h2, h3⟩
    have hd := addrs_reads x p h1 h3
    rw [addrs_code x hk, h2] at hd
    exact ⟨addrsWire x, _, _, addrsTaken x, addrs_writes x p h1 _ (le_refl _), by rw [List.take_left' rfl]; exact hd⟩

example : (∃ ap, kindOf (.IPV4U [⟨0xc0000200, 24⟩]) = some (.ipv4Unicast, ap)) ∧ AddrsWF (.IPV4U [⟨0xc0000200, 24⟩]) ∧
    addrsReceived (.IPV4U [⟨0xc0000200, 24⟩]) = .IPV4U [⟨0xc0000200, 24⟩] ∧
    FormExpected session32 (.IPV4U [⟨0xc0000200, 24⟩]) := by
  have h : BgpAddrs.decodeFrom session32 1 1 [24, 192, 0, 2] = .ok (.IPV4U [⟨0xc0000200, 24⟩], 4) := rfl
  exact (C93_collections session32 .ipv4Unicast _).1
    ((C92_collections_exactly session32 .ipv4Unicast _ _ _ h).2 trivial)

/-- **C93** for messages: a message is written, into some buffer, as octets that are read as the same message, exactly if
its prefixes are of the family and form of the session, its attributes can be put on the wire and recovered, nothing in it is
changed by that, and the withdrawn prefixes and the attributes fit their length fields. -/
theorem C93_messages (p : BgpSessionParams) (m : BgpUpdateMessage) :
    (∃ buf buf' k, m.encodeTo p buf = .ok (buf', k) ∧ BgpUpdateMessage.new.decodeFrom p (buf'.take k) = .ok m) ↔
    PartsOk p m ∧ sectionReceived p m.withdraws = m.withdraws ∧ sectionReceived p m.updates = m.updates ∧
      m.attrs.map attrReceived = m.attrs ∧ (addrsWire m.withdraws).length ≤ 65535 ∧
      (attrsWire p m.attrs).length ≤ 65535 := by
  constructor
  · rintro ⟨buf, buf', k, he, hd⟩
    obtain ⟨l, hr, hm⟩ := ((update_exactly .new p _).ok m).1 hd
    have hm : m.attrs = l := by rw [hm]; rfl
    subst hm
    obtain ⟨hx, hl⟩ := update_needed he hr
    obtain ⟨w, a, u, -, hwl, -, hw, ha, hu⟩ := hr
    obtain ⟨w1, w2, w3⟩ := section_normal hw
    obtain ⟨u1, u2, -⟩ := section_normal hu
    obtain ⟨a1, a2⟩ := attrs_normal ha hx
    exact ⟨⟨w1, u1, a1⟩, w2, u2, a2, by omega, hl⟩
  · rintro ⟨h, hw, hu, ha, hwl, hal⟩
    obtain ⟨buf', k, e1, -, -, e4⟩ := C39_update_round_trip_partial p m h hwl hal _ (le_refl _)
    rw [hw, hu, ha] at e4
    exact ⟨_, buf', k, e1, e4⟩

example : PartsOk session32 update4 ∧ sectionReceived session32 update4.withdraws = update4.withdraws ∧
    sectionReceived session32 update4.updates = update4.updates ∧ update4.attrs.map attrReceived = update4.attrs ∧
    (addrsWire update4.withdraws).length ≤ 65535 ∧ (attrsWire session32 update4.attrs).length ≤ 65535 :=
  ⟨update4_parts, rfl, rfl, rfl, by decide, by decide⟩

end Zbgp.Props
