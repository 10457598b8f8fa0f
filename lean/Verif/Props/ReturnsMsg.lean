import Verif.Lemmas.ReturnsUpdate
import Verif.Props.Returns
import Verif.Props.Relay

/-!
# C120: exactly which collections of NLRI, attributes and messages come back from the wire without overflow checks
-/

namespace Zbgp.Props

open Spec

/-- **C120**, collections of NLRI of every family in every session: sent and read by builds without overflow checks, a collection
comes back unchanged exactly if it is one of `CollectionBack`, in every buffer that is large enough. -/
theorem C120_collections (p : BgpSessionParams) (f : Family) (x : BgpAddrs) : ∃ room, ∀ buf : Bytes, room ≤ buf.length →
    (Returns (x.encodeToIn .release p) (BgpAddrs.decodeFromIn .release p (familyCode f).1 (familyCode f).2) x buf ↔
      CollectionBack p f x) := collections_return p f x

private def evpnRoute (ls : List U32) : BgpEVPN :=
  .evpn2 ⟨⟨1, 2⟩, 0, ⟨#v[1, 2, 3, 4, 5, 6, 7, 8, 9]⟩, 3, ⟨1, 2, 3, 4, 5, 6⟩, some (.v4 0x0a000001), ⟨ls⟩⟩

/-- an EVPN route with eleven labels comes back -/
example : CollectionBack session32 .l2Evpn (.EVPN [evpnRoute (List.replicate 11 16)]) := by
  refine ⟨false, rfl, ?_, by simp [hasAddPath]⟩
  intro x hx
  obtain rfl := List.mem_singleton.1 hx
  exact Or.inr ⟨by simp [LabelStackWF, stackEnding], by decide⟩

/-- **C120**, attribute values: an attribute comes back exactly if it is one of `ValueBack`. -/
theorem C120_values (p : BgpSessionParams) (x : BgpAttrItem) : ∃ room, ∀ buf : Bytes, room ≤ buf.length →
    ((∃ buf' k, x.encodeValueIn .release p buf = .ok (buf', k) ∧
      BgpAttrItem.decodeFromIn .release p (attrCode x).1 (attrCode x).2 (buf'.take k).length (buf'.take k) = .ok x) ↔
      ValueBack p x) :=
  values_return p x

/-- ORIGIN and a withdrawn IPv6 prefix come back, AGGREGATOR does not -/
example : ValueBack session32 (.Origin ⟨.Egp⟩) ∧ ValueBack session32 (.MPWithdraws ⟨.IPV6U [⟨0, 8⟩]⟩) ∧
    ∀ x, ¬ ValueBack session32 (.AggregatorAS x) := by
  refine ⟨trivial, ⟨.ipv6Unicast, false, rfl, ?_, fun _ _ _ => ?_⟩, fun _ => id⟩
  · intro x hx
    obtain rfl := List.mem_singleton.1 hx
    exact ⟨by decide, by decide⟩
  · rfl

/-- **C120**, UPDATE messages: a message comes back unchanged exactly if it is one of `MessageBack`, in every buffer that is large
enough. -/
theorem C120_messages (p : BgpSessionParams) (m : BgpUpdateMessage) : ∃ room, ∀ buf : Bytes, room ≤ buf.length →
    ((∃ buf' k, m.encodeToIn .release p buf = .ok (buf', k) ∧
      BgpUpdateMessage.new.decodeFromIn .release p (buf'.take k) = .ok m) ↔ MessageBack p m) := messages_return p m

/-- **C120**: the messages that come back with overflow checks also come back without, from the same buffers. -/
theorem C120_not_fewer (p : BgpSessionParams) (m : BgpUpdateMessage) (buf : Bytes)
    (h : ∃ buf' k, m.encodeTo p buf = .ok (buf', k) ∧ BgpUpdateMessage.new.decodeFrom p (buf'.take k) = .ok m) :
    ∃ buf' k, m.encodeToIn .release p buf = .ok (buf', k) ∧
      BgpUpdateMessage.new.decodeFromIn .release p (buf'.take k) = .ok m := by
  obtain ⟨buf', k, h1, h2⟩ := h
  refine ⟨buf', k, ?_, ?_⟩
  · rw [C102_encoders_agree.2.2.2.2 m p buf (by rw [h1]; simp), h1]
  · rw [C102_decoders_agree.2.2.2 _ p _ (by rw [h2]; simp), h2]

/-- and so they are among those of `MessageBack` -/
example : MessageBack session32 update4 := by
  obtain ⟨room, h⟩ := C120_messages session32 update4
  refine (h (List.replicate (room + (updateWire session32 update4).length) 0) (by simp)).1 (C120_not_fewer _ _ _ ?_)
  obtain ⟨buf', k, h1, -, -, h2⟩ := C92_messages_partial session32 update4Bytes update4 rfl
    (by simp [update4, AttrRelayable, ValueRelayable, session32]; decide) (by decide)
    (List.replicate (room + (updateWire session32 update4).length) 0) (by simp)
  exact ⟨buf', k, h1, h2⟩

/-- **C120**, EVPN MAC routes: without overflow checks they come back with up to 31 labels, with overflow checks only with up to
ten. -/
theorem C120_evpn_labels (p : BgpSessionParams) (r : BgpEVPN2) (hl : LabelStackWF r.labels.labels) :
    (∃ room, ∀ buf : Bytes, room ≤ buf.length →
      (Returns (BgpAddrs.encodeToIn .release (.EVPN [.evpn2 r]) p) (BgpAddrs.decodeFromIn .release p 25 70) (.EVPN [.evpn2 r]) buf ↔
        r.labels.labels.length ≤ 31)) ∧
    ((∃ buf, Returns (BgpAddrs.encodeTo (.EVPN [.evpn2 r]) p) (BgpAddrs.decodeFrom p 25 70) (.EVPN [.evpn2 r]) buf) ↔
      r.labels.labels.length ≤ 10) := by
  constructor
  · obtain ⟨room, h⟩ := C120_collections p .l2Evpn (.EVPN [.evpn2 r])
    refine ⟨room, fun buf hb => (h buf hb).trans ?_⟩
    constructor
    · rintro ⟨_, _, h, _⟩
      rcases h (.evpn2 r) (by simp) with h | h
      · rw [h]; simp
      · exact h.2
    · intro hn
      refine ⟨false, rfl, fun x hx => ?_, by simp [hasAddPath]⟩
      obtain rfl := List.mem_singleton.1 hx
      exact Or.inr ⟨hl, hn⟩
  · have h := C93_collections p .l2Evpn (.EVPN [.evpn2 r])
    refine Iff.trans h ?_
    constructor
    · rintro ⟨-, h, -⟩
      rcases (h (.evpn2 r) (by simp)).1 with h | h
      · rw [h]; simp
      · exact h.2
    · intro hn
      refine ⟨⟨false, rfl⟩, fun x hx => ?_, rfl, ?_⟩
      · obtain rfl := List.mem_singleton.1 hx
        exact ⟨Or.inr ⟨hl, hn⟩, id⟩
      · intro f ap hk ha
        cases hk
        cases ha

/-- a stack of eleven labels -/
example : LabelStackWF (List.replicate 11 (16 : U32)) ∧ 10 < (List.replicate 11 (16 : U32)).length ∧
    (List.replicate 11 (16 : U32)).length ≤ 31 := ⟨by simp [LabelStackWF, stackEnding], by decide, by decide⟩

/-- **C120**: what never comes back. A message with a VPLS route, AGGREGATOR, a PMSI tunnel or a set of attributes of another AS is
read as another one, or not at all. -/
theorem C120_never (p : BgpSessionParams) (m : BgpUpdateMessage)
    (h : (∃ a, .AggregatorAS a ∈ m.attrs) ∨ (∃ a, .PMSITunnel a ∈ m.attrs) ∨ (∃ a l, .AttrSet a l ∈ m.attrs) ∨
      (∃ nh x v, .MPUpdates ⟨nh, .L2VPLS (x :: v)⟩ ∈ m.attrs) ∨ (∃ x v, .MPWithdraws ⟨.L2VPLS (x :: v)⟩ ∈ m.attrs)) :
    ∃ room, ∀ buf : Bytes, room ≤ buf.length →
      ¬ ∃ buf' k, m.encodeToIn .release p buf = .ok (buf', k) ∧
        BgpUpdateMessage.new.decodeFromIn .release p (buf'.take k) = .ok m := by
  obtain ⟨room, hm⟩ := C120_messages p m
  refine ⟨room, fun buf hb hr => ?_⟩
  obtain ⟨-, -, hv, -⟩ := (hm buf hb).1 hr
  rcases h with ⟨a, h⟩ | ⟨a, h⟩ | ⟨a, l, h⟩ | ⟨nh, x, v, h⟩ | ⟨x, v, h⟩
  · exact hv _ h
  · exact hv _ h
  · exact hv _ h
  · obtain ⟨_, ⟨_, _, h, _⟩, _⟩ := hv _ h
    cases h
  · obtain ⟨_, ⟨_, _, h, _⟩⟩ := hv _ h
    cases h

example : ∃ a, BgpAttrItem.AggregatorAS a ∈ ({ update4 with attrs := [.AggregatorAS ⟨65000, 1⟩] } : BgpUpdateMessage).attrs :=
  ⟨_, List.mem_singleton.2 rfl⟩

end Zbgp.Props
