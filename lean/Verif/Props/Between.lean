import Verif.Lemmas.BetweenChecked
import Verif.Lemmas.AttrTotal
import Verif.Props.ReturnsMsg

/-!
# C122: what comes back when the two ends do not agree about the session
-/

namespace Zbgp.Props

open Spec

/-- **C122**, UPDATE messages: sent with the parameters `p` and read with the parameters `q`, a message comes back unchanged exactly
if it is one of `MessageBetween`, in every buffer that is large enough. -/
theorem C122_messages (p q : BgpSessionParams) (m : BgpUpdateMessage) : ∃ room, ∀ buf : Bytes, room ≤ buf.length →
    ((∃ buf' k, m.encodeToIn .release p buf = .ok (buf', k) ∧
      BgpUpdateMessage.new.decodeFromIn .release q (buf'.take k) = .ok m) ↔ MessageBetween p q m) := messages_between p q m

/-- **C122**, with overflow checks: a message comes back exactly if, moreover, no prefix and no route in it is of those that the
checks fire for, neither among those of the session nor in an attribute. -/
theorem C122_checked (p q : BgpSessionParams) (m : BgpUpdateMessage) : ∃ room, ∀ buf : Bytes, room ≤ buf.length →
    ((∃ buf' k, m.encodeTo p buf = .ok (buf', k) ∧ BgpUpdateMessage.new.decodeFrom q (buf'.take k) = .ok m) ↔
      MessageBetween p q m ∧ RoutesOk m) := messages_checked p q m

/-- such a message: the octets of a message that was read are sent and read again -/
example : MessageBetween session32 session32 update4 ∧ RoutesOk update4 := by
  obtain ⟨room, h⟩ := C122_checked session32 session32 update4
  refine (h (List.replicate (room + (updateWire session32 update4).length) 0) (by simp)).1 ?_
  obtain ⟨buf', k, h1, -, -, h2⟩ := C92_messages_partial session32 update4Bytes update4 rfl
    (by simp [update4, AttrRelayable, ValueRelayable, session32]; decide) (by decide)
    (List.replicate (room + (updateWire session32 update4).length) 0) (by simp)
  exact ⟨buf', k, h1, h2⟩

/-- the other condition is not idle: a VPNv6 host route with three labels is not among those of builds with overflow checks -/
example : ¬ RoutesOk ⟨.IPV4U [], .IPV4U [], [.MPWithdraws ⟨.VPNV6U [⟨⟨⟨1, 128⟩, ⟨1, 2⟩⟩, ⟨[16, 17, 18]⟩⟩]⟩]⟩ := by
  rintro ⟨-, -, h⟩
  obtain ⟨-, -, h⟩ := h _ (List.mem_singleton.2 rfl) _ (List.mem_singleton.2 rfl)
  exact absurd (show 24 * 3 + (64 + 128) < 256 from h) (by decide)

/-- **C122**, attribute values: sent with `p` and read with `q`, an attribute comes back exactly if it is one of `ValueBetween`. -/
theorem C122_values (p q : BgpSessionParams) (x : BgpAttrItem) : ∃ room, ∀ buf : Bytes, room ≤ buf.length →
    ((∃ buf' k, x.encodeValueIn .release p buf = .ok (buf', k) ∧
      BgpAttrItem.decodeFromIn .release q (attrCode x).1 (attrCode x).2 (buf'.take k).length (buf'.take k) = .ok x) ↔
      ValueBetween p q x) := values_between p q x

/-- an IPv4 ORIGINATOR_ID is read in a session over IPv6 too, an IPv4 next hop is not -/
example : ValueBetween session32 { session32 with peerMode := .IPv6 } (.OriginatorID ⟨.v4 0x0a000001⟩) ∧
    ¬ ValueBetween session32 { session32 with peerMode := .IPv6 } (.NextHop ⟨.v4 0x0a000001⟩) :=
  ⟨⟨rfl, Or.inl rfl⟩, fun h => nomatch h.2⟩

/-- a session over IPv6 -/
private def over6 : BgpSessionParams := { session32 with peerMode := .IPv6, caps := [.SafiIPv6u] }

/-- a message with ORIGIN, ORIGINATOR_ID and an IPv6 prefix to withdraw, sent over IPv4 -/
private def across : BgpUpdateMessage :=
  ⟨.IPV6U [], .IPV6U [], [.Origin ⟨.Igp⟩, .OriginatorID ⟨.v4 0x0a000001⟩, .MPWithdraws ⟨.IPV6U [⟨0, 8⟩]⟩]⟩

/-- what comes back although the ends think the session is of different families -/
example : MessageBetween session32 over6 across := by
  have hs : ∀ x : BgpAddrs, x = .IPV6U [] → SectionBetween session32 over6 x := by
    rintro x rfl
    exact ⟨⟨false, rfl, fun x hx => (by cases hx), fun _ _ _ => rfl⟩, Or.inr (Or.inr (Or.inr (Or.inl rfl)))⟩
  refine ⟨hs _ rfl, hs _ rfl, ?_, ⟨[], rfl, by simp⟩, ⟨[0x40, 1, 1, 0, 0x80, 9, 4, 10, 0, 0, 1, 0x90, 15, 0, 5, 0, 2, 1, 8, 0], by decide, by decide⟩⟩
  intro a ha
  simp only [across, List.mem_cons, List.not_mem_nil, or_false] at ha
  rcases ha with rfl | rfl | rfl
  · trivial
  · exact ⟨rfl, Or.inl rfl⟩
  · refine ⟨.ipv6Unicast, false, rfl, ?_, fun _ _ _ => rfl⟩
    intro x hx
    obtain rfl := List.mem_singleton.1 hx
    exact ⟨by decide, by decide⟩

/-- **C122**: of the parameters of the sender only the family of the session and the width of AS numbers matter. If both ends agree
about these, whatever other parameters the sender has, what comes back is what comes back to the reader (C120). -/
theorem C122_agree (p q : BgpSessionParams) (m : BgpUpdateMessage) (hm : p.peerMode = q.peerMode)
    (ha : p.hasAs32bit = q.hasAs32bit) : MessageBetween p q m ↔ MessageBack q m := by
  have hv : ∀ x, valueFate .release p x = valueFate .release q x := by
    intro x
    cases x <;> simp only [valueFate, hm, ha]
  have hv' : ∀ x, attrFate .release p x = attrFate .release q x := by
    intro x
    unfold attrFate
    rw [hv]
  have hl : ∀ (l : List BgpAttrItem) n, attrsFate .release p n l = attrsFate .release q n l := by
    intro l
    induction l with
    | nil => intro n; rfl
    | cons x l ih =>
      intro n
      unfold attrsFate
      rw [hv']
      simp only [ih]
  have hx : ∀ x, ValueBetween p q x ↔ ValueBack q x := by
    intro x
    cases x with
    | ASPath x =>
      show PathBetween p q x.value ↔ (x.value = [] ∨ q.hasAs32bit = true)
      unfold PathBetween
      rw [ha]
      constructor
      · rintro (h | ⟨h, -⟩)
        · exact Or.inl h
        · exact Or.inr h
      · rintro (h | h)
        · exact Or.inl h
        · exact Or.inr ⟨h, Or.inl h⟩
    | NextHop x =>
      show (addrFamily x.value = p.peerMode ∧ addrFamily x.value = q.peerMode) ↔ addrFamily x.value = q.peerMode
      rw [hm, and_self]
    | OriginatorID x =>
      show (addrFamily x.value = p.peerMode ∧ (addrFamily x.value = .IPv4 ∨ q.peerMode = .IPv6)) ↔ addrFamily x.value = q.peerMode
      rw [hm]
      cases q.peerMode <;> simp
    | _ => exact Iff.rfl
  unfold MessageBetween MessageBack SectionBetween
  simp only [hm, true_or, and_true, hx, hl, section_same hm]

/-- **C122**: in particular, with overflow checks, between ends that agree a message comes back exactly if it is one of
`MessageBack` with no route of those that the checks fire for. -/
theorem C122_checked_agree (p q : BgpSessionParams) (m : BgpUpdateMessage) (hm : p.peerMode = q.peerMode)
    (ha : p.hasAs32bit = q.hasAs32bit) : ∃ room, ∀ buf : Bytes, room ≤ buf.length →
    ((∃ buf' k, m.encodeTo p buf = .ok (buf', k) ∧ BgpUpdateMessage.new.decodeFrom q (buf'.take k) = .ok m) ↔
      MessageBack q m ∧ RoutesOk m) := by
  simpa only [C122_agree p q m hm ha] using C122_checked p q m

/-- a sender without capabilities -/
example : ({ session32 with caps := [] } : BgpSessionParams).peerMode = session32.peerMode ∧
    ({ session32 with caps := [] } : BgpSessionParams).hasAs32bit = session32.hasAs32bit := ⟨rfl, rfl⟩

/-- **C122**, AS paths in every buffer that can hold them: sent with one width of AS numbers and read with another, a path comes back
exactly if it is one of `PathBetween`. The functions are the same with and without overflow checks. -/
theorem C122_paths (p q : BgpSessionParams) (l : List BgpAS) (buf : Bytes) (hb : (asPathWire p.hasAs32bit l).length ≤ buf.length) :
    (∃ buf' k, BgpASpath.encodeTo ⟨l⟩ p buf = .ok (buf', k) ∧ BgpASpath.decodeFrom q (buf'.take k) = .ok ⟨l⟩) ↔
      PathBetween p q l := by
  have hw := aspath_writes p ⟨l⟩ buf hb
  rw [← path_between]
  constructor
  · rintro ⟨buf', k, h1, h2⟩
    rw [hw] at h1
    cases h1
    rw [List.take_left' rfl] at h2
    exact (asPath_ok_iff q _ _).1 h2
  · intro h
    exact ⟨_, _, hw, by rw [List.take_left' rfl]; exact (asPath_ok_iff q _ _).2 h⟩

/-- a path of one number that comes back by chance -/
example : PathBetween session16 session32 [⟨0x02010005⟩] ∧ ¬ PathBetween session16 session32 [⟨65000⟩] ∧
    ¬ PathBetween session32 session16 [⟨65000⟩] := by
  refine ⟨Or.inr ⟨rfl, Or.inr ⟨_, rfl, rfl⟩⟩, ?_, ?_⟩
  · rintro (h | ⟨-, h | ⟨a, h, h'⟩⟩)
    · cases h
    · cases h
    · cases h
      revert h'
      decide
  · rintro (h | ⟨h, -⟩)
    · cases h
    · cases h

/-- **C122**, AS paths: the reader does not notice. Whatever widths the two ends use, the path is read without an error, as a path of
as many numbers as fit the octets: of `n` numbers, 2n + 1 if only the sender uses 32-bit numbers, and half as many, rounded up, if
only the reader does. -/
theorem C122_paths_silent (p q : BgpSessionParams) (l : List BgpAS) (hl : l ≠ []) (buf : Bytes)
    (hb : (asPathWire p.hasAs32bit l).length ≤ buf.length) :
    ∃ buf' k l', BgpASpath.encodeTo ⟨l⟩ p buf = .ok (buf', k) ∧ BgpASpath.decodeFrom q (buf'.take k) = .ok ⟨l'⟩ ∧
      (p.hasAs32bit = true → q.hasAs32bit = false → l'.length = 2 * l.length + 1) ∧
      (p.hasAs32bit = false → q.hasAs32bit = true → l'.length = (l.length + 1) / 2) := by
  have hw := aspath_writes p ⟨l⟩ buf hb
  obtain ⟨l', h1, h2⟩ := aspath_count q (asPathWire p.hasAs32bit l)
  have hlen : (asPathWire p.hasAs32bit l).length = 2 + l.length * if p.hasAs32bit then 4 else 2 := by
    unfold asPathWire
    rw [if_neg hl, List.length_append, asns_length]
    rfl
  refine ⟨_, _, l', hw, by rw [List.take_left' rfl]; exact h1, ?_, ?_⟩
  · intro hp hq
    rw [h2, hlen, hp, hq]
    simp
    omega
  · intro hp hq
    rw [h2, hlen, hp, hq]
    simp
    omega

example : ([⟨65000⟩, ⟨65001⟩, ⟨3320⟩] : List BgpAS) ≠ [] ∧
    (asPathWire session32.hasAs32bit [⟨65000⟩, ⟨65001⟩, ⟨3320⟩]).length = 14 := by decide

/-- **C122**: a message with a path that is not empty never comes back from a reader with 16-bit AS numbers, whatever the sender uses,
with overflow checks or without. -/
theorem C122_never (p q : BgpSessionParams) (m : BgpUpdateMessage) (hq : q.hasAs32bit = false) (x : BgpASpath)
    (hx : .ASPath x ∈ m.attrs) (hn : x.value ≠ []) : ∃ room, ∀ buf : Bytes, room ≤ buf.length →
      (¬ ∃ buf' k, m.encodeToIn .release p buf = .ok (buf', k) ∧
        BgpUpdateMessage.new.decodeFromIn .release q (buf'.take k) = .ok m) ∧
      ¬ ∃ buf' k, m.encodeTo p buf = .ok (buf', k) ∧ BgpUpdateMessage.new.decodeFrom q (buf'.take k) = .ok m := by
  have hno : ¬ MessageBetween p q m := by
    rintro ⟨-, -, h, -⟩
    rcases h _ hx with h | ⟨h, -⟩
    · exact hn h
    · rw [hq] at h
      cases h
  obtain ⟨r1, h1⟩ := C122_messages p q m
  obtain ⟨r2, h2⟩ := C122_checked p q m
  exact ⟨max r1 r2, fun buf hb => ⟨fun h => hno ((h1 buf (by omega)).1 h), fun h => hno ((h2 buf (by omega)).1 h).1⟩⟩

example : BgpAttrItem.ASPath ⟨[⟨65000⟩]⟩ ∈ (⟨.IPV4U [], .IPV4U [], [.ASPath ⟨[⟨65000⟩]⟩]⟩ : BgpUpdateMessage).attrs ∧
    session16.hasAs32bit = false := ⟨List.mem_singleton.2 rfl, rfl⟩

end Zbgp.Props
