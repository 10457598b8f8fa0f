import Verif.Props.Outcome
import Verif.Props.OutcomeMsg
import Verif.Props.Short

/-!
# C116, C117, C40: what is encoded in buffers of every size
-/

namespace Zbgp.Props

open Spec

/-- The encoder succeeds only if octets are sent, reports their number and leaves the buffer its size, in buffers of every size; what
is in the buffer is the pattern, as far as there is room for it. -/
def ShowsIn (f : Enc) (fate : Fate) : Prop :=
  ∀ buf buf' n, f buf = .ok (buf', n) → buf'.length = buf.length ∧
    ∃ pattern, fate = .sent pattern ∧ n = pattern.length ∧ Fits (pattern.take buf.length) (buf'.take n)

theorem shows_in {f : Enc} {fate : Fate} (hs : SizeIndependent f) (he : Ends f fate) : ShowsIn f fate := by
  intro buf buf' n h
  obtain ⟨room, hr⟩ := ends_case he
  have h1 := hs buf buf' n (List.replicate room 0) h
  have h2 := hr (buf ++ List.replicate room 0) (by simp)
  rw [h1] at h2
  cases fate with
  | sent pattern =>
    obtain ⟨w, rest, f1, e1, l1⟩ := h2
    simp only [List.nil_append, List.length_nil, Nat.zero_add, Res.ok.injEq, Prod.mk.injEq] at e1
    obtain ⟨e1, rfl⟩ := e1
    have hl : buf'.length = buf.length := by
      have := congrArg List.length e1
      simp only [List.length_append, List.length_replicate] at this l1
      omega
    refine ⟨hl, pattern, rfl, (fits_length f1).symm, ?_⟩
    have := fits_take buf.length f1
    have e2 : buf'.take w.length = w.take buf.length := by
      calc buf'.take w.length = ((buf' ++ List.replicate room 0).take buf.length).take w.length := by rw [List.take_left' hl]
        _ = ((w ++ rest).take w.length).take buf.length := by rw [e1, List.take_take, List.take_take, Nat.min_comm]
        _ = w.take buf.length := by rw [List.take_left' rfl]
    rw [e2]
    exact this
  | refused => exact h2.elim
  | crash => cases h2

/-- **C116** in buffers of every size, for every collection of NLRI, attribute and UPDATE message: if encoding succeeds, the outcome
in large buffers is that octets are sent, the number reported is theirs, and the buffer begins with them as far as there is room. A
value that is refused or makes the encoder panic in large buffers is not encoded in any buffer. -/
theorem C116_any_buffer (p : BgpSessionParams) :
    (∀ x : BgpAddrs, ShowsIn (x.encodeTo p) (nlriFate .checked x)) ∧
    (∀ x : BgpAttrItem, ShowsIn (x.encodeTo p) (attrFate .checked p x)) ∧
    (∀ x : BgpUpdateMessage, ShowsIn (x.encodeTo p) (updateFate .checked p x)) := by
  obtain ⟨-, -, -, -, -, -, -, h1, h2, h3, -⟩ := C67_size_independent_partial
  exact ⟨fun x => shows_in (h1 x p) (C116_nlri p x), fun x => shows_in (h2 x p) (C116_attribute p x),
    fun x => shows_in (h3 x p) (C116_update p x)⟩

/-- non-vacuity: a message that just fits -/
example : ∃ b', BgpUpdateMessage.encodeTo ⟨.IPV4U [⟨0x0a000000, 8⟩], .None, [.MED ⟨7⟩]⟩ (.new 1 180 .IPv4 0 []) (List.replicate 13 9) =
    .ok (b', 13) := ⟨_, rfl⟩

/-- **C116**: AGGREGATOR is reported to have been written into buffers that have no room for it: in every buffer that has room for its
header and not for its value, the number reported is larger than the buffer. -/
theorem C116_more_than_the_buffer (p : BgpSessionParams) (a : BgpAggregatorAS) (buf : Bytes) (h : 3 ≤ buf.length)
    (hs : buf.length < 3 + (if p.hasAs32bit then 4 else 2)) :
    ∃ buf' n, BgpAttrItem.encodeTo (.AggregatorAS a) p buf = .ok (buf', n) ∧ buf.length < n := by
  obtain ⟨h0, h1, h2, t, rfl⟩ : ∃ h0 h1 h2 t, buf = h0 :: h1 :: h2 :: t := by
    match buf, h with
    | h0 :: h1 :: h2 :: t, _ => exact ⟨h0, h1, h2, t, rfl⟩
  exact ⟨_, _, C32_aggregator_not_written a p h0 h1 h2 t, hs⟩

example : BgpAttrItem.encodeTo (.AggregatorAS ⟨65001, 0x0a000001⟩) (.new 1 180 .IPv4 0 []) (List.replicate 5 9) =
    .ok ([64, 7, 4, 9, 9], 7) := rfl

/-- **C117** in buffers of every size: OPEN and NOTIFICATION messages, and the BMP messages that hold no IPv4 address. -/
theorem C117_any_buffer :
    (∀ m : BgpOpenMessage, ShowsIn m.encodeTo (openFate m)) ∧
    (∀ m : BgpNotificationMessage, ShowsIn m.encodeTo (.octets (notifWire m))) ∧
    (∀ x, ShowsIn (BmpMessage.Initiation x).encodeTo (bmpFate .checked (.Initiation x))) ∧
    (∀ x, ShowsIn (BmpMessage.Termination x).encodeTo (bmpFate .checked (.Termination x))) ∧
    (∀ x, isV4 x.peer.peeraddress = false →
      ShowsIn (BmpMessage.RouteMonitoring x).encodeTo (bmpFate .checked (.RouteMonitoring x))) ∧
    (∀ x, isV4 x.peer.peeraddress = false →
      ShowsIn (BmpMessage.PeerDownNotification x).encodeTo (bmpFate .checked (.PeerDownNotification x))) ∧
    (∀ x, isV4 x.peer.peeraddress = false → isV4 x.localaddress = false →
      ShowsIn (BmpMessage.PeerUpNotification x).encodeTo (bmpFate .checked (.PeerUpNotification x))) := by
  obtain ⟨-, -, -, -, h1, h2, -, -, -, -, -, -, -, h3, h4, h5, h6, h7⟩ := C67_size_independent_partial
  exact ⟨fun m => shows_in (h1 m) (C117_open m), fun m => shows_in (h2 m) (C117_notification m),
    fun x => shows_in (h3 x) (C117_bmp _), fun x => shows_in (h4 x) (C117_bmp _),
    fun x h => shows_in (h5 x h) (C117_bmp _), fun x h => shows_in (h6 x h) (C117_bmp _),
    fun x h h' => shows_in (h7 x h h') (C117_bmp _)⟩

/-- non-vacuity: an OPEN that just fits -/
example : ∃ b', BgpOpenMessage.encodeTo ⟨65001, 180, 0x0a000001, []⟩ (List.replicate 10 9) = .ok (b', 10) := ⟨_, rfl⟩

/-! ## C40 -/

theorem fits_split : ∀ {p q : List (Option U8)} {o : Bytes}, Fits (p ++ q) o → ∃ a b, o = a ++ b ∧ Fits p a ∧ Fits q b
  | [], _, o, h => ⟨[], o, rfl, trivial, h⟩
  | _ :: _, _, [], h => h.elim
  | _ :: _, _, _ :: _, h =>
    let ⟨a, b, e, h1, h2⟩ := fits_split h.2
    ⟨_ :: a, b, by rw [e]; rfl, ⟨h.1, h1⟩, h2⟩

theorem fits_counted {w : List (Option U8)} {o : Bytes} (h : Fits (counted w) o) :
    ∃ o', o = be 2 w.length ++ o' ∧ Fits w o' := by
  obtain ⟨a, b, rfl, h1, h2⟩ := fits_split h
  rw [← fits_some_eq h1]
  exact ⟨b, rfl, h2⟩

theorem andThen_sent {a b : Fate} {v : List (Option U8)} (h : a.andThen b = .sent v) :
    ∃ x y, a = .sent x ∧ b = .sent y ∧ v = x ++ y := by
  cases a <;> cases b <;> simp only [Fate.andThen, Fate.sent.injEq, reduceCtorEq] at h
  exact ⟨_, _, rfl, rfl, h.symm⟩

/-- **C40** for every message, with whatever attributes and NLRI, and every buffer: if encoding succeeds and the message is in the
buffer, it is two octets, the withdrawn routes, two octets, the attributes, the announced routes, where these are what
`sectionFate` and `attrsFate` say. The first two octets are the size of the withdrawn routes, the other two that of the attributes,
modulo 65536. -/
theorem C40_every_message (p : BgpSessionParams) (x : BgpUpdateMessage) (buf buf' : Bytes) (n : Nat)
    (he : x.encodeTo p buf = .ok (buf', n)) (hn : n ≤ buf.length) :
    ∃ w a u wlen alen rest, buf' = wlen ++ w ++ alen ++ a ++ u ++ rest ∧ n = (wlen ++ w ++ alen ++ a ++ u).length ∧
      (∃ v, sectionFate .checked p x.withdraws = .sent v ∧ Fits v w) ∧
      (∃ v, attrsFate .checked p 0 x.attrs = .sent v ∧ Fits v a) ∧
      (∃ v, sectionFate .checked p x.updates = .sent v ∧ Fits v u) ∧
      wlen.length = 2 ∧ unbe wlen = w.length ∧ alen.length = 2 ∧ unbe alen = a.length % 65536 := by
  obtain ⟨hl, v, hv, rfl, hf⟩ := (C116_any_buffer p).2.2 x buf buf' n he
  rw [List.take_of_length_le hn] at hf
  obtain ⟨v1, v2, h1, h2, rfl⟩ := andThen_sent hv
  obtain ⟨v3, u, h4, h3, rfl⟩ := andThen_sent h2
  obtain ⟨w, hw, hw1, rfl⟩ : ∃ w, sectionFate .checked p x.withdraws = .sent w ∧ w.length ≤ 65535 ∧ counted w = v1 := by
    unfold withdrawnFate at h1
    cases hs : sectionFate .checked p x.withdraws <;> rw [hs] at h1 <;> simp only [reduceCtorEq] at h1
    split at h1
    · exact ⟨_, rfl, by assumption, by simpa using h1⟩
    · cases h1
  obtain ⟨a, ha, rfl⟩ : ∃ a, attrsFate .checked p 0 x.attrs = .sent a ∧ counted a = v3 := by
    unfold attributesFate at h4
    cases hs : attrsFate .checked p 0 x.attrs <;> rw [hs] at h4 <;> simp only [reduceCtorEq] at h4
    exact ⟨_, rfl, by simpa using h4⟩
  obtain ⟨o1, o2, e1, f1, f2⟩ := fits_split hf
  obtain ⟨o2, o3, rfl, f3, f4⟩ := fits_split f2
  obtain ⟨o4, rfl, g1⟩ := fits_counted f1
  obtain ⟨o5, rfl, g2⟩ := fits_counted f3
  have hlen := congrArg List.length e1
  rw [List.length_take, Nat.min_eq_left (by omega)] at hlen
  refine ⟨o4, o5, o3, be 2 w.length, be 2 a.length, buf'.drop (counted w ++ (counted a ++ u)).length, ?_, ?_, ⟨w, hw, g1⟩,
    ⟨a, ha, g2⟩, ⟨u, h3, f4⟩, be_length _ _, ?_, be_length _ _, ?_⟩
  · conv_lhs => rw [← List.take_append_drop (counted w ++ (counted a ++ u)).length buf']
    rw [e1]
    simp only [List.append_assoc]
  · rw [hlen]
    simp only [List.append_assoc]
  · rw [unbe_be, ← fits_length g1]
    omega
  · rw [unbe_be, fits_length g2]
    norm_num

/-- **C40**: the lengths are right exactly for the messages with at most 65535 octets of attributes: of a message that is encoded, the
attribute length is the size of the attributes if and only if this is at most 65535. -/
theorem C40_exactly (p : BgpSessionParams) (x : BgpUpdateMessage) (buf buf' : Bytes) (n : Nat)
    (he : x.encodeTo p buf = .ok (buf', n)) (hn : n ≤ buf.length) :
    ∃ w a u wlen alen rest, buf' = wlen ++ w ++ alen ++ a ++ u ++ rest ∧ n = (wlen ++ w ++ alen ++ a ++ u).length ∧
      (∃ v, sectionFate .checked p x.withdraws = .sent v ∧ Fits v w) ∧
      (∃ v, attrsFate .checked p 0 x.attrs = .sent v ∧ Fits v a) ∧
      (∃ v, sectionFate .checked p x.updates = .sent v ∧ Fits v u) ∧
      wlen.length = 2 ∧ unbe wlen = w.length ∧ alen.length = 2 ∧ (unbe alen = a.length ↔ a.length ≤ 65535) := by
  obtain ⟨w, a, u, wlen, alen, rest, h1, h2, h3, h4, h5, h6, h7, h8, h9⟩ := C40_every_message p x buf buf' n he hn
  refine ⟨w, a, u, wlen, alen, rest, h1, h2, h3, h4, h5, h6, h7, h8, ?_⟩
  rw [h9]
  omega

/-- non-vacuity: a message with AGGREGATOR -/
example : ∃ b', BgpUpdateMessage.encodeTo ⟨.IPV4U [⟨0x0a000000, 8⟩], .IPV4U [⟨0x0b000000, 8⟩], [.AggregatorAS ⟨65001, 1⟩]⟩
    (.new 1 180 .IPv4 0 []) (List.replicate 15 9) = .ok (b', 15) := ⟨_, rfl⟩

end Zbgp.Props
