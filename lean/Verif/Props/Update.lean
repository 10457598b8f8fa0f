import Verif.Lemmas.UpdateReads
import Verif.Lemmas.NoHang
import Verif.Props.Attrs
import Verif.Props.Nlri

/-! # C39-C43 and, for UPDATE, C11: UPDATE messages -/

namespace Zbgp.Props

open Zbgp Spec

attribute [-simp] List.length_flatMap List.length_flatten

/-- an UPDATE that withdraws a prefix, and announces another with origin, AS path, next hop and communities -/
def update4 : BgpUpdateMessage :=
  { withdraws := .IPV4U [⟨0x0a000000, 8⟩]
    updates := .IPV4U [⟨0xc0000200, 24⟩]
    attrs := [.Origin ⟨.Igp⟩, .ASPath ⟨[⟨65001⟩, ⟨65002⟩]⟩, .NextHop ⟨.v4 0x01020304⟩, .CommunityList ⟨[⟨0xfde80001⟩]⟩] }

/-- its octets in a session with 32-bit AS numbers -/
def update4Bytes : Bytes :=
  [0, 2, 8, 10,
   0, 33, 0x40, 1, 1, 0, 0x50, 2, 0, 10, 2, 2, 0, 0, 0xfd, 0xe9, 0, 0, 0xfd, 0xea, 0x40, 3, 4, 1, 2, 3, 4,
   0xd0, 8, 0, 4, 0xfd, 0xe8, 0, 1,
   24, 192, 0, 2]

theorem update4_parts : PartsOk session32 update4 := by
  refine ⟨.inr ⟨⟨false, rfl⟩, ?_, ?_⟩, .inr ⟨⟨false, rfl⟩, ?_, ?_⟩, ?_⟩
  · simp [update4, AddrsWF, NlriKind.WF, NlriKind.bits]
  · intro f ap h _
    simp only [update4, kindOf, Option.some.injEq, Prod.mk.injEq] at h
    obtain ⟨rfl, rfl⟩ := h
    decide
  · simp [update4, AddrsWF, NlriKind.WF, NlriKind.bits]
  · intro f ap h _
    simp only [update4, kindOf, Option.some.injEq, Prod.mk.injEq] at h
    obtain ⟨rfl, rfl⟩ := h
    decide
  · intro a ha
    simp only [update4, List.mem_cons, List.not_mem_nil, or_false] at ha
    rcases ha with rfl | rfl | rfl | rfl
    · exact ⟨trivial, by decide⟩
    · exact ⟨.inr rfl, by decide⟩
    · exact ⟨rfl, by decide⟩
    · exact ⟨by simp [AttrOk, Ascending], by decide⟩

theorem update4_wire : updateWire session32 update4 = update4Bytes := by decide

/-! ## C11, UPDATE -/

/-- Decoding into an object with attributes gives what decoding into a new object gives, with the old attributes in front
of the attributes of the message. -/
theorem C11_update_appends (self : BgpUpdateMessage) (p : BgpSessionParams) (buf : Bytes) :
    self.decodeFrom p buf =
      (BgpUpdateMessage.new.decodeFrom p buf >>= fun m => .ok { m with attrs := self.attrs ++ m.attrs }) := by
  unfold BgpUpdateMessage.decodeFrom
  simp only [bind_assoc]
  congr 1; funext s1
  congr 1; funext v1
  split
  · rfl
  simp only [bind_assoc]
  congr 1; funext s2
  congr 1; funext v2
  congr 1; funext s3
  congr 1; funext v3
  split
  · rfl
  simp only [bind_assoc]
  congr 1

/-- **C11** for UPDATE, partial: into objects without attributes (as `new` makes them) the result does not depend on the
previous contents. Missing: objects that have attributes, see `C11_update_keeps_old_attributes`. -/
theorem C11_update_history_free_partial (s1 s2 : BgpUpdateMessage) (h1 : s1.attrs = []) (h2 : s2.attrs = [])
    (p : BgpSessionParams) (buf : Bytes) : s1.decodeFrom p buf = s2.decodeFrom p buf := by
  rw [C11_update_appends s1, C11_update_appends s2, h1, h2]

/-- **C11 is violated** by UPDATE: whenever a message decodes into a new object, decoding it into an object that has
attributes also succeeds, with another result. -/
theorem C11_update_keeps_old_attributes (self : BgpUpdateMessage) (hs : self.attrs ≠ []) (p : BgpSessionParams)
    (buf : Bytes) (m : BgpUpdateMessage) (h : BgpUpdateMessage.new.decodeFrom p buf = .ok m) :
    ∃ m', self.decodeFrom p buf = .ok m' ∧ m'.attrs = self.attrs ++ m.attrs ∧ m' ≠ m := by
  refine ⟨_, by rw [C11_update_appends, h]; rfl, rfl, ?_⟩
  intro e
  have := congrArg (fun m => m.attrs.length) e
  simp only [List.length_append] at this
  have := List.length_pos_iff.2 hs
  omega

/-- non-vacuity: the message `update4Bytes` decodes into a new object, and `update4` has attributes -/
example : BgpUpdateMessage.new.decodeFrom session32 update4Bytes = .ok update4 ∧ update4.attrs ≠ [] :=
  ⟨rfl, by simp [update4]⟩

/-! ## C39 -/

theorem attr_nonempty (p : BgpSessionParams) (a : BgpAttrItem) : 3 ≤ (attrWire p.hasAs32bit a).length := by
  have := rawWire_length ⟨(attrCode a).1, (attrCode a).2, valueWire p.hasAs32bit a⟩
  have e : rawWire ⟨(attrCode a).1, (attrCode a).2, valueWire p.hasAs32bit a⟩ = attrWire p.hasAs32bit a := rfl
  rw [e] at this
  split at this <;> omega

theorem fits_of_total (p : BgpSessionParams) (l : List BgpAttrItem) (ha : (attrsWire p l).length ≤ 65535) :
    ∀ a b c, l = a ++ b :: c → (attrsWire p a).length ≤ 65533 := by
  intro a b c e
  have := attr_nonempty p b
  rw [e] at ha
  simp only [attrsWire, List.flatMap_append, List.flatMap_cons, List.length_append] at ha ⊢
  omega

/-- **C39**, partial: an UPDATE of parts that can each be put on the wire in the session is written as its three
sections, and decodes to its withdrawals, attributes and announcements (`sectionReceived`, `attrReceived`: the octets of
prefixes that are not sent are zero; no prefixes come back as an empty collection). Missing: messages with parts that do
not round trip on their own (C29, C33, C44). -/
theorem C39_update_round_trip_partial (p : BgpSessionParams) (x : BgpUpdateMessage) (h : PartsOk p x)
    (hw : (addrsWire x.withdraws).length ≤ 65535) (ha : (attrsWire p x.attrs).length ≤ 65535) (buf : Bytes)
    (hb : (updateWire p x).length ≤ buf.length) :
    ∃ buf' n, x.encodeTo p buf = .ok (buf', n) ∧ buf'.take n = updateWire p x ∧ buf'.drop n = buf.drop n ∧
      BgpUpdateMessage.new.decodeFrom p (buf'.take n) =
        .ok ⟨sectionReceived p x.updates, sectionReceived p x.withdraws, x.attrs.map attrReceived⟩ := by
  refine ⟨_, _, update_writes p x h hw (fits_of_total p _ ha) buf hb, ?_, ?_, ?_⟩
  · rw [List.take_left' rfl]
  · rw [List.drop_left' rfl]
  · rw [List.take_left' rfl]
    exact update_reads p x .new h hw ha

/-- **C39** for the plain and AddPath collections: nothing but unsent octets of prefixes is lost, and the collection is of
the same form. -/
theorem C39_sections (p : BgpSessionParams) :
    (∀ v, sectionReceived p (.IPV4U v) = .IPV4U (v.map NlriKind.received)) ∧
    (∀ v, sectionReceived p (.IPV4UP v) = .IPV4UP (v.map receivedP)) ∧
    (∀ v, sectionReceived p (.IPV6U v) = .IPV6U (v.map NlriKind.received)) ∧
    (∀ v, sectionReceived p (.IPV6UP v) = .IPV6UP (v.map receivedP)) ∧
    (sectionReceived p .None).isEmpty = true := by
  refine ⟨fun _ => rfl, fun _ => rfl, fun _ => rfl, fun _ => rfl, ?_⟩
  simp only [sectionReceived]
  split <;> rfl

/-- non-vacuity: `update4`, its octets, and that it comes back unchanged -/
example : PartsOk session32 update4 ∧ (addrsWire update4.withdraws).length ≤ 65535 ∧
    (attrsWire session32 update4.attrs).length ≤ 65535 ∧ updateWire session32 update4 = update4Bytes ∧
    (⟨sectionReceived session32 update4.updates, sectionReceived session32 update4.withdraws,
      update4.attrs.map attrReceived⟩ : BgpUpdateMessage) = update4 :=
  ⟨update4_parts, by decide, by decide, update4_wire, rfl⟩

/-! ## C40 -/

/-- **C40**, partial: whatever is encoded into whatever buffer, a successful encoding is two octets, the withdrawn routes
`w`, two octets, the attributes `ws`, the announced prefixes; the first two octets are the size of the withdrawn routes,
the other two that of the attributes when it is at most 65535 (the size modulo 65536 otherwise, see
`C40_attribute_length_wraps`); nothing behind is changed. Missing: messages with an AGGREGATOR or with multiprotocol NLRI
of which the encoder does not report the octets it writes (`AttrFramed`); for these see `C40_every_message`. -/
theorem C40_lengths_partial (p : BgpSessionParams) (x : BgpUpdateMessage) (h : ∀ a ∈ x.attrs, AttrFramed a)
    (buf buf' : Bytes) (n : Nat) (he : x.encodeTo p buf = .ok (buf', n)) :
    ∃ w ws u wlen alen, SectionEmits p x.withdraws w ∧ AttrsEmit p x.attrs ws ∧ SectionEmits p x.updates u ∧
      buf' = wlen ++ w ++ alen ++ ws.flatten ++ u ++ buf.drop n ∧ n = (wlen ++ w ++ alen ++ ws.flatten ++ u).length ∧
      wlen.length = 2 ∧ unbe wlen = w.length ∧
      alen.length = 2 ∧ unbe alen = ws.flatten.length % 65536 ∧ buf'.length = buf.length := by
  obtain ⟨w, ws, u, h1, h2, h3, h4, h5, h6, h7⟩ := update_encode_ok p x h buf buf' n he
  refine ⟨w, ws, u, be 2 w.length, be 2 ws.flatten.length, h1, h2, h3, ?_, h5, by simp, ?_, by simp, ?_, ?_⟩
  · rw [h7]; rfl
  · rw [unbe_be]; exact Nat.mod_eq_of_lt (by omega)
  · exact unbe_be _ _
  · rw [h7]; simp only [List.length_append, List.length_drop]; omega

/-- **C40**: withdrawn routes of more than 65535 octets make the encoding fail. -/
theorem C40_withdrawn_too_long (p : BgpSessionParams) (x : BgpUpdateMessage) (h : SectionOk p x.withdraws)
    (hl : 65535 < (addrsWire x.withdraws).length) (buf : Bytes) (hb : 2 + (addrsWire x.withdraws).length ≤ buf.length) :
    x.encodeTo p buf = .err .tooManyData := by
  unfold BgpUpdateMessage.encodeTo
  rw [encodeWithdraws_full p x h hl buf hb]
  rfl

/-- **C40**: the encoding fails when an attribute follows attributes of more than 65533 octets. -/
theorem C40_attributes_too_long (p : BgpSessionParams) (x : BgpUpdateMessage) (h : PartsOk p x)
    (hw : (addrsWire x.withdraws).length ≤ 65535) (a : List BgpAttrItem) (b : BgpAttrItem) (c : List BgpAttrItem)
    (e : x.attrs = a ++ b :: c) (hl : 65533 < (attrsWire p a).length) (buf : Bytes)
    (hb : (updateWire p x).length ≤ buf.length) : x.encodeTo p buf = .err .static := by
  have hlen : (updateWire p x).length = 4 + (addrsWire x.withdraws).length + (attrsWire p x.attrs).length +
      (addrsWire x.updates).length := by simp [updateWire, updateBytes]; omega
  unfold BgpUpdateMessage.encodeTo
  rw [encodeWithdraws_writes p x h.1 hw buf (by omega)]
  simp only [Res.ok_bind]
  obtain ⟨m, t, hm, hml, -⟩ := exists_split (buf := buf.drop (2 + (addrsWire x.withdraws).length)) 2 (by simp; omega)
  have hbl : buf.length = 2 + (addrsWire x.withdraws).length + 2 + t.length := by
    have := congrArg List.length hm
    simp at this
    omega
  have := encodeAttrs_full p (2 + (addrsWire x.withdraws).length) x.attrs h.2.2
    (be 2 (addrsWire x.withdraws).length ++ addrsWire x.withdraws ++ m) t a b c e (by simp; omega) (by omega)
  simp only [List.length_append, be_length, hml] at this
  rw [hm, ← List.append_assoc, this]
  rfl

/-- **C40 is violated** by every message of which the last attribute takes the attributes over 65535 octets: it is encoded,
with an attribute length that is less than the size of the attributes. -/
theorem C40_attribute_length_wraps (p : BgpSessionParams) (x : BgpUpdateMessage) (h : PartsOk p x)
    (hw : (addrsWire x.withdraws).length ≤ 65535)
    (hfit : ∀ a b c, x.attrs = a ++ b :: c → (attrsWire p a).length ≤ 65533)
    (hover : 65535 < (attrsWire p x.attrs).length) (buf : Bytes) (hb : (updateWire p x).length ≤ buf.length) :
    ∃ alen, x.encodeTo p buf =
        .ok (be 2 (addrsWire x.withdraws).length ++ addrsWire x.withdraws ++ alen ++ attrsWire p x.attrs ++
          addrsWire x.updates ++ buf.drop (updateWire p x).length, (updateWire p x).length) ∧
      alen.length = 2 ∧ unbe alen < (attrsWire p x.attrs).length := by
  refine ⟨be 2 (attrsWire p x.attrs).length, ?_, by simp, ?_⟩
  · rw [update_writes p x h hw hfit buf hb]
    rfl
  · rw [unbe_be]; omega

/-- non-vacuity: an unknown attribute with a value of 65535 octets makes attributes of 65539 octets -/
example :
    let x : BgpUpdateMessage := ⟨.None, .None, [.Unknown ⟨⟨99, 0xd0⟩, List.replicate 65535 7⟩]⟩
    PartsOk session32 x ∧ (attrsWire session32 x.attrs).length = 65539 ∧
      ∀ a b c, x.attrs = a ++ b :: c → (attrsWire session32 a).length ≤ 65533 := by
  refine ⟨⟨.inl rfl, .inl rfl, ?_⟩, ?_, ?_⟩
  · intro a ha
    simp only [List.mem_singleton] at ha
    subst ha
    refine ⟨?_, ?_⟩
    · show (99 : U8).toNat ∉ assignedCodes
      decide
    · simp only [valueWire, List.length_replicate]
      decide
  · simp only [attrsWire, List.flatMap_cons, List.flatMap_nil, List.append_nil, attrWire, List.length_append,
      attrHeader_length, valueWire, List.length_replicate]
    decide
  · intro a b c e
    cases a with
    | nil => simp [attrsWire]
    | cons y a =>
      have := congrArg List.length e
      simp only [List.length_cons, List.length_nil, List.cons_append, List.length_append] at this
      omega

/-! ## C41 -/

/-- **C41**, endless loops: for every session and input the decoder of UPDATE messages ends, and so do those of attribute
values and of NLRI of any family. -/
theorem C41_never_hangs (p : BgpSessionParams) (buf : Bytes) :
    (∀ self : BgpUpdateMessage, self.decodeFrom p buf ≠ .hang) ∧
    (∀ code flags n, BgpAttrItem.decodeFrom p code flags n buf ≠ .hang) ∧
    (∀ afi safi, BgpAddrs.decodeFrom p afi safi buf ≠ .hang) :=
  ⟨fun self => nh_update self p buf, fun _ _ _ => nh_attr p _ _ _ buf, fun _ _ => nh_addrs p _ _ buf⟩

/-- **C41**, crashes: which messages crash the decoder. Read section by section, they have prefixes or an attribute value
of those that crash the respective decoder (C80, C81), or the message ends in the middle of an attribute header. -/
theorem C41_crash_iff (self : BgpUpdateMessage) (p : BgpSessionParams) (buf : Bytes) :
    self.decodeFrom p buf = .panic ↔ UpdateCrash p buf :=
  (update_exactly self p buf).crash

private theorem boundary_small {buf : Bytes} (h : ∀ b ∈ buf, b.toNat ≤ 248) {k : Nat} {b : U8} (hb : buf[k]? = some b) :
    b.toNat ≤ 248 := h b (List.mem_of_getElem? hb)

/-- **C41**, partial: a message of whole sections and attributes is decoded or rejected, in sessions without AddPath, if no
octet of its prefixes is above 248 and its attributes are of the kinds of C36. Missing: other messages, see
`C41_crash_iff` and `C41_crashes`. -/
theorem C41_total_partial (self : BgpUpdateMessage) (p : BgpSessionParams) (w u : Bytes) (raws : List RawAttr)
    (hp : ReceivesAddPath p.caps (familyCode (sessionFamily p)) = false) (hz : p.fuzzyPathid = false)
    (hw : w.length ≤ 65535) (ha : (raws.flatMap rawWire).length ≤ 65535) (hr : ∀ r ∈ raws, RawWF r)
    (hwb : ∀ b ∈ w, b.toNat ≤ 248) (hub : ∀ b ∈ u, b.toNat ≤ 248)
    (hv : ∀ r ∈ raws, ValueHandled r.code.toNat r.value) :
    (self.decodeFrom p (updateBytes w (raws.flatMap rawWire) u)).Returns := by
  have hn : ∀ s : Bytes, (∀ b ∈ s, b.toNat ≤ 248) →
      (BgpAddrs.decodeFrom p (familyCode (sessionFamily p)).1 (familyCode (sessionFamily p)).2 s).Returns := by
    intro s hs
    obtain ⟨_, _, mode, _, _, caps, _⟩ := p
    simp only at hz
    subst hz
    cases mode
    · simp only [sessionFamily, familyCode, BgpAddrs.decodeFrom]
      show (BgpAddrs.decodeAddpath _ 1 1 _ _ _).Returns
      rw [decodeAddpath_eq, if_neg (by simp only [AddPathExpected, Bool.false_and, Bool.or_false]; simpa [sessionFamily, familyCode] using hp)]
      exact Res.returns_bind (C14_ipv4_total_partial s fun k xs b _ hb => boundary_small hs hb) fun _ _ => trivial
    · simp only [sessionFamily, familyCode, BgpAddrs.decodeFrom]
      show (BgpAddrs.decodeAddpath _ 2 1 _ _ _).Returns
      rw [decodeAddpath_eq, if_neg (by simp only [AddPathExpected, Bool.false_and, Bool.or_false]; simpa [sessionFamily, familyCode] using hp)]
      exact Res.returns_bind (C14_ipv6_total_partial s fun k xs b _ hb => boundary_small hs hb) fun _ _ => trivial
  refine update_returns self p w u raws hw ha hr ?_ (fun r h => value_returns p _ _ _ _ (Nat.le_refl _) (hv r h)) ?_
  · rw [decodeNlri_eq]
    exact Res.returns_bind (hn w hwb) fun _ _ => trivial
  · rw [decodeNlri_eq]
    exact Res.returns_bind (hn u hub) fun _ _ => trivial

/-- non-vacuity: the sections of `update4Bytes` -/
example :
    let raws : List RawAttr := [⟨1, 0x40, [0]⟩, ⟨2, 0x50, [2, 2, 0, 0, 0xfd, 0xe9, 0, 0, 0xfd, 0xea]⟩,
      ⟨3, 0x40, [1, 2, 3, 4]⟩, ⟨8, 0xd0, [0xfd, 0xe8, 0, 1]⟩]
    update4Bytes = updateBytes [8, 10] (raws.flatMap rawWire) [24, 192, 0, 2] ∧
      ReceivesAddPath session32.caps (familyCode (sessionFamily session32)) = false ∧
      (∀ r ∈ raws, r.value.length ≤ maxValue r.flags) ∧ ∀ r ∈ raws, ValueHandled r.code.toNat r.value := by
  refine ⟨by decide, by decide, by decide, ?_⟩
  simp [ValueHandled]

/-- **C41 is violated**: messages that crash the decoder. A prefix length of 255 in the withdrawn and in the announced
prefixes, an attribute header cut off by the end of the message, an ORIGINATOR_ID without a value. -/
theorem C41_crashes :
    BgpUpdateMessage.new.decodeFrom session32 [0, 1, 255, 0, 0] = .panic ∧
    BgpUpdateMessage.new.decodeFrom session32 [0, 0, 0, 0, 255] = .panic ∧
    BgpUpdateMessage.new.decodeFrom session32 [0, 0, 0, 1, 0x40] = .panic ∧
    BgpUpdateMessage.new.decodeFrom session32 [0, 0, 0, 2, 0x40, 1] = .panic ∧
    BgpUpdateMessage.new.decodeFrom session32 [0, 0, 0, 3, 0x80, 9, 0] = .panic :=
  ⟨rfl, rfl, rfl, rfl, rfl⟩

/-! ## C42 -/

/-- **C42.** A message is decoded exactly when it is a size and as many octets of withdrawn prefixes, a size and as many
octets of whole attributes, and announced prefixes up to its end; each part is what its own octets say. -/
theorem C42_sections (self : BgpUpdateMessage) (p : BgpSessionParams) (buf : Bytes) (m : BgpUpdateMessage) :
    self.decodeFrom p buf = .ok m ↔
      ∃ w a u l, buf = updateBytes w a u ∧ w.length ≤ 65535 ∧ a.length ≤ 65535 ∧ NlriIs p w m.withdraws ∧
        AttrsRead (ValueRead p) a l ∧ NlriIs p u m.updates ∧ m.attrs = self.attrs ++ l := by
  rw [update_read_iff]
  constructor
  · rintro ⟨l, ⟨w, a, u, h1, h2, h3, h4, h5, h6⟩, h7⟩
    exact ⟨w, a, u, l, h1, h2, h3, h4, h5, h6, h7⟩
  · rintro ⟨w, a, u, l, h1, h2, h3, h4, h5, h6, h7⟩
    exact ⟨l, ⟨w, a, u, h1, h2, h3, h4, h5, h6⟩, h7⟩

/-- non-vacuity: the sections of a message are what they should be -/
example : NlriIs session32 [8, 10] (.IPV4U [⟨0x0a000000, 8⟩]) ∧
    AttrsRead (ValueRead session32) ([0x40, 1, 1, 2] ++ []) [.Origin ⟨.Incomplete⟩] := by
  refine ⟨⟨2, ((addrs_exactly session32 .ipv4Unicast _).ok (_, 2)).1 (by rfl)⟩, ?_⟩
  exact .cons ⟨1, 0x40, [2]⟩ _ [] [] (show _ ≤ _ by decide) (.fixed 1 0x40 [2] [] _ (.origin .Incomplete) (by decide)) .nil

/-- **C42**, independence: two messages that agree in the octets of a section, and whatever the rest of them, decode to the
same contents of that section. -/
theorem C42_independent (p : BgpSessionParams) (w a u w' a' u' : Bytes) (m m' : BgpUpdateMessage)
    (hw : w.length ≤ 65535) (ha : a.length ≤ 65535) (hw' : w'.length ≤ 65535) (ha' : a'.length ≤ 65535)
    (h : BgpUpdateMessage.new.decodeFrom p (updateBytes w a u) = .ok m)
    (h' : BgpUpdateMessage.new.decodeFrom p (updateBytes w' a' u') = .ok m') :
    (w = w' → m.withdraws = m'.withdraws) ∧ (a = a' → m.attrs = m'.attrs) ∧ (u = u' → m.updates = m'.updates) := by
  obtain ⟨w1, a1, u1, l, e, h1, h2, h4, h5, h6, h7⟩ := (C42_sections _ p _ m).1 h
  obtain ⟨w2, a2, u2, l', e', h1', h2', h4', h5', h6', h7'⟩ := (C42_sections _ p _ m').1 h'
  obtain ⟨rfl, rfl, rfl⟩ := updateBytes_inj hw ha h1 h2 e
  obtain ⟨rfl, rfl, rfl⟩ := updateBytes_inj hw' ha' h1' h2' e'
  refine ⟨?_, ?_, ?_⟩
  · rintro rfl; exact nlriIs_inj h4 h4'
  · rintro rfl
    rw [h7, h7', attrsRead_inj h5 h5']
  · rintro rfl; exact nlriIs_inj h6 h6'

/-- non-vacuity: two messages with the same withdrawn prefixes and other attributes and announced prefixes -/
example :
    BgpUpdateMessage.new.decodeFrom session32 (updateBytes [8, 10] [0x40, 1, 1, 0] [16, 1, 2]) =
      .ok ⟨.IPV4U [⟨0x01020000, 16⟩], .IPV4U [⟨0x0a000000, 8⟩], [.Origin ⟨.Igp⟩]⟩ ∧
    BgpUpdateMessage.new.decodeFrom session32 (updateBytes [8, 10] [] []) =
      .ok ⟨.IPV4U [], .IPV4U [⟨0x0a000000, 8⟩], []⟩ := ⟨rfl, rfl⟩

/-- **C42**, each octet is in one section: a message has one reading as sections and attributes. -/
theorem C42_one_reading (w u w' u' : Bytes) (raws raws' : List RawAttr) (hw : w.length ≤ 65535) (hw' : w'.length ≤ 65535)
    (ha : (raws.flatMap rawWire).length ≤ 65535) (ha' : (raws'.flatMap rawWire).length ≤ 65535)
    (hr : ∀ r ∈ raws, RawWF r) (hr' : ∀ r ∈ raws', RawWF r)
    (h : updateBytes w (raws.flatMap rawWire) u = updateBytes w' (raws'.flatMap rawWire) u') :
    w = w' ∧ raws = raws' ∧ u = u' := by
  obtain ⟨h1, h2, h3⟩ := updateBytes_inj hw ha hw' ha' h
  exact ⟨h1, raws_inj hr hr' h2, h3⟩

/-! ## C43 -/

private theorem firstAttr_some {α : Type} (f : BgpAttrItem → Option α) (c : α → BgpAttrItem)
    (hf : ∀ a n, f a = some n ↔ a = c n) (l : List BgpAttrItem) (n : α) :
    BgpUpdateMessage.firstAttr f l = some n ↔ ∃ pre post, l = pre ++ c n :: post ∧ ∀ m, c m ∉ pre := by
  induction l with
  | nil => simp [BgpUpdateMessage.firstAttr]
  | cons a l ih =>
    rw [BgpUpdateMessage.firstAttr]
    split
    · rename_i k hk
      have hk' := (hf a k).1 hk
      subst hk'
      constructor
      · intro h
        simp only [Option.some.injEq] at h
        subst h
        exact ⟨[], l, rfl, by simp⟩
      · rintro ⟨pre, post, e, hn⟩
        cases pre with
        | nil =>
          simp only [List.nil_append, List.cons.injEq] at e
          rw [← hk, (hf _ n).2 e.1]
        | cons b pre =>
          simp only [List.cons_append, List.cons.injEq] at e
          exact absurd (e.1 ▸ List.mem_cons_self) (hn k)
    · rename_i hk
      rw [ih]
      have hne : ∀ m, a ≠ c m := fun m e => by have := (hf a m).2 e; rw [hk] at this; cases this
      constructor
      · rintro ⟨pre, post, e, hn⟩
        refine ⟨a :: pre, post, by rw [e]; rfl, fun m hm => ?_⟩
        rcases List.mem_cons.1 hm with h | h
        · exact hne m h.symm
        · exact hn m h
      · rintro ⟨pre, post, e, hn⟩
        cases pre with
        | nil =>
          simp only [List.nil_append, List.cons.injEq] at e
          exact absurd e.1 (hne n)
        | cons b pre =>
          simp only [List.cons_append, List.cons.injEq] at e
          exact ⟨pre, post, e.2, fun m hm => hn m (by simp [hm])⟩

private theorem firstAttr_none {α : Type} (f : BgpAttrItem → Option α) (c : α → BgpAttrItem)
    (hf : ∀ a n, f a = some n ↔ a = c n) (l : List BgpAttrItem) :
    BgpUpdateMessage.firstAttr f l = none ↔ ∀ m, c m ∉ l := by
  induction l with
  | nil => simp [BgpUpdateMessage.firstAttr]
  | cons a l ih =>
    rw [BgpUpdateMessage.firstAttr]
    split
    · rename_i k hk
      constructor
      · intro h; cases h
      · intro h; exact absurd (by rw [(hf a k).1 hk]; simp) (h k)
    · rename_i hk
      rw [ih]
      have hne : ∀ m, a ≠ c m := fun m e => by have := (hf a m).2 e; rw [hk] at this; cases this
      constructor
      · intro h m hm
        rcases List.mem_cons.1 hm with e | e
        · exact hne m e.symm
        · exact h m e
      · intro h m hm; exact h m (by simp [hm])

/-- **C43.** Each accessor gives the first attribute of its kind in message order, and nothing exactly when there is
none. -/
theorem C43_accessors :
    GivesFirst BgpUpdateMessage.getAttrOrigin .Origin ∧
    GivesFirst BgpUpdateMessage.getAttrAspath .ASPath ∧
    GivesFirst BgpUpdateMessage.getAttrCommunitylist .CommunityList ∧
    GivesFirst BgpUpdateMessage.getAttrLargecommunitylist .LargeCommunityList ∧
    GivesFirst BgpUpdateMessage.getAttrExtcommunitylist .ExtCommunityList ∧
    GivesFirst BgpUpdateMessage.getAttrNexthop .NextHop ∧
    GivesFirst BgpUpdateMessage.getMpupdates .MPUpdates ∧
    GivesFirst BgpUpdateMessage.getMpwithdraws .MPWithdraws := by
  refine ⟨?_, ?_, ?_, ?_, ?_, ?_, ?_, ?_⟩ <;>
  · refine fun x => ⟨fun n => firstAttr_some _ _ ?_ _ n, firstAttr_none _ _ ?_ _⟩ <;>
    · intro a n
      cases a <;> simp

/-- non-vacuity: of two ORIGIN attributes the first is given, of no MED none -/
example : BgpUpdateMessage.getAttrOrigin ⟨.None, .None, [.MED ⟨5⟩, .Origin ⟨.Egp⟩, .Origin ⟨.Igp⟩]⟩ = some ⟨.Egp⟩ ∧
    BgpUpdateMessage.getAttrNexthop ⟨.None, .None, [.MED ⟨5⟩, .Origin ⟨.Egp⟩]⟩ = none := ⟨rfl, rfl⟩

end Zbgp.Props
