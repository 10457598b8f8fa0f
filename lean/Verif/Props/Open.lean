import Verif.Lemmas.Open
import Verif.Lemmas.Utf8

/-! # C05-C11: capabilities, OPEN and NOTIFICATION -/

namespace Zbgp.Props

open Zbgp Spec

/-! ## C05 -/

theorem capsParams_eq_items (caps : List BgpCapability) :
    capsParams caps = (caps.map fun c => [CapItem.known c]).flatMap itemsParam := by
  induction caps with
  | nil => rfl
  | cons c cs ih =>
    have : capsParams (c :: cs) = capParam (capTlv c) ++ capsParams cs := by simp [capsParams]
    rw [this, ih]
    simp [itemsParam, capParam, CapItem.wire]

theorem knownOf_singletons (caps : List BgpCapability) :
    (caps.map fun c => [CapItem.known c]).flatMap knownOf = caps := by
  induction caps with
  | nil => rfl
  | cons c cs ih => simp [knownOf] at ih ⊢; exact ih

/-- **C05.** Encoding an OPEN with encodable capabilities into any sufficient buffer writes the RFC 4271 OPEN
body, and decoding exactly those bytes into any message object gives back hold time, router id and the capabilities
in order; the AS number comes back unchanged when below 65536 and as AS_TRANS otherwise. -/
theorem C05_open_round_trip (m : BgpOpenMessage) (hc : ∀ c ∈ m.caps, CapEncodable c) (buf : Bytes)
    (hb : 10 + (capsParams m.caps).length ≤ buf.length) (self : BgpOpenMessage) :
    ∃ buf' n, m.encodeTo buf = .ok (buf', n) ∧
      buf'.take n = openWire m.asNum.toNat m.holdTime.toNat m.routerId.toNat (capsParams m.caps) ∧
      buf'.drop n = buf.drop n ∧ buf'.length = buf.length ∧
      self.decodeFrom (buf'.take n) =
        .ok { m with asNum := if m.asNum.toNat < 65536 then m.asNum else 23456 } := by
  have hw := writes_open m hc
  have hlen := openWire_length m.asNum.toNat m.holdTime.toNat m.routerId.toNat (capsParams m.caps)
  refine ⟨_, _, hw buf (by omega), ?_, ?_, ?_, ?_⟩
  · rw [List.take_left' rfl]
  · rw [List.drop_left' rfl]
  · simp; omega
  · rw [List.take_left' rfl, capsParams_eq_items]
    have ha : as2 m.asNum.toNat < 65536 := by unfold as2; split <;> omega
    rw [decode_openWire self _ _ _ ha]
    · rw [knownOf_singletons]
      simp only [BitVec.ofNat_toNat, BitVec.setWidth_eq, as2]
      split <;> simp
    · intro p hp i hi
      simp only [List.mem_map] at hp
      obtain ⟨c, hc', rfl⟩ := hp
      simp only [List.mem_singleton] at hi
      subst hi
      exact hc c hc'
    · intro p hp
      simp only [List.mem_map] at hp
      obtain ⟨c, hc', rfl⟩ := hp
      simpa [CapItem.wire] using (hc c hc').2

/-- non-vacuity of C05: an OPEN with seven different capabilities -/
example : ∀ c ∈ [BgpCapability.SafiIPv4u, .SafiVPNv6u, .CapRR, .CapASN32 4200000000,
      .CapGR 120 true [⟨1, 1, true⟩, ⟨2, 1, false⟩], .CapAddPath [⟨1, 1, true, false⟩],
      .CapLLGR [⟨1, 1, 0, 86400⟩]], CapEncodable c := by
  intro c hc
  simp only [List.mem_cons, List.not_mem_nil, or_false] at hc
  rcases hc with rfl | rfl | rfl | rfl | rfl | rfl | rfl <;> exact ⟨by simp, by decide⟩

/-! ## C06 -/

/-- **C06.** Decoding an OPEN from any bytes into any object returns Ok or Err: no panic and no endless loop. -/
theorem C06_open_decode_total (self : BgpOpenMessage) (buf : Bytes) : (self.decodeFrom buf).Returns := by
  unfold BgpOpenMessage.decodeFrom
  split
  · simp
  · rename_i hl
    rw [idx_of_lt (by omega), Res.ok_bind]
    split
    · simp
    · rw [sliceE_ok (by omega) (by omega), Res.ok_bind]
      have h2 : (List.drop 1 (List.take buf.length buf)).length = buf.length - 1 := by simp
      simp only [idx_of_lt (show 0 < (List.drop 1 (List.take buf.length buf)).length by omega),
        idx_of_lt (show 1 < (List.drop 1 (List.take buf.length buf)).length by omega),
        idx_of_lt (show 2 < (List.drop 1 (List.take buf.length buf)).length by omega),
        idx_of_lt (show 3 < (List.drop 1 (List.take buf.length buf)).length by omega),
        idx_of_lt (show 4 < (List.drop 1 (List.take buf.length buf)).length by omega),
        idx_of_lt (show 5 < (List.drop 1 (List.take buf.length buf)).length by omega),
        idx_of_lt (show 6 < (List.drop 1 (List.take buf.length buf)).length by omega),
        idx_of_lt (show 7 < (List.drop 1 (List.take buf.length buf)).length by omega), Res.ok_bind]
      exact Res.returns_bind (decodeParams_returns _ _ (by simp; omega)) (by simp)

/-- C06 is about non-trivial behaviour: both outcomes occur -/
example : (BgpOpenMessage.new.decodeFrom []).IsErr ∧
    BgpOpenMessage.new.decodeFrom [4, 0, 1, 0, 180, 1, 2, 3, 4, 4, 2, 2, 2, 0] =
      .ok ⟨1, 180, 0x01020304, [.CapRR]⟩ := by decide

/-! ## C07 -/

/-- **C07.** Whatever optional parameters an OPEN carries, each any mixture of known capability TLVs and TLVs with
unassigned codes, the decoded message is determined by the known ones in order: it is the decoding of the same OPEN
with the unknown TLVs left out. -/
theorem C07_unknown_caps_skipped (self : BgpOpenMessage) (asn hold rid : Nat)
    (params : List (List CapItem)) (hw : ∀ p ∈ params, ∀ i ∈ p, i.WF)
    (hl : ∀ p ∈ params, (p.flatMap CapItem.wire).length ≤ 255) :
    self.decodeFrom (openWire asn hold rid (params.flatMap itemsParam)) =
      .ok { asNum := BitVec.ofNat 32 (as2 asn), holdTime := BitVec.ofNat 16 hold,
            routerId := BitVec.ofNat 32 rid, caps := params.flatMap knownOf } ∧
    self.decodeFrom (openWire asn hold rid (params.flatMap itemsParam)) =
      self.decodeFrom (openWire asn hold rid
        ((params.map fun p => (knownOf p).map CapItem.known).flatMap itemsParam)) := by
  have ha : as2 asn < 65536 := by unfold as2; split <;> omega
  have h1 := decode_openWire self asn hold rid ha params hw hl
  refine ⟨h1, ?_⟩
  have hk : ∀ p : List CapItem, (∀ i ∈ p, i.WF) →
      (∀ i ∈ (knownOf p).map CapItem.known, i.WF) ∧
      (((knownOf p).map CapItem.known).flatMap CapItem.wire).length ≤ (p.flatMap CapItem.wire).length ∧
      knownOf ((knownOf p).map CapItem.known) = knownOf p := by
    intro p hp
    induction p with
    | nil => simp [knownOf]
    | cons i is ih =>
      have ih := ih (fun i hi => hp i (by simp [hi]))
      have hi := hp i (by simp)
      cases i with
      | known c =>
        refine ⟨?_, ?_, ?_⟩
        · simp only [knownOf, List.map_cons, List.mem_cons]
          rintro j (rfl | hj)
          · exact hi
          · exact ih.1 j hj
        · simp only [knownOf, List.map_cons, List.flatMap_cons, List.length_append]
          have := ih.2.1
          omega
        · simp only [knownOf, List.map_cons]
          rw [ih.2.2]
      | unknown code d =>
        refine ⟨ih.1, ?_, ih.2.2⟩
        simp only [knownOf, List.flatMap_cons, List.length_append]
        have := ih.2.1
        omega
  rw [h1, decode_openWire self asn hold rid ha]
  · congr 2
    rw [List.flatMap_map]
    clear h1 hl
    induction params with
    | nil => rfl
    | cons p ps ih =>
      simp only [List.flatMap_cons]
      rw [(hk p (hw p (by simp))).2.2, ih (fun q hq => hw q (by simp [hq]))]
  · intro p hp
    simp only [List.mem_map] at hp
    obtain ⟨q, hq, rfl⟩ := hp
    exact (hk q (hw q hq)).1
  · intro p hp
    simp only [List.mem_map] at hp
    obtain ⟨q, hq, rfl⟩ := hp
    have := (hk q (hw q hq)).2.1
    have := hl q hq
    omega

/-- non-vacuity of C07 -/
example : ∀ p ∈ [[CapItem.known .CapRR, .unknown 5 [1, 2, 3], .known .SafiIPv6u], [.unknown 128 []]],
    ∀ i ∈ p, i.WF := by
  intro p hp i hi
  simp only [List.mem_cons, List.not_mem_nil, or_false] at hp
  rcases hp with rfl | rfl <;> simp only [List.mem_cons, List.not_mem_nil, or_false] at hi
  · rcases hi with rfl | rfl | rfl
    · exact ⟨trivial, by decide⟩
    · exact ⟨by decide, by decide, by decide⟩
    · exact ⟨trivial, by decide⟩
  · subst hi; exact ⟨by decide, by decide, by decide⟩

/-! ## C08 -/

/-- **C08, what holds.** Every capability other than FQDN whose value fits its fields is written (into the slice of
`bytes_len()` octets the OPEN encoder hands out) as the RFC TLV, and reading that TLV, whatever follows it, returns the
same capability and consumes exactly the octets written. Missing for the full property: FQDN, see
`C08_fqdn_does_not_round_trip`. -/
theorem C08_capability_round_trip_partial (c : BgpCapability) (hc : CapEncodable c) (b : Bytes)
    (hb : b.length = c.bytesLen) (rest : Bytes) :
    ∃ w, c.fillBuffer b = .ok w ∧ w = capTlv c ∧ w.length = c.bytesLen ∧
      BgpCapability.fromBuffer (w ++ rest) = .ok (.inl c, w.length) :=
  ⟨capTlv c, fillBuffer_ok c hc b hb, rfl, capTlv_length c (encodable_notFQDN hc), fromBuffer_cap c hc rest⟩

/-- non-vacuity of C08 -/
example : CapEncodable (.CapLLGR [⟨1, 128, 128, 0xffffff⟩, ⟨25, 70, 0, 1⟩]) ∧
    CapEncodable (.CapAddPath (List.replicate 60 ⟨1, 1, true, true⟩)) := by
  refine ⟨⟨by simp, by decide⟩, ⟨trivial, ?_⟩⟩
  rw [capTlv_length _ (by simp)]
  simp [BgpCapability.bytesLen]

/-- **C08 is violated** by the FQDN capability: the octets written for host "a", domain "b" are not read back. -/
theorem C08_fqdn_does_not_round_trip :
    ¬ ∀ (h d : Bytes) (b : Bytes), Utf8 h → Utf8 d →
        b.length = (BgpCapability.CapFQDN h d).bytesLen → h.length + d.length ≤ 200 →
        ∃ w, (BgpCapability.CapFQDN h d).fillBuffer b = .ok w ∧
          BgpCapability.fromBuffer w = .ok (.inl (.CapFQDN h d), w.length) := by
  intro hall
  obtain ⟨w, h1, h2⟩ := hall [97] [98] (List.replicate 6 0) (by decide) (by decide) (by decide) (by decide)
  have e : (BgpCapability.CapFQDN [97] [98]).fillBuffer (List.replicate 6 0) =
      .ok [73, 97, 1, 98, 0, 0] := by decide
  rw [e] at h1
  simp only [Res.ok.injEq] at h1
  subst h1
  revert h2
  decide

/-! ## C09 -/

/-- **C09, what holds.** If the parameters take at most 255 octets, the length octet (octet 9 of the OPEN body) is
the number of octets after it. Missing for the full property: longer parameter lists, which are written with the length
modulo 256 instead of failing, see `C09_open_length_wraps`. -/
theorem C09_open_length_partial (m : BgpOpenMessage) (hc : ∀ c ∈ m.caps, CapEncodable c) (buf : Bytes)
    (hp : (capsParams m.caps).length ≤ 255) (buf' : Bytes) (n : Nat)
    (hb : 10 + (capsParams m.caps).length ≤ buf.length)
    (h : m.encodeTo buf = .ok (buf', n)) :
    ∃ l : U8, buf'[9]? = some l ∧ n = 10 + l.toNat ∧ n = 10 + (capsParams m.caps).length := by
  have hlen := openWire_length m.asNum.toNat m.holdTime.toNat m.routerId.toNat (capsParams m.caps)
  rw [writes_open m hc buf (by omega)] at h
  simp only [Res.ok.injEq, Prod.mk.injEq] at h
  obtain ⟨rfl, rfl⟩ := h
  refine ⟨BitVec.ofNat 8 (capsParams m.caps).length, ?_, ?_, hlen⟩
  · rw [List.getElem?_append_left (by omega)]
    simp [openWire, be]
  · rw [hlen]
    simp
    omega

/-- non-vacuity of C09 -/
example : (capsParams [.SafiIPv4u, .CapASN32 65000]).length ≤ 255 := by decide

/-- **C09 is violated.** An OPEN with 32 capabilities of 8 octets each is encoded successfully with 256 octets of
parameters and a length octet of 0. -/
theorem C09_open_length_wraps (buf : Bytes) (hb : 266 ≤ buf.length) :
    ∃ buf', (⟨1, 180, 1, List.replicate 32 .SafiIPv4u⟩ : BgpOpenMessage).encodeTo buf = .ok (buf', 266) ∧
      buf'[9]? = some 0 := by
  have hc : ∀ c ∈ (⟨1, 180, 1, List.replicate 32 .SafiIPv4u⟩ : BgpOpenMessage).caps, CapEncodable c := by
    intro c hc
    have := List.eq_of_mem_replicate hc
    subst this
    exact ⟨trivial, by decide⟩
  have hp : (capsParams (List.replicate 32 .SafiIPv4u)).length = 256 := by
    have := capsParams_length _ hc 0
    simpa [BgpCapability.bytesLen] using this.symm
  have hw := writes_open _ hc buf (by rw [openWire_length]; simp only [hp]; omega)
  have hl := openWire_length 1 180 1 (capsParams (List.replicate 32 .SafiIPv4u))
  simp only [openWire_length, hp] at hw
  refine ⟨_, hw, ?_⟩
  rw [List.getElem?_append_left (by rw [openWire_length]; omega)]
  simp only [openWire, be, List.nil_append, List.cons_append, List.getElem?_cons_succ,
    List.getElem?_cons_zero]
  rw [hp]
  rfl

/-! ## C10 -/

/-- **C10.** A NOTIFICATION is written as code, subcode and two octets of data, leaving the rest of the buffer alone,
and is read back (into any object) unchanged. -/
theorem C10_notification_round_trip (m self : BgpNotificationMessage) (buf : Bytes) (hb : 4 ≤ buf.length) :
    m.encodeTo buf =
      .ok (notificationWire m.errorCode.toNat m.errorSubcode.toNat m.data.toNat ++ buf.drop 4, 4) ∧
    self.decodeFrom (notificationWire m.errorCode.toNat m.errorSubcode.toNat m.data.toNat) = .ok m ∧
    ∀ rest, self.decodeFrom
      (notificationWire m.errorCode.toNat m.errorSubcode.toNat m.data.toNat ++ rest) = .ok m := by
  have key : ∀ rest, self.decodeFrom
      (notificationWire m.errorCode.toNat m.errorSubcode.toNat m.data.toNat ++ rest) = .ok m := by
    intro rest
    have hd : ((BitVec.ofNat 8 (m.data.toNat / 256)).setWidth 16 <<< 8 |||
        (BitVec.ofNat 8 m.data.toNat).setWidth 16 : U16) = m.data := by
      have h := getn16_be m.data.toNat []
      simp only [be, List.append_nil, getn16, idx_cons_zero,
        idx_cons_succ, Res.ok_bind, Res.ok.injEq] at h
      simpa using h
    simp only [notificationWire, be, List.nil_append, List.cons_append]
    unfold BgpNotificationMessage.decodeFrom
    simp only [List.length_cons]
    rw [if_neg (by omega)]
    simp only [idx_cons_zero, idx_cons_succ, Res.ok_bind]
    rw [if_neg (by omega), if_pos (by omega)]
    simp only [Nat.pow_zero, Nat.div_one, Nat.pow_one, hd]
    simp
  refine ⟨?_, ?_, key⟩
  · rcases buf with _ | ⟨b0, _ | ⟨b1, _ | ⟨b2, _ | ⟨b3, t⟩⟩⟩⟩ <;> simp at hb
    unfold BgpNotificationMessage.encodeTo
    simp only [List.length_cons]
    rw [if_neg (by omega)]
    simp only [setIdx_cons_zero, setIdx_cons_succ, Res.ok_bind]
    rw [ofNat8_eq', ofNat8_eq0 _ (by decide)]
    simp [notificationWire, be]
  · have := key []
    simpa using this

/-- **C10.** Decoding a NOTIFICATION never panics and buffers below two octets are rejected; encoding into less than four
octets is an error. -/
theorem C10_notification_total (m self : BgpNotificationMessage) (buf : Bytes) :
    (self.decodeFrom buf).Returns ∧ (buf.length < 2 → (self.decodeFrom buf).IsErr) ∧
    (buf.length < 4 → (m.encodeTo buf).IsErr) := by
  refine ⟨?_, ?_, ?_⟩
  · rcases buf with _ | ⟨b0, _ | ⟨b1, _ | ⟨b2, _ | ⟨b3, t⟩⟩⟩⟩ <;>
      simp [BgpNotificationMessage.decodeFrom]
    rw [if_neg (by omega)]
    simp
  · intro h; simp [BgpNotificationMessage.decodeFrom, h]
  · intro h; simp [BgpNotificationMessage.encodeTo, h]

/-- C10: a concrete round trip -/
example : (⟨0, 0, 7⟩ : BgpNotificationMessage).decodeFrom [6, 2, 1, 44] = .ok ⟨6, 2, 300⟩ := by decide

/-! ## C11 (OPEN and NOTIFICATION; for UPDATE see `Verif.Props.Update`) -/

/-- **C11** for OPEN: the result does not depend on the previous contents of the object. -/
theorem C11_open_history_free (s1 s2 : BgpOpenMessage) (buf : Bytes) :
    s1.decodeFrom buf = s2.decodeFrom buf := by
  unfold BgpOpenMessage.decodeFrom
  rfl

/-- non-vacuity of C11: two different objects -/
example : BgpOpenMessage.new ≠ ⟨1, 2, 3, [.CapRR]⟩ := by decide

/-- **C11** for NOTIFICATION, what holds: the result does not depend on the object unless the body has exactly two octets.
Missing for the full property: two-octet bodies, see `C11_notification_keeps_old_data`. -/
theorem C11_notification_history_free_partial (s1 s2 : BgpNotificationMessage) (buf : Bytes)
    (h : buf.length ≠ 2) : s1.decodeFrom buf = s2.decodeFrom buf := by
  rcases buf with _ | ⟨b0, _ | ⟨b1, _ | ⟨b2, _ | ⟨b3, t⟩⟩⟩⟩ <;>
    simp [BgpNotificationMessage.decodeFrom] at h ⊢

/-- **C11 is violated** by NOTIFICATION bodies of two octets (the RFC minimum): the data of the previous message
stays. -/
theorem C11_notification_keeps_old_data :
    ¬ ∀ (s1 s2 : BgpNotificationMessage) (buf : Bytes), s1.decodeFrom buf = s2.decodeFrom buf := by
  intro h
  have := h ⟨0, 0, 0⟩ ⟨0, 0, 1⟩ [6, 2]
  revert this
  decide

end Zbgp.Props
