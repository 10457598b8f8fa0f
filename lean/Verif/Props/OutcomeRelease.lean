import Verif.Props.OutcomeMsg

/-!
# C118: the outcome of encoding and sending without overflow checks, for every value
-/

namespace Zbgp.Props

open Spec BgpSessionParams

/-- **C118**, collections: built without overflow checks, every collection of NLRI, of whatever contents, has the outcome
`nlriFate .release` says. -/
theorem C118_nlri (p : BgpSessionParams) (x : BgpAddrs) : Ends (x.encodeToIn .release p) (nlriFate .release x) :=
  ends_nlri .release x p

/-- a length of 32 is sent, 33 and 248 panic, 249 is sent without any octet of the address -/
example : nlriFate .release (.IPV4U [⟨0x0a000001, 32⟩, ⟨0x0a000001, 33⟩]) = .crash ∧
    nlriFate .release (.IPV4U [⟨0x0a000001, 248⟩]) = .crash ∧
    nlriFate .release (.IPV4U [⟨0x0a000001, 249⟩, ⟨0x0a800000, 9⟩]) = .octets [249, 9, 10, 128] ∧
    nlriFate .checked (.IPV4U [⟨0x0a000001, 249⟩, ⟨0x0a800000, 9⟩]) = .crash := ⟨rfl, rfl, rfl, rfl⟩
/-- MDT for an IPv6 prefix of 128 bits: the length octet of 64 + 128 + 128 bits is sent as 64 -/
example : nlriFate .release (.IPV6MDT [⟨⟨⟨1, 128⟩, 2⟩, ⟨0, 0⟩⟩]) = .octets (64 :: be 8 0 ++ be 16 1 ++ be 16 2) ∧
    nlriFate .checked (.IPV6MDT [⟨⟨⟨1, 128⟩, 2⟩, ⟨0, 0⟩⟩]) = .crash := ⟨rfl, rfl⟩

/-- **C118**, attributes. -/
theorem C118_attribute (p : BgpSessionParams) (x : BgpAttrItem) : Ends (x.encodeToIn .release p) (attrFate .release p x) :=
  ends_attr .release p x

/-- the tunnel attribute panics all the same -/
example : attrFate .release (.new 1 180 .IPv4 0 []) (.PMSITunnel ⟨0, 0, ⟨[]⟩, .None⟩) = .crash ∧
    attrFate .release (.new 1 180 .IPv4 0 []) (.NextHop ⟨.v6 1⟩) = .refused := ⟨rfl, rfl⟩

/-- **C118**, messages: every UPDATE, of whatever contents, in every session. -/
theorem C118_update (p : BgpSessionParams) (x : BgpUpdateMessage) : Ends (x.encodeToIn .release p) (updateFate .release p x) :=
  ends_update .release p x

example : updateFate .release (.new 1 180 .IPv4 0 []) ⟨.IPV4U [⟨0, 250⟩], .IPV4U [⟨0, 0⟩], [.Origin ⟨.Igp⟩]⟩ =
    .octets [0, 1, 0, 0, 4, 64, 1, 1, 0, 250] := rfl

/-- **C118**, BMP messages. -/
theorem C118_bmp (x : BmpMessage) : Ends (x.encodeToIn .release) (bmpFate .release x) := ends_bmp .release x

example : bmpFate .release .RouteMirroring = .crash ∧
    bmpFate .release (.Initiation ⟨none, some [97], none⟩) = .octets [4, 0, 0, 0, 1, 97] := ⟨rfl, rfl⟩

/-- **C118**, messages with their header: whatever the outcome of the body, that of the message is `messageFate .release` of it. -/
theorem C118_message (ty : BgpMessageType) (enc : Enc) (fate : Fate) (h : Ends enc fate) :
    Ends (fun buf => do
      let (buf, n) ← onFrom buf 19 enc
      prepareMessageBufIn .release buf ty n) (messageFate .release ty fate) := by
  refine ends_nonempty (ends_message .release ty h) fun buf _ => ?_
  unfold encodeEmbeddedIn
  rw [Nat.zero_add]
  cases onFrom buf 19 enc with
  | ok r =>
    simp only [Res.ok_bind]
    have := onFrom_append [] r.1 0 (fun b => prepareMessageBufIn .release b ty r.2) rfl
    simp only [List.nil_append] at this
    rw [this]
    cases prepareMessageBufIn .release r.1 ty r.2 <;> simp
  | _ => rfl

example : messageFate .release .Keepalive (.octets []) = .octets (List.replicate 16 255 ++ [0, 19, 4]) := rfl

/-- **C118**, sending: the octets written to the connection are those of `messageFate .release`. -/
theorem C118_send (ty : BgpMessageType) (enc : Enc) (fate : Fate) (h : Ends enc fate) :
    Transmits (fun buf => do
      let (buf, n) ← onFrom buf 19 enc
      let (_, out) ← sendMessageBufIn .release buf ty n
      .ok out) (messageFate .release ty fate) := by
  obtain ⟨room, h⟩ := ends_case (C118_message ty enc fate h)
  refine ⟨room, fun buf hb => ?_⟩
  have h := h buf hb
  have hp : ∀ r : Res Bytes, (r >>= fun o => .ok o) = r := fun r => by cases r <;> rfl
  have e : (do
      let (buf, n) ← onFrom buf 19 enc
      let (_, out) ← sendMessageBufIn .release buf ty n
      .ok out : Res Bytes) = ((do
      let (buf, n) ← onFrom buf 19 enc
      prepareMessageBufIn .release buf ty n) >>= fun r => rslice r.1 0 r.2) := by
    cases onFrom buf 19 enc with
    | ok r =>
      simp only [Res.ok_bind]
      unfold sendMessageBufIn prepareMessageBufIn
      split
      · rfl
      · simp only [bind_assoc, Res.ok_bind, hp]
    | _ => rfl
  simp only [e]
  cases hf : messageFate .release ty fate with
  | sent pat =>
    rw [hf] at h
    obtain ⟨w, rest, f1, e1, -⟩ := h
    refine ⟨w, f1, ?_⟩
    rw [e1]
    simp only [Res.ok_bind, List.nil_append, List.length_nil, Nat.zero_add]
    exact rslice_append_zero _ _ _ rfl
  | refused => rw [hf] at h; exact err_bind h
  | crash =>
    rw [hf] at h
    simp only [EndCase] at h
    rw [h]; rfl

example : (do
      let (buf, n) ← onFrom (List.replicate 30 9) 19 (BgpNotificationMessage.encodeTo ⟨6, 2, 0x0102⟩)
      let (_, out) ← sendMessageBufIn .release buf .Notification n
      .ok out : Res Bytes) = .ok (List.replicate 16 255 ++ [0, 23, 3, 6, 2, 1, 2]) := rfl

/-! ## How the two builds compare -/

/-- **C118**: whatever is encoded, if a build with overflow checks does not panic, the outcome without them is the same. -/
theorem C118_same_without_panic (p : BgpSessionParams) :
    (∀ x, nlriFate .checked x ≠ .crash → (nlriFate .release x).Agree (nlriFate .checked x)) ∧
    (∀ x, attrFate .checked p x ≠ .crash → (attrFate .release p x).Agree (attrFate .checked p x)) ∧
    (∀ x, updateFate .checked p x ≠ .crash → (updateFate .release p x).Agree (updateFate .checked p x)) ∧
    (∀ x, bmpFate .checked x ≠ .crash → (bmpFate .release x).Agree (bmpFate .checked x)) :=
  ⟨fun x h => C116_one_outcome _ _ _ (C118_nlri p x) (ends_bsim (C116_nlri p x) h (bsim_addrsEnc x p)),
    fun x h => C116_one_outcome _ _ _ (C118_attribute p x) (ends_bsim (C116_attribute p x) h (bsim_attrEnc x p)),
    fun x h => C116_one_outcome _ _ _ (C118_update p x) (ends_bsim (C116_update p x) h (bsim_updEnc x p)),
    fun x h => C116_one_outcome _ _ _ (C118_bmp x) (ends_bsim (C117_bmp x) h (bsim_bmpEnc x))⟩

example : updateFate .checked session32 update4 ≠ .crash := by
  have : updateFate .checked session32 update4 = .octets (updateWire session32 update4) := rfl
  rw [this]; intro h; cases h

/-- **C118**: sending never panics by itself without overflow checks. -/
theorem C118_send_panics_with_the_body (ty : BgpMessageType) (fate : Fate) :
    messageFate .release ty fate = .crash ↔ fate = .crash := by
  cases fate with
  | sent w => exact ⟨fun h => (by cases h), fun h => (by cases h)⟩
  | refused => exact ⟨fun h => (by cases h), fun h => (by cases h)⟩
  | crash => exact ⟨fun _ => rfl, fun _ => rfl⟩

private theorem all_crash {α : Type} {fate : α → Fate} (h : ∀ x, fate x ≠ .refused) (l : List α) :
    Fate.all fate l = .crash ↔ ∃ x ∈ l, fate x = .crash := by
  have hr : ∀ l : List α, Fate.all fate l ≠ .refused := by
    intro l
    induction l with
    | nil => intro h; cases h
    | cons x l ih =>
      rw [Fate.all]
      cases hx : fate x with
      | sent w => cases hl : Fate.all fate l <;> simp_all [Fate.andThen]
      | refused => exact absurd hx (h x)
      | crash => intro h; cases h
  induction l with
  | nil => simp [Fate.all]
  | cons x l ih =>
    rw [Fate.all]
    cases hx : fate x with
    | sent w =>
      cases hl : Fate.all fate l with
      | sent v => rw [hl] at ih; simp only [Fate.andThen, List.mem_cons, exists_eq_or_imp, hx, ← ih]; simp
      | refused => exact absurd hl (hr l)
      | crash => rw [hl] at ih; simp only [Fate.andThen, List.mem_cons, exists_eq_or_imp, ← ih]; simp
    | refused => exact absurd hx (h x)
    | crash => simp [Fate.andThen, hx]

/-- **C118**: exactly which lists of unicast prefixes make a build without overflow checks panic: those with a length from 33 to
248 for IPv4, from 129 to 248 for IPv6. -/
theorem C118_unicast_panics_exactly (v : List BgpAddrV4) (w : List BgpAddrV6) :
    (nlriFate .release (.IPV4U v) = .crash ↔ ∃ x ∈ v, 32 < x.prefixlen.toNat ∧ x.prefixlen.toNat < 249) ∧
    (nlriFate .release (.IPV6U w) = .crash ↔ ∃ x ∈ w, 128 < x.prefixlen.toNat ∧ x.prefixlen.toNat < 249) := by
  constructor
  · have h : ∀ x : BgpAddrV4, prefixFate .release x ≠ .refused := by
      intro x
      unfold prefixFate
      split <;> (intro h; cases h)
    simp only [nlriFate]
    rw [all_crash h]
    refine exists_congr fun x => and_congr_right fun _ => ?_
    simp only [prefixFate, prefixForm, UncheckedForm.form, uncheckedOctets]
    by_cases h1 : x.prefixlen.toNat ≤ 32
    · rw [if_pos (by omega)]
      exact ⟨fun h => (by cases h), fun h => by omega⟩
    · rw [if_neg (by omega)]
      by_cases h2 : 249 ≤ x.prefixlen.toNat
      · rw [if_pos h2]
        exact ⟨fun h => (by cases h), fun h => by omega⟩
      · rw [if_neg h2]
        exact ⟨fun _ => by omega, fun _ => rfl⟩
  · have h : ∀ x : BgpAddrV6, prefixFate .release x ≠ .refused := by
      intro x
      unfold prefixFate
      split <;> (intro h; cases h)
    simp only [nlriFate]
    rw [all_crash h]
    refine exists_congr fun x => and_congr_right fun _ => ?_
    simp only [prefixFate, prefixForm, UncheckedForm.form, uncheckedOctets]
    by_cases h1 : x.prefixlen.toNat ≤ 128
    · rw [if_pos (by omega)]
      exact ⟨fun h => (by cases h), fun h => by omega⟩
    · rw [if_neg (by omega)]
      by_cases h2 : 249 ≤ x.prefixlen.toNat
      · rw [if_pos h2]
        exact ⟨fun h => (by cases h), fun h => by omega⟩
      · rw [if_neg h2]
        exact ⟨fun _ => by omega, fun _ => rfl⟩

example : nlriFate .release (.IPV6U [⟨1, 128⟩, ⟨1, 255⟩]) ≠ .crash ∧ nlriFate .release (.IPV6U [⟨1, 129⟩]) = .crash :=
  ⟨by decide, rfl⟩

/-- **C118**: a unicast prefix with a length of 249 or more, which a build with overflow checks does not send, is sent as the
length octet alone; a reader that gets it panics if built with overflow checks, and reports an error if not. -/
theorem C118_oversized_prefix_sent (p : BgpSessionParams) (x : BgpAddrV4) (y : BgpAddrV6) (hx : 249 ≤ x.prefixlen.toNat)
    (hy : 249 ≤ y.prefixlen.toNat) :
    Ends (BgpAddrs.encodeToIn .release (.IPV4U [x]) p) (.octets [x.prefixlen]) ∧
    Ends (BgpAddrs.encodeToIn .release (.IPV6U [y]) p) (.octets [y.prefixlen]) ∧
    Ends (BgpAddrs.encodeTo (.IPV4U [x]) p) .crash ∧ Ends (BgpAddrs.encodeTo (.IPV6U [y]) p) .crash ∧
    decodeItems (T := BgpAddrV4) [x.prefixlen] = .panic ∧ decodeItems (T := BgpAddrV6) [y.prefixlen] = .panic ∧
    (@decodeItems BgpAddrV4 (itemIn _ .release) [x.prefixlen]).IsErr ∧
    (@decodeItems BgpAddrV6 (itemIn _ .release) [y.prefixlen]).IsErr := by
  have e4 : nlriFate .release (.IPV4U [x]) = .octets [x.prefixlen] := by
    simp only [nlriFate, Fate.all, prefixFate, prefixForm, UncheckedForm.form, uncheckedOctets]
    rw [if_neg (by omega), if_pos hx]
    simp [Fate.andThen, Fate.octets]
  have e6 : nlriFate .release (.IPV6U [y]) = .octets [y.prefixlen] := by
    simp only [nlriFate, Fate.all, prefixFate, prefixForm, UncheckedForm.form, uncheckedOctets]
    rw [if_neg (by omega), if_pos hy]
    simp [Fate.andThen, Fate.octets]
  have c4 : nlriFate .checked (.IPV4U [x]) = .crash := by
    simp only [nlriFate, Fate.all, prefixFate, prefixForm, LengthOctet.octet]
    rw [if_neg (by omega)]; rfl
  have c6 : nlriFate .checked (.IPV6U [y]) = .crash := by
    simp only [nlriFate, Fate.all, prefixFate, prefixForm, LengthOctet.octet]
    rw [if_neg (by omega)]; rfl
  have a4 : addC x.prefixlen 7 = .panic := addC_panic (by simp; omega)
  have a6 : addC y.prefixlen 7 = .panic := addC_panic (by simp; omega)
  refine ⟨e4 ▸ C118_nlri p _, e6 ▸ C118_nlri p _, c4 ▸ C116_nlri p _, c6 ▸ C116_nlri p _, ?_, ?_, ?_, ?_⟩
  · have : decodeItem (T := BgpAddrV4) [x.prefixlen] = .panic := by
      rw [decodeItem_cons]
      simp only [BgpItem.extractBits, BgpAddrV4.fromBits]
      rw [a4]; rfl
    simp [decodeItems, decList, decLoop, this]
  · have : decodeItem (T := BgpAddrV6) [y.prefixlen] = .panic := by
      rw [decodeItem_cons]
      simp only [BgpItem.extractBits, BgpAddrV6.fromBits]
      rw [a6]; rfl
    simp [decodeItems, decList, decLoop, this]
  · have he : @decodeItem BgpAddrV4 (itemIn _ .release) [x.prefixlen] = .err .dynStr := by
      rw [@decodeItem_cons BgpAddrV4 (itemIn _ .release)]
      show (BgpAddrV4.fromBitsIn .release x.prefixlen [] >>= _) = _
      simp only [BgpAddrV4.fromBitsIn, Build.add, Res.ok_bind]
      rw [if_pos (Or.inl (by omega))]; rfl
    simp [decodeItems, decList, decLoop, he, Res.IsErr]
  · have he : @decodeItem BgpAddrV6 (itemIn _ .release) [y.prefixlen] = .err .dynStr := by
      rw [@decodeItem_cons BgpAddrV6 (itemIn _ .release)]
      show (BgpAddrV6.fromBitsIn .release y.prefixlen [] >>= _) = _
      simp only [BgpAddrV6.fromBitsIn, Build.add, Res.ok_bind]
      rw [if_pos (Or.inl (by omega))]; rfl
    simp [decodeItems, decList, decLoop, he, Res.IsErr]

example : (249 : Nat) ≤ (BgpAddrV4.mk 0x0a000001 250).prefixlen.toNat ∧ (249 : Nat) ≤ (BgpAddrV6.mk 1 255).prefixlen.toNat := by
  decide

/-- **C118**: a FlowSpec destination or source of 249 bits or more counts 32 octets that are not written: what is in the buffer
at their place goes out with the message. -/
theorem C118_flowspec_sends_buffer_contents (p : BgpSessionParams) (x : BgpAddrV4) (hx : 249 ≤ x.prefixlen.toNat) :
    Ends (BgpAddrs.encodeToIn .release (.FS4U [.prefixDst x]) p)
      (.sent ([34, 1, x.prefixlen].map some ++ List.replicate 32 none)) := by
  have h := C118_nlri p (.FS4U [.prefixDst x])
  have ho : octets x.prefixlen.toNat = 32 := by
    have := x.prefixlen.isLt
    unfold octets
    omega
  have e : nlriFate .release (.FS4U [.prefixDst x]) = .sent ([34, 1, x.prefixlen].map some ++ List.replicate 32 none) := by
    simp only [nlriFate, Fate.all, fsFate, fsPrefixFate, FsUnchecked.written, FsUnchecked.given, uncheckedOctets, ho]
    rw [if_neg (by omega), if_pos hx]
    rfl
  exact e ▸ h

example : BgpAddrs.encodeToIn .release (.FS4U [.prefixDst ⟨0x0a000001, 250⟩]) (.new 1 180 .IPv4 0 []) (List.replicate 36 9) =
    .ok ([34, 1, 250] ++ List.replicate 33 9, 35) := rfl

/-- **C118**: a body whose length leaves 65517 or more over a multiple of 65536, which a build with overflow checks refuses to
send by panicking, goes out as the first octets of the marker alone, fewer than 19 of them. -/
theorem C118_long_body (ty : BgpMessageType) (enc : Enc) (w : Bytes) (k n : Nat) (h : Ends enc (.octets w))
    (hw : w.length = 65536 * k + n) (hn : 65517 ≤ n) (hn' : n < 65536) :
    Transmits (fun buf => do
      let (buf, n) ← onFrom buf 19 enc
      let (_, out) ← sendMessageBufIn .release buf ty n
      .ok out) (.octets ((header ty w.length).take (n - 65517))) := by
  have := C118_send ty enc _ h
  have e : messageFate .release ty (.octets w) = .octets ((header ty w.length).take (n - 65517)) := by
    have hm : (w.length + 19) % 65536 = n - 65517 := by omega
    unfold Fate.octets messageFate
    simp only [List.length_map, hm]
    have hl : (header ty w.length).length = 19 := by simp [header]
    rw [List.take_append_of_le_length (by rw [List.length_map, hl]; omega), List.map_take]
  rw [e] at this
  exact this

/-- a body of 65517 octets: nothing at all is sent -/
example : Ends (fun b => copyAt b 0 65517 (List.replicate 65517 7) >>= fun r => .ok (r, 65517)) (.octets (List.replicate 65517 7)) ∧
    (List.replicate 65517 (7 : U8)).length = 65536 * 0 + 65517 ∧
    (header .Update (List.replicate 65517 (7 : U8)).length).take (65517 - 65517) = [] := by
  refine ⟨ends_writes fun buf hb => ?_, by rw [List.length_replicate], rfl⟩
  rw [List.length_replicate] at hb
  have := cur_copyAt [] buf (List.replicate 65517 7) 0 65517 rfl (by rw [List.length_replicate]; rfl)
    (by rw [List.length_replicate]; exact hb)
  simp only [List.nil_append] at this
  rw [this, List.length_replicate]; rfl

end Zbgp.Props
