import Verif.Lemmas.Mac
import Verif.Lemmas.Mdt

/-! # C12-C16, C21-C24: NLRI codecs -/

namespace Zbgp.Props

open Zbgp Spec

attribute [-simp] List.length_flatMap

/-! ## Generic round trips -/

theorem writes_items {T : Type} [BgpItem T] [NlriKind T] [NlriLawful T] (l : List T)
    (h : ∀ x ∈ l, NlriKind.WF x) : Writes (encodeItems l) (l.flatMap nlriWire) :=
  encLoop_writes_zero l fun x hx => encodeItem_writes (NlriLawful.writes x (h x hx))

theorem reads_items {T : Type} [BgpItem T] [NlriKind T] [NlriLawful T] (l : List T)
    (h : ∀ x ∈ l, NlriKind.WF x) :
    decodeItems (T := T) (l.flatMap nlriWire) = .ok (l.map NlriKind.received, (l.flatMap nlriWire).length) :=
  decList_reads' l fun x hx => ⟨by simp [nlriWire], decodeItem_reads (NlriLawful.reads x (h x hx))⟩

theorem nlri_round_trip {T : Type} [BgpItem T] [NlriKind T] [NlriLawful T] (l : List T)
    (h : ∀ x ∈ l, NlriKind.WF x) (buf : Bytes) (hb : (l.flatMap nlriWire).length ≤ buf.length) :
    ∃ buf' n, encodeItems l buf = .ok (buf', n) ∧ buf'.take n = l.flatMap nlriWire ∧
      buf'.drop n = buf.drop n ∧ buf'.length = buf.length ∧
      decodeItems (T := T) (buf'.take n) = .ok (l.map NlriKind.received, n) := by
  refine ⟨_, _, writes_items l h buf hb, ?_, ?_, ?_, ?_⟩
  · rw [List.take_left' rfl]
  · rw [List.drop_left' rfl]
  · simp; omega
  · rw [List.take_left' rfl, reads_items l h]

theorem keepOctets_of_dvd {n k a : Nat} (h : a % 256 ^ (n - k) = 0) : keepOctets n k a = a := by
  unfold keepOctets
  have := Nat.div_add_mod a (256 ^ (n - k))
  rw [h, Nat.mul_comm] at this
  omega

theorem networkForm_octets {n a p : Nat} (hp : p ≤ 8 * n) (h : NetworkForm (8 * n) a p) :
    a % 256 ^ (n - octets p) = 0 := by
  unfold NetworkForm at h
  have h1 : (256 : Nat) ^ (n - octets p) = 2 ^ (8 * (n - octets p)) := by
    rw [Nat.pow_mul]
  rw [h1]
  apply Nat.mod_eq_zero_of_dvd
  refine Nat.dvd_trans (Nat.pow_dvd_pow 2 ?_) (Nat.dvd_of_mod_eq_zero h)
  unfold octets; omega

theorem received_v4 {a : BgpAddrV4} (h : a.addr.toNat % 256 ^ (4 - octets a.prefixlen.toNat) = 0) :
    NlriKind.received a = a := by
  simp only [NlriKind.received, keepOctets_of_dvd h, ofNat_toNat32]

theorem received_v6 {a : BgpAddrV6} (h : a.addr.toNat % 256 ^ (16 - octets a.prefixlen.toNat) = 0) :
    NlriKind.received a = a := by
  simp only [NlriKind.received, keepOctets_of_dvd h, ofNat_toNat128]

/-! ## C12, C13 -/

/-- **C12.** Any list of IPv4 prefixes with lengths up to 32 is written, in any sufficient buffer, as length
octet and minimal octets per prefix, and reads back as the same list with the octets that are not sent cleared. -/
theorem C12_ipv4_nlri_round_trip (l : List BgpAddrV4) (h : ∀ a ∈ l, a.prefixlen.toNat ≤ 32) (buf : Bytes)
    (hb : (l.flatMap nlriWire).length ≤ buf.length) :
    ∃ buf' n, encodeItems l buf = .ok (buf', n) ∧
      buf'.take n = l.flatMap (fun a => a.prefixlen :: (be 4 a.addr.toNat).take ((a.prefixlen.toNat + 7) / 8)) ∧
      buf'.drop n = buf.drop n ∧ buf'.length = buf.length ∧
      decodeItems (buf'.take n) = .ok (l.map (fun a => { a with
        addr := BitVec.ofNat 32 (keepOctets 4 (octets a.prefixlen.toNat) a.addr.toNat) }), n) := by
  obtain ⟨b', n, h1, h2, h3, h4, h5⟩ := nlri_round_trip l h buf hb
  refine ⟨b', n, h1, ?_, h3, h4, h5⟩
  rw [h2]
  congr 1; funext a
  simp [nlriWire, NlriKind.bits, NlriKind.body, prefixBody, octets]

/-- **C12**, second half: prefixes in network form (no host bits) come back identical. -/
theorem C12_ipv4_network_form (l : List BgpAddrV4) (h : ∀ a ∈ l, a.prefixlen.toNat ≤ 32)
    (hn : ∀ a ∈ l, NetworkForm 32 a.addr.toNat a.prefixlen.toNat) (buf : Bytes)
    (hb : (l.flatMap nlriWire).length ≤ buf.length) :
    ∃ buf' n, encodeItems l buf = .ok (buf', n) ∧ decodeItems (buf'.take n) = .ok (l, n) := by
  obtain ⟨b', n, h1, h2, h3, h4, h5⟩ := nlri_round_trip l h buf hb
  refine ⟨b', n, h1, ?_⟩
  rw [h5]
  congr 2
  conv_rhs => rw [← List.map_id l]
  apply List.map_congr_left
  intro a ha
  exact received_v4 (networkForm_octets (n := 4) (h a ha) (hn a ha))

/-- non-vacuity of C12: a default route, a /9 with a host bit beyond it, and a host route -/
example : (∀ a ∈ [(⟨0, 0⟩ : BgpAddrV4), ⟨0x0a800000, 9⟩, ⟨0xc0a80101, 32⟩], a.prefixlen.toNat ≤ 32) ∧
    (∀ a ∈ [(⟨0, 0⟩ : BgpAddrV4), ⟨0x0a800000, 9⟩, ⟨0xc0a80101, 32⟩],
      NetworkForm 32 a.addr.toNat a.prefixlen.toNat) ∧
    [(⟨0, 0⟩ : BgpAddrV4), ⟨0x0a800000, 9⟩, ⟨0xc0a80101, 32⟩].flatMap nlriWire =
      [0, 9, 10, 128, 32, 192, 168, 1, 1] := by decide

/-- **C13.** Any list of IPv6 prefixes with lengths up to 128 is written as length octet and minimal octets per
prefix; it reads back with the octets that are not sent cleared, and hence unchanged for prefixes that have no bits
there. -/
theorem C13_ipv6_nlri_round_trip (l : List BgpAddrV6) (h : ∀ a ∈ l, a.prefixlen.toNat ≤ 128) (buf : Bytes)
    (hb : (l.flatMap nlriWire).length ≤ buf.length) :
    ∃ buf' n, encodeItems l buf = .ok (buf', n) ∧
      buf'.take n = l.flatMap (fun a => a.prefixlen :: (be 16 a.addr.toNat).take ((a.prefixlen.toNat + 7) / 8)) ∧
      buf'.drop n = buf.drop n ∧ buf'.length = buf.length ∧
      decodeItems (buf'.take n) = .ok (l.map (fun a => { a with
        addr := BitVec.ofNat 128 (keepOctets 16 (octets a.prefixlen.toNat) a.addr.toNat) }), n) ∧
      ((∀ a ∈ l, a.addr.toNat % 256 ^ (16 - octets a.prefixlen.toNat) = 0) →
        decodeItems (buf'.take n) = .ok (l, n)) := by
  obtain ⟨b', n, h1, h2, h3, h4, h5⟩ := nlri_round_trip l h buf hb
  refine ⟨b', n, h1, ?_, h3, h4, h5, ?_⟩
  · rw [h2]
    congr 1; funext a
    simp [nlriWire, NlriKind.bits, NlriKind.body, prefixBody, octets]
  · intro hz
    rw [h5]
    congr 2
    conv_rhs => rw [← List.map_id l]
    exact List.map_congr_left fun a ha => received_v6 (hz a ha)

/-- non-vacuity of C13 -/
example : (∀ a ∈ [(⟨0, 0⟩ : BgpAddrV6), ⟨0x2a020000000000000000000000000000, 15⟩, ⟨1, 128⟩],
      a.prefixlen.toNat ≤ 128) ∧
    (∀ a ∈ [(⟨0, 0⟩ : BgpAddrV6), ⟨0x2a020000000000000000000000000000, 15⟩, ⟨1, 128⟩],
      a.addr.toNat % 256 ^ (16 - octets a.prefixlen.toNat) = 0) := by decide

/-! ## C14 -/

/-- **C14 (partial).** Decoding IPv4 unicast NLRI from any bytes returns Ok or Err, unless the bytes up to some item
boundary decode and the length octet of the item there is 249 or more. What is missing: for such an octet the
byte count `bits + 7` overflows `u8`, which panics when overflow checks are on (`C14_length_249_panics`). -/
theorem C14_ipv4_total_partial (buf : Bytes)
    (h : ∀ k xs b, decodeItems (T := BgpAddrV4) (buf.take k) = .ok (xs, k) → buf[k]? = some b → b.toNat ≤ 248) :
    (decodeItems (T := BgpAddrV4) buf).Returns := by
  by_contra hc
  obtain ⟨k, xs, h1, h2, h3⟩ := decList_not_returns decodeItem_progress decodeItem_local buf hc
  have h4 := h k xs buf[k] h2 (List.getElem?_eq_getElem h1)
  rw [List.drop_eq_getElem_cons h1, decodeItem_cons] at h3
  exact h3 (Res.returns_bind (v4_returns _ _ h4) fun _ _ => trivial)

/-- **C14 (partial)** for IPv6. -/
theorem C14_ipv6_total_partial (buf : Bytes)
    (h : ∀ k xs b, decodeItems (T := BgpAddrV6) (buf.take k) = .ok (xs, k) → buf[k]? = some b → b.toNat ≤ 248) :
    (decodeItems (T := BgpAddrV6) buf).Returns := by
  by_contra hc
  obtain ⟨k, xs, h1, h2, h3⟩ := decList_not_returns decodeItem_progress decodeItem_local buf hc
  have h4 := h k xs buf[k] h2 (List.getElem?_eq_getElem h1)
  rw [List.drop_eq_getElem_cons h1, decodeItem_cons] at h3
  exact h3 (Res.returns_bind (v6_returns _ _ h4) fun _ _ => trivial)

/-- non-vacuity: every octet of these bytes is a possible length octet -/
example : ∀ k xs b, decodeItems (T := BgpAddrV4) (([24, 10, 0, 1, 200, 7] : Bytes).take k) = .ok (xs, k) →
    ([24, 10, 0, 1, 200, 7] : Bytes)[k]? = some b → b.toNat ≤ 248 := by
  intro k xs b _ h
  have := List.mem_of_getElem? h
  simp at this
  rcases this with rfl | rfl | rfl | rfl | rfl | rfl <;> decide

/-- The gap in C14: an NLRI field that starts with a length octet of 249 or more panics (overflow checks on). -/
theorem C14_length_249_panics (b : U8) (t : Bytes) (h : 249 ≤ b.toNat) :
    decodeItems (T := BgpAddrV4) (b :: t) = .panic ∧ decodeItems (T := BgpAddrV6) (b :: t) = .panic := by
  have e4 : decodeItem (T := BgpAddrV4) (b :: t) = .panic := by
    rw [decodeItem_cons]; simp only [BgpItem.extractBits]; rw [fromBitsV4_panic h]; rfl
  have e6 : decodeItem (T := BgpAddrV6) (b :: t) = .panic := by
    rw [decodeItem_cons]; simp only [BgpItem.extractBits]; rw [fromBitsV6_panic h]; rfl
  constructor
  · unfold decodeItems; rw [decList_step decodeItem_progress (by simp), e4]; rfl
  · unfold decodeItems; rw [decList_step decodeItem_progress (by simp), e6]; rfl

example : (249 : U8).toNat ≥ 249 := by decide

/-- **C14**, rejection: behind any bytes that decode, an item with a length beyond 32 (and below 249) or with fewer
octets than its length calls for makes the whole field an error. -/
theorem C14_ipv4_rejects (pre : Bytes) (xs : List BgpAddrV4) (h : decodeItems pre = .ok (xs, pre.length))
    (b : U8) (t : Bytes) (hb : b.toNat ≤ 248) (hbad : 32 < b.toNat ∨ t.length < (b.toNat + 7) / 8) :
    (decodeItems (T := BgpAddrV4) (pre ++ b :: t)).IsErr := by
  unfold decodeItems at *
  rw [decList_append decodeItem_progress decodeItem_local _ _ h,
    decList_step decodeItem_progress (by simp), decodeItem_cons]
  simp only [BgpItem.extractBits]
  rw [fromBitsV4_err hb hbad]
  trivial

/-- **C14**, rejection, for IPv6. -/
theorem C14_ipv6_rejects (pre : Bytes) (xs : List BgpAddrV6) (h : decodeItems pre = .ok (xs, pre.length))
    (b : U8) (t : Bytes) (hb : b.toNat ≤ 248) (hbad : 128 < b.toNat ∨ t.length < (b.toNat + 7) / 8) :
    (decodeItems (T := BgpAddrV6) (pre ++ b :: t)).IsErr := by
  unfold decodeItems at *
  rw [decList_append decodeItem_progress decodeItem_local _ _ h,
    decList_step decodeItem_progress (by simp), decodeItem_cons]
  simp only [BgpItem.extractBits]
  rw [fromBitsV6_err hb hbad]
  trivial

/-- non-vacuity: a /24 followed by a truncated /16 -/
example : decodeItems (T := BgpAddrV4) [24, 10, 0, 1] = .ok ([⟨0x0a000100, 24⟩], 4) ∧
    (decodeItems (T := BgpAddrV4) [24, 10, 0, 1, 16, 7]).IsErr := by decide

/-- **C14**, consumption: a successful decode of unicast NLRI consumes every byte. -/
theorem C14_consumes_all (buf : Bytes) :
    (∀ xs n, decodeItems (T := BgpAddrV4) buf = .ok (xs, n) → n = buf.length) ∧
    (∀ xs n, decodeItems (T := BgpAddrV6) buf = .ok (xs, n) → n = buf.length) :=
  ⟨fun _ _ h => decList_take decodeItem_progress (fun b x n hd => (decodeItem_local b x n hd).1) buf h,
   fun _ _ h => decList_take decodeItem_progress (fun b x n hd => (decodeItem_local b x n hd).1) buf h⟩

/-! ## C15 -/

/-- **C15**, encoding: for every kind of prefix NLRI, the encoding of a concatenation is the concatenation of the encodings. -/
theorem C15_encode_append {T : Type} [BgpItem T] [NlriKind T] (k : PrefixKind T) (l₁ l₂ : List T)
    (h₁ : ∀ x ∈ l₁, NlriKind.WF x) (h₂ : ∀ x ∈ l₂, NlriKind.WF x) (buf : Bytes)
    (hb : (l₁.flatMap nlriWire).length + (l₂.flatMap nlriWire).length ≤ buf.length) :
    ∃ b₁ n₁ b₂ n₂ b n, encodeItems l₁ buf = .ok (b₁, n₁) ∧ encodeItems l₂ buf = .ok (b₂, n₂) ∧
      encodeItems (l₁ ++ l₂) buf = .ok (b, n) ∧ b.take n = b₁.take n₁ ++ b₂.take n₂ := by
  have := k.lawful
  have h : ∀ x ∈ l₁ ++ l₂, NlriKind.WF x := by
    intro x hx; rcases List.mem_append.1 hx with hx | hx
    · exact h₁ x hx
    · exact h₂ x hx
  refine ⟨_, _, _, _, _, _, writes_items l₁ h₁ buf (by omega), writes_items l₂ h₂ buf (by omega),
    writes_items (l₁ ++ l₂) h buf (by simp; omega), ?_⟩
  rw [List.take_left' rfl, List.take_left' rfl, List.take_left' rfl, List.flatMap_append]

/-- **C15**, decoding: for every kind of prefix NLRI, decoding a concatenation of two byte strings that decode
yields the concatenation of the lists. -/
theorem C15_decode_append {T : Type} [BgpItem T] [NlriKind T] (k : PrefixKind T) (a b : Bytes) (xs ys : List T) (n m : Nat)
    (ha : decodeItems a = .ok (xs, n)) (hb : decodeItems b = .ok (ys, m)) :
    decodeItems (a ++ b) = .ok (xs ++ ys, n + m) := by
  have := k.isLocal
  unfold decodeItems at *
  have hn := decList_take decodeItem_progress (fun b x n hd => (decodeItem_local b x n hd).1) a ha
  subst hn
  rw [decList_append decodeItem_progress decodeItem_local _ _ ha, hb]
  rfl

/-- the kinds of the prefix families; lists that are written, and bytes that are read -/
example : PrefixKind (Labeled BgpAddrV6) ∧ PrefixKind (Labeled (WithRd BgpAddrV4)) ∧ PrefixKind (WithRd BgpMdtV4) ∧
    (∀ x ∈ [(⟨⟨⟨0x0a000000, 8⟩, ⟨0x00000001, 7⟩⟩, ⟨[1000]⟩⟩ : Labeled (WithRd BgpAddrV4))], NlriKind.WF x) ∧
    decodeItems (T := BgpAddrV4) [8, 10] = .ok ([⟨0x0a000000, 8⟩], 2) ∧
    decodeItems (T := BgpAddrV4) [16, 172, 16, 0] = .ok ([⟨0xac100000, 16⟩, ⟨0, 0⟩], 4) := by
  refine ⟨.labeled .v6, .labeled (.withRd .v4), .withRd .mdt4, ?_, by decide, by decide⟩
  intro x hx
  simp at hx
  subst hx
  simp [NlriKind.WF, NlriKind.bits, LabelFieldWF, LabelStackWF]

/-! ## C16 -/

theorem addpath_round_trip {T : Type} [BgpItem T] [NlriKind T] [NlriLawful T] (l : List (WithPathId T))
    (h : ∀ x ∈ l, NlriKind.WF x.nlri) (buf : Bytes) (hb : (l.flatMap pathIdWire).length ≤ buf.length) :
    ∃ buf' n, encodePathIdItems l buf = .ok (buf', n) ∧
      buf'.take n = l.flatMap (fun x => be 4 x.pathid.toNat ++ nlriWire x.nlri) ∧
      buf'.drop n = buf.drop n ∧ buf'.length = buf.length ∧
      decodePathIdItems (buf'.take n) = .ok (l.map (fun x => ⟨x.pathid, NlriKind.received x.nlri⟩), n) := by
  have hw : Writes (encodePathIdItems l) (l.flatMap pathIdWire) :=
    encLoop_writes_zero l fun x hx => encodePathIdItem_writes (NlriLawful.writes x.nlri (h x hx))
  refine ⟨_, _, hw buf hb, ?_, ?_, ?_, ?_⟩
  · rw [List.take_left' rfl]; rfl
  · rw [List.drop_left' rfl]
  · simp; omega
  · rw [List.take_left' rfl]
    refine decList_reads' (lim := 4) l fun x hx => ⟨by simp [pathIdWire, nlriWire], ?_⟩
    exact decodePathIdItem_reads (NlriLawful.reads x.nlri (h x hx))

/-- **C16.** A list of NLRI with path identifiers, for every kind of prefix NLRI, is written as a
four-octet identifier and the item each, and reads back as the same list (items as received). -/
theorem C16_addpath_round_trip {T : Type} [BgpItem T] [NlriKind T] (k : PrefixKind T) (l : List (WithPathId T))
    (h : ∀ x ∈ l, NlriKind.WF x.nlri) (buf : Bytes) (hb : (l.flatMap pathIdWire).length ≤ buf.length) :
    ∃ buf' n, encodePathIdItems l buf = .ok (buf', n) ∧
      buf'.take n = l.flatMap (fun x => be 4 x.pathid.toNat ++ nlriWire x.nlri) ∧
      buf'.drop n = buf.drop n ∧ buf'.length = buf.length ∧
      decodePathIdItems (buf'.take n) = .ok (l.map (fun x => ⟨x.pathid, NlriKind.received x.nlri⟩), n) :=
  have := k.lawful
  addpath_round_trip l h buf hb

/-- non-vacuity of C16: two paths of one prefix and a labeled VPN prefix -/
example : (∀ x ∈ [(⟨1, ⟨0x0a000000, 8⟩⟩ : WithPathId BgpAddrV4), ⟨0xffffffff, ⟨0x0a000000, 8⟩⟩],
      NlriKind.WF x.nlri) ∧
    NlriKind.WF (⟨⟨⟨0x0a000000, 8⟩, ⟨0x00000001, 7⟩⟩, ⟨[1000]⟩⟩ : Labeled (WithRd BgpAddrV4)) := by
  refine ⟨?_, ?_⟩
  · intro x hx
    simp at hx
    rcases hx with rfl | rfl <;> simp [NlriKind.WF]
  · simp [NlriKind.WF, NlriKind.bits, LabelFieldWF, LabelStackWF]

/-! ## C21 -/

/-- **C21.** A route distinguisher is written as its two 32-bit words in network order and reads back as itself. -/
theorem C21_rd_round_trip (r : BgpRD) (buf : Bytes) (hb : 8 ≤ buf.length) (rest : Bytes) :
    r.encodeTo buf = .ok (be 4 r.rdh.toNat ++ be 4 r.rdl.toNat ++ buf.drop 8, 8) ∧
      BgpRD.decodeFrom (be 4 r.rdh.toNat ++ be 4 r.rdl.toNat ++ rest) = .ok (r, 8) := by
  have h1 := rd_writes r buf (by simpa using hb)
  have h2 := rd_reads r rest
  rw [rdBody_length] at h1 h2
  exact ⟨h1, h2⟩

/-- **C21**, second half: any eight or more bytes decode, and re-encoding gives back the first eight; shorter input is
an error. -/
theorem C21_rd_decode (b : Bytes) :
    (8 ≤ b.length → ∃ r, BgpRD.decodeFrom b = .ok (r, 8) ∧
      ∀ buf, 8 ≤ buf.length → r.encodeTo buf = .ok (b.take 8 ++ buf.drop 8, 8)) ∧
    (b.length < 8 → (BgpRD.decodeFrom b).IsErr) := by
  constructor
  · intro h
    obtain ⟨r, h1, h2⟩ := rd_decode_eq h
    refine ⟨r, h1, fun buf hb => ?_⟩
    have := rd_writes r buf (by simpa using hb)
    rw [this, h2, rdBody_length]
  · intro h; rw [rd_decode_short h]; trivial

example : BgpRD.decodeFrom [0, 1, 192, 168, 0, 1, 0, 10] = .ok (⟨0x0001c0a8, 0x0001000a⟩, 8) ∧
    (8 : Nat) ≤ ([0, 1, 192, 168, 0, 1, 0, 10] : Bytes).length := by decide

/-! ## C22 -/

/-- **C22.** A well-formed label stack is written as three octets per label with the bottom-of-stack bit on the last
entry only; given at least 24 bits per label it reads back as the same stack, whatever follows. -/
theorem C22_label_stack_round_trip (ls : List U32) (h : LabelStackWF ls) (hn : ls.length ≤ 10) (buf : Bytes)
    (hb : 3 * ls.length ≤ buf.length) (bits : U8) (hbits : 24 * ls.length ≤ bits.toNat) (rest : Bytes) :
    BgpItem.setBits (⟨ls⟩ : MplsLabels) buf =
        .ok (labelsBody ls ++ buf.drop (3 * ls.length), (BitVec.ofNat 8 (24 * ls.length), 3 * ls.length)) ∧
      (BitVec.ofNat 8 (24 * ls.length)).toNat = 24 * ls.length ∧
      BgpItem.extractBits (T := MplsLabels) bits (labelsBody ls ++ rest) = .ok (⟨ls⟩, 3 * ls.length) := by
  have h1 := labels_writes ⟨ls⟩ buf (by rw [labelsBody_length]; exact hb)
  rw [labelsBody_length] at h1
  exact ⟨h1, ofNat8_toNat (by omega), labels_reads ls h bits hbits rest⟩

/-- non-vacuity of C22: a stack of three labels, the last one explicit null -/
example : LabelStackWF [16, 1048575, 0] ∧ labelsBody [16, 1048575, 0] = [0, 1, 0, 255, 255, 240, 0, 0, 1] := by
  refine ⟨⟨by simp, ?_, ?_⟩, by decide⟩ <;> simp [stackEnding]

/-! ## C23 -/

/-- **C23.** Lists of labeled and of VPN (labeled, with route distinguisher) prefixes of both families, whose stacks are
well formed and whose bit count fits the length octet, are written in the RFC 8277 / RFC 4364 format and read back
with labels and route distinguishers, the address octets that are not sent being zero. -/
theorem C23_labeled_vpn_round_trip :
    (∀ (l : List (Labeled BgpAddrV4)), (∀ x ∈ l, NlriKind.WF x) → ∀ buf : Bytes,
      (l.flatMap nlriWire).length ≤ buf.length → ∃ buf' n, encodeItems l buf = .ok (buf', n) ∧
        buf'.take n = l.flatMap nlriWire ∧ buf'.drop n = buf.drop n ∧
        decodeItems (buf'.take n) = .ok (l.map NlriKind.received, n)) ∧
    (∀ (l : List (Labeled BgpAddrV6)), (∀ x ∈ l, NlriKind.WF x) → ∀ buf : Bytes,
      (l.flatMap nlriWire).length ≤ buf.length → ∃ buf' n, encodeItems l buf = .ok (buf', n) ∧
        buf'.take n = l.flatMap nlriWire ∧ buf'.drop n = buf.drop n ∧
        decodeItems (buf'.take n) = .ok (l.map NlriKind.received, n)) ∧
    (∀ (l : List (Labeled (WithRd BgpAddrV4))), (∀ x ∈ l, NlriKind.WF x) → ∀ buf : Bytes,
      (l.flatMap nlriWire).length ≤ buf.length → ∃ buf' n, encodeItems l buf = .ok (buf', n) ∧
        buf'.take n = l.flatMap nlriWire ∧ buf'.drop n = buf.drop n ∧
        decodeItems (buf'.take n) = .ok (l.map NlriKind.received, n)) ∧
    (∀ (l : List (Labeled (WithRd BgpAddrV6))), (∀ x ∈ l, NlriKind.WF x) → ∀ buf : Bytes,
      (l.flatMap nlriWire).length ≤ buf.length → ∃ buf' n, encodeItems l buf = .ok (buf', n) ∧
        buf'.take n = l.flatMap nlriWire ∧ buf'.drop n = buf.drop n ∧
        decodeItems (buf'.take n) = .ok (l.map NlriKind.received, n)) := by
  refine ⟨?_, ?_, ?_, ?_⟩ <;>
  · intro l h buf hb
    obtain ⟨b', n, h1, h2, h3, -, h5⟩ := nlri_round_trip l h buf hb
    exact ⟨b', n, h1, h2, h3, h5⟩

/-- **C23**, exactness: labeled and VPN prefixes in network form come back identical. -/
theorem C23_labeled_vpn_identical (x : Labeled (WithRd BgpAddrV4)) (y : Labeled (WithRd BgpAddrV6))
    (hx : NlriKind.WF x) (hy : NlriKind.WF y)
    (nx : NetworkForm 32 x.pfx.pfx.addr.toNat x.pfx.pfx.prefixlen.toNat)
    (ny : NetworkForm 128 y.pfx.pfx.addr.toNat y.pfx.pfx.prefixlen.toNat) :
    NlriKind.received x = x ∧ NlriKind.received y = y ∧
      NlriKind.received (⟨x.pfx.pfx, x.labels⟩ : Labeled BgpAddrV4) = ⟨x.pfx.pfx, x.labels⟩ ∧
      NlriKind.received (⟨y.pfx.pfx, y.labels⟩ : Labeled BgpAddrV6) = ⟨y.pfx.pfx, y.labels⟩ := by
  have e4 : NlriKind.received x.pfx.pfx = x.pfx.pfx := by
    apply received_v4 (networkForm_octets (n := 4) ?_ nx)
    exact hx.2.1.1
  have e6 : NlriKind.received y.pfx.pfx = y.pfx.pfx := by
    apply received_v6 (networkForm_octets (n := 16) ?_ ny)
    exact hy.2.1.1
  obtain ⟨⟨xp, xr⟩, xl⟩ := x
  obtain ⟨⟨yp, yr⟩, yl⟩ := y
  simp only at e4 e6
  refine ⟨?_, ?_, ?_, ?_⟩
  · change (⟨⟨NlriKind.received xp, xr⟩, xl⟩ : Labeled (WithRd BgpAddrV4)) = _; rw [e4]
  · change (⟨⟨NlriKind.received yp, yr⟩, yl⟩ : Labeled (WithRd BgpAddrV6)) = _; rw [e6]
  · change (⟨NlriKind.received xp, xl⟩ : Labeled BgpAddrV4) = _; rw [e4]
  · change (⟨NlriKind.received yp, yl⟩ : Labeled BgpAddrV6) = _; rw [e6]

/-- non-vacuity of C23: a VPNv6 host route with two labels needs 24*2+64+128 = 240 bits -/
example : NlriKind.WF (⟨⟨⟨1, 128⟩, ⟨0xfde8, 100⟩⟩, ⟨[100000, 16]⟩⟩ : Labeled (WithRd BgpAddrV6)) ∧
    NlriKind.WF (⟨⟨⟨0x0a010200, 24⟩, ⟨0xfde8, 100⟩⟩, ⟨[100000]⟩⟩ : Labeled (WithRd BgpAddrV4)) ∧
    nlriWire (⟨⟨⟨0x0a010200, 24⟩, ⟨0xfde8, 100⟩⟩, ⟨[100000]⟩⟩ : Labeled (WithRd BgpAddrV4)) =
      [112, 24, 106, 1, 0, 0, 253, 232, 0, 0, 0, 100, 10, 1, 2] := by
  refine ⟨?_, ?_, by decide⟩ <;> simp [NlriKind.WF, NlriKind.bits, LabelFieldWF, LabelStackWF, stackEnding]

/-! ## C24 -/

/-- **C24 (partial)**, labeled unicast. Decoding returns Ok or Err when at every item boundary reached the item is
empty or has a label with the bottom-of-stack bit within its announced bits. What is missing: a stack that runs
past its announced bits or past the end of the input panics (`C24_labeled_panics`). -/
theorem C24_labeled_total_partial (buf : Bytes) :
    ((∀ k xs b, decodeItems (T := Labeled BgpAddrV4) (buf.take k) = .ok (xs, k) → buf[k]? = some b →
        b.toNat = 0 ∨ StackEnds b.toNat (buf.drop (k + 1))) →
      (decodeItems (T := Labeled BgpAddrV4) buf).Returns) ∧
    ((∀ k xs b, decodeItems (T := Labeled BgpAddrV6) (buf.take k) = .ok (xs, k) → buf[k]? = some b →
        b.toNat = 0 ∨ StackEnds b.toNat (buf.drop (k + 1))) →
      (decodeItems (T := Labeled BgpAddrV6) buf).Returns) := by
  constructor
  · intro h
    by_contra hc
    obtain ⟨k, xs, h1, h2, h3⟩ := decList_not_returns decodeItem_progress decodeItem_local buf hc
    have h4 := h k xs buf[k] h2 (List.getElem?_eq_getElem h1)
    rw [List.drop_eq_getElem_cons h1, decodeItem_cons] at h3
    refine h3 (Res.returns_bind ?_ fun _ _ => trivial)
    rcases h4 with h4 | h4
    · have : buf[k] = 0 := BitVec.eq_of_toNat_eq (by simpa using h4)
      rw [this]
      simp only [BgpItem.extractBits, MplsLabels.extractBits, MplsLabels.extractLoop]
      simp only [show ¬ (0 : U8).toNat > 0 by decide, if_false, Res.ok_bind]
      rw [subC_ok (by decide), Res.ok_bind, rfrom_zero, Res.ok_bind]
      exact Res.returns_bind (v4_returns _ _ (by decide)) fun _ _ => trivial
    · exact labeled_returns (Nat.le_refl _) h4 fun left t _ hl => v4_returns left t (by omega)
  · intro h
    by_contra hc
    obtain ⟨k, xs, h1, h2, h3⟩ := decList_not_returns decodeItem_progress decodeItem_local buf hc
    have h4 := h k xs buf[k] h2 (List.getElem?_eq_getElem h1)
    rw [List.drop_eq_getElem_cons h1, decodeItem_cons] at h3
    refine h3 (Res.returns_bind ?_ fun _ _ => trivial)
    rcases h4 with h4 | h4
    · have : buf[k] = 0 := BitVec.eq_of_toNat_eq (by simpa using h4)
      rw [this]
      simp only [BgpItem.extractBits, MplsLabels.extractBits, MplsLabels.extractLoop]
      simp only [show ¬ (0 : U8).toNat > 0 by decide, if_false, Res.ok_bind]
      rw [subC_ok (by decide), Res.ok_bind, rfrom_zero, Res.ok_bind]
      exact Res.returns_bind (v6_returns _ _ (by decide)) fun _ _ => trivial
    · exact labeled_returns (Nat.le_refl _) h4 fun left t _ hl => v6_returns left t (by omega)

/-- **C24 (partial)**, VPN. Decoding returns Ok or Err when at every item boundary reached a label with the
bottom-of-stack bit lies within the announced bits and leaves the 64 bits of the route distinguisher. What is missing:
other items can panic (`C24_vpn_panics`). -/
theorem C24_vpn_total_partial (buf : Bytes) :
    ((∀ k xs b, decodeItems (T := Labeled (WithRd BgpAddrV4)) (buf.take k) = .ok (xs, k) → buf[k]? = some b →
        StackEnds (b.toNat - 64) (buf.drop (k + 1))) →
      (decodeItems (T := Labeled (WithRd BgpAddrV4)) buf).Returns) ∧
    ((∀ k xs b, decodeItems (T := Labeled (WithRd BgpAddrV6)) (buf.take k) = .ok (xs, k) → buf[k]? = some b →
        StackEnds (b.toNat - 64) (buf.drop (k + 1))) →
      (decodeItems (T := Labeled (WithRd BgpAddrV6)) buf).Returns) := by
  have hpos : ∀ n (l : Bytes), StackEnds n l → 24 ≤ n := by
    rintro n l ⟨j, _, h, _⟩; omega
  constructor
  · intro h
    by_contra hc
    obtain ⟨k, xs, h1, h2, h3⟩ := decList_not_returns decodeItem_progress decodeItem_local buf hc
    have h4 := h k xs buf[k] h2 (List.getElem?_eq_getElem h1)
    have h5 := hpos _ _ h4
    rw [List.drop_eq_getElem_cons h1, decodeItem_cons] at h3
    refine h3 (Res.returns_bind ?_ fun _ _ => trivial)
    exact labeled_returns (by omega) h4 fun left t hl hl2 =>
      withRd_returns (by omega) fun left t hl => v4_returns left t (by omega)
  · intro h
    by_contra hc
    obtain ⟨k, xs, h1, h2, h3⟩ := decList_not_returns decodeItem_progress decodeItem_local buf hc
    have h4 := h k xs buf[k] h2 (List.getElem?_eq_getElem h1)
    have h5 := hpos _ _ h4
    rw [List.drop_eq_getElem_cons h1, decodeItem_cons] at h3
    refine h3 (Res.returns_bind ?_ fun _ _ => trivial)
    exact labeled_returns (by omega) h4 fun left t hl hl2 =>
      withRd_returns (by omega) fun left t hl => v6_returns left t (by omega)

/-- non-vacuity: a truncated VPN item (label 16 with bottom bit) meets the hypothesis of C24 and is an error -/
example : StackEnds ((112 : U8).toNat - 64) [0, 1, 1, 0] ∧
    (decodeItems (T := Labeled (WithRd BgpAddrV4)) [112, 0, 1, 1, 0]).IsErr := by
  refine ⟨⟨0, 1, by decide, rfl, by decide⟩, by decide⟩

/-- The gap in C24 for labeled unicast: input that ends inside a label, and announced bits that end inside one. -/
theorem C24_labeled_panics :
    decodeItems (T := Labeled BgpAddrV4) [24, 0, 1] = .panic ∧
    decodeItems (T := Labeled BgpAddrV4) [32, 0, 1, 0, 0, 2, 1] = .panic ∧
    decodeItems (T := Labeled BgpAddrV6) [24, 0, 1] = .panic := by decide

/-- The gap in C24 for VPN: no room for the route distinguisher in the announced bits. -/
theorem C24_vpn_panics :
    decodeItems (T := Labeled (WithRd BgpAddrV4)) [40, 0, 1, 1, 0, 0, 0, 0, 0, 0, 0, 0] = .panic ∧
    decodeItems (T := Labeled (WithRd BgpAddrV6)) [40, 0, 1, 1, 0, 0, 0, 0, 0, 0, 0, 0] = .panic := by decide

end Zbgp.Props
