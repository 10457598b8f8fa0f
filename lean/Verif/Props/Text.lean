import Verif.Lemmas.TextV6

/-!
# Texts

C38 (communities), C66 (route distinguishers), C68 (prefixes), C69 (prefix lengths), C70 (community lists),
C71 (MAC addresses).
-/

namespace Zbgp.Props

open Spec Std

private theorem repr_dec (n : Nat) : (toString n).toList = dec n := by
  show (Nat.repr n).toList = _
  simp [Nat.repr, dec]

private theorem colon_text : (toString ":").toList = [':'] := rfl

private theorem dot_text : (toString ".").toList = ['.'] := rfl

private theorem ofParts_value (h l : U16) : (BgpCommunity.ofParts h l).value.toNat = h.toNat * 65536 + l.toNat := by
  have h1 := h.isLt
  have h2 := l.isLt
  unfold BgpCommunity.ofParts
  simp only [BitVec.toNat_or, BitVec.toNat_shiftLeft, BitVec.toNat_setWidth]
  rw [Nat.mod_eq_of_lt (show l.toNat < 2 ^ 32 by omega), Nat.mod_eq_of_lt (show h.toNat < 2 ^ 32 by omega), Nat.shiftLeft_eq,
    Nat.mod_eq_of_lt (by omega), ← Nat.shiftLeft_eq, ← Nat.shiftLeft_add_eq_or_of_lt h2, Nat.shiftLeft_eq]

private theorem high_half (h l : U16) : (((BgpCommunity.ofParts h l).value >>> 16).setWidth 16 : U16) = h := by
  have h2 := l.isLt
  have h1 := h.isLt
  apply BitVec.eq_of_toNat_eq
  rw [BitVec.toNat_setWidth, BitVec.toNat_ushiftRight, ofParts_value, Nat.shiftRight_eq_div_pow]
  omega

private theorem low_half (h l : U16) : (((BgpCommunity.ofParts h l).value &&& 0xffff).setWidth 16 : U16) = l := by
  have h2 := l.isLt
  have h1 := h.isLt
  apply BitVec.eq_of_toNat_eq
  rw [BitVec.toNat_setWidth, BitVec.toNat_and, ofParts_value]
  rw [show (BitVec.toNat (65535 : U32)) = 2 ^ 16 - 1 from rfl, Nat.and_two_pow_sub_one_eq_mod]
  omega

private theorem parts_text (h l : U16) : s!"{h.toNat}:{l.toNat}".toList = dec h.toNat ++ ':' :: dec l.toNat := by
  simp [← repr_dec, colon_text]

private theorem no_n {s : Txt} (h : ∀ c ∈ s, IsHexDigit c ∨ c = ':') (t : Txt) : s ≠ 'n' :: t := by
  intro e
  rcases h 'n' (by rw [e]; simp) with h | h
  · exact h.ne.2.2.2.2.2.2.2.2.1 rfl
  · exact absurd h (by decide)

private theorem parse_plain {s : Txt} (h : ∀ c ∈ s, IsHexDigit c ∨ c = ':') :
    BgpCommunity.parse s = match split (· = ':') s with
    | [] => none
    | [a] => (parseU 32 a).bind fun v => some ⟨v⟩
    | [a, b] => (parseU 16 a).bind fun h => (parseU 16 b).bind fun l => some ⟨(h.setWidth 32 <<< 16) ||| l.setWidth 32⟩
    | _ => (parseU 32 s).bind fun v => some ⟨v⟩ := by
  unfold BgpCommunity.parse
  rw [if_neg (by rintro (e | e | e) <;> exact no_n h _ e), if_neg (by rintro (e | e) <;> exact no_n h _ e),
    if_neg (by intro e; exact no_n h _ e), if_neg (by rintro (e | e) <;> exact no_n h _ e),
    trim_none (fun c hc => by
      rcases h c hc with h | rfl
      · exact h.ne.2.2.2.2.2.2.2.2.2
      · rfl)]
  rfl

/-! ## C38 -/

/-- **C38.** For each of the 2³² communities, parsing the displayed text returns the community. -/
theorem C38_community_text (x : BgpCommunity) : BgpCommunity.parse x.display = some x := community_text x

/-- the case split of the statement is met by both kinds of text -/
example : (⟨0xffffff04⟩ : BgpCommunity).display = "nopeer".toList ∧ (⟨0x00010002⟩ : BgpCommunity).display = "1:2".toList ∧
    BgpCommunity.parse "no-export".toList = some ⟨0xffffff01⟩ ∧ BgpCommunity.parse " 65535:65535\n".toList = some ⟨0xffffffff⟩ ∧
    BgpCommunity.parse "65536:1".toList = none ∧ BgpCommunity.parse "1:2:3".toList = none := by decide

/-- **C38**, what the texts say: `h:l` for the community with the halves `h` and `l`, whichever way it is made, except for the
four well-known ones; texts with both halves and plain numbers are accepted for all of them. -/
theorem C38_community_parts :
    (∀ h l : U16, (BgpCommunity.ofParts h l).value.toNat = h.toNat * 65536 + l.toNat ∧
      BgpCommunity.parse s!"{h.toNat}:{l.toNat}".toList = some (BgpCommunity.ofParts h l) ∧
      ((BgpCommunity.ofParts h l).value.toNat ∉ [0xffffff01, 0xffffff02, 0xffffff03, 0xffffff04] →
        (BgpCommunity.ofParts h l).display = s!"{h.toNat}:{l.toNat}".toList)) ∧
    (∀ v : U32, BgpCommunity.parse (toString v.toNat).toList = some ⟨v⟩) := by
  refine ⟨fun h l => ⟨ofParts_value h l, ?_, fun hn => ?_⟩, fun v => ?_⟩
  · rw [parts_text, parse_plain, split_append (fun c hc => by simpa using (mem_dec hc).ne.1) (by simp),
      split_none (fun c hc => by simpa using (mem_dec hc).ne.1)]
    · simp only [parseU_dec', Option.bind_eq_bind, Option.bind_some]; rfl
    · intro c hc
      simp only [List.mem_append, List.mem_cons] at hc
      rcases hc with h | h | h
      · exact .inl (mem_dec h)
      · exact .inr h
      · exact .inl (mem_dec h)
  · have ne : ∀ k : U32, k.toNat ∈ [0xffffff01, 0xffffff02, 0xffffff03, 0xffffff04] → (BgpCommunity.ofParts h l).value ≠ k := by
      rintro k hk rfl; exact hn hk
    unfold BgpCommunity.display
    rw [if_neg (ne _ (by decide)), if_neg (ne _ (by decide)), if_neg (ne _ (by decide)), if_neg (ne _ (by decide)), high_half, low_half,
      parts_text]
  · rw [repr_dec, parse_plain (fun c hc => .inl (mem_dec hc)), split_none (fun c hc => by simpa using (mem_dec hc).ne.1)]
    simp [parseU_dec']

/-! ## C66 -/

/-- **C66 (partial).** Route distinguishers of every type except 1 are displayed as `high:low` and the text parses back. -/
theorem C66_rd_text_partial (r : BgpRD) (h : r.rdh >>> 16 ≠ 1) :
    r.display = s!"{r.rdh.toNat}:{r.rdl.toNat}".toList ∧ BgpRD.parse r.display = some r := by
  refine ⟨?_, rd_text r h⟩
  unfold BgpRD.display
  rw [if_neg h]
  simp [← repr_dec, colon_text]

example : (⟨65000, 100⟩ : BgpRD).rdh >>> 16 ≠ 1 ∧ (⟨65000, 100⟩ : BgpRD).display = "65000:100".toList := by decide

/-- **C66 fails** for route distinguishers of type 1: they are displayed with a dotted address, which never parses. -/
theorem C66_fails (r : BgpRD) (h : r.rdh >>> 16 = 1) : BgpRD.parse r.display = none := rd_text_type1 r h

example : (⟨0x0001c0a8, 0x00010064⟩ : BgpRD).rdh >>> 16 = 1 ∧
    (⟨0x0001c0a8, 0x00010064⟩ : BgpRD).display = "192.168.0.1:100".toList := by decide

/-! ## C68 -/

/-- **C68.** IPv4, IPv6 and MAC prefixes of every address and every length octet, addresses of unknown family and MDT
prefixes: parsing the displayed text returns the value. For a value of one family the parser that tries the three families
one after the other returns this family. -/
theorem C68_prefix_text :
    (∀ x : BgpAddrV4, BgpAddrV4.parse x.display = some x) ∧ (∀ x : BgpAddrV6, BgpAddrV6.parse x.display = some x) ∧
    (∀ x : MacAddress, MacAddress.parse x.display = some x) ∧ (∀ x : BgpAddrMac, BgpAddrMac.parse x.display = some x) ∧
    (∀ x : BgpNet, BgpNet.parse x.display = some x) ∧
    (∀ x : BgpMdtV4, BgpMdtV4.parse x.display = some x) ∧ (∀ x : BgpMdtV6, BgpMdtV6.parse x.display = some x) :=
  ⟨v4_text, v6_text, mac_text, macnet_text, net_text, mdt4_text, mdt6_text⟩

example : (⟨0x0a000001, 8⟩ : BgpAddrV4).display = "10.0.0.1/8".toList ∧
    (⟨0x20010db8000000000000000000000001, 64⟩ : BgpAddrV6).display = "2001:db8::1/64".toList ∧
    (⟨0xffff0a000001, 128⟩ : BgpAddrV6).display = "::ffff:10.0.0.1/128".toList ∧
    (⟨0, 0⟩ : BgpAddrV6).display = "::/0".toList ∧
    (⟨0x00010000000000010000000000000001, 0⟩ : BgpAddrV6).display = "1:0:0:1::1/0".toList ∧
    (⟨⟨5, 4, 3, 2, 1, 0xa0⟩, 48⟩ : BgpAddrMac).display = "a0:01:02:03:04:05/48".toList := by decide

/-- **C68**, what the texts are: dotted decimal and the length. -/
theorem C68_v4_display (x : BgpAddrV4) : x.display = (v4String x.addr ++ "/" ++ toString x.prefixlen.toNat).toList := by
  simp [BgpAddrV4.display, showV4, v4String, ← repr_dec, dot_text]

/-- **C68**: different values have different texts. -/
theorem C68_text_injective :
    (∀ x y : BgpNet, x.display = y.display → x = y) ∧ (∀ x y : BgpMdtV4, x.display = y.display → x = y) ∧
    (∀ x y : BgpMdtV6, x.display = y.display → x = y) := by
  refine ⟨fun x y h => ?_, fun x y h => ?_, fun x y h => ?_⟩
  · have := net_text x; rw [h, net_text] at this; exact (Option.some.inj this).symm
  · have := mdt4_text x; rw [h, mdt4_text] at this; exact (Option.some.inj this).symm
  · have := mdt6_text x; rw [h, mdt6_text] at this; exact (Option.some.inj this).symm

/-! ## C69 -/

/-- **C69 (partial).** A prefix text with a length written in decimal below 256 gets this length. -/
theorem C69_prefix_length_partial (n : Nat) (hn : n < 256) :
    (∀ a : IPv4, BgpAddrV4.parse (showV4 a ++ '/' :: (toString n).toList) = some ⟨a, BitVec.ofNat 8 n⟩) ∧
    (∀ a : IPv6, BgpAddrV6.parse (showV6 a ++ '/' :: (toString n).toList) = some ⟨a, BitVec.ofNat 8 n⟩) ∧
    (∀ a : MacAddress, BgpAddrMac.parse (a.display ++ '/' :: (toString n).toList) = some ⟨a, BitVec.ofNat 8 n⟩) := by
  have h : split (· = '/') (toString n).toList = [dec n] := by
    rw [repr_dec]; exact split_none (fun c hc => by simpa using (mem_dec hc).ne.2.1)
  have e := parseU_dec 8 n hn
  refine ⟨fun a => ?_, fun a => ?_, fun a => ?_⟩
  · rw [v4_parse_len a _ _ _ h, e]; rfl
  · rw [v6_parse_len a _ _ _ h, e]; rfl
  · rw [mac_parse_len a _ _ _ h, e]; rfl

/-- **C69 fails.** Whatever stands behind the slash, the text of a prefix is accepted: lengths larger than the address, no
number at all, further parts. -/
theorem C69_fails (rest : Txt) :
    (∀ a : IPv4, ∃ l, BgpAddrV4.parse (showV4 a ++ '/' :: rest) = some ⟨a, l⟩) ∧
    (∀ a : IPv6, ∃ l, BgpAddrV6.parse (showV6 a ++ '/' :: rest) = some ⟨a, l⟩) ∧
    (∀ a : MacAddress, ∃ l, BgpAddrMac.parse (a.display ++ '/' :: rest) = some ⟨a, l⟩) := by
  cases h : split (· = '/') rest with
  | nil => exact (split_ne_nil _ _ h).elim
  | cons t u => exact ⟨fun a => ⟨_, v4_parse_len a t u rest h⟩, fun a => ⟨_, v6_parse_len a t u rest h⟩, fun a => ⟨_, mac_parse_len a t u rest h⟩⟩

/-- **C69 fails**, what is made of bad lengths: a length text with a character that is no digit stands for the whole address. -/
theorem C69_fails_bad_length (t : Txt) (ht : '/' ∉ t) (c : Char) (hc : c ∈ t) (hd : c.isDigit = false) (hp : c ≠ '+') :
    (∀ a : IPv4, BgpAddrV4.parse (showV4 a ++ '/' :: t) = some ⟨a, 32⟩) ∧
    (∀ a : IPv6, BgpAddrV6.parse (showV6 a ++ '/' :: t) = some ⟨a, 128⟩) ∧
    (∀ a : MacAddress, BgpAddrMac.parse (a.display ++ '/' :: t) = some ⟨a, 48⟩) := by
  have h : split (· = '/') t = [t] := split_none (fun c hc => by
    have : c ≠ '/' := fun e => ht (e ▸ hc)
    simpa using this)
  have hn : toDigit 10 c = none := by
    cases hc : toDigit 10 c with
    | none => rfl
    | some d =>
      obtain ⟨h1, h2⟩ := toDigit_ten hc
      subst h2
      exact absurd ((by decide : ∀ d < 10, (Nat.digitChar d).isDigit = true) d h1) (by simp [hd])
  have e : parseU 8 t = none := parseU_bad hc hn hp
  refine ⟨fun a => ?_, fun a => ?_, fun a => ?_⟩
  · rw [v4_parse_len a _ _ _ h, e]; rfl
  · rw [v6_parse_len a _ _ _ h, e]; rfl
  · rw [mac_parse_len a _ _ _ h, e]; rfl

example : '/' ∉ "x".toList ∧ 'x' ∈ "x".toList ∧ 'x'.isDigit = false ∧ 'x' ≠ '+' := by decide
example : BgpAddrV4.parse "10.0.0.0/200".toList = some ⟨0x0a000000, 200⟩ ∧
    BgpAddrV4.parse "10.0.0.0/300".toList = some ⟨0x0a000000, 32⟩ ∧
    BgpAddrV4.parse "10.0.0.0/8/9".toList = some ⟨0x0a000000, 8⟩ := by decide

/-- **C69**, the address part: only texts with a complete dotted-decimal address, without leading zeroes, are accepted, and the
address is that one. -/
theorem C69_address_partial (s : Txt) (x : BgpAddrV4) (h : BgpAddrV4.parse s = some x) :
    s = showV4 x.addr ∨ ∃ t, s = showV4 x.addr ++ '/' :: t := v4_parse_address h

/-! ## C70 -/

/-- **C70.** A text made of parts, separated by commas, blanks or tabs, parses to the list of exactly the communities that its
parts stand for, in ascending order and each once; parts that are no community are skipped. -/
theorem C70_list_text (t : Txt) (r : List (Char × Txt)) (ht : ∀ c ∈ t, c ∉ listSeparators)
    (hr : ∀ x ∈ r, x.1 ∈ listSeparators ∧ ∀ c ∈ x.2, c ∉ listSeparators) :
    ∃ l, BgpCommunityList.parse (sepText t r) = some ⟨l⟩ ∧ Ascending communityNumber l ∧
      ∀ x, x ∈ l ↔ ∃ u ∈ t :: r.map Prod.snd, BgpCommunity.parse u = some x := by
  refine ⟨_, list_text t r ht hr, setOf_ascending community_order _, fun x => ?_⟩
  rw [setOf_mem community_order, List.mem_filterMap]

example : (∀ c ∈ "1:2".toList, c ∉ listSeparators) ∧ (∀ x ∈ [(',', "x".toList), (' ', "nopeer".toList)],
      x.1 ∈ listSeparators ∧ ∀ c ∈ x.2, c ∉ listSeparators) ∧
    sepText "1:2".toList [(',', "x".toList), (' ', "nopeer".toList)] = "1:2,x nopeer".toList := by decide

/-- **C70**: the displayed texts of communities, put together with any separators, parse to the list of these communities. -/
theorem C70_list_round_trip (c : BgpCommunity) (r : List (Char × BgpCommunity)) (hr : ∀ x ∈ r, x.1 ∈ listSeparators) :
    ∃ l, BgpCommunityList.parse (sepText c.display (r.map fun x => (x.1, x.2.display))) = some ⟨l⟩ ∧
      Ascending communityNumber l ∧ ∀ x, x ∈ l ↔ x = c ∨ ∃ y ∈ r, x = y.2 := by
  obtain ⟨l, h1, h2, h3⟩ := C70_list_text c.display (r.map fun x => (x.1, x.2.display)) (community_no_sep c) (by
    intro x hx
    obtain ⟨y, hy, rfl⟩ := List.mem_map.1 hx
    exact ⟨hr y hy, community_no_sep y.2⟩)
  refine ⟨l, h1, h2, fun x => ?_⟩
  rw [h3]
  simp only [List.map_map, List.mem_cons, List.mem_map, Function.comp_def]
  constructor
  · rintro ⟨u, rfl | ⟨y, hy, rfl⟩, hu⟩
    · rw [community_text] at hu; exact .inl (Option.some.inj hu).symm
    · rw [community_text] at hu; exact .inr ⟨y, hy, (Option.some.inj hu).symm⟩
  · rintro (rfl | ⟨y, hy, rfl⟩)
    · exact ⟨_, .inl rfl, community_text _⟩
    · exact ⟨_, .inr ⟨y, hy, rfl⟩, community_text _⟩

example : ∀ x ∈ [(',', (⟨5⟩ : BgpCommunity)), ('\t', ⟨0xffffff01⟩)], x.1 ∈ listSeparators := by decide

/-! ## C71 -/

/-- **C71 (partial).** Texts without a hexadecimal digit are refused, and the text of an address is accepted (C68). -/
theorem C71_mac_text_partial (s : Txt) (h : ∀ c ∈ s, c ∉ hexDigits) : MacAddress.parse s = none := by
  rw [mac_parse_eq, if_pos]
  rw [List.filterMap_eq_nil_iff]
  intro c hc
  rw [toDigit_hex, if_neg (h c hc)]

example : ∀ c ∈ "xyz::".toList, c ∉ hexDigits := by decide

/-- **C71 fails.** Every text with a hexadecimal digit is accepted: the other characters are skipped and the last twelve digits
make the address. -/
theorem C71_fails (s : Txt) (h : ∃ c ∈ s, c ∈ hexDigits) :
    ∃ m, MacAddress.parse s = some m ∧ m.toU64.toNat = hexNumber s % 2 ^ 48 := by
  obtain ⟨c, hc, hx⟩ := h
  have hne : s.filterMap (toDigit 16) ≠ [] := by
    rw [Ne, List.filterMap_eq_nil_iff]
    intro hall
    have := hall c hc
    rw [toDigit_hex, if_pos hx] at this
    cases this
  refine ⟨_, by rw [mac_parse_eq, if_neg hne], ?_⟩
  rw [toU64_fromU64, BitVec.toNat_ofNat, hexNumber_eq]
  omega

example : (∃ c ∈ "bad luck".toList, c ∈ hexDigits) ∧ hexNumber "bad luck".toList = 0xbadc := by decide

end Zbgp.Props
