import Verif.Spec.Small
import Verif.Lemmas.Label
import Verif.Lemmas.Display
import Verif.Props.Open
import Verif.Props.Update

/-!
# Small functions

C83 (texts of route distinguishers), C84 (tests for multicast, zero and empty).
-/

namespace Zbgp.Props

open Spec Std

private theorem repr_dec (n : Nat) : (toString n).toList = dec n := by
  show (Nat.repr n).toList = _
  simp [Nat.repr, dec]

private theorem colon_text : (toString ":").toList = [':'] := rfl

private theorem dot_text : (toString ".").toList = ['.'] := rfl

private theorem v4_chars (a : IPv4) : (v4String a).toList = showV4 a := by
  simp [showV4, v4String, ← repr_dec, dot_text]

/-! ## C83 -/

private theorem be_two (v : Nat) : be 2 v = [BitVec.ofNat 8 (v / 256), BitVec.ofNat 8 v] := by simp [be]

private theorem be_four (v : Nat) : be 4 v = [BitVec.ofNat 8 (v / 16777216), BitVec.ofNat 8 (v / 65536), BitVec.ofNat 8 (v / 256),
    BitVec.ofNat 8 v] := by simp [be]

/-- the two halves of the octets -/
private def halves : RouteDist → BgpRD
  | .as2 asn n => ⟨BitVec.ofNat 32 asn.toNat, n⟩
  | .ip addr n => ⟨BitVec.ofNat 32 (65536 + addr.toNat / 65536), BitVec.ofNat 32 (addr.toNat % 65536 * 65536 + n.toNat)⟩
  | .as4 asn n => ⟨BitVec.ofNat 32 (131072 + asn.toNat / 65536), BitVec.ofNat 32 (asn.toNat % 65536 * 65536 + n.toNat)⟩

private theorem octet_eq {a b : Nat} (h : a % 256 = b % 256) : BitVec.ofNat 8 a = BitVec.ofNat 8 b :=
  BitVec.eq_of_toNat_eq (by simpa using h)

private theorem octets_halves (d : RouteDist) : d.octets = rdBody (halves d) := by
  cases d with
  | as2 asn n =>
    have := asn.isLt
    simp only [RouteDist.octets, halves, rdBody, be_two, be_four, BitVec.toNat_ofNat, List.cons_append, List.nil_append, List.cons.injEq, and_true]
    refine ⟨octet_eq ?_, octet_eq ?_, octet_eq ?_, octet_eq ?_⟩ <;> omega
  | ip a n =>
    have := a.isLt
    have := n.isLt
    simp only [RouteDist.octets, halves, rdBody, be_two, be_four, BitVec.toNat_ofNat, List.cons_append, List.nil_append, List.cons.injEq, and_true]
    refine ⟨octet_eq ?_, octet_eq ?_, octet_eq ?_, octet_eq ?_, octet_eq ?_, octet_eq ?_, octet_eq ?_, octet_eq ?_⟩ <;> omega
  | as4 a n =>
    have := a.isLt
    have := n.isLt
    simp only [RouteDist.octets, halves, rdBody, be_two, be_four, BitVec.toNat_ofNat, List.cons_append, List.nil_append, List.cons.injEq, and_true]
    refine ⟨octet_eq ?_, octet_eq ?_, octet_eq ?_, octet_eq ?_, octet_eq ?_, octet_eq ?_, octet_eq ?_, octet_eq ?_⟩ <;> omega

private theorem type_iff (r : BgpRD) : r.rdh >>> 16 = 1 ↔ r.rdh.toNat / 65536 = 1 := by
  rw [← BitVec.toNat_inj, BitVec.toNat_ushiftRight, Nat.shiftRight_eq_div_pow]
  rfl

private theorem display_plain (r : BgpRD) (h : r.rdh.toNat / 65536 ≠ 1) : r.display = dec r.rdh.toNat ++ ':' :: dec r.rdl.toNat := by
  unfold BgpRD.display
  rw [if_neg (fun e => h ((type_iff r).1 e))]

private theorem mask8 (x : U32) : (x &&& 0xff).toNat = x.toNat % 256 := by
  rw [BitVec.toNat_and, show BitVec.toNat (0xff : U32) = 2 ^ 8 - 1 from rfl, Nat.and_two_pow_sub_one_eq_mod]

private theorem mask16 (x : U32) : (x &&& 0xffff).toNat = x.toNat % 65536 := by
  rw [BitVec.toNat_and, show BitVec.toNat (0xffff : U32) = 2 ^ 16 - 1 from rfl, Nat.and_two_pow_sub_one_eq_mod]

private theorem shr (x : U32) (k : Nat) : (x >>> k).toNat = x.toNat / 2 ^ k := by
  rw [BitVec.toNat_ushiftRight, Nat.shiftRight_eq_div_pow]

/-- **C83 (partial).** A route distinguisher with a two-octet AS number, and one with an address, received from a peer is shown
as RFC 4364 writes it. Missing: those with a four-octet AS number, which never are (`C83_as4_text_fails`). -/
theorem C83_rd_text_partial :
    (∀ (asn : U16) (n : U32) (rest : Bytes) r k, BgpRD.decodeFrom ((RouteDist.as2 asn n).octets ++ rest) = .ok (r, k) →
      r.display = (RouteDist.as2 asn n).text) ∧
    (∀ (a : IPv4) (n : U16) (rest : Bytes) r k, BgpRD.decodeFrom ((RouteDist.ip a n).octets ++ rest) = .ok (r, k) →
      r.display = (RouteDist.ip a n).text) := by
  constructor
  · intro asn n rest r k h
    have := asn.isLt
    rw [octets_halves, rd_reads] at h
    cases h
    rw [display_plain _ (by simp [halves]; omega)]
    simp only [halves, BitVec.toNat_ofNat, RouteDist.text]
    rw [Nat.mod_eq_of_lt (by omega)]
    simp [← repr_dec, colon_text]
  · intro a n rest r k h
    have ha := a.isLt
    have hn := n.isLt
    rw [octets_halves, rd_reads] at h
    cases h
    unfold BgpRD.display
    rw [if_pos ((type_iff _).2 (by simp [halves]; omega))]
    simp only [mask8, mask16, shr, halves, BitVec.toNat_ofNat, RouteDist.text]
    have e1 : (65536 + a.toNat / 65536) % 2 ^ 32 / 2 ^ 8 % 256 = a.toNat / 2 ^ 24 := by omega
    have e2 : (65536 + a.toNat / 65536) % 2 ^ 32 % 256 = a.toNat / 2 ^ 16 % 256 := by omega
    have e3 : (a.toNat % 65536 * 65536 + n.toNat) % 2 ^ 32 / 2 ^ 24 % 256 = a.toNat / 2 ^ 8 % 256 := by omega
    have e4 : (a.toNat % 65536 * 65536 + n.toNat) % 2 ^ 32 / 2 ^ 16 % 256 = a.toNat % 256 := by omega
    have e5 : (a.toNat % 65536 * 65536 + n.toNat) % 2 ^ 32 % 65536 = n.toNat := by omega
    rw [e1, e2, e3, e4, e5]
    rw [show (s!"{v4String a}:{n.toNat}" : String) = v4String a ++ ":" ++ toString n.toNat from rfl, String.toList_append, String.toList_append, v4_chars,
      repr_dec]
    simp [showV4]

/-- such octets are always read, and a text of each kind -/
example : (∃ r, BgpRD.decodeFrom ((RouteDist.as2 65000 100).octets ++ [7]) = .ok (r, 8)) ∧
    (∃ r, BgpRD.decodeFrom ((RouteDist.ip 0xc0a80001#32 100).octets ++ [7]) = .ok (r, 8)) ∧
    (RouteDist.as2 65000 100).text = "65000:100".toList ∧
    (RouteDist.ip 0xc0a80001#32 100).text = "192.168.0.1:100".toList :=
  ⟨⟨_, rfl⟩, ⟨_, rfl⟩, by decide, by decide⟩

/-- **C83 fails** for every route distinguisher with a four-octet AS number: it is read, and shown as another text. -/
theorem C83_as4_text_fails (asn : U32) (n : U16) (rest : Bytes) :
    ∃ r, BgpRD.decodeFrom ((RouteDist.as4 asn n).octets ++ rest) = .ok (r, 8) ∧ r.display ≠ (RouteDist.as4 asn n).text := by
  have ha := asn.isLt
  have hn := n.isLt
  refine ⟨halves (.as4 asn n), ?_, ?_⟩
  · rw [octets_halves, rd_reads]; rfl
  · rw [display_plain _ (by simp [halves]; omega)]
    simp only [halves, BitVec.toNat_ofNat, RouteDist.text]
    have b1 : 131072 + asn.toNat / 65536 < 2 ^ 32 := by omega
    have b2 : asn.toNat % 65536 * 65536 + n.toNat < 2 ^ 32 := by omega
    intro h
    have h : dec ((131072 + asn.toNat / 65536) % 2 ^ 32) ++ ':' :: dec ((asn.toNat % 65536 * 65536 + n.toNat) % 2 ^ 32) =
        dec asn.toNat ++ ':' :: dec n.toNat := by
      rw [h]; simp [← repr_dec, colon_text]
    obtain ⟨h1, h2⟩ := sep (nm_dec (by decide)) (nm_dec (by decide)) h
    have h1 := dec_inj h1
    have h2 := dec_inj h2
    rw [Nat.mod_eq_of_lt b1] at h1
    rw [Nat.mod_eq_of_lt b2] at h2
    have hm : asn.toNat % 65536 = 0 := by
      rcases Nat.mul_eq_zero.1 (Nat.add_eq_right.1 h2) with h | h
      · exact h
      · cases h
    have hq := Nat.div_add_mod asn.toNat 65536
    rw [hm] at hq
    clear h h2 hm ha hn
    generalize asn.toNat / 65536 = q at h1 hq
    have : q < 3 := by omega
    have : q = 0 ∨ q = 1 ∨ q = 2 := by omega
    rcases this with rfl | rfl | rfl <;> omega

example : ∃ r, BgpRD.decodeFrom ((RouteDist.as4 70000 100).octets) = .ok (r, 8) ∧ r.display = "131073:292552804".toList :=
  ⟨_, rfl, by decide⟩

private theorem parse_pair {a b : Nat} (ha : a < 2 ^ 32) (hb : b < 2 ^ 32) :
    BgpRD.parse (dec a ++ ':' :: dec b) = some ⟨BitVec.ofNat 32 a, BitVec.ofNat 32 b⟩ := by
  unfold BgpRD.parse
  rw [split_append (fun c hc => by simpa using (mem_dec hc).ne.1) (by simp),
    split_none (fun c hc => by simpa using (mem_dec hc).ne.1)]
  simp [parseU_dec _ _ ha, parseU_dec _ _ hb]

/-- **C83 (partial)**, parsing. The text with a two-octet AS number is parsed as the route distinguisher with these octets.
Missing: the text with an address, which is refused, and the text with a larger AS number, which is taken for another route
distinguisher (`C83_rd_parse_fails`). -/
theorem C83_rd_parse_partial (asn : U16) (n : U32) :
    ∃ r, BgpRD.parse (RouteDist.as2 asn n).text = some r ∧ Writes r.encodeTo (RouteDist.as2 asn n).octets := by
  have ha := asn.isLt
  refine ⟨halves (.as2 asn n), ?_, ?_⟩
  · have : (RouteDist.as2 asn n).text = dec asn.toNat ++ ':' :: dec n.toNat := by
      simp [RouteDist.text, ← repr_dec, colon_text]
    rw [this, parse_pair (by omega) n.isLt]
    simp [halves]
  · rw [octets_halves]
    exact rd_writes _

example : BgpRD.parse (RouteDist.as2 65000 100).text = some ⟨65000, 100⟩ := by decide

/-- **C83 fails** for the other texts: one with an address is refused, one with an AS number above 65535 is accepted but gives
the octets of no route distinguisher with this AS number and number. -/
theorem C83_rd_parse_fails :
    (∀ (a : IPv4) (n : U16), BgpRD.parse (RouteDist.ip a n).text = none) ∧
    (∀ (asn : U32) (n : U16), 65536 ≤ asn.toNat → ∃ r, BgpRD.parse (RouteDist.as4 asn n).text = some r ∧
      ¬ Writes r.encodeTo (RouteDist.as4 asn n).octets) := by
  constructor
  · intro a n
    have := rd_text_type1 (halves (.ip a n)) ((type_iff _).2 (by have := a.isLt; simp [halves]; omega))
    rwa [C83_rd_text_partial.2 a n [] (halves (.ip a n)) 8 (by rw [octets_halves, rd_reads]; rfl)] at this
  · intro asn n h
    have ha := asn.isLt
    have hn := n.isLt
    refine ⟨⟨asn, BitVec.ofNat 32 n.toNat⟩, ?_, ?_⟩
    · have : (RouteDist.as4 asn n).text = dec asn.toNat ++ ':' :: dec n.toNat := by
        simp [RouteDist.text, ← repr_dec, colon_text]
      rw [this, parse_pair (by omega) (by omega)]
      simp
    · intro w
      have w1 := w (List.replicate 8 0) (by simp [octets_halves, rdBody])
      have w2 := rd_writes ⟨asn, BitVec.ofNat 32 n.toNat⟩ (List.replicate 8 0) (by simp [rdBody])
      rw [w2, octets_halves] at w1
      have e : rdBody ⟨asn, BitVec.ofNat 32 n.toNat⟩ = rdBody (halves (.as4 asn n)) := by
        simpa [rdBody] using w1
      have d := rd_reads ⟨asn, BitVec.ofNat 32 n.toNat⟩ []
      rw [e, rd_reads] at d
      injection d with d
      have d := (Prod.mk.inj d).1
      simp only [halves, BgpRD.mk.injEq] at d
      have d1 := congrArg BitVec.toNat d.1
      have d2 := congrArg BitVec.toNat d.2
      simp only [BitVec.toNat_ofNat] at d1 d2
      omega

example : BgpRD.parse (RouteDist.as4 70000 100).text = some ⟨70000, 100⟩ ∧
    (⟨70000, 100⟩ : BgpRD).display = "17.112.0.0:100".toList := by decide

/-! ## C84 -/

/-- **C84 (partial).** An IPv6 prefix is multicast exactly if its address is. An IPv4 prefix is if its address is multicast;
missing: the reserved addresses 240.0.0.0 to 255.255.255.254 are taken for multicast too, and only those. -/
theorem C84_multicast_partial :
    (∀ x : BgpAddrV6, x.isMulticast = true ↔ Multicast6 x.addr) ∧
    (∀ x : BgpAddrV4, x.isMulticast = true ↔ Multicast4 x.addr ∨ Reserved4 x.addr) := by
  constructor
  · rintro ⟨a, l⟩
    have ha := a.isLt
    simp only [BgpAddrV6.isMulticast, ipv6Octets, be, List.headD_cons, beq_iff_eq, Multicast6]
    rw [← BitVec.toNat_inj, BitVec.toNat_ofNat, show BitVec.toNat (255 : U8) = 255 from rfl]
    omega
  · rintro ⟨a, l⟩
    have ha := a.isLt
    simp only [BgpAddrV4.isMulticast, ipv4Octets, be_four, List.headD_cons, Bool.and_eq_true, bne_iff_ne, ne_eq, List.cons.injEq,
      and_true, decide_eq_true_eq, ge_iff_le, BitVec.le_def, Multicast4, Reserved4]
    simp only [← BitVec.toNat_inj, BitVec.toNat_ofNat, show BitVec.toNat (255 : U8) = 255 from rfl,
      show BitVec.toNat (224 : U8) = 224 from rfl]
    omega

example : Multicast4 0xe0000001#32 ∧ ¬ Multicast4 0x0a000001#32 ∧ Reserved4 0xf0000001#32 ∧
    Multicast6 0xff020000000000000000000000000001#128 ∧ ¬ Multicast6 0x20010000000000000000000000000001#128 := by
  unfold Multicast4 Multicast6 Reserved4; decide

/-- **C84 fails** for IPv4: 240.0.0.1 is not a multicast address. -/
theorem C84_multicast_fails : ¬ ∀ x : BgpAddrV4, x.isMulticast = true ↔ Multicast4 x.addr := fun h =>
  absurd ((h ⟨0xf0000001#32, 32⟩).1 (by decide)) (by unfold Multicast4; decide)

/-- **C84.** A route distinguisher is zero exactly if its eight octets are, an Ethernet segment identifier exactly if its nine
octets are. -/
theorem C84_zero :
    (∀ r : BgpRD, r.isZero = true ↔ Writes r.encodeTo (List.replicate 8 0)) ∧
    (∀ e : EVPNESI, e.isZero = true ↔ ∀ b ∈ e.v.toList, b = 0) := by
  constructor
  · intro r
    have hz : List.replicate 8 (0 : U8) = rdBody ⟨0, 0⟩ := by decide
    constructor
    · intro h
      simp only [BgpRD.isZero, Bool.and_eq_true, beq_iff_eq] at h
      obtain ⟨a, b⟩ := r
      simp only at h
      rw [h.1, h.2, hz]
      exact rd_writes _
    · intro w
      have w1 := w (List.replicate 8 0) (by simp)
      have w2 := rd_writes r (List.replicate 8 0) (by simp [rdBody])
      rw [w2, hz] at w1
      have e : rdBody r = rdBody ⟨0, 0⟩ := by rw [← hz] at w1 ⊢; simpa [rdBody] using w1
      have d := rd_reads r []
      rw [e, rd_reads] at d
      injection d with d
      rw [← (Prod.mk.inj d).1]
      decide
  · intro e
    simp only [EVPNESI.isZero, Bool.not_eq_true', List.any_eq_false, bne_iff_ne, ne_eq, not_not]

example : (⟨0, 0⟩ : BgpRD).isZero = true ∧ (⟨0, 1⟩ : BgpRD).isZero = false ∧ (⟨1, 0⟩ : BgpRD).isZero = false := by decide

/-- **C84.** A collection of routes is empty exactly if its length is 0; without a family it is empty. -/
theorem C84_empty : (∀ x : BgpAddrs, x.isEmpty = true ↔ x.len = 0) ∧ BgpAddrs.None.isEmpty = true := by
  refine ⟨fun x => ?_, rfl⟩
  cases x <;> simp [BgpAddrs.isEmpty, BgpAddrs.len]

example : (BgpAddrs.IPV4U [⟨0x0a000000#32, 8⟩, ⟨0x0b000000#32, 8⟩]).len = 2 ∧
    (BgpAddrs.IPV4U [⟨0x0a000000#32, 8⟩]).isEmpty = false := by decide

/-- **C84.** What fresh messages announce: an OPEN version 4, AS 0, hold time 180, router id 127.0.0.1 and no optional
parameters; an UPDATE nothing withdrawn, no attributes and no routes; a NOTIFICATION code, subcode and data 0. -/
theorem C84_fresh_messages (p : BgpSessionParams) :
    Writes BgpOpenMessage.new.encodeTo [4, 0, 0, 0, 180, 127, 0, 0, 1, 0] ∧
    Writes (BgpUpdateMessage.new.encodeTo p) [0, 0, 0, 0] ∧
    Writes BgpNotificationMessage.new.encodeTo [0, 0, 0, 0] := by
  refine ⟨?_, ?_, ?_⟩
  · have := writes_open BgpOpenMessage.new (by simp [BgpOpenMessage.new])
    exact this
  · have := update_writes p .new (by simp [PartsOk, BgpUpdateMessage.new, SectionOk]) (by simp [BgpUpdateMessage.new, addrsWire]) (by simp [BgpUpdateMessage.new])
    have e : updateWire p .new = [0, 0, 0, 0] := by
      simp [updateWire, BgpUpdateMessage.new, addrsWire, attrsWire, updateBytes, be_two]
    rwa [e] at this
  · intro buf hb
    exact (C10_notification_round_trip BgpNotificationMessage.new BgpNotificationMessage.new buf hb).1

example : BgpOpenMessage.new.encodeTo (List.replicate 11 9) = .ok ([4, 0, 0, 0, 180, 127, 0, 0, 1, 0, 9], 10) := by decide

end Zbgp.Props
