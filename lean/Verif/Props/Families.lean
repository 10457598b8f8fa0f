import Verif.Lemmas.Flowspec
import Verif.Props.Nlri

/-! # C49-C54: EVPN, MVPN, VPLS, MDT and FlowSpec NLRI -/

namespace Zbgp.Props

open Zbgp Spec

attribute [-simp] List.length_flatMap

/-! ## C49 -/

/-- **C49 (partial).** Any list of EVPN routes of types 1 to 5, other than type 5 routes for IPv6 prefixes, is written in
any sufficient buffer as route type, exact length and body each, nothing behind is touched, and it reads back as the
same list. What is missing: type 5 routes for IPv6 (`C49_ipv6_prefix_not_carried`). -/
theorem C49_evpn_round_trip_partial (l : List BgpEVPN) (mode : BgpTransportMode) (h : ∀ x ∈ l, EvpnWF x)
    (h6 : ∀ x ∈ l, ¬ EvpnV6Prefix x) (buf : Bytes) (hb : (l.flatMap evpnWire).length ≤ buf.length) :
    ∃ buf' n, encodeAddrItems l mode buf = .ok (buf', n) ∧
      buf'.take n = l.flatMap (fun x => evpnType x :: BitVec.ofNat 8 (evpnBody x).length :: evpnBody x) ∧
      (∀ x ∈ l, (evpnBody x).length < 256) ∧
      buf'.drop n = buf.drop n ∧ buf'.length = buf.length ∧
      decodeAddrItems mode (buf'.take n) = .ok (l, n) := by
  have hok : ∀ x ∈ l, evpnOk x := fun x hx => ⟨h x hx, h6 x hx⟩
  have hw : Writes (encodeAddrItems l mode) (l.flatMap evpnWire) :=
    encLoop_writes_zero l fun x hx => evpn_writes x mode (hok x hx)
  refine ⟨_, _, hw buf hb, ?_, ?_, ?_, ?_, ?_⟩
  · rw [List.take_left' rfl]; rfl
  · intro x hx; have := evpn_body_le x (hok x hx); omega
  · rw [List.drop_left' rfl]
  · simp; omega
  · rw [List.take_left' rfl]
    have := decList_reads' (lim := 0) (dec := BgpAddrItem.decodeFrom (T := BgpEVPN) mode) (w := evpnWire) (y := id) l
      fun x hx => ⟨by simp [evpnWire], fun rest => evpn_reads x mode (hok x hx) rest⟩
    simpa [decodeAddrItems] using this

/-- non-vacuity of C49: one route of each type -/
def evpnSample : List BgpEVPN :=
  [.evpn1 ⟨⟨1, 2⟩, 0, ⟨Vector.replicate 9 7⟩, 5, ⟨[1000]⟩⟩,
   .evpn2 ⟨⟨1, 2⟩, 0, ⟨Vector.replicate 9 7⟩, 5, ⟨1, 2, 3, 4, 5, 6⟩, some (.v6 9), ⟨[1000, 2000]⟩⟩,
   .evpn3 ⟨⟨1, 2⟩, 5, .v4 0x0a000001⟩,
   .evpn4 ⟨⟨1, 2⟩, 0, ⟨Vector.replicate 9 7⟩, .v6 77⟩,
   .evpn5 ⟨⟨1, 2⟩, 0, ⟨Vector.replicate 9 7⟩, 5, 24, .v4 0x0a000000, .v4 0, ⟨[1000]⟩⟩]

example : (∀ x ∈ evpnSample, EvpnWF x) ∧ (∀ x ∈ evpnSample, ¬ EvpnV6Prefix x) := by
  simp [evpnSample, EvpnWF, EvpnV6Prefix, EvpnLabels, LabelStackWF, stackEnding]

/-- The gap in C49: an IPv6 prefix route is written with 42 octets of body, too few for its fields (the label overwrites
the gateway), and the decoder rejects it. -/
theorem C49_ipv6_prefix_not_carried :
    let x : BgpEVPN := .evpn5 ⟨⟨1, 2⟩, 0, ⟨Vector.replicate 9 7⟩, 5, 64, .v6 (0x20010db8 <<< 96), .v6 1, ⟨[1000]⟩⟩
    EvpnWF x ∧ ∃ buf' n, encodeAddrItems [x] .IPv4 (List.replicate 80 0) = .ok (buf', n) ∧ n = 44 ∧
      (evpnWire x).length = 60 ∧ (decodeAddrItems (T := BgpEVPN) .IPv4 (buf'.take n)).IsErr ∧
      (decodeAddrItems (T := BgpEVPN) .IPv4 (evpnWire x)) ≠ .ok ([x], 60) := by
  refine ⟨?_, ?_⟩
  · simp [EvpnWF, LabelStackWF]
  · exact ⟨_, _, rfl, by decide, by decide, by decide, by decide⟩

/-! ## C50 -/

/-- **C50 (partial).** Any list of MVPN routes of types 1 and 2, whose addresses are of the transport addrFamily, is written
as route type, exact length and body each, and reads back as the same list. What is missing: types 3 to 7
(`C50_types_3_to_7_not_carried`). -/
theorem C50_mvpn_round_trip_partial (l : List BgpMVPN) (mode : BgpTransportMode) (h : ∀ x ∈ l, MvpnWF mode x)
    (h12 : ∀ x ∈ l, mvpnType x = 1 ∨ mvpnType x = 2) (buf : Bytes)
    (hb : (l.flatMap mvpnWire).length ≤ buf.length) :
    ∃ buf' n, encodeAddrItems l mode buf = .ok (buf', n) ∧
      buf'.take n = l.flatMap (fun x => mvpnType x :: BitVec.ofNat 8 (mvpnBody x).length :: mvpnBody x) ∧
      (∀ x ∈ l, (mvpnBody x).length < 256) ∧
      buf'.drop n = buf.drop n ∧ buf'.length = buf.length ∧
      decodeAddrItems mode (buf'.take n) = .ok (l, n) := by
  have hok : ∀ x ∈ l, mvpnOk mode x := by
    intro x hx
    have h1 := h x hx
    have h2 := h12 x hx
    cases x <;> simp [mvpnType] at h2 <;> exact h1
  have hw : Writes (encodeAddrItems l mode) (l.flatMap mvpnWire) :=
    encLoop_writes_zero l fun x hx => mvpn_writes x mode (hok x hx)
  refine ⟨_, _, hw buf hb, ?_, ?_, ?_, ?_, ?_⟩
  · rw [List.take_left' rfl]; rfl
  · intro x hx; have := mvpn_body_le x (hok x hx); omega
  · rw [List.drop_left' rfl]
  · simp; omega
  · rw [List.take_left' rfl]
    have := decList_reads' (lim := 0) (dec := BgpAddrItem.decodeFrom (T := BgpMVPN) mode) (w := mvpnWire) (y := id) l
      fun x hx => ⟨by simp [mvpnWire], fun rest => mvpn_reads x mode (hok x hx) rest⟩
    simpa [decodeAddrItems] using this

/-- non-vacuity of C50 -/
example : ∀ x ∈ [BgpMVPN.t1 ⟨⟨1, 2⟩, .v6 5⟩, .t2 ⟨⟨1, 2⟩, 65000⟩],
    MvpnWF .IPv6 x ∧ (mvpnType x = 1 ∨ mvpnType x = 2) := by
  simp [MvpnWF, addrFamily, mvpnType]

/-- The gap in C50: routes of types 3 to 7 are written without the length octets of their source and group, which the
decoder requires; what is written does not decode. -/
theorem C50_types_3_to_7_not_carried :
    ∀ x ∈ [BgpMVPN.t3 ⟨⟨1, 2⟩, .v4 1, .v4 2, .v4 3⟩, .t4 ⟨⟨⟨1, 2⟩, .v4 1, .v4 2, .v4 3⟩, .v4 4⟩,
        .t5 ⟨⟨1, 2⟩, .v4 1, .v4 2⟩, .t6 ⟨⟨1, 2⟩, 65000, .v4 1, .v4 2⟩, .t7 ⟨⟨1, 2⟩, 65000, .v4 1, .v4 2⟩],
      MvpnWF .IPv4 x ∧ ∃ buf' n, encodeAddrItems [x] .IPv4 (List.replicate 80 0) = .ok (buf', n) ∧
        (decodeAddrItems (T := BgpMVPN) .IPv4 (buf'.take n)).IsErr := by
  intro x hx
  simp only [List.mem_cons, List.not_mem_nil, or_false] at hx
  rcases hx with rfl | rfl | rfl | rfl | rfl <;>
    exact ⟨by simp [MvpnWF, addrFamily], _, _, rfl, by decide⟩

/-! ## C51 -/

/-- **C51 (partial)**, decoding: the wire form of any list of VPLS NLRI with well-formed label stacks (up to ten labels)
decodes to the list. -/
theorem C51_vpls_decode_partial (l : List BgpAddrL2)
    (h : ∀ x ∈ l, LabelStackWF x.labels.labels ∧ x.labels.labels.length ≤ 10) :
    decodeLongItems (l.flatMap vplsWire) = .ok (l, (l.flatMap vplsWire).length) := by
  have := decList_reads' (lim := 0) (dec := decodeLongItem (T := BgpAddrL2)) (w := vplsWire) (y := id) l
    (fun x hx => ⟨by simp [vplsWire], fun rest => vpls_item_reads x (h x hx).1 (h x hx).2 rest⟩)
  simpa [decodeLongItems] using this

/-- **C51 (partial)**, encoding: a single VPLS NLRI is written as two-octet length and body, and the octets written decode
to it. What is missing: the encoder reports two octets less than it wrote, so lists of more than one item overwrite each
other and the reported octets do not decode (`C51_reported_length_short`). -/
theorem C51_vpls_encode_partial (x : BgpAddrL2) (h : LabelStackWF x.labels.labels) (h10 : x.labels.labels.length ≤ 10)
    (buf : Bytes) (hb : (vplsWire x).length ≤ buf.length) :
    ∃ buf' n, encodeLongItems [x] buf = .ok (buf', n) ∧ n + 2 = (vplsWire x).length ∧
      buf'.take (n + 2) = be 2 (vplsBody x).length ++ vplsBody x ∧ buf'.drop (n + 2) = buf.drop (n + 2) ∧
      decodeLongItems (buf'.take (n + 2)) = .ok ([x], n + 2) := by
  have hl : (vplsWire x).length = (vplsBody x).length + 2 := by simp [vplsWire]; omega
  refine ⟨_, _, vpls_items_single x h.1 h10 buf hb, hl.symm, ?_, ?_, ?_⟩
  · rw [← hl, List.take_left' rfl]; rfl
  · rw [← hl, List.drop_left' rfl]
  · rw [← hl, List.take_left' rfl]
    have := C51_vpls_decode_partial [x] (by simp [h, h10])
    simpa using this

/-- non-vacuity of C51 -/
example : LabelStackWF (⟨⟨1, 2⟩, 3, 4, 5, ⟨[1000]⟩⟩ : BgpAddrL2).labels.labels ∧
    vplsWire ⟨⟨1, 2⟩, 3, 4, 5, ⟨[1000]⟩⟩ =
      [0, 17, 0, 0, 0, 1, 0, 0, 0, 2, 0, 3, 0, 4, 0, 5, 0, 62, 129] := by
  refine ⟨by simp [LabelStackWF], by decide⟩

/-- The gap in C51: for every item, the octets the encoder reports do not decode: they panic. -/
theorem C51_reported_length_short (x : BgpAddrL2) (h : LabelStackWF x.labels.labels) (h10 : x.labels.labels.length ≤ 10)
    (buf : Bytes) (hb : (vplsWire x).length ≤ buf.length) :
    ∃ buf' n, encodeLongItems [x] buf = .ok (buf', n) ∧ decodeLongItems (T := BgpAddrL2) (buf'.take n) = .panic := by
  refine ⟨_, _, vpls_items_single x h.1 h10 buf hb, ?_⟩
  have hl : (vplsBody x).length = 14 + 3 * x.labels.labels.length := by unfold vplsBody; lens
  have e : (vplsWire x ++ buf.drop (vplsWire x).length).take (vplsBody x).length =
      be 2 (vplsBody x).length ++ (vplsBody x).take ((vplsBody x).length - 2) := by
    rw [List.take_append_of_le_length (by simp [vplsWire]), vplsWire, List.take_append, be_length,
      List.take_of_length_le (by simp; omega)]
  rw [e]
  unfold decodeLongItems decList decLoop
  rw [if_pos (by simp)]
  unfold decodeLongItem
  rw [rslice_append_zero _ _ _ (by simp)]
  simp only [Res.ok_bind, getn16_two]
  rw [BitVec.toNat_ofNat, Nat.mod_eq_of_lt (by omega)]
  rw [show rslice (be 2 (vplsBody x).length ++ (vplsBody x).take ((vplsBody x).length - 2)) 2 ((vplsBody x).length + 2) =
    .panic by unfold rslice; rw [if_neg (by simp; omega)]]
  rfl

/-! ## C52 -/

/-- **C52**, IPv4: any list of MDT NLRI (route distinguisher, prefix, group) with prefix lengths up to 32 is written as
length octet, RD, prefix octets and group, and reads back, address octets that are not sent being zero. -/
theorem C52_mdt4_round_trip (l : List (WithRd BgpMdtV4)) (h : ∀ x ∈ l, x.pfx.addr.prefixlen.toNat ≤ 32) (buf : Bytes)
    (hb : (l.flatMap nlriWire).length ≤ buf.length) :
    ∃ buf' n, encodeItems l buf = .ok (buf', n) ∧
      buf'.take n = l.flatMap (fun x => BitVec.ofNat 8 (64 + x.pfx.addr.prefixlen.toNat + 32) ::
        (be 4 x.rd.rdh.toNat ++ be 4 x.rd.rdl.toNat ++
          (be 4 x.pfx.addr.addr.toNat).take ((x.pfx.addr.prefixlen.toNat + 7) / 8) ++ be 4 x.pfx.group.toNat)) ∧
      buf'.drop n = buf.drop n ∧ buf'.length = buf.length ∧
      decodeItems (buf'.take n) = .ok (l.map NlriKind.received, n) ∧
      ((∀ x ∈ l, NetworkForm 32 x.pfx.addr.addr.toNat x.pfx.addr.prefixlen.toNat) →
        decodeItems (buf'.take n) = .ok (l, n)) := by
  have hwf : ∀ x ∈ l, NlriKind.WF x := by
    intro x hx
    have := h x hx
    simp only [NlriKind.WF, NlriKind.bits]
    omega
  obtain ⟨b', n, h1, h2, h3, h4, h5⟩ := nlri_round_trip l hwf buf hb
  refine ⟨b', n, h1, ?_, h3, h4, h5, ?_⟩
  · rw [h2]
    apply List.flatMap_congr
    intro x _
    simp [nlriWire, NlriKind.bits, NlriKind.body, prefixBody, octets, rdBody, Nat.add_assoc]
  · intro hn
    rw [h5]
    congr 2
    conv_rhs => rw [← List.map_id l]
    apply List.map_congr_left
    intro x hx
    have := received_v4 (networkForm_octets (n := 4) (h x hx) (hn x hx))
    obtain ⟨⟨a, g⟩, rd⟩ := x
    simp only [NlriKind.received] at this ⊢
    simp only [this, id]

/-- **C52 (partial)**, IPv6: the same for prefix lengths up to 63. What is missing: longer prefixes, whose length octet
would exceed 255 (`C52_mdt6_long_prefix_panics`). -/
theorem C52_mdt6_round_trip_partial (l : List (WithRd BgpMdtV6)) (h : ∀ x ∈ l, x.pfx.addr.prefixlen.toNat ≤ 63)
    (buf : Bytes) (hb : (l.flatMap nlriWire).length ≤ buf.length) :
    ∃ buf' n, encodeItems l buf = .ok (buf', n) ∧
      buf'.take n = l.flatMap (fun x => BitVec.ofNat 8 (64 + x.pfx.addr.prefixlen.toNat + 128) ::
        (be 4 x.rd.rdh.toNat ++ be 4 x.rd.rdl.toNat ++
          (be 16 x.pfx.addr.addr.toNat).take ((x.pfx.addr.prefixlen.toNat + 7) / 8) ++ be 16 x.pfx.group.toNat)) ∧
      buf'.drop n = buf.drop n ∧ buf'.length = buf.length ∧
      decodeItems (buf'.take n) = .ok (l.map NlriKind.received, n) ∧
      ((∀ x ∈ l, NetworkForm 128 x.pfx.addr.addr.toNat x.pfx.addr.prefixlen.toNat) →
        decodeItems (buf'.take n) = .ok (l, n)) := by
  have hwf : ∀ x ∈ l, NlriKind.WF x := by
    intro x hx
    have := h x hx
    simp only [NlriKind.WF, NlriKind.bits]
    omega
  obtain ⟨b', n, h1, h2, h3, h4, h5⟩ := nlri_round_trip l hwf buf hb
  refine ⟨b', n, h1, ?_, h3, h4, h5, ?_⟩
  · rw [h2]
    apply List.flatMap_congr
    intro x _
    simp [nlriWire, NlriKind.bits, NlriKind.body, prefixBody, octets, rdBody, Nat.add_assoc]
  · intro hn
    rw [h5]
    congr 2
    conv_rhs => rw [← List.map_id l]
    apply List.map_congr_left
    intro x hx
    have := received_v6 (networkForm_octets (n := 16) (by have := h x hx; omega) (hn x hx))
    obtain ⟨⟨a, g⟩, rd⟩ := x
    simp only [NlriKind.received] at this ⊢
    simp only [this, id]

/-- non-vacuity of C52 -/
example : (∀ x ∈ [(⟨⟨⟨0x0a000000, 8⟩, 0xe8000001⟩, ⟨1, 2⟩⟩ : WithRd BgpMdtV4)], x.pfx.addr.prefixlen.toNat ≤ 32 ∧
      NetworkForm 32 x.pfx.addr.addr.toNat x.pfx.addr.prefixlen.toNat) ∧
    (∀ x ∈ [(⟨⟨⟨0x20010db8 <<< 96, 32⟩, 0xff <<< 120⟩, ⟨1, 2⟩⟩ : WithRd BgpMdtV6)], x.pfx.addr.prefixlen.toNat ≤ 63 ∧
      NetworkForm 128 x.pfx.addr.addr.toNat x.pfx.addr.prefixlen.toNat) := by
  refine ⟨?_, ?_⟩ <;> intro x hx <;> simp only [List.mem_singleton] at hx <;> subst hx <;> decide

/-- The gap in C52: an IPv6 MDT NLRI with a prefix of 64 bits or more cannot be encoded, its length octet overflows
(panic with overflow checks on). -/
theorem C52_mdt6_long_prefix_panics :
    encodeItems [(⟨⟨⟨0x20010db8 <<< 96, 64⟩, 0xff <<< 120⟩, ⟨1, 2⟩⟩ : WithRd BgpMdtV6)] (List.replicate 80 0) = .panic := by
  decide

/-! ## C54 -/

/-- **C54.** A single operator, for all flags and 32-bit values: it is written as one operator octet (no end-of-list bit)
and the value in the fewest of 1, 2 or 4 octets, and reads back with or without the end-of-list bit, whatever follows.
For both kinds of operators. -/
theorem C54_operator_round_trip :
    (∀ (x : FSOperValItem) (last : Bool) (rest buf : Bytes), (fsOpWire false x).length ≤ buf.length →
      FSOperItem.encodeTo x buf = .ok (fsOpWire false x ++ buf.drop (fsOpWire false x).length, (fsOpWire false x).length) ∧
      FSOperItem.decodeFrom (fsOpWire last x ++ rest) = .ok (x, (fsOpWire last x).length)) ∧
    (∀ (x : FSOperMaskItem) (last : Bool) (rest buf : Bytes), (fsOpWire false x).length ≤ buf.length →
      FSOperItem.encodeTo x buf = .ok (fsOpWire false x ++ buf.drop (fsOpWire false x).length, (fsOpWire false x).length) ∧
      FSOperItem.decodeFrom (fsOpWire last x ++ rest) = .ok (x, (fsOpWire last x).length)) :=
  ⟨fun x last rest buf hb => ⟨FsLawful.writes x buf hb, FsLawful.reads x last rest⟩,
   fun x last rest buf hb => ⟨FsLawful.writes x buf hb, FsLawful.reads x last rest⟩⟩

/-- The value field of an operator is the shortest of 1, 2, 4 octets that holds the value. -/
theorem C54_value_minimal (v : Nat) (h : v < 2 ^ 32) :
    v < 256 ^ (2 ^ fsLenCode v) ∧ ∀ k, k < fsLenCode v → 256 ^ (2 ^ k) ≤ v := by
  rcases fsLenCode_cases v with ⟨h1, e⟩ | ⟨h1, h2, e⟩ | ⟨h1, e⟩ <;> rw [e]
  · exact ⟨by simpa using h1, by omega⟩
  · refine ⟨by simpa using h2, ?_⟩
    intro k hk
    obtain rfl : k = 0 := by omega
    simpa using h1
  · refine ⟨by simpa using h, ?_⟩
    intro k hk
    have : k = 0 ∨ k = 1 := by omega
    rcases this with rfl | rfl
    · simp; omega
    · simpa using h1

/-- **C54**, lists: any list of operators is written as its operators in order, the end-of-list bit on the last one only,
and reads back as the same list. -/
theorem C54_operator_list_round_trip :
    (∀ (v : FSOperVec FSOperValItem) (buf : Bytes), (fsOpsWire v.items).length ≤ buf.length →
      v.encodeTo buf = .ok (fsOpsWire v.items ++ buf.drop (fsOpsWire v.items).length, (fsOpsWire v.items).length) ∧
      FSOperVec.decodeFrom (fsOpsWire v.items) = .ok (v, (fsOpsWire v.items).length)) ∧
    (∀ (v : FSOperVec FSOperMaskItem) (buf : Bytes), (fsOpsWire v.items).length ≤ buf.length →
      v.encodeTo buf = .ok (fsOpsWire v.items ++ buf.drop (fsOpsWire v.items).length, (fsOpsWire v.items).length) ∧
      FSOperVec.decodeFrom (fsOpsWire v.items) = .ok (v, (fsOpsWire v.items).length)) :=
  ⟨fun v buf hb => ⟨fsVec_writes v buf hb, fsVec_reads v.items⟩,
   fun v buf hb => ⟨fsVec_writes v buf hb, fsVec_reads v.items⟩⟩

/-- non-vacuity of C54: `>= 1024 and <= 65536 or = 80` -/
example : fsOpsWire [(⟨false, false, true, true, 1024⟩ : FSOperValItem), ⟨true, true, false, true, 65536⟩,
      ⟨false, false, false, true, 80⟩] = [0x13, 4, 0, 0x65, 0, 1, 0, 0, 0x81, 80] ∧
    (fsOpsWire [(⟨true, true, false, 2⟩ : FSOperMaskItem)]) = [0xc2, 2] := by decide

/-! ## C53 -/

/-- **C53 (partial).** A list of FlowSpec NLRI with operator components whose value lists have exactly one value below
256 (for masks: below 65536, the others at least 2^24), up to 4094 octets each, is written with correct lengths and reads
back as the same list, for IPv4 and IPv6. What is missing: other value lists, prefix components that are not the last NLRI, and
the VPN form (`C53_two_small_values_lost`, `C53_large_value_panics`, `C53_prefix_misaligns`, `C53_vpn_prefix_panics`). -/
theorem C53_flowspec_ops_round_trip_partial {T : Type} [FSItem T] [FsPrefix T] (k : FsPrefixKind T)
    (l : List (BgpFlowSpec T)) (mode : BgpTransportMode) (h : ∀ x ∈ l, FsOpsOk x)
    (hl : ∀ x ∈ l, (fsComponent x).length ≤ 4094) (buf : Bytes) (hb : (l.flatMap fsWire).length ≤ buf.length) :
    ∃ buf' n, encodeAddrItems l mode buf = .ok (buf', n) ∧ buf'.take n = l.flatMap fsWire ∧
      buf'.drop n = buf.drop n ∧ buf'.length = buf.length ∧
      decodeAddrItems mode (buf'.take n) = .ok (l, n) := by
  have := k.lawful
  have hw : Writes (encodeAddrItems l mode) (l.flatMap fsWire) :=
    encLoop_writes_zero l fun x hx => fs_writes x (.inl (h x hx)) (hl x hx)
  refine ⟨_, _, hw buf hb, ?_, ?_, ?_, ?_⟩
  · rw [List.take_left' rfl]
  · rw [List.drop_left' rfl]
  · simp; omega
  · rw [List.take_left' rfl]
    have := decList_reads' (lim := 0) (dec := BgpAddrItem.decodeFrom (T := BgpFlowSpec T) mode) (w := fsWire) (y := id) l
      fun x hx => ⟨by simp only [fsWire, fsLen]; split <;> simp,
        fun rest => fs_reads x (h x hx) (hl x hx) rest⟩
    simpa [decodeAddrItems] using this

/-- **C53 (partial)**: a prefix component as the only NLRI is written with its correct length and reads back, with one octet
too many reported as consumed. -/
theorem C53_flowspec_prefix_round_trip_partial {T : Type} [FSItem T] [FsPrefix T] (k : FsPrefixKind T)
    (x : BgpFlowSpec T) (mode : BgpTransportMode) (h : FsPrefixOk x)
    (hl : (fsComponent x).length ≤ 4094) (buf : Bytes) (hb : (fsWire x).length ≤ buf.length) :
    ∃ buf' n, encodeAddrItems [x] mode buf = .ok (buf', n) ∧ buf'.take n = fsWire x ∧
      buf'.drop n = buf.drop n ∧ buf'.length = buf.length ∧
      decodeAddrItems mode (buf'.take n) = .ok ([fsReceived x], n + 1) := by
  have := k.lawful
  have hw : Writes (encodeAddrItems [x] mode) ([x].flatMap fsWire) :=
    encLoop_writes_zero [x] fun y hy => by
      simp only [List.mem_singleton] at hy; subst hy; exact fs_writes y (.inr h) hl
  simp only [List.flatMap_cons, List.flatMap_nil, List.append_nil] at hw
  refine ⟨_, _, hw buf hb, ?_, ?_, ?_, ?_⟩
  · rw [List.take_left' rfl]
  · rw [List.drop_left' rfl]
  · simp; omega
  · rw [List.take_left' rfl]
    have hr := fs_reads_prefix x h hl []
    rw [List.append_nil] at hr
    have hpos : 0 < (fsWire x).length := by simp only [fsWire, fsLen]; split <;> simp
    obtain ⟨k, hk⟩ : ∃ k, (fsWire x).length = k + 1 := ⟨(fsWire x).length - 1, by omega⟩
    unfold decodeAddrItems decList
    simp only [BgpAddrItem.decodeFrom]
    rw [decLoop, if_pos hpos, hr]
    simp only [Res.ok_bind]
    rw [List.drop_of_length_le (by omega), hk, decLoop, if_neg (by simp)]
    rfl

/-- non-vacuity of C53: `proto = 6`, `port = 80 or >= 1024`, `tcp flags match 2`, and a prefix -/
example :
    (∀ x ∈ [(.proto ⟨[⟨false, false, false, true, 6⟩]⟩ : BgpFlowSpec BgpAddrV4),
        .portDst ⟨[⟨false, false, false, true, 80⟩, ⟨false, false, true, true, 1024⟩]⟩,
        .tcpFlags ⟨[⟨false, false, true, 2⟩]⟩], FsOpsOk x) ∧
    FsPrefixOk (.prefixDst ⟨0x0a000000, 8⟩ : BgpFlowSpec BgpAddrV4) ∧
    [(.proto ⟨[⟨false, false, false, true, 6⟩]⟩ : BgpFlowSpec BgpAddrV4)].flatMap fsWire = [3, 3, 0x81, 6] := by
  refine ⟨?_, ?_, by decide⟩
  · simp [FsOpsOk, FsValsOk, FsMasksOk]
  · simp [FsPrefixOk, FsPrefix.WF]

/-- The gap in C53: with two values below 256 the announced length is one octet short and the rule is not recovered. -/
theorem C53_two_small_values_lost :
    let x : BgpFlowSpec BgpAddrV4 := .proto ⟨[⟨false, false, false, true, 6⟩, ⟨false, false, false, true, 17⟩]⟩
    ∃ buf' n, encodeAddrItems [x] .IPv4 (List.replicate 20 0) = .ok (buf', n) ∧
      decodeAddrItems (T := BgpFlowSpec BgpAddrV4) .IPv4 (buf'.take n) = .panic :=
  ⟨_, _, rfl, by decide⟩

/-- The gap in C53: a rule with a single value of 256 or more announces one octet too many. -/
theorem C53_large_value_panics :
    let x : BgpFlowSpec BgpAddrV4 := .portDst ⟨[⟨false, false, false, true, 8080⟩]⟩
    ∃ buf' n, encodeAddrItems [x] .IPv4 (List.replicate 20 0) = .ok (buf', n) ∧
      decodeAddrItems (T := BgpFlowSpec BgpAddrV4) .IPv4 (buf'.take n) = .panic :=
  ⟨_, _, rfl, by decide⟩

/-- The gap in C53: an NLRI behind a prefix component is read at a position off by one. -/
theorem C53_prefix_misaligns :
    let l : List (BgpFlowSpec BgpAddrV4) := [.prefixDst ⟨0x0a000000, 8⟩, .proto ⟨[⟨false, false, false, true, 6⟩]⟩]
    ∃ buf' n, encodeAddrItems l .IPv4 (List.replicate 20 0) = .ok (buf', n) ∧
      decodeAddrItems (T := BgpFlowSpec BgpAddrV4) .IPv4 (buf'.take n) ≠ .ok (l, n) :=
  ⟨_, _, rfl, by decide⟩

/-- The gap in C53: a VPN FlowSpec prefix is written with a zero length octet, on which the decoder panics. -/
theorem C53_vpn_prefix_panics :
    let x : BgpFlowSpec FSV4U := .prefixDst ⟨⟨⟨0x0a000000, 8⟩, ⟨1, 2⟩⟩⟩
    ∃ buf' n, encodeAddrItems [x] .IPv4 (List.replicate 20 0) = .ok (buf', n) ∧
      decodeAddrItems (T := BgpFlowSpec FSV4U) .IPv4 (buf'.take n) = .panic :=
  ⟨_, _, rfl, by decide⟩

end Zbgp.Props
