import Verif.Lemmas.Sets
import Verif.Lemmas.Addrs

/-! # Path attribute codecs -/

namespace Zbgp

open Spec

attribute [-simp] List.length_flatMap

/-! ## Small codecs -/

theorem decodeAddr_body (a : IpAddr) : decodeAddr (ipBody a) = .ok a := by
  cases a <;> simp [ipBody, decodeAddr, decodeAddrV4_four, decodeAddrV6_sixteen]

theorem ipBody_length (a : IpAddr) : (ipBody a).length = match addrFamily a with | .IPv4 => 4 | .IPv6 => 16 := by
  cases a <;> simp [ipBody, addrFamily]

theorem origin_writes (x : BgpOrigin) : Writes x.encodeTo (valueWire true (.Origin x)) := by
  intro buf hb
  obtain ⟨a, t, rfl⟩ := List.exists_cons_of_length_pos (l := buf) (by
    obtain ⟨v⟩ := x; cases v <;> simp [valueWire] at hb <;> omega)
  obtain ⟨v⟩ := x
  cases v <;> simp [BgpOrigin.encodeTo, valueWire]

theorem origin_reads (x : BgpOrigin) : BgpOrigin.decodeFrom (valueWire true (.Origin x)) = .ok x := by
  obtain ⟨v⟩ := x; cases v <;> rfl

theorem asns_writes (as32 : Bool) (l : List BgpAS) (p t : Bytes) (pos : Nat) (hp : pos = p.length)
    (ht : (l.flatMap (asnWire as32)).length ≤ t.length) :
    BgpASpath.encodeAsns as32 l (p ++ t) pos =
      .ok (p ++ (l.flatMap (asnWire as32) ++ t.drop (l.flatMap (asnWire as32)).length),
        pos + (l.flatMap (asnWire as32)).length) := by
  induction l generalizing p t pos with
  | nil => simp [BgpASpath.encodeAsns]
  | cons a l ih =>
    simp only [List.flatMap_cons, List.length_append] at ht ⊢
    cases as32
    · have hl : (asnWire false a).length = 2 := by simp [asnWire]
      have h16 : be 2 (a.value.setWidth 16).toNat = asnWire false a := by
        simp only [asnWire, BitVec.toNat_setWidth]
        exact be_congr_mod 2 _
      simp only [BgpASpath.encodeAsns, Bool.false_eq_true, ↓reduceIte]
      rw [cur_modRange (fill16 _) p t pos _ hp (by simp [hp]) (by simp; omega)]
      simp only [Res.ok_bind]
      rw [ih _ _ _ (by simp [hp]) (by simp; omega), h16]
      simp only [hl, be_length, List.append_assoc, List.drop_drop, Nat.add_assoc]
    · have hl : (asnWire true a).length = 4 := by simp [asnWire]
      simp only [BgpASpath.encodeAsns, ↓reduceIte]
      rw [cur_modRange (fill32 _) p t pos _ hp (by simp [hp]) (by simp; omega)]
      simp only [Res.ok_bind]
      rw [ih _ _ _ (by simp [hp]) (by simp; omega)]
      simp only [hl, be_length, List.append_assoc, List.drop_drop, Nat.add_assoc]
      simp [asnWire]

theorem asns_length (as32 : Bool) (l : List BgpAS) :
    (l.flatMap (asnWire as32)).length = l.length * if as32 then 4 else 2 := by
  induction l with
  | nil => simp
  | cons a l ih => simp only [List.flatMap_cons, List.length_append, ih, asnWire, be_length, List.length_cons]; split <;> omega

theorem aspath_writes (p : BgpSessionParams) (x : BgpASpath) :
    Writes (x.encodeTo p) (asPathWire p.hasAs32bit x.value) := by
  intro buf hb
  unfold BgpASpath.encodeTo
  by_cases h : x.value = []
  · simp [asPathWire, h]
  · have hl := asns_length p.hasAs32bit x.value
    rw [asPathWire, if_neg h] at hb ⊢
    rw [if_neg (by simpa using h)]
    have hb2 : 2 + x.value.length * (if p.hasAs32bit then 4 else 2) ≤ buf.length := by
      simp only [List.length_append, hl, List.length_cons, List.length_nil] at hb; omega
    obtain ⟨a, b, t, rfl⟩ := exists_cons2 (l := buf) (by omega)
    simp only [List.length_append, List.length_cons, List.length_nil] at hb hb2
    have key := asns_writes p.hasAs32bit x.value [2, BitVec.ofNat 8 x.value.length] t 2 rfl (by omega)
    cases has : p.hasAs32bit <;> rw [has] at key hb2 hb hl <;> simp only [Bool.false_eq_true, ↓reduceIte] at hb2 ⊢ <;>
      rw [if_neg (by simp; omega)] <;>
      simp only [setIdx_cons_zero, setIdx_cons_succ, Res.ok_bind] <;>
      simp only [List.cons_append, List.nil_append] at key <;> rw [key] <;>
      simp [Nat.add_comm 2]

theorem asn32_reads (a : BgpAS) : Reads (BgpASpath.decodeAsn true) (asnWire true a) a := by
  intro rest
  simp only [BgpASpath.decodeAsn, ↓reduceIte, asnWire]
  rw [rslice_append_zero _ _ _ (by simp)]
  simp [getn32_four]

theorem asn16_reads (a : BgpAS) (h : a.value.toNat < 65536) : Reads (BgpASpath.decodeAsn false) (asnWire false a) a := by
  intro rest
  simp only [BgpASpath.decodeAsn, Bool.false_eq_true, ↓reduceIte, asnWire]
  rw [rslice_append_zero _ _ _ (by simp)]
  obtain ⟨v⟩ := a
  simp only [getn16_two, Res.ok_bind, be_length, Res.ok.injEq, Prod.mk.injEq, BgpAS.mk.injEq, and_true]
  apply BitVec.eq_of_toNat_eq
  simp only at h
  simp only [BitVec.toNat_setWidth, BitVec.toNat_ofNat]
  omega

theorem asns_reads (as32 : Bool) (l : List BgpAS) (h : as32 = false → ∀ a ∈ l, a.value.toNat < 65536) :
    decList 0 (BgpASpath.decodeAsn as32) (l.flatMap (asnWire as32)) =
      .ok (l, (l.flatMap (asnWire as32)).length) := by
  have := decList_reads' (lim := 0) (dec := BgpASpath.decodeAsn as32) (w := asnWire as32) (y := id) l (by
    intro x hx
    refine ⟨by simp [asnWire]; split <;> omega, ?_⟩
    cases as32
    · exact asn16_reads x (h rfl x hx)
    · exact asn32_reads x)
  simpa using this

/-- one segment in a session with 32-bit AS numbers -/
theorem aspath_segment32 (p : BgpSessionParams) (hp : p.hasAs32bit = true) (s : Segment) :
    BgpASpath.decodeFrom p (segmentWire true s) = .ok ⟨s.asns⟩ := by
  have hl := asns_length true s.asns
  simp only [↓reduceIte] at hl
  unfold BgpASpath.decodeFrom segmentWire
  rw [if_neg (by simp)]
  have : ([s.kind, BitVec.ofNat 8 s.asns.length] ++ s.asns.flatMap (asnWire true)).length % 4 = 2 := by
    simp only [List.length_append, hl, List.length_cons, List.length_nil]; omega
  simp only [hp, ↓reduceIte]
  rw [this]
  simp only [List.cons_append, List.nil_append, List.drop_succ_cons, List.drop_zero]
  rw [asns_reads true s.asns (by simp)]
  rfl

theorem asPathWire_segment (as32 : Bool) (l : List BgpAS) (h : l ≠ []) : asPathWire as32 l = segmentWire as32 ⟨2, l⟩ := by
  simp [asPathWire, segmentWire, h]

/-- one segment in a session with 16-bit AS numbers: the header is read as an AS number -/
theorem aspath_segment16 (p : BgpSessionParams) (hp : p.hasAs32bit = false) (s : Segment)
    (h : ∀ a ∈ s.asns, a.value.toNat < 65536) (hn : s.asns.length ≤ 255) :
    BgpASpath.decodeFrom p (segmentWire false s) =
      .ok ⟨⟨BitVec.ofNat 32 (256 * s.kind.toNat + s.asns.length)⟩ :: s.asns⟩ := by
  have hl := asns_length false s.asns
  simp only [Bool.false_eq_true, ↓reduceIte] at hl
  have hk := s.kind.isLt
  have hw : segmentWire false s =
      ((⟨BitVec.ofNat 32 (256 * s.kind.toNat + s.asns.length)⟩ : BgpAS) :: s.asns).flatMap (asnWire false) := by
    simp only [segmentWire, List.flatMap_cons]
    congr 1
    simp only [asnWire, Bool.false_eq_true, ↓reduceIte, BitVec.toNat_ofNat, be_succ, be_zero]
    rw [Nat.mod_eq_of_lt (by omega)]
    congr 1
    · apply BitVec.eq_of_toNat_eq
      simp only [BitVec.toNat_ofNat]; omega
    · congr 1
      apply BitVec.eq_of_toNat_eq
      simp only [BitVec.toNat_ofNat]; omega
  unfold BgpASpath.decodeFrom
  rw [if_neg (by simp [segmentWire])]
  have h2 : (segmentWire false s).length % 2 = 0 := by
    simp only [segmentWire, List.length_append, hl, List.length_cons, List.length_nil]; omega
  simp only [hp, Bool.false_eq_true, ↓reduceIte]
  rw [h2]
  simp only [List.drop_zero, hw]
  rw [asns_reads false _ (by
    intro _ a ha
    rcases List.mem_cons.1 ha with rfl | ha
    · simp only [BitVec.toNat_ofNat]; omega
    · exact h a ha)]
  rfl

theorem decodeAsn_ok (as32 : Bool) (b : Bytes) (h : (if as32 then 4 else 2) ≤ b.length) :
    ∃ a, BgpASpath.decodeAsn as32 b = .ok (a, if as32 then 4 else 2) := by
  unfold BgpASpath.decodeAsn
  cases as32
  · simp only [Bool.false_eq_true, ↓reduceIte] at h ⊢
    rw [rslice_ok (by omega) h]
    simp only [Res.ok_bind]
    rw [getn16_ok (by simp; omega)]
    exact ⟨_, rfl⟩
  · simp only [↓reduceIte] at h ⊢
    rw [rslice_ok (by omega) h]
    simp only [Res.ok_bind]
    rw [getn32_ok (by simp; omega)]
    exact ⟨_, rfl⟩

theorem decodeAsn_progress (as32 : Bool) : Progress (BgpASpath.decodeAsn as32) := by
  intro b x n h
  unfold BgpASpath.decodeAsn at h
  split at h <;> simp only [Res.bind_eq_ok, Res.ok.injEq, Prod.mk.injEq] at h
  · obtain ⟨-, -, -, -, -, rfl⟩ := h; omega
  · obtain ⟨-, -, -, -, -, rfl⟩ := h; omega

theorem asns_total (as32 : Bool) (n : Nat) (b : Bytes) (h : b.length = n * if as32 then 4 else 2) :
    ∃ r, decList 0 (BgpASpath.decodeAsn as32) b = .ok r := by
  induction n generalizing b with
  | zero => exact ⟨_, decList_stop (by simp at h; simp [h])⟩
  | succ n ih =>
    have hw : (if as32 then 4 else 2) ≤ b.length := by rw [h, Nat.add_mul]; omega
    rw [decList_step (decodeAsn_progress as32) (by split at hw <;> omega)]
    obtain ⟨a, ha⟩ := decodeAsn_ok as32 b hw
    rw [ha]
    simp only [Res.ok_bind]
    obtain ⟨r, hr⟩ := ih (b.drop (if as32 then 4 else 2)) (by simp only [List.length_drop, h, Nat.add_mul]; omega)
    rw [hr]
    exact ⟨_, rfl⟩

theorem aspath_total (p : BgpSessionParams) (b : Bytes) : ∃ x, BgpASpath.decodeFrom p b = .ok x := by
  unfold BgpASpath.decodeFrom
  split
  · exact ⟨_, rfl⟩
  · obtain ⟨r, hr⟩ := asns_total p.hasAs32bit
      (if p.hasAs32bit then b.length / 4 else b.length / 2)
      (b.drop (if p.hasAs32bit then b.length % 4 else b.length % 2)) (by
        simp only [List.length_drop]; cases p.hasAs32bit <;> simp <;> omega)
    simp only [hr, Res.ok_bind]
    exact ⟨_, rfl⟩

theorem nexthop_writes (p : BgpSessionParams) (x : BgpNextHop) (h : addrFamily x.value = p.peerMode) :
    Writes (x.encodeTo p) (ipBody x.value) := by
  intro buf hb
  obtain ⟨v⟩ := x
  cases v with
  | v4 a =>
    simp only [ipBody, be_length, addrFamily] at hb h ⊢
    simp only [BgpNextHop.encodeTo]
    rw [if_pos ⟨h.symm, hb⟩]
    exact writes_encodeAddrV4 a buf (by simpa using hb)
  | v6 a =>
    simp only [ipBody, be_length, addrFamily] at hb h ⊢
    simp only [BgpNextHop.encodeTo]
    rw [if_pos ⟨h.symm, hb⟩]
    exact writes_encodeAddrV6 a buf (by simpa using hb)

theorem nexthop_reads (p : BgpSessionParams) (x : BgpNextHop) (h : addrFamily x.value = p.peerMode) :
    BgpNextHop.decodeFrom p (ipBody x.value) = .ok x := by
  obtain ⟨v⟩ := x
  cases v <;> simp only [addrFamily] at h <;>
    simp [BgpNextHop.decodeFrom, ← h, ipBody, decodeAddrV4_four, decodeAddrV6_sixteen]

theorem med_writes (x : BgpMED) : Writes x.encodeTo (be 4 x.value.toNat) := by
  intro buf hb
  simp only [be_length] at hb
  simp [BgpMED.encodeTo, hb, setn32_ok x.value hb]

theorem med_reads (x : BgpMED) : BgpMED.decodeFrom (be 4 x.value.toNat) = .ok x := by
  simp [BgpMED.decodeFrom, getn32_four]

theorem localpref_writes (x : BgpLocalpref) : Writes x.encodeTo (be 4 x.value.toNat) := by
  intro buf hb
  simp only [be_length] at hb
  simp [BgpLocalpref.encodeTo, hb, setn32_ok x.value hb]

theorem localpref_reads (x : BgpLocalpref) : BgpLocalpref.decodeFrom (be 4 x.value.toNat) = .ok x := by
  simp [BgpLocalpref.decodeFrom, getn32_four]

theorem atomic_reads (x : BgpAtomicAggregate) : BgpAtomicAggregate.decodeFrom (ipBody x.value) = .ok x := by
  unfold BgpAtomicAggregate.decodeFrom
  rw [if_neg (by obtain ⟨v⟩ := x; cases v <;> simp [ipBody, be_succ]), decodeAddr_body]
  rfl

theorem originator_writes (p : BgpSessionParams) (x : BgpOriginatorID) (h : addrFamily x.value = p.peerMode) :
    Writes (x.encodeTo p) (ipBody x.value) := by
  intro buf hb
  obtain ⟨v⟩ := x
  cases v with
  | v4 a =>
    simp only [addrFamily] at h
    simp only [BgpOriginatorID.encodeTo, ← h]
    exact writes_encodeAddrV4 a buf (by simpa [ipBody] using hb)
  | v6 a =>
    simp only [addrFamily] at h
    simp only [BgpOriginatorID.encodeTo, ← h]
    exact writes_encodeAddrV6 a buf (by simpa [ipBody] using hb)

theorem originator_reads (p : BgpSessionParams) (x : BgpOriginatorID) (h : addrFamily x.value = p.peerMode) :
    BgpOriginatorID.decodeFrom p (ipBody x.value) = .ok x := by
  obtain ⟨v⟩ := x
  have hb := decodeAddr_body v
  cases v <;> simp only [addrFamily] at h <;> simp only [ipBody] at hb ⊢ <;>
    simp [BgpOriginatorID.decodeFrom, ← h, rslice_all, hb]

theorem clusterlist_writes (x : BgpClusterList) : Writes x.encodeTo (x.value.flatMap ipBody) :=
  encLoop_writes_zero x.value fun a _ => writes_ip a

theorem clusterlist_reads (p : BgpSessionParams) (x : BgpClusterList) (h : ∀ a ∈ x.value, addrFamily a = p.peerMode) :
    BgpClusterList.decodeFrom p (x.value.flatMap ipBody) = .ok x := by
  unfold BgpClusterList.decodeFrom
  have hlen : ∀ a ∈ x.value, (ipBody a).length = match p.peerMode with | .IPv4 => 4 | .IPv6 => 16 := by
    intro a ha
    rw [ipBody_length, h a ha]
  have := decList_reads' (lim := (match p.peerMode with | .IPv4 => 4 | .IPv6 => 16) - 1)
    (dec := fun b => (do
      .ok (← decodeAddr (← rslice b 0 (match p.peerMode with | .IPv4 => 4 | .IPv6 => 16)),
        match p.peerMode with | .IPv4 => 4 | .IPv6 => 16) : Res (IpAddr × Nat)))
    (w := ipBody) (y := id) x.value (by
      intro a ha
      have hl := hlen a ha
      refine ⟨by rw [hl]; cases p.peerMode <;> simp, ?_⟩
      intro rest
      simp only []
      rw [rslice_append_zero _ _ _ hl.symm]
      simp only [Res.ok_bind, decodeAddr_body, id_eq, hl])
  refine (congrArg (fun r => r >>= fun l => Res.ok (⟨l.1⟩ : BgpClusterList)) this).trans ?_
  simp

theorem connector_writes (x : BgpConnector) : Writes x.encodeTo (valueWire true (.Connector x)) := by
  intro buf hb
  have hl : (valueWire true (.Connector x)).length = 14 := by simp [valueWire]
  rw [hl] at hb ⊢
  simp only [BgpConnector.encodeTo, valueWire]
  rw [if_pos hb, setn16_ok 1 (by omega)]
  simp only [Res.ok_bind]
  rw [cur_modRange (fill32 _) _ _ _ _ (by simp) (by simp) (by lens)]
  simp only [Res.ok_bind]
  rw [cur_onRange (writes_encodeAddrV4 _) _ _ _ _ (by simp) (by simp) (by lens)]
  simp only [Res.ok_bind]
  rw [cur_onRange (writes_encodeAddrV4 _) _ _ _ _ (by simp) (by simp) (by lens)]
  simp

theorem connector_reads (x : BgpConnector) : BgpConnector.decodeFrom (valueWire true (.Connector x)) = .ok x := by
  unfold BgpConnector.decodeFrom
  rw [if_pos (by simp [valueWire])]
  simp only [valueWire]
  simp only [List.append_assoc]
  reads

theorem unknown_writes (x : BgpAttrUnknown) : Writes x.encodeTo x.value := by
  intro buf hb
  unfold BgpAttrUnknown.encodeTo
  have := cur_copyAt [] buf x.value 0 x.value.length rfl (by simp) hb
  rw [List.nil_append] at this
  rw [this]
  simp

theorem unknown_reads (tc fl : U8) (v : Bytes) : BgpAttrUnknown.decodeFrom tc fl v = .ok ⟨⟨tc, fl⟩, v⟩ := by
  simp [BgpAttrUnknown.decodeFrom, copyAll]

/-! ## Communities -/

theorem community_writes (c : BgpCommunity) : Writes c.encodeTo (communityWire c) := by
  intro buf hb
  simp only [communityWire, be_length] at hb ⊢
  simp only [BgpCommunity.encodeTo]
  rw [if_neg (by omega), setn32_ok _ hb]
  rfl

theorem community_reads (c : BgpCommunity) :
    Reads (fun b => do .ok (← BgpCommunity.decodeFrom (← rslice b 0 4), 4)) (communityWire c) c := by
  intro rest
  simp only [communityWire]
  rw [rslice_append_zero _ _ _ (by simp)]
  simp [BgpCommunity.decodeFrom, getn32_four]

theorem largeCommunity_writes (c : BgpLargeCommunity) : Writes c.encodeTo (largeCommunityWire c) := by
  intro buf hb
  simp only [largeCommunityWire] at hb ⊢
  simp only [BgpLargeCommunity.encodeTo]
  rw [if_neg (by simp at hb; omega), setn32_ok _ (by lens)]
  simp only [Res.ok_bind]
  rw [cur_modRange (fill32 _) _ _ _ _ (by simp) (by simp) (by lens)]
  simp only [Res.ok_bind]
  rw [cur_modRange (fill32 _) _ _ _ _ (by simp) (by simp) (by lens)]
  simp

theorem largeCommunity_reads (c : BgpLargeCommunity) :
    Reads (fun b => do .ok (← BgpLargeCommunity.decodeFrom (← rslice b 0 12), 12)) (largeCommunityWire c) c := by
  intro rest
  simp only []
  rw [rslice_append_zero _ _ _ (by simp [largeCommunityWire])]
  simp only [BgpLargeCommunity.decodeFrom, largeCommunityWire, Res.ok_bind]
  rw [if_pos (by simp)]
  simp only [List.append_assoc]
  reads

theorem extCommunity_writes (c : BgpExtCommunity) : Writes c.encodeTo (extCommunityWire c) := by
  intro buf hb
  simp only [extCommunityWire] at hb ⊢
  simp only [BgpExtCommunity.encodeTo]
  rw [if_neg (by simp at hb; omega)]
  obtain ⟨a, b, t, rfl⟩ := exists_cons2 (l := buf) (by simp at hb; omega)
  simp only [setIdx_cons_zero, setIdx_cons_succ, Res.ok_bind]
  rw [show c.ctype :: c.subtype :: t = [c.ctype, c.subtype] ++ t by rfl,
    cur_modRange (fill16 _) _ _ _ _ (by simp) (by simp) (by lens)]
  simp only [Res.ok_bind]
  rw [cur_modRange (fill32 _) _ _ _ _ (by simp) (by simp) (by lens)]
  simp

theorem extCommunity_decode (c : BgpExtCommunity) : BgpExtCommunity.decodeFrom (extCommunityWire c) = .ok c := by
  unfold BgpExtCommunity.decodeFrom
  rw [if_pos (by simp [extCommunityWire])]
  simp only [extCommunityWire]
  simp only [List.append_assoc, List.cons_append, List.nil_append]
  reads

theorem extCommunity_reads (c : BgpExtCommunity) :
    Reads (fun b => do .ok (← BgpExtCommunity.decodeFrom (← rslice b 0 8), 8)) (extCommunityWire c) c := by
  intro rest
  simp only []
  rw [rslice_append_zero _ _ _ (by simp [extCommunityWire]), Res.ok_bind, extCommunity_decode]
  simp [extCommunityWire]

theorem communities_decode (l : List BgpCommunity) :
    BgpCommunityList.decodeFrom (l.flatMap communityWire) = .ok ⟨setOf BgpCommunity.lt l⟩ := by
  unfold BgpCommunityList.decodeFrom
  rw [decList_reads' (y := id) l fun c _ => ⟨by simp [communityWire], community_reads c⟩]
  simp

theorem largeCommunities_decode (l : List BgpLargeCommunity) :
    BgpLargeCommunityList.decodeFrom (l.flatMap largeCommunityWire) = .ok ⟨setOf BgpLargeCommunity.lt l⟩ := by
  unfold BgpLargeCommunityList.decodeFrom
  rw [decList_reads' (y := id) l fun c _ => ⟨by simp [largeCommunityWire], largeCommunity_reads c⟩]
  simp

/-- up to seven octets behind the last community are ignored -/
theorem extCommunities_decode (l : List BgpExtCommunity) (t : Bytes) (ht : t.length ≤ 7) :
    BgpExtCommunityList.decodeFrom (l.flatMap extCommunityWire ++ t) = .ok ⟨setOf BgpExtCommunity.lt l⟩ := by
  unfold BgpExtCommunityList.decodeFrom
  rw [decList_reads (y := id) l (fun c _ => ⟨by simp [extCommunityWire], extCommunity_reads c⟩) t ht]
  simp

theorem communities_length (l : List BgpCommunity) : (l.flatMap communityWire).length = l.length * 4 := by
  induction l with
  | nil => rfl
  | cons a l ih => simp only [List.flatMap_cons, List.length_append, ih, communityWire, be_length, List.length_cons]; omega

theorem communities_writes (x : BgpCommunityList) : Writes x.encodeTo (x.value.flatMap communityWire) := by
  intro buf hb
  unfold BgpCommunityList.encodeTo
  rw [communities_length] at hb
  rw [if_neg (by omega)]
  exact encLoop_writes_zero x.value (fun c _ => community_writes c) buf (by rw [communities_length]; exact hb)

theorem largeCommunities_writes (x : BgpLargeCommunityList) : Writes x.encodeTo (x.value.flatMap largeCommunityWire) :=
  encLoop_writes_zero x.value fun c _ => largeCommunity_writes c

theorem extCommunities_writes (x : BgpExtCommunityList) : Writes x.encodeTo (x.value.flatMap extCommunityWire) :=
  encLoop_writes_zero x.value fun c _ => extCommunity_writes c

/-! ## Multiprotocol attributes -/

theorem v4rd_writes (a : BgpIPv4RD) (mode : BgpTransportMode) :
    Writes (BgpAddrItem.encodeTo a mode) (nexthopWire (.V4RD a)) := by
  intro buf hb
  simp only [nexthopWire] at hb ⊢
  simp only [BgpAddrItem.encodeTo]
  rw [rd_writes _ buf (by lens)]
  simp only [Res.ok_bind]
  rw [cur_onFrom (writes_encodeAddrV4 _) _ _ _ rfl (by lens)]
  simp

theorem v6rd_writes (a : BgpIPv6RD) (mode : BgpTransportMode) :
    Writes (BgpAddrItem.encodeTo a mode) (nexthopWire (.V6RD a)) := by
  intro buf hb
  simp only [nexthopWire] at hb ⊢
  simp only [BgpAddrItem.encodeTo]
  rw [rd_writes _ buf (by lens)]
  simp only [Res.ok_bind]
  rw [cur_onFrom (writes_encodeAddrV6 _) _ _ _ rfl (by lens)]
  simp

theorem rd_decode_self (r : BgpRD) : BgpRD.decodeFrom (rdBody r) = .ok (r, 8) := by
  have := rd_reads r []
  simpa using this

theorem v4rd_reads (a : BgpIPv4RD) (mode : BgpTransportMode) :
    Reads (BgpAddrItem.decodeFrom mode) (nexthopWire (.V4RD a)) a := by
  intro rest
  have := decodeAddr_body (.v4 a.addr)
  simp only [ipBody] at this
  simp only [nexthopWire, BgpAddrItem.decodeFrom, List.append_assoc]
  rw [if_pos (by simp; omega)]
  reads
  simp only [rd_decode_self, Res.ok_bind]
  reads
  simp [this]

theorem v6rd_reads (a : BgpIPv6RD) (mode : BgpTransportMode) :
    Reads (BgpAddrItem.decodeFrom mode) (nexthopWire (.V6RD a)) a := by
  intro rest
  have := decodeAddr_body (.v6 a.addr)
  simp only [ipBody] at this
  simp only [nexthopWire, BgpAddrItem.decodeFrom, List.append_assoc]
  rw [if_pos (by simp; omega)]
  reads
  simp only [rd_decode_self, Res.ok_bind]
  reads
  simp [this]

theorem nexthop_encode (nh : BgpAddr) (hnh : (∀ a, nh ≠ .L2 a) ∧ ∀ a, nh ≠ .MVPN a) (p : BgpSessionParams) (a b c d : U8) (t : Bytes)
    (ht : (nexthopWire nh).length ≤ t.length) :
    BgpMPUpdates.encodeNexthop nh p (a :: b :: c :: d :: t) =
      .ok (a :: b :: c :: d :: (nexthopWire nh ++ t.drop (nexthopWire nh).length), (nexthopWire nh).length) := by
  have step : ∀ {f : Enc} {w : Bytes}, Writes f w → w.length ≤ t.length →
      onFrom (a :: b :: c :: d :: t) 4 f = .ok (a :: b :: c :: d :: (w ++ t.drop w.length), w.length) := by
    intro f w hf hl
    have := cur_onFrom hf [a, b, c, d] t 4 rfl hl
    simpa using this
  cases nh with
  | None => simp [BgpMPUpdates.encodeNexthop, nexthopWire]
  | V4 x => exact step (writes_encodeAddrV4 x) ht
  | V6 x => exact step (writes_encodeAddrV6 x) ht
  | V4RD x => exact step (v4rd_writes x _) ht
  | V6RD x => exact step (v6rd_writes x _) ht
  | L2 x => exact absurd rfl (hnh.1 x)
  | MVPN x => exact absurd rfl (hnh.2 x)

theorem nexthopWire_small (nh : BgpAddr) : (nexthopWire nh).length ≤ 24 := by
  cases nh <;> simp [nexthopWire]

theorem familyWire_cons (f : Family) : ∃ a b, be 2 (familyCode f).1.toNat = [a, b] ∧ familyWire f = [a, b, (familyCode f).2] :=
  ⟨_, _, be_two _, by rw [familyWire, be_two]; rfl⟩

theorem mpReach_writes (p : BgpSessionParams) (x : BgpMPUpdates) {f : Family} {ap : Bool}
    (hk : kindOf x.addrs = some (f, ap)) (hnh : (∀ a, x.nexthop ≠ .L2 a) ∧ ∀ a, x.nexthop ≠ .MVPN a) (hw : AddrsWF x.addrs) :
    Writes (x.encodeTo p) (mpReachWire f x.nexthop x.addrs) := by
  intro buf hb
  have hf := addrs_writes x.addrs p hw
  obtain ⟨a', b', h2, hfw⟩ := familyWire_cons f
  simp only [mpReachWire, hfw] at hb ⊢
  obtain ⟨a, b, c, d, t, rfl⟩ := exists_cons4 (l := buf) (by simp at hb; omega)
  simp only [List.length_append, List.length_cons, List.length_nil] at hb
  unfold BgpMPUpdates.encodeTo
  rw [addrs_code _ hk]
  have h1 := cur_modRange (fill16 (familyCode f).1) [] (a :: b :: c :: d :: t) 0 2 rfl (by simp) (by simp)
  rw [List.nil_append, h2] at h1
  rw [h1]
  simp only [Res.ok_bind, List.nil_append, List.cons_append, List.length_cons, List.length_nil, List.drop_succ_cons, List.drop_zero,
    setIdx_cons_succ, setIdx_cons_zero]
  rw [nexthop_encode _ hnh p _ _ _ _ _ (by omega)]
  simp only [Res.ok_bind, setIdx_cons_succ, setIdx_cons_zero]
  rw [show a' :: b' :: (familyCode f).2 :: BitVec.ofNat 8 (nexthopWire x.nexthop).length ::
      (nexthopWire x.nexthop ++ List.drop (nexthopWire x.nexthop).length t) =
      ([a', b', (familyCode f).2, BitVec.ofNat 8 (nexthopWire x.nexthop).length] ++ nexthopWire x.nexthop) ++
        List.drop (nexthopWire x.nexthop).length t by simp]
  rw [cur_setIdx _ _ _ _ (by simp; omega) (by simp; omega)]
  simp only [Res.ok_bind]
  rw [cur_onFrom hf _ _ _ (by simp; omega) (by simp; omega)]
  simp
  omega

theorem mpUnreach_writes (p : BgpSessionParams) (x : BgpMPWithdraws) {f : Family} {ap : Bool}
    (hk : kindOf x.addrs = some (f, ap)) (hw : AddrsWF x.addrs) :
    Writes (x.encodeTo p) (mpUnreachWire f x.addrs) := by
  intro buf hb
  have hf := addrs_writes x.addrs p hw
  obtain ⟨a', b', h2, hfw⟩ := familyWire_cons f
  simp only [mpUnreachWire, hfw] at hb ⊢
  obtain ⟨a, b, t, rfl⟩ := exists_cons2 (l := buf) (by simp at hb; omega)
  obtain ⟨c, t, rfl⟩ := List.exists_cons_of_length_pos (l := t) (by simp at hb; omega)
  simp only [List.length_append, List.length_cons, List.length_nil] at hb
  unfold BgpMPWithdraws.encodeTo
  rw [addrs_code _ hk]
  have h1 := cur_modRange (fill16 (familyCode f).1) [] (a :: b :: c :: t) 0 2 rfl (by simp) (by simp)
  rw [List.nil_append, h2] at h1
  rw [h1]
  simp only [Res.ok_bind, List.nil_append, List.cons_append, List.length_cons, List.length_nil, List.drop_succ_cons, List.drop_zero,
    setIdx_cons_succ, setIdx_cons_zero]
  rw [show a' :: b' :: (familyCode f).2 :: t = [a', b', (familyCode f).2] ++ t by rfl]
  rw [cur_onFrom hf _ _ 3 (by simp) (by omega)]
  simp
  omega

theorem addrs_some {x : BgpAddrs} (h : AddrsWF x) : ∃ f ap, kindOf x = some (f, ap) := by
  cases x <;> first | exact h.elim | exact ⟨_, _, rfl⟩

theorem mpUnreach_reads (p : BgpSessionParams) (x : BgpMPWithdraws) {f : Family} {ap : Bool}
    (hk : kindOf x.addrs = some (f, ap)) (hw : AddrsWF x.addrs) (he : FormExpected p x.addrs) :
    BgpMPWithdraws.decodeFrom p (mpUnreachWire f x.addrs) = .ok ⟨addrsReceived x.addrs⟩ := by
  have hr := addrs_reads x.addrs p hw he
  rw [addrs_code _ hk] at hr
  obtain ⟨a', b', h2, hfw⟩ := familyWire_cons f
  have h16 := getn16_be (familyCode f).1.toNat ((familyCode f).2 :: addrsWire x.addrs)
  rw [h2] at h16
  simp only [List.cons_append, List.nil_append, ofNat_toNat16] at h16
  simp only [BgpMPWithdraws.decodeFrom, mpUnreachWire, hfw, List.cons_append, List.nil_append, h16, Res.ok_bind,
    idx_cons_succ, idx_cons_zero, rfrom_cons_succ, rfrom_zero, hr]

theorem nexthop_decode (p : BgpSessionParams) {f : Family} {nh : BgpAddr} (hk : NexthopKind f nh)
    (hr : NexthopReadable f) (a b c d : U8) (rest : Bytes) :
    BgpMPUpdates.decodeNexthop p (familyCode f).1 (familyCode f).2 (nexthopWire nh).length
      (a :: b :: c :: d :: (nexthopWire nh ++ rest)) = .ok (nh, 4 + (nexthopWire nh).length) := by
  have hs : rslice (a :: b :: c :: d :: (nexthopWire nh ++ rest)) 4 (4 + (nexthopWire nh).length) = .ok (nexthopWire nh) := by
    have := rslice_append_mid [a, b, c, d] (nexthopWire nh) rest 4 (4 + (nexthopWire nh).length) rfl rfl
    simpa using this
  have hd : rfrom (a :: b :: c :: d :: (nexthopWire nh ++ rest)) 4 = .ok (nexthopWire nh ++ rest) := by
    simp
  cases nh with
  | None => cases f <;> exact hk.elim
  | L2 x => cases f <;> exact hk.elim
  | MVPN x => cases f <;> exact hk.elim
  | V4 x =>
    have h1 : decodeAddrV4 (nexthopWire (.V4 x)) = .ok x := by simp [nexthopWire, decodeAddrV4_four]
    have h2 : decodeAddrV4 (nexthopWire (.V4 x) ++ rest) = .ok x := by simp [nexthopWire, decodeAddrV4_be]
    cases f <;> first
      | exact hk.elim
      | (unfold BgpMPUpdates.decodeNexthop
         simp only [familyCode, BitVec.reduceToNat, hs, hd, h1, h2, Res.ok_bind])
  | V6 x =>
    have h1 : decodeAddrV6 (nexthopWire (.V6 x)) = .ok x := by simp [nexthopWire, decodeAddrV6_sixteen]
    cases f <;> first
      | exact hk.elim
      | exact absurd rfl hr
      | (unfold BgpMPUpdates.decodeNexthop
         simp only [familyCode, BitVec.reduceToNat, hs, h1, Res.ok_bind])
  | V4RD x =>
    have h1 := v4rd_reads x p.peerMode rest
    cases f <;> first
      | exact hk.elim
      | (unfold BgpMPUpdates.decodeNexthop
         simp only [familyCode, BitVec.reduceToNat, hd, h1, Res.ok_bind])
  | V6RD x =>
    have h1 := v6rd_reads x p.peerMode rest
    cases f <;> first
      | exact hk.elim
      | (unfold BgpMPUpdates.decodeNexthop
         simp only [familyCode, BitVec.reduceToNat, hd, h1, Res.ok_bind])

theorem mpReach_reads (p : BgpSessionParams) (x : BgpMPUpdates) {f : Family} {ap : Bool}
    (hk : kindOf x.addrs = some (f, ap)) (hw : AddrsWF x.addrs) (he : FormExpected p x.addrs)
    (hn : NexthopKind f x.nexthop) (hnr : NexthopReadable f) :
    BgpMPUpdates.decodeFrom p (mpReachWire f x.nexthop x.addrs) = .ok ⟨x.nexthop, addrsReceived x.addrs⟩ := by
  have hr := addrs_reads x.addrs p hw he
  rw [addrs_code _ hk] at hr
  obtain ⟨a', b', h2, hfw⟩ := familyWire_cons f
  have hl := nexthopWire_small x.nexthop
  have h16 := getn16_be (familyCode f).1.toNat ((familyCode f).2 :: BitVec.ofNat 8 (nexthopWire x.nexthop).length ::
    (nexthopWire x.nexthop ++ (0 :: addrsWire x.addrs)))
  rw [h2] at h16
  simp only [List.cons_append, List.nil_append, ofNat_toNat16] at h16
  have hnl : (BitVec.ofNat 8 (nexthopWire x.nexthop).length).toNat = (nexthopWire x.nexthop).length := by
    simp; omega
  have e1 : idx (a' :: b' :: (familyCode f).2 :: BitVec.ofNat 8 (nexthopWire x.nexthop).length ::
      (nexthopWire x.nexthop ++ (0 :: addrsWire x.addrs))) (4 + (nexthopWire x.nexthop).length) = .ok 0 := by
    have := idx_append_len ([a', b', (familyCode f).2, BitVec.ofNat 8 (nexthopWire x.nexthop).length] ++ nexthopWire x.nexthop)
      (0 :: addrsWire x.addrs)
    rw [idx_cons_zero] at this
    rw [← this]
    congr 1
    simp; omega
  have e2 : rfrom (a' :: b' :: (familyCode f).2 :: BitVec.ofNat 8 (nexthopWire x.nexthop).length ::
      (nexthopWire x.nexthop ++ (0 :: addrsWire x.addrs))) (4 + (nexthopWire x.nexthop).length + 1) =
        .ok (addrsWire x.addrs) := by
    have := rfrom_append ([a', b', (familyCode f).2, BitVec.ofNat 8 (nexthopWire x.nexthop).length] ++
      nexthopWire x.nexthop ++ [0]) (addrsWire x.addrs) (4 + (nexthopWire x.nexthop).length + 1) (by simp; omega)
    simpa using this
  simp only [BgpMPUpdates.decodeFrom, mpReachWire, hfw, List.cons_append, List.nil_append, List.append_assoc, h16, Res.ok_bind,
    idx_cons_succ, idx_cons_zero, hnl]
  rw [nexthop_decode p hn hnr]
  simp only [Res.ok_bind, e1, BitVec.reduceToNat, BgpMPUpdates.skipSnpa, e2, hr]

/-! ## The attribute header -/

theorem extended_iff (flags : U8) : (flags &&& 16 > 0) ↔ extended flags = true := by
  revert flags; decide

theorem attrHeader_length (code flags : U8) (n : Nat) :
    (attrHeader code flags n).length = if extended flags then 4 else 3 := by
  unfold attrHeader; split <;> simp

/-- `encode_bgpattr` on a buffer with room for the header -/
theorem encodeBgpattr_eq (p : BgpAttrParams) (enc : Enc) (buf : Bytes)
    (hb : (if extended p.flags then 4 else 3) ≤ buf.length) :
    BgpAttrItem.encodeBgpattr p enc buf =
      (enc (buf.drop (if extended p.flags then 4 else 3)) >>= fun r =>
        if r.2 > maxValue p.flags then .err .static
        else .ok (attrHeader p.typecode p.flags r.2 ++ r.1, (if extended p.flags then 4 else 3) + r.2)) := by
  have hx := extended_iff p.flags
  unfold BgpAttrItem.encodeBgpattr maxValue attrHeader
  cases he : extended p.flags
  · rw [he] at hx hb
    simp only [Bool.false_eq_true, iff_false] at hx hb
    obtain ⟨a, b, t, rfl⟩ := exists_cons2 (l := buf) (by simp at hb; omega)
    obtain ⟨c, t, rfl⟩ := List.exists_cons_of_length_pos (l := t) (by simp at hb; omega)
    simp only [setIdx_cons_zero, setIdx_cons_succ, Res.ok_bind, if_neg hx, Bool.false_eq_true, ↓reduceIte]
    rw [show p.flags :: p.typecode :: c :: t = [p.flags, p.typecode, c] ++ t by rfl, onFrom_append _ _ _ _ (by simp)]
    simp only [List.cons_append, List.nil_append, List.drop_succ_cons, List.drop_zero]
    cases henc : enc t with
    | err e => rfl
    | panic => rfl
    | hang => rfl
    | ok r =>
      simp only [Res.ok_bind]
      split
      · rfl
      · simp only [be_one, setIdx_cons_succ, setIdx_cons_zero, Res.ok_bind, List.cons_append, List.nil_append]
  · rw [he] at hx hb
    simp only [iff_true] at hx
    simp only [↓reduceIte] at hb
    obtain ⟨a, b, c, d, t, rfl⟩ := exists_cons4 (l := buf) hb
    simp only [setIdx_cons_zero, setIdx_cons_succ, Res.ok_bind, if_pos hx, ↓reduceIte]
    rw [show p.flags :: p.typecode :: c :: d :: t = [p.flags, p.typecode, c, d] ++ t by rfl, onFrom_append _ _ _ _ (by simp)]
    simp only [List.cons_append, List.nil_append, List.drop_succ_cons, List.drop_zero]
    cases henc : enc t with
    | err e => rfl
    | panic => rfl
    | hang => rfl
    | ok r =>
      simp only [Res.ok_bind]
      split
      · rfl
      · rename_i hm
        have h2 := cur_modRange (fill16 (BitVec.ofNat 16 r.2)) [p.flags, p.typecode] (c :: d :: r.1) 2 4 rfl rfl (by simp)
        simp only [List.cons_append, List.nil_append] at h2
        rw [h2]
        simp [Nat.mod_eq_of_lt (show r.2 < 65536 by omega)]

theorem encodeBgpattr_small (p : BgpAttrParams) (enc : Enc) (buf : Bytes)
    (hb : buf.length < (if extended p.flags then 4 else 3)) : BgpAttrItem.encodeBgpattr p enc buf = .panic := by
  have hx := extended_iff p.flags
  unfold BgpAttrItem.encodeBgpattr
  match buf, hb with
  | [], _ => rfl
  | [_], _ => rfl
  | [a, b], _ =>
    simp only [setIdx_cons_zero, setIdx_cons_succ, Res.ok_bind]
    split <;> rfl
  | [a, b, c], hb =>
    cases he : extended p.flags
    · simp [he] at hb
    · rw [he] at hx
      simp only [iff_true] at hx
      simp only [setIdx_cons_zero, setIdx_cons_succ, Res.ok_bind, if_pos hx]
      rfl
  | _ :: _ :: _ :: _ :: t, hb => simp at hb; split at hb <;> omega

theorem encodeBgpattr_writes (p : BgpAttrParams) {enc : Enc} {w : Bytes} (hw : Writes enc w)
    (hl : w.length ≤ maxValue p.flags) :
    Writes (BgpAttrItem.encodeBgpattr p enc) (attrHeader p.typecode p.flags w.length ++ w) := by
  intro buf hb
  have hh := attrHeader_length p.typecode p.flags w.length
  rw [List.length_append, hh] at hb
  rw [encodeBgpattr_eq _ _ _ (by omega), hw _ (by simp; omega), Res.ok_bind]
  rw [if_neg (by simp only; omega)]
  simp [hh, List.append_assoc]

theorem attr_code (x : BgpAttrItem) : (x.attr.typecode, x.attr.flags) = attrCode x := by
  cases x <;> rfl

/-! ## All attributes -/

theorem value_writes (p : BgpSessionParams) (x : BgpAttrItem) (h : AttrOk p x) :
    Writes (x.encodeValue p) (valueWire p.hasAs32bit x) := by
  cases x with
  | Origin x =>
    have h := origin_writes x
    obtain ⟨v⟩ := x
    cases v <;> exact h
  | ASPath x => exact aspath_writes p x
  | NextHop x => exact nexthop_writes p x h
  | MED x => exact med_writes x
  | LocalPref x => exact localpref_writes x
  | AtomicAggregate x => exact writes_ip x.value
  | AggregatorAS x => exact h.elim
  | CommunityList x => exact communities_writes x
  | OriginatorID x => exact originator_writes p x h
  | ClusterList x => exact clusterlist_writes x
  | MPUpdates x =>
    obtain ⟨hw, he, f, ap, hk, hn, hr⟩ := h
    have hne : (∀ a, x.nexthop ≠ .L2 a) ∧ ∀ a, x.nexthop ≠ .MVPN a := by
      constructor <;> intro a h <;> rw [h] at hn <;> cases f <;> exact hn
    simp only [valueWire, hk]
    exact mpReach_writes p x hk hne hw
  | MPWithdraws x =>
    obtain ⟨hw, he⟩ := h
    obtain ⟨f, ap, hk⟩ := addrs_some hw
    simp only [valueWire, hk]
    exact mpUnreach_writes p x hk hw
  | ExtCommunityList x => exact extCommunities_writes x
  | LargeCommunityList x => exact largeCommunities_writes x
  | PMSITunnel x => exact h.elim
  | AttrSet a l => exact h.elim
  | Connector x => exact connector_writes x
  | Unknown x => exact unknown_writes x

theorem decodeN_unknown (p : BgpSessionParams) (fuel : Nat) (tc fl : U8) (n : Nat) (buf : Bytes)
    (h : tc.toNat ∉ assignedCodes) :
    BgpAttrItem.decodeN p fuel tc fl n buf =
      (do .ok (.Unknown (← BgpAttrUnknown.decodeFrom tc fl (← rslice buf 0 n)))) := by
  simp only [assignedCodes, List.mem_cons, List.not_mem_nil, or_false, not_or] at h
  unfold BgpAttrItem.decodeN
  split <;> first | omega | rfl

theorem value_reads (p : BgpSessionParams) (x : BgpAttrItem) (h : AttrOk p x) :
    BgpAttrItem.decodeFrom p (attrCode x).1 (attrCode x).2 (valueWire p.hasAs32bit x).length (valueWire p.hasAs32bit x) =
      .ok (attrReceived x) := by
  unfold BgpAttrItem.decodeFrom
  cases x with
  | Origin x =>
    obtain ⟨v⟩ := x
    cases v <;> rfl
  | ASPath x =>
    simp only [attrCode, BgpAttrItem.decodeN, BitVec.reduceToNat, valueWire]
    rcases h with h | h
    · obtain ⟨v⟩ := x
      simp only at h
      subst h; rfl
    · by_cases hx : x.value = []
      · obtain ⟨v⟩ := x
        simp only at hx
        subst hx; rfl
      · rw [asPathWire_segment _ _ hx, h, aspath_segment32 p h]; rfl
  | NextHop x =>
    simp only [attrCode, BgpAttrItem.decodeN, BitVec.reduceToNat, valueWire]
    rw [nexthop_reads p x h]; rfl
  | MED x => simp only [attrCode, BgpAttrItem.decodeN, BitVec.reduceToNat, valueWire]; rw [med_reads x]; rfl
  | LocalPref x => simp only [attrCode, BgpAttrItem.decodeN, BitVec.reduceToNat, valueWire]; rw [localpref_reads x]; rfl
  | AtomicAggregate x =>
    simp only [attrCode, BgpAttrItem.decodeN, BitVec.reduceToNat, valueWire]; rw [atomic_reads x]; rfl
  | AggregatorAS x => exact h.elim
  | CommunityList x =>
    simp only [attrCode, BgpAttrItem.decodeN, BitVec.reduceToNat, valueWire]
    rw [communities_decode, setOf_self community_order _ h]; rfl
  | OriginatorID x =>
    simp only [attrCode, BgpAttrItem.decodeN, BitVec.reduceToNat, valueWire]
    rw [originator_reads p x h]; rfl
  | ClusterList x =>
    simp only [attrCode, BgpAttrItem.decodeN, BitVec.reduceToNat, valueWire]
    rw [clusterlist_reads p x h]; rfl
  | MPUpdates x =>
    obtain ⟨hw, he, f, ap, hk, hn, hr⟩ := h
    simp only [attrCode, BgpAttrItem.decodeN, BitVec.reduceToNat, valueWire, hk]
    rw [mpReach_reads p x hk hw he hn hr]; rfl
  | MPWithdraws x =>
    obtain ⟨hw, he⟩ := h
    obtain ⟨f, ap, hk⟩ := addrs_some hw
    simp only [attrCode, BgpAttrItem.decodeN, BitVec.reduceToNat, valueWire, hk]
    rw [mpUnreach_reads p x hk hw he]; rfl
  | ExtCommunityList x =>
    simp only [attrCode, BgpAttrItem.decodeN, BitVec.reduceToNat, valueWire]
    have := extCommunities_decode x.value [] (by simp)
    rw [List.append_nil] at this
    rw [this, setOf_self extCommunity_order _ h]; rfl
  | LargeCommunityList x =>
    simp only [attrCode, BgpAttrItem.decodeN, BitVec.reduceToNat, valueWire]
    rw [largeCommunities_decode, setOf_self largeCommunity_order _ h]; rfl
  | PMSITunnel x => exact h.elim
  | AttrSet a l => exact h.elim
  | Connector x =>
    have := connector_reads x
    simp only [attrCode, BgpAttrItem.decodeN, BitVec.reduceToNat]
    rw [show valueWire p.hasAs32bit (.Connector x) = valueWire true (.Connector x) by rfl, this]; rfl
  | Unknown x =>
    simp only [attrCode, valueWire, attrReceived]
    rw [decodeN_unknown _ _ _ _ _ _ h]
    simp only [rslice_all, Res.ok_bind, unknown_reads]

theorem attr_writes (p : BgpSessionParams) (x : BgpAttrItem) (h : AttrOk p x)
    (hl : (valueWire p.hasAs32bit x).length ≤ maxValue (attrCode x).2) :
    Writes (x.encodeTo p) (attrWire p.hasAs32bit x) := by
  have hc := attr_code x
  have := encodeBgpattr_writes x.attr (value_writes p x h) (by
    rw [show x.attr.flags = (attrCode x).2 by rw [← hc]]; exact hl)
  rw [show x.attr.flags = (attrCode x).2 by rw [← hc], show x.attr.typecode = (attrCode x).1 by rw [← hc]] at this
  exact this

end Zbgp
