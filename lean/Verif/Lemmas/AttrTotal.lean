import Verif.Lemmas.Attrs

/-! # Attribute decoders that return -/

namespace Zbgp

open Spec

attribute [-simp] List.length_flatMap

theorem rslice_returns {α : Type} {b : List α} {s e : Nat} (h1 : s ≤ e) (h2 : e ≤ b.length) : (rslice b s e).Returns := by
  rw [rslice_ok h1 h2]; trivial

theorem origin_returns (b : Bytes) : (BgpOrigin.decodeFrom b).Returns := by
  unfold BgpOrigin.decodeFrom
  cases b with
  | nil => trivial
  | cons a t =>
    simp only [List.isEmpty_cons, Bool.false_eq_true, ↓reduceIte, idx_cons_zero, Res.ok_bind]
    split <;> trivial

theorem nexthop_returns (p : BgpSessionParams) (b : Bytes) : (BgpNextHop.decodeFrom p b).Returns := by
  unfold BgpNextHop.decodeFrom
  split
  · rename_i h; rw [decodeAddrV6_ok h.2]; trivial
  · split
    · rename_i h; rw [decodeAddrV4_ok h.2]; trivial
    · trivial

theorem med_returns (b : Bytes) : (BgpMED.decodeFrom b).Returns := by
  unfold BgpMED.decodeFrom
  split
  · rename_i h; rw [getn32_ok h]; trivial
  · trivial

theorem localpref_returns (b : Bytes) : (BgpLocalpref.decodeFrom b).Returns := by
  unfold BgpLocalpref.decodeFrom
  split
  · rename_i h; rw [getn32_ok h]; trivial
  · trivial

theorem atomic_returns (b : Bytes) : (BgpAtomicAggregate.decodeFrom b).Returns := by
  unfold BgpAtomicAggregate.decodeFrom
  split
  · trivial
  · exact Res.returns_bind (decodeAddr_returns b) fun _ _ => trivial

theorem aggregator_returns (b : Bytes) : (BgpAggregatorAS.decodeFrom b).Returns := by
  unfold BgpAggregatorAS.decodeFrom
  split
  · rename_i h
    rw [getn32_ok (by omega), rslice_ok (by omega) (by omega)]
    simp only [Res.ok_bind]
    exact Res.returns_bind (by simp) fun _ _ => trivial
  · split
    · rename_i h
      rw [getn16_ok (by omega), rslice_ok (by omega) (by omega)]
      simp only [Res.ok_bind]
      exact Res.returns_bind (by simp) fun _ _ => trivial
    · trivial

theorem originator_returns (p : BgpSessionParams) (b : Bytes) (h : 4 ≤ b.length) :
    (BgpOriginatorID.decodeFrom p b).Returns := by
  unfold BgpOriginatorID.decodeFrom
  split
  · rw [rslice_ok (by omega) (by omega), Res.ok_bind]
    exact Res.returns_bind (decodeAddr_returns _) fun _ _ => trivial
  · split
    · rw [rslice_ok (by omega) (by omega), Res.ok_bind]
      exact Res.returns_bind (decodeAddr_returns _) fun _ _ => trivial
    · rw [rslice_ok (by omega) (by omega), Res.ok_bind]
      exact Res.returns_bind (decodeAddr_returns _) fun _ _ => trivial

theorem chunk_progress {α : Type} (k : Nat) (hk : 0 < k) (d : Bytes → Res α) :
    Progress (fun b => do .ok (← d (← rslice b 0 k), k)) := by
  intro b x n h
  simp only [Res.bind_eq_ok, Res.ok.injEq, Prod.mk.injEq] at h
  obtain ⟨-, -, -, -, -, rfl⟩ := h
  exact hk

/-- a loop over elements of `k` bytes that ends at the last whole element -/
theorem chunks_returns {α : Type} (k : Nat) (hk : 0 < k) (d : Bytes → Res α) (hd : ∀ b, b.length = k → (d b).Returns)
    (b : Bytes) : (decList (k - 1) (fun b => do .ok (← d (← rslice b 0 k), k)) b).Returns := by
  refine decList_returns (chunk_progress k hk d) (fun b hb => ?_) b
  rw [rslice_ok (by omega) (by omega), Res.ok_bind]
  exact Res.returns_bind (hd _ (by simp; omega)) fun _ _ => trivial

/-- a loop over elements of `k` bytes on a whole number of them -/
theorem chunks_returns_exact {α : Type} (k : Nat) (hk : 0 < k) (d : Bytes → Res α)
    (hd : ∀ b, b.length = k → (d b).Returns) (n : Nat) (b : Bytes) (h : b.length = k * n) :
    (decList 0 (fun b => do .ok (← d (← rslice b 0 k), k)) b).Returns := by
  induction n generalizing b with
  | zero => rw [decList_stop (by simp at h; simp [h])]; trivial
  | succ n ih =>
    have hkb : k ≤ b.length := by rw [h, Nat.mul_add]; omega
    rw [decList_step (chunk_progress k hk d) (by omega)]
    rw [rslice_ok (by omega) (by omega), Res.ok_bind]
    refine Res.returns_bind (Res.returns_bind (hd _ (by simp; omega)) fun _ _ => trivial) ?_
    rintro ⟨x, m⟩ hx
    obtain ⟨a, -, ha⟩ := Res.bind_eq_ok.1 hx
    simp only [Res.ok.injEq, Prod.mk.injEq] at ha
    obtain ⟨rfl, rfl⟩ := ha
    exact Res.returns_bind (ih _ (by simp only [List.length_drop, h, Nat.mul_add]; omega)) fun _ _ => trivial

theorem clusterlist_returns (p : BgpSessionParams) (b : Bytes) : (BgpClusterList.decodeFrom p b).Returns := by
  unfold BgpClusterList.decodeFrom
  refine Res.returns_bind ?_ fun _ _ => trivial
  split
  · exact chunks_returns 4 (by omega) decodeAddr (fun b _ => decodeAddr_returns b) b
  · exact chunks_returns 16 (by omega) decodeAddr (fun b _ => decodeAddr_returns b) b

theorem connector_returns (b : Bytes) : (BgpConnector.decodeFrom b).Returns := by
  unfold BgpConnector.decodeFrom
  split
  · rename_i h
    rw [getn16_ok (by omega), Res.ok_bind]
    split
    · trivial
    · rw [rslice_ok (by omega) (by omega), rslice_ok (by omega) (by omega), rslice_ok (by omega) (by omega)]
      simp only [Res.ok_bind]
      rw [getn32_ok (by simp; omega), decodeAddrV4_ok (by simp; omega), decodeAddrV4_ok (by simp; omega)]
      trivial
  · trivial

theorem unknown_returns (tc fl : U8) (b : Bytes) (n : Nat) (h : n ≤ b.length) :
    (do BgpAttrUnknown.decodeFrom tc fl (← rslice b 0 n)).Returns := by
  rw [rslice_ok (by omega) h, Res.ok_bind, unknown_reads]
  trivial

theorem community_returns (b : Bytes) (h : b.length = 4) : (BgpCommunity.decodeFrom b).Returns := by
  unfold BgpCommunity.decodeFrom
  rw [if_pos h, getn32_ok (by omega)]; trivial

theorem largeCommunity_returns (b : Bytes) (h : b.length = 12) : (BgpLargeCommunity.decodeFrom b).Returns := by
  unfold BgpLargeCommunity.decodeFrom
  rw [if_pos h, rslice_ok (by omega) (by omega), rslice_ok (by omega) (by omega), rslice_ok (by omega) (by omega)]
  simp only [Res.ok_bind]
  rw [getn32_ok (by simp; omega), getn32_ok (by simp; omega), getn32_ok (by simp; omega)]; trivial

theorem extCommunity_returns (b : Bytes) (h : b.length = 8) : (BgpExtCommunity.decodeFrom b).Returns := by
  unfold BgpExtCommunity.decodeFrom
  rw [if_pos h, rslice_ok (by omega) (by omega), rslice_ok (by omega) (by omega), idx_of_lt (by omega),
    idx_of_lt (by omega)]
  simp only [Res.ok_bind]
  rw [getn16_ok (by simp; omega), getn32_ok (by simp; omega)]; trivial

theorem communities_returns (b : Bytes) (h : 4 ∣ b.length) : (BgpCommunityList.decodeFrom b).Returns := by
  obtain ⟨n, hn⟩ := h
  exact Res.returns_bind (chunks_returns_exact 4 (by omega) _ community_returns n b hn) fun _ _ => trivial

theorem largeCommunities_returns (b : Bytes) (h : 12 ∣ b.length) : (BgpLargeCommunityList.decodeFrom b).Returns := by
  obtain ⟨n, hn⟩ := h
  exact Res.returns_bind (chunks_returns_exact 12 (by omega) _ largeCommunity_returns n b hn) fun _ _ => trivial

theorem extCommunities_returns (b : Bytes) : (BgpExtCommunityList.decodeFrom b).Returns :=
  Res.returns_bind (chunks_returns 8 (by omega) _ extCommunity_returns b) fun _ _ => trivial

theorem value_returns (p : BgpSessionParams) (tc fl : U8) (n : Nat) (b : Bytes) (hn : n ≤ b.length)
    (h : ValueHandled tc.toNat b) : (BgpAttrItem.decodeFrom p tc fl n b).Returns := by
  obtain ⟨h8, h32, h9, hr⟩ := h
  unfold BgpAttrItem.decodeFrom BgpAttrItem.decodeN
  split
  · exact Res.returns_bind (origin_returns b) fun _ _ => trivial
  · obtain ⟨x, hx⟩ := aspath_total p b
    rw [hx]; trivial
  · exact Res.returns_bind (nexthop_returns p b) fun _ _ => trivial
  · exact Res.returns_bind (med_returns b) fun _ _ => trivial
  · exact Res.returns_bind (localpref_returns b) fun _ _ => trivial
  · exact Res.returns_bind (atomic_returns b) fun _ _ => trivial
  · exact Res.returns_bind (aggregator_returns b) fun _ _ => trivial
  · rename_i hc; exact Res.returns_bind (communities_returns b (h8 hc)) fun _ _ => trivial
  · rename_i hc; exact Res.returns_bind (originator_returns p b (h9 hc)) fun _ _ => trivial
  · exact Res.returns_bind (clusterlist_returns p b) fun _ _ => trivial
  · rename_i hc; exact absurd hr (by simp [hc])
  · rename_i hc; exact absurd hr (by simp [hc])
  · exact Res.returns_bind (extCommunities_returns b) fun _ _ => trivial
  · rename_i hc; exact absurd hr (by simp [hc])
  · exact Res.returns_bind (connector_returns b) fun _ _ => trivial
  · rename_i hc; exact Res.returns_bind (largeCommunities_returns b (h32 hc)) fun _ _ => trivial
  · rename_i hc; exact absurd hr (by simp [hc])
  · rw [rslice_ok (by omega) hn, Res.ok_bind, unknown_reads]; trivial

/-- AS numbers read from `n` times the width are `n` -/
theorem asns_count (as32 : Bool) (n : Nat) (b : Bytes) (h : b.length = n * if as32 then 4 else 2) :
    ∃ l k, decList 0 (BgpASpath.decodeAsn as32) b = .ok (l, k) ∧ l.length = n := by
  induction n generalizing b with
  | zero => exact ⟨_, _, decList_stop (by simp at h; simp [h]), rfl⟩
  | succ n ih =>
    have hw : (if as32 then 4 else 2) ≤ b.length := by rw [h, Nat.add_mul]; omega
    rw [decList_step (decodeAsn_progress as32) (by split at hw <;> omega)]
    obtain ⟨a, ha⟩ := decodeAsn_ok as32 b hw
    rw [ha]
    simp only [Res.ok_bind]
    obtain ⟨l, k, hr, hl⟩ := ih (b.drop (if as32 then 4 else 2)) (by simp only [List.length_drop, h, Nat.add_mul]; omega)
    rw [hr]
    exact ⟨_, _, rfl, by simp [hl]⟩

/-- the number of AS numbers `BgpASpath.decodeFrom` returns -/
theorem aspath_count (p : BgpSessionParams) (b : Bytes) : ∃ l, BgpASpath.decodeFrom p b = .ok ⟨l⟩ ∧
    l.length = if p.hasAs32bit then b.length / 4 else b.length / 2 := by
  unfold BgpASpath.decodeFrom
  split
  · exact ⟨_, rfl, by split <;> simp <;> omega⟩
  · obtain ⟨l, k, hr, hl⟩ := asns_count p.hasAs32bit
      (if p.hasAs32bit then b.length / 4 else b.length / 2)
      (b.drop (if p.hasAs32bit then b.length % 4 else b.length % 2)) (by
        simp only [List.length_drop]; cases p.hasAs32bit <;> simp <;> omega)
    simp only [hr, Res.ok_bind]
    exact ⟨_, rfl, hl⟩

theorem segments_length (as32 : Bool) (segs : List Segment) :
    (segs.flatMap (segmentWire as32)).length =
      segs.length * 2 + (segs.flatMap Segment.asns).length * (if as32 then 4 else 2) := by
  induction segs with
  | nil => simp
  | cons s r ih =>
    simp only [List.flatMap_cons, List.length_append, ih, segmentWire, asns_length, List.length_cons, List.length_nil,
      Nat.add_mul]
    omega

theorem segments_correct_iff (p : BgpSessionParams) (segs : List Segment) :
    BgpASpath.decodeFrom p (segs.flatMap (segmentWire p.hasAs32bit)) = .ok ⟨segs.flatMap Segment.asns⟩ ↔
      segs = [] ∨ (p.hasAs32bit = true ∧ segs.length = 1) := by
  constructor
  · intro h
    obtain ⟨l, h1, h2⟩ := aspath_count p (segs.flatMap (segmentWire p.hasAs32bit))
    rw [h] at h1
    simp only [Res.ok.injEq, BgpASpath.mk.injEq] at h1
    rw [← h1, segments_length] at h2
    cases segs with
    | nil => exact .inl rfl
    | cons s r =>
      right
      cases hp : p.hasAs32bit <;> rw [hp] at h2 <;> simp only [Bool.false_eq_true, ↓reduceIte, List.length_cons] at h2
      · omega
      · exact ⟨rfl, by simp only [List.length_cons]; omega⟩
  · rintro (rfl | ⟨hp, hl⟩)
    · rfl
    · obtain ⟨s, rfl⟩ := List.length_eq_one_iff.1 hl
      simp only [List.flatMap_cons, List.flatMap_nil, List.append_nil]
      rw [hp]
      exact aspath_segment32 p hp s

theorem aspath_small (p : BgpSessionParams) (x : BgpASpath) (b : Bytes)
    (h : b.length < (asPathWire p.hasAs32bit x.value).length) : x.encodeTo p b = .err .insufficientBufferSize := by
  unfold asPathWire at h
  split at h
  · simp at h
  · rename_i hne
    simp only [List.length_append, asns_length, List.length_cons, List.length_nil] at h
    unfold BgpASpath.encodeTo
    rw [if_neg (by simpa using hne)]
    cases hp : p.hasAs32bit <;> rw [hp] at h <;> simp only [Bool.false_eq_true, ↓reduceIte] at h ⊢ <;>
      rw [if_pos (by omega)]

end Zbgp
