import Verif.Lemmas.Values

/-! # Which values of single attributes are read -/

namespace Zbgp

open Spec

attribute [-simp] List.length_flatMap List.length_flatten

theorem split4 {v : Bytes} (h : 4 ≤ v.length) : ∃ a : BitVec 32, v = be 4 a.toNat ++ v.drop 4 := by
  obtain ⟨a, ha, e⟩ := exists_be 4 h
  refine ⟨BitVec.ofNat 32 a, ?_⟩
  rw [BitVec.toNat_ofNat, Nat.mod_eq_of_lt (by omega)]
  exact e

theorem split2 {v : Bytes} (h : 2 ≤ v.length) : ∃ a : BitVec 16, v = be 2 a.toNat ++ v.drop 2 := by
  obtain ⟨a, ha, e⟩ := exists_be 2 h
  refine ⟨BitVec.ofNat 16 a, ?_⟩
  rw [BitVec.toNat_ofNat, Nat.mod_eq_of_lt (by omega)]
  exact e

theorem split16 {v : Bytes} (h : 16 ≤ v.length) : ∃ a : BitVec 128, v = be 16 a.toNat ++ v.drop 16 := by
  obtain ⟨a, ha, e⟩ := exists_be 16 h
  refine ⟨BitVec.ofNat 128 a, ?_⟩
  rw [BitVec.toNat_ofNat, Nat.mod_eq_of_lt (by norm_num at ha ⊢; exact ha)]
  exact e

theorem bind_ok_iff {α β : Type} (r : Res α) (f : α → β) (y : β) :
    (r >>= fun x => .ok (f x)) = .ok y ↔ ∃ x, r = .ok x ∧ y = f x := by
  cases r <;> simp [Bind.bind, Res.bind, eq_comm]

theorem origin_iff (p : BgpSessionParams) (fl : U8) (n : Nat) (v : Bytes) (x : BgpAttrItem) :
    BgpAttrItem.decodeFrom p 1 fl n v = .ok x ↔ ∃ w t, v = w ++ t ∧ FixedValue p 1 w x := by
  change (BgpOrigin.decodeFrom v >>= fun x => .ok (BgpAttrItem.Origin x)) = .ok x ↔ _
  rw [bind_ok_iff]
  constructor
  · rintro ⟨y, hy, rfl⟩
    match v, hy with
    | o :: t, hy =>
      unfold BgpOrigin.decodeFrom at hy
      simp only [List.isEmpty_cons, Bool.false_eq_true, if_false, idx_cons_zero, Res.ok_bind] at hy
      refine ⟨[o], t, rfl, ?_⟩
      split at hy
      · rename_i h0; cases hy; rw [show o = originCode .Igp from BitVec.eq_of_toNat_eq h0]; exact .origin _
      · rename_i h0; cases hy; rw [show o = originCode .Egp from BitVec.eq_of_toNat_eq h0]; exact .origin _
      · rename_i h0; cases hy; rw [show o = originCode .Incomplete from BitVec.eq_of_toNat_eq h0]; exact .origin _
      · cases hy
  · rintro ⟨w, t, rfl, h⟩
    cases h with
    | origin o => exact ⟨_, by cases o <;> rfl, rfl⟩

theorem nextHop_iff (p : BgpSessionParams) (fl : U8) (n : Nat) (v : Bytes) (x : BgpAttrItem) :
    BgpAttrItem.decodeFrom p 3 fl n v = .ok x ↔ ∃ w t, v = w ++ t ∧ FixedValue p 3 w x := by
  change (BgpNextHop.decodeFrom p v >>= fun x => .ok (BgpAttrItem.NextHop x)) = .ok x ↔ _
  rw [bind_ok_iff]
  constructor
  · rintro ⟨y, hy, rfl⟩
    unfold BgpNextHop.decodeFrom at hy
    split at hy
    · rename_i h
      obtain ⟨a, e⟩ := split16 h.2
      rw [e, decodeAddrV6_be, ofNat_toNat128] at hy
      cases hy
      exact ⟨be 16 a.toNat, v.drop 16, e, .nextHop (.v6 a) h.1.symm⟩
    · split at hy
      · rename_i h
        obtain ⟨a, e⟩ := split4 h.2
        rw [e, decodeAddrV4_be, ofNat_toNat32] at hy
        cases hy
        exact ⟨be 4 a.toNat, v.drop 4, e, .nextHop (.v4 a) h.1.symm⟩
      · cases hy
  · rintro ⟨w, t, rfl, h⟩
    cases h with
    | nextHop a h =>
      refine ⟨_, ?_, rfl⟩
      unfold BgpNextHop.decodeFrom
      cases a with
      | v4 a =>
        have hp : p.peerMode = .IPv4 := h.symm
        rw [if_neg (by rw [hp]; simp), if_pos ⟨hp, by simp [ipBody]⟩]
        simp only [ipBody]
        rw [decodeAddrV4_be, ofNat_toNat32]; rfl
      | v6 a =>
        have hp : p.peerMode = .IPv6 := h.symm
        rw [if_pos ⟨hp, by simp [ipBody]⟩]
        simp only [ipBody]
        rw [decodeAddrV6_be, ofNat_toNat128]; rfl

theorem med_iff (p : BgpSessionParams) (fl : U8) (n : Nat) (v : Bytes) (x : BgpAttrItem) :
    BgpAttrItem.decodeFrom p 4 fl n v = .ok x ↔ ∃ w t, v = w ++ t ∧ FixedValue p 4 w x := by
  change (BgpMED.decodeFrom v >>= fun x => .ok (BgpAttrItem.MED x)) = .ok x ↔ _
  rw [bind_ok_iff]
  constructor
  · rintro ⟨y, hy, rfl⟩
    unfold BgpMED.decodeFrom at hy
    split at hy
    · rename_i h
      obtain ⟨a, e⟩ := split4 h
      rw [e, getn32_be, ofNat_toNat32] at hy
      cases hy
      exact ⟨be 4 a.toNat, v.drop 4, e, .med a⟩
    · cases hy
  · rintro ⟨w, t, rfl, h⟩
    cases h with
    | med a =>
      refine ⟨_, ?_, rfl⟩
      unfold BgpMED.decodeFrom
      rw [if_pos (by simp), getn32_be, ofNat_toNat32]; rfl

theorem localPref_iff (p : BgpSessionParams) (fl : U8) (n : Nat) (v : Bytes) (x : BgpAttrItem) :
    BgpAttrItem.decodeFrom p 5 fl n v = .ok x ↔ ∃ w t, v = w ++ t ∧ FixedValue p 5 w x := by
  change (BgpLocalpref.decodeFrom v >>= fun x => .ok (BgpAttrItem.LocalPref x)) = .ok x ↔ _
  rw [bind_ok_iff]
  constructor
  · rintro ⟨y, hy, rfl⟩
    unfold BgpLocalpref.decodeFrom at hy
    split at hy
    · rename_i h
      obtain ⟨a, e⟩ := split4 h
      rw [e, getn32_be, ofNat_toNat32] at hy
      cases hy
      exact ⟨be 4 a.toNat, v.drop 4, e, .localPref a⟩
    · cases hy
  · rintro ⟨w, t, rfl, h⟩
    cases h with
    | localPref a =>
      refine ⟨_, ?_, rfl⟩
      unfold BgpLocalpref.decodeFrom
      rw [if_pos (by simp), getn32_be, ofNat_toNat32]; rfl

theorem aggregator_iff (p : BgpSessionParams) (fl : U8) (n : Nat) (v : Bytes) (x : BgpAttrItem) :
    BgpAttrItem.decodeFrom p 7 fl n v = .ok x ↔ FixedValue p 7 v x := by
  change (BgpAggregatorAS.decodeFrom v >>= fun x => .ok (BgpAttrItem.AggregatorAS x)) = .ok x ↔ _
  rw [bind_ok_iff]
  constructor
  · rintro ⟨y, hy, rfl⟩
    unfold BgpAggregatorAS.decodeFrom at hy
    split at hy
    · rename_i h
      obtain ⟨a, e⟩ := split4 (v := v) (by omega)
      obtain ⟨b, e'⟩ := split4 (v := v.drop 4) (by simp; omega)
      rw [List.drop_of_length_le (l := v.drop 4) (by simp; omega)] at e'
      rw [e, e', getn32_be, ofNat_toNat32, Res.ok_bind, rslice_append_mid _ _ _ 4 8 (by simp) (by simp), Res.ok_bind]
        at hy
      have hd := decodeAddrV4_be b.toNat []
      rw [List.append_nil] at hd
      rw [hd, ofNat_toNat32] at hy
      cases hy
      rw [e, e', List.append_nil]
      exact .aggregator4 a b
    · split at hy
      · rename_i h
        obtain ⟨a, e⟩ := split2 (v := v) (by omega)
        obtain ⟨b, e'⟩ := split4 (v := v.drop 2) (by simp; omega)
        rw [List.drop_of_length_le (l := v.drop 2) (by simp; omega)] at e'
        rw [e, e', getn16_be, ofNat_toNat16, Res.ok_bind, rslice_append_mid _ _ _ 2 6 (by simp) (by simp), Res.ok_bind]
          at hy
        have hd := decodeAddrV4_be b.toNat []
        rw [List.append_nil] at hd
        rw [hd, ofNat_toNat32] at hy
        cases hy
        rw [e, e', List.append_nil]
        have ha : (a.setWidth 32).toNat = a.toNat := by
          have := a.isLt
          rw [BitVec.toNat_setWidth]
          exact Nat.mod_eq_of_lt (by omega)
        have hf := FixedValue.aggregator2 (p := p) (a.setWidth 32) b (by rw [ha]; exact a.isLt)
        rw [ha] at hf
        exact hf
      · cases hy
  · intro h
    cases h with
    | aggregator4 a b =>
      refine ⟨_, ?_, rfl⟩
      unfold BgpAggregatorAS.decodeFrom aggregatorWire
      have hs := rslice_append_mid (be 4 a.toNat) (be 4 b.toNat) [] 4 8 (by simp) (by simp)
      rw [List.append_nil] at hs
      have hd := decodeAddrV4_be b.toNat []
      rw [List.append_nil] at hd
      rw [if_pos (by simp), getn32_be, ofNat_toNat32, Res.ok_bind, hs, Res.ok_bind, hd, ofNat_toNat32]
      rfl
    | aggregator2 a b ha =>
      refine ⟨_, ?_, rfl⟩
      unfold BgpAggregatorAS.decodeFrom aggregatorWire
      have hs := rslice_append_mid (be 2 a.toNat) (be 4 b.toNat) [] 2 6 (by simp) (by simp)
      rw [List.append_nil] at hs
      have hd := decodeAddrV4_be b.toNat []
      rw [List.append_nil] at hd
      rw [if_neg (by simp), if_pos (by simp), getn16_be, Res.ok_bind, hs, Res.ok_bind, hd, ofNat_toNat32]
      have : (BitVec.ofNat 16 a.toNat).setWidth 32 = a := by
        apply BitVec.eq_of_toNat_eq
        have := a.isLt
        rw [BitVec.toNat_setWidth, BitVec.toNat_ofNat, Nat.mod_eq_of_lt (a := a.toNat) (by omega)]
        exact Nat.mod_eq_of_lt (by omega)
      rw [this]
      rfl

theorem connector_iff (p : BgpSessionParams) (fl : U8) (n : Nat) (v : Bytes) (x : BgpAttrItem) :
    BgpAttrItem.decodeFrom p 20 fl n v = .ok x ↔ ∃ w t, v = w ++ t ∧ FixedValue p 20 w x := by
  change (BgpConnector.decodeFrom v >>= fun x => .ok (BgpAttrItem.Connector x)) = .ok x ↔ _
  rw [bind_ok_iff]
  have key : ∀ (k : U16) (a b c : BitVec 32) (t : Bytes),
      BgpConnector.decodeFrom (be 2 k.toNat ++ (be 4 a.toNat ++ (be 4 b.toNat ++ (be 4 c.toNat ++ t)))) =
        if k ≠ 1 then .err .static else .ok ⟨a, b, c⟩ := by
    intro k a b c t
    unfold BgpConnector.decodeFrom
    have h1 := rslice_append_mid (be 2 k.toNat) (be 4 a.toNat) (be 4 b.toNat ++ (be 4 c.toNat ++ t)) 2 6 (by simp) (by simp)
    have h2 := rslice_append_mid (be 2 k.toNat ++ be 4 a.toNat) (be 4 b.toNat) (be 4 c.toNat ++ t) 6 10 (by simp) (by simp)
    have h3 := rslice_append_mid (be 2 k.toNat ++ be 4 a.toNat ++ be 4 b.toNat) (be 4 c.toNat) t 10 14 (by simp) (by simp)
    simp only [List.append_assoc] at h2 h3
    have hd : ∀ b : BitVec 32, decodeAddrV4 (be 4 b.toNat) = .ok b := by
      intro b
      have hd := decodeAddrV4_be b.toNat []
      rwa [List.append_nil, ofNat_toNat32] at hd
    have hg : getn32 (be 4 a.toNat) = .ok a := by
      have hd := getn32_be a.toNat []
      rwa [List.append_nil, ofNat_toNat32] at hd
    rw [if_pos (by simp; omega), getn16_be, ofNat_toNat16, Res.ok_bind, h1, h2, h3]
    simp only [Res.ok_bind, hd, hg]
  constructor
  · rintro ⟨y, hy, rfl⟩
    by_cases h : 14 ≤ v.length
    · obtain ⟨k, e⟩ := split2 (v := v) (by omega)
      obtain ⟨a, e1⟩ := split4 (v := v.drop 2) (by simp; omega)
      obtain ⟨b, e2⟩ := split4 (v := (v.drop 2).drop 4) (by simp; omega)
      obtain ⟨c, e3⟩ := split4 (v := ((v.drop 2).drop 4).drop 4) (by simp; omega)
      rw [e3] at e2
      rw [e2] at e1
      rw [e1] at e
      rw [e, key] at hy
      split at hy
      · cases hy
      · rename_i hk
        cases hy
        have hk : k = 1 := by simpa using hk
        subst hk
        refine ⟨_, (((v.drop 2).drop 4).drop 4).drop 4, ?_, .connector a b c⟩
        simp only [List.append_assoc]
        exact e
    · unfold BgpConnector.decodeFrom at hy
      rw [if_neg h] at hy
      cases hy
  · rintro ⟨w, t, rfl, h⟩
    cases h with
    | connector a b c =>
      refine ⟨_, ?_, rfl⟩
      have := key 1 a b c t
      simp only [List.append_assoc]
      exact this


theorem fixed_iff (p : BgpSessionParams) (code flags : U8) (n : Nat) (v : Bytes) (x : BgpAttrItem)
    (hc : code ∈ [1, 3, 4, 5, 7, 20]) :
    BgpAttrItem.decodeFrom p code flags n v = .ok x ↔
      ∃ w t, v = w ++ t ∧ FixedValue p code w x ∧ (code = 7 → t = []) := by
  simp only [List.mem_cons, List.not_mem_nil, or_false] at hc
  rcases hc with rfl | rfl | rfl | rfl | rfl | rfl
  · rw [origin_iff]; simp
  · rw [nextHop_iff]; simp
  · rw [med_iff]; simp
  · rw [localPref_iff]; simp
  · rw [aggregator_iff]
    constructor
    · exact fun h => ⟨v, [], by simp, h, fun _ => rfl⟩
    · rintro ⟨w, t, rfl, h, ht⟩
      rw [ht rfl, List.append_nil]
      exact h
  · rw [connector_iff]; simp

theorem atomicAggregate_iff (p : BgpSessionParams) (flags : U8) (n : Nat) (v : Bytes) (x : BgpAttrItem) :
    BgpAttrItem.decodeFrom p 6 flags n v = .ok x ↔
      (v = [] ∧ x = .AtomicAggregate ⟨.v4 0⟩) ∨ ∃ a, v = ipBody a ∧ x = .AtomicAggregate ⟨a⟩ := by
  change (BgpAtomicAggregate.decodeFrom v >>= fun x => .ok (BgpAttrItem.AtomicAggregate x)) = .ok x ↔ _
  rw [bind_ok_iff]
  unfold BgpAtomicAggregate.decodeFrom
  constructor
  · rintro ⟨y, hy, rfl⟩
    split at hy
    · rename_i h
      cases hy
      exact .inl ⟨by simpa using h, rfl⟩
    · refine .inr ?_
      rw [bind_ok_iff] at hy
      obtain ⟨a, ha, rfl⟩ := hy
      refine ⟨a, ?_, rfl⟩
      unfold decodeAddr at ha
      split at ha
      · rename_i h
        obtain ⟨b, e⟩ := split16 (v := v) (by omega)
        rw [List.drop_of_length_le (by omega)] at e
        rw [e, decodeAddrV6_be, ofNat_toNat128] at ha
        cases ha
        rw [e, List.append_nil]
        rfl
      · split at ha
        · rename_i h
          obtain ⟨b, e⟩ := split4 (v := v) (by omega)
          rw [List.drop_of_length_le (by omega)] at e
          rw [e, decodeAddrV4_be, ofNat_toNat32] at ha
          cases ha
          rw [e, List.append_nil]
          rfl
        · cases ha
  · rintro (⟨rfl, rfl⟩ | ⟨a, rfl, rfl⟩)
    · exact ⟨_, rfl, rfl⟩
    · refine ⟨⟨a⟩, ?_, rfl⟩
      rw [if_neg (by cases a <;> simp [ipBody, be]), decodeAddr_body]
      rfl

theorem originatorId_iff (p : BgpSessionParams) (flags : U8) (n : Nat) (v : Bytes) (x : BgpAttrItem) :
    BgpAttrItem.decodeFrom p 9 flags n v = .ok x ↔ ∃ a t, v = ipBody a ++ t ∧ x = .OriginatorID ⟨a⟩ ∧
      (addrFamily a = .IPv6 ↔ p.peerMode = .IPv6 ∧ 16 ≤ v.length) := by
  change (BgpOriginatorID.decodeFrom p v >>= fun x => .ok (BgpAttrItem.OriginatorID x)) = .ok x ↔ _
  rw [bind_ok_iff]
  have hb : ∀ (a : IpAddr) (t : Bytes) (k : Nat), k = (ipBody a).length →
      (do .ok ⟨← decodeAddr (← rslice (ipBody a ++ t) 0 k)⟩ : Res BgpOriginatorID) = .ok ⟨a⟩ := by
    intro a t k hk
    have hs := rslice_append_mid [] (ipBody a) t 0 k rfl (by simpa using hk)
    rw [List.nil_append] at hs
    rw [hs, Res.ok_bind, decodeAddr_body]
    rfl
  have h4 : ∀ y, (do .ok ⟨← decodeAddr (← rslice v 0 4)⟩ : Res BgpOriginatorID) = .ok y →
      ∃ (a : IPv4) (t : Bytes), v = ipBody (.v4 a) ++ t ∧ y = ⟨.v4 a⟩ := by
    intro y h
    by_cases hl : 4 ≤ v.length
    · obtain ⟨a, e⟩ := split4 hl
      refine ⟨a, v.drop 4, e, ?_⟩
      have := hb (.v4 a) (v.drop 4) 4 (by simp [ipBody])
      rw [show ipBody (.v4 a) ++ v.drop 4 = v from e.symm, h] at this
      cases this
      rfl
    · rw [show rslice v 0 4 = .panic by simp [rslice]; omega] at h
      cases h
  unfold BgpOriginatorID.decodeFrom
  cases hm : p.peerMode with
  | IPv4 =>
    constructor
    · rintro ⟨y, hy, rfl⟩
      obtain ⟨a, t, e, rfl⟩ := h4 y hy
      exact ⟨.v4 a, t, e, rfl, by simp [addrFamily]⟩
    · rintro ⟨a, t, e, rfl, ha⟩
      cases a with
      | v4 a => exact ⟨_, by rw [e]; exact hb (.v4 a) t 4 (by simp [ipBody]), rfl⟩
      | v6 a => simp [addrFamily] at ha
  | IPv6 =>
    by_cases hl : v.length < 16
    · simp only [if_pos hl]
      constructor
      · rintro ⟨y, hy, rfl⟩
        obtain ⟨a, t, e, rfl⟩ := h4 y hy
        exact ⟨.v4 a, t, e, rfl, by simp [addrFamily]; omega⟩
      · rintro ⟨a, t, e, rfl, ha⟩
        cases a with
        | v4 a => exact ⟨_, by rw [e]; exact hb (.v4 a) t 4 (by simp [ipBody]), rfl⟩
        | v6 a => simp [addrFamily] at ha; omega
    · simp only [if_neg hl]
      obtain ⟨a, e⟩ := split16 (v := v) (by omega)
      have h6 := hb (.v6 a) (v.drop 16) 16 (by simp [ipBody])
      rw [show ipBody (.v6 a) ++ v.drop 16 = v from e.symm] at h6
      rw [h6]
      constructor
      · rintro ⟨y, hy, rfl⟩
        cases hy
        exact ⟨.v6 a, v.drop 16, e, rfl, by simp [addrFamily]; omega⟩
      · rintro ⟨b, t, e', rfl, ha⟩
        cases b with
        | v4 b => simp [addrFamily] at ha; omega
        | v6 b =>
          have := hb (.v6 b) t 16 (by simp [ipBody])
          rw [← e', h6] at this
          exact ⟨_, this, rfl⟩

theorem clusterList_iff (p : BgpSessionParams) (flags : U8) (n : Nat) (v : Bytes) (x : BgpAttrItem) :
    BgpAttrItem.decodeFrom p 10 flags n v = .ok x ↔ ∃ (l : List IpAddr) (t : Bytes), v = l.flatMap ipBody ++ t ∧
      (∀ a ∈ l, addrFamily a = p.peerMode) ∧ t.length < (match p.peerMode with | .IPv4 => 4 | .IPv6 => 16) ∧
      x = .ClusterList ⟨l⟩ := by
  change (BgpClusterList.decodeFrom p v >>= fun x => .ok (BgpAttrItem.ClusterList x)) = .ok x ↔ _
  rw [bind_ok_iff]
  generalize hk : (match p.peerMode with | .IPv4 => 4 | .IPv6 => 16) = k
  have hdec : ∀ v, BgpClusterList.decodeFrom p v =
      (do let (v, _) ← decList (k - 1) (fun b => do .ok (← decodeAddr (← rslice b 0 k), k)) v
          .ok ⟨v⟩) := by
    intro v
    unfold BgpClusterList.decodeFrom
    cases hm : p.peerMode <;> rw [hm] at hk <;> subst hk <;> rfl
  have hk0 : k = 4 ∨ k = 16 := by cases hm : p.peerMode <;> simp [hm] at hk <;> omega
  have hlen : ∀ a : IpAddr, addrFamily a = p.peerMode → (ipBody a).length = k := by
    intro a ha
    rw [ipBody_length, ha]
    exact hk
  have hreads : ∀ (l : List IpAddr) (t : Bytes), (∀ a ∈ l, addrFamily a = p.peerMode) → t.length < k →
      decList (k - 1) (fun b => do .ok (← decodeAddr (← rslice b 0 k), k)) (l.flatMap ipBody ++ t) =
        .ok (l, (l.flatMap ipBody).length) := by
    intro l t hl ht
    have := decList_reads (lim := k - 1) (dec := fun b => do .ok (← decodeAddr (← rslice b 0 k), k)) (w := ipBody)
      (y := id) l ?_ t (by omega)
    · rw [this, List.map_id]
    · intro a ha
      refine ⟨by rw [hlen a (hl a ha)]; omega, fun t => ?_⟩
      have hs := rslice_append_mid [] (ipBody a) t 0 k rfl (by simp [hlen a (hl a ha)])
      rw [List.nil_append] at hs
      simp only
      rw [hs, Res.ok_bind, decodeAddr_body, hlen a (hl a ha)]
      rfl
  have hex : ∀ (m : Nat) (v : Bytes), v.length ≤ m → ∃ (l : List IpAddr) (t : Bytes), v = l.flatMap ipBody ++ t ∧
      (∀ a ∈ l, addrFamily a = p.peerMode) ∧ t.length < k := by
    intro m
    induction m with
    | zero =>
      intro v hv
      exact ⟨[], v, rfl, by simp, by omega⟩
    | succ m ih =>
      intro v hv
      by_cases hvk : v.length < k
      · exact ⟨[], v, rfl, by simp, hvk⟩
      · obtain ⟨l, t, e, hl, ht⟩ := ih (v.drop k) (by simp; omega)
        have : ∃ a, addrFamily a = p.peerMode ∧ v = ipBody a ++ v.drop k := by
          cases hm : p.peerMode with
          | IPv4 =>
            rw [hm] at hk
            have hk : 4 = k := hk
            subst hk
            obtain ⟨a, e⟩ := split4 (v := v) (by omega)
            exact ⟨.v4 a, rfl, e⟩
          | IPv6 =>
            rw [hm] at hk
            have hk : 16 = k := hk
            subst hk
            obtain ⟨a, e⟩ := split16 (v := v) (by omega)
            exact ⟨.v6 a, rfl, e⟩
        obtain ⟨a, ha, ea⟩ := this
        refine ⟨a :: l, t, ?_, ?_, ht⟩
        · rw [List.flatMap_cons, List.append_assoc, ← e]; exact ea
        · intro b hb
          rcases List.mem_cons.1 hb with rfl | hb
          · exact ha
          · exact hl b hb
  constructor
  · rintro ⟨y, hy, rfl⟩
    obtain ⟨l, t, rfl, hl, ht⟩ := hex v.length v (Nat.le_refl _)
    rw [hdec, hreads l t hl ht, Res.ok_bind] at hy
    cases hy
    exact ⟨l, t, rfl, hl, ht, rfl⟩
  · rintro ⟨l, t, rfl, hl, ht, rfl⟩
    refine ⟨⟨l⟩, ?_, rfl⟩
    rw [hdec, hreads l t hl ht]
    rfl

theorem pmsiTunnel_iff (p : BgpSessionParams) (flags : U8) (n : Nat) (v : Bytes) (x : BgpAttrItem) :
    BgpAttrItem.decodeFrom p 22 flags n v = .ok x ↔ ∃ (fl kind a b c : U8) (id : Bytes) (t : BgpPMSITunnelAttr),
      v = [fl, kind] ++ [a, b, c] ++ id ∧ TunnelId kind t id ∧
      x = .PMSITunnel ⟨fl, kind, ⟨[BitVec.ofNat 32 (labelField [a, b, c])]⟩, t⟩ := by
  change (BgpPMSITunnel.decodeFrom v >>= fun x => .ok (BgpAttrItem.PMSITunnel x)) = .ok x ↔ _
  rw [bind_ok_iff]
  constructor
  · rintro ⟨y, hy, rfl⟩
    obtain ⟨a, b, c, id, hv, hl, ht⟩ := (pmsi_ok_iff v y).1 hy
    obtain ⟨fl, kind, lb, t⟩ := y
    simp only at hv hl ht
    exact ⟨fl, kind, a, b, c, id, t, hv, ht, by rw [hl]⟩
  · rintro ⟨fl, kind, a, b, c, id, t, rfl, ht, rfl⟩
    exact ⟨_, (pmsi_ok_iff _ _).2 ⟨a, b, c, id, rfl, rfl, ht⟩, rfl⟩

end Zbgp
