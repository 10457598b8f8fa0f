import Verif.Lemmas.FreshNlri

/-!
# Encoders of attributes and messages do not look at what the buffer held

All but AGGREGATOR attributes and FQDN capabilities, which leave octets they report unwritten.
-/

namespace Zbgp

open Spec

variable {α : Type} {S : Nat → Prop} {a b : Bytes}

/-! ## Attributes -/

theorem isEmpty_len (a b : Bytes) (h : a.length = b.length) : a.isEmpty = b.isEmpty := by
  cases a <;> cases b <;> simp at h ⊢

instance (x : BgpOrigin) : FreshE x.encodeTo where
  both S a b h := by
    have he := h.1
    unfold BgpOrigin.encodeTo
    refine both_ite (by rw [isEmpty_len a b he]) (fun _ => both_err _) fun _ => ?_
    cases x.value <;> fresh

theorem both_asns (as32 : Bool) (l : List BgpAS) (h : Same S a b) (pos : Nat) :
    Both (WroteL S pos a.length) (BgpASpath.encodeAsns as32 l a pos) (BgpASpath.encodeAsns as32 l b pos) := by
  induction l generalizing S a b pos with
  | nil => exact wroteL_nil h pos
  | cons x l ih =>
    unfold BgpASpath.encodeAsns
    refine both_ite Iff.rfl (fun _ => ?_) fun _ => ?_
    all_goals
      fresh_step
      refine wroteL_step (ih (by assumption) _) (by omega) (by omega) ?_
      positions

instance (x : BgpASpath) (p : BgpSessionParams) : FreshE (x.encodeTo p) where
  both S a b h := by
    have he := h.1
    unfold BgpASpath.encodeTo
    fresh
    all_goals
      refine wrote_of_wroteL (both_asns _ _ (by assumption) _) (by omega) ?_
      positions

instance (x : BgpNextHop) (p : BgpSessionParams) : FreshE (x.encodeTo p) where
  both S a b h := by
    have he := h.1
    unfold BgpNextHop.encodeTo
    cases x.value with
    | v4 v => exact both_ite (by rw [he]) (fun _ => (freshV4 v).both S a b h) fun _ => both_err _
    | v6 v => exact both_ite (by rw [he]) (fun _ => (freshV6 v).both S a b h) fun _ => both_err _

instance (x : BgpMED) : FreshE x.encodeTo where
  both S a b h := by have he := h.1; unfold BgpMED.encodeTo; fresh
instance (x : BgpLocalpref) : FreshE x.encodeTo where
  both S a b h := by have he := h.1; unfold BgpLocalpref.encodeTo; fresh
instance (x : BgpAtomicAggregate) : FreshE x.encodeTo where
  both S a b h := Fresh.both (f := encodeAddr _) S a b h
instance (x : BgpOriginatorID) (p : BgpSessionParams) : FreshE (x.encodeTo p) where
  both S a b h := by
    unfold BgpOriginatorID.encodeTo
    cases p.peerMode <;> cases x.value <;> dsimp only <;>
      first | exact both_err _ | exact (freshV4 _).both S a b h | exact (freshV6 _).both S a b h
instance (x : BgpClusterList) : FreshE x.encodeTo where
  both S a b h := Fresh.both (f := fun b => encLoop encodeAddr x.value b 0) S a b h
instance (x : BgpConnector) : FreshE x.encodeTo where
  both S a b h := by have he := h.1; unfold BgpConnector.encodeTo; fresh
instance (x : BgpAttrUnknown) : FreshE x.encodeTo where
  both S a b h := by have he := h.1; unfold BgpAttrUnknown.encodeTo; fresh
instance (x : BgpCommunity) : FreshE x.encodeTo where
  both S a b h := by have he := h.1; unfold BgpCommunity.encodeTo; fresh
instance (x : BgpLargeCommunity) : FreshE x.encodeTo where
  both S a b h := by have he := h.1; unfold BgpLargeCommunity.encodeTo; fresh
instance (x : BgpExtCommunity) : FreshE x.encodeTo where
  both S a b h := by have he := h.1; unfold BgpExtCommunity.encodeTo; fresh
instance (x : BgpCommunityList) : FreshE x.encodeTo where
  both S a b h := by
    have he := h.1
    unfold BgpCommunityList.encodeTo
    refine both_ite (by rw [he]) (fun _ => both_err _) fun _ => ?_
    exact Fresh.both (f := fun b => encLoop BgpCommunity.encodeTo x.value b 0) S a b h
instance (x : BgpLargeCommunityList) : FreshE x.encodeTo where
  both S a b h := Fresh.both (f := fun b => encLoop BgpLargeCommunity.encodeTo x.value b 0) S a b h
instance (x : BgpExtCommunityList) : FreshE x.encodeTo where
  both S a b h := Fresh.both (f := fun b => encLoop BgpExtCommunity.encodeTo x.value b 0) S a b h

theorem both_nexthop (nh : BgpAddr) (p : BgpSessionParams) (h : Same S a b) :
    Both (fun x y => x.2 = y.2 ∧ x.1.length = a.length ∧ Same (span S 4 (4 + x.2)) x.1 y.1)
      (BgpMPUpdates.encodeNexthop nh p a) (BgpMPUpdates.encodeNexthop nh p b) := by
  cases nh <;> simp only [BgpMPUpdates.encodeNexthop]
  case None => exact ⟨rfl, rfl, h.mono (by positions)⟩
  case V4 x => exact both_onFrom (hf := freshV4 x) h _ _
  case V6 x => exact both_onFrom (hf := freshV6 x) h _ _
  case V4RD x => exact both_onFrom h 4 (BgpAddrItem.encodeTo x p.peerMode)
  case V6RD x => exact both_onFrom h 4 (BgpAddrItem.encodeTo x p.peerMode)
  all_goals exact both_err _

instance (x : BgpMPUpdates) (p : BgpSessionParams) : FreshE (x.encodeTo p) where
  both S a b h := by
    have he := h.1
    unfold BgpMPUpdates.encodeTo
    fresh_step; fresh_step
    refine both_bind (both_nexthop _ _ (by assumption)) ?_
    rintro ⟨x, n⟩ ⟨y, m⟩ ⟨hn, hl, hs⟩; dsimp only at hn; subst hn; dsimp only at *; have he := hs.1
    fresh

instance (x : BgpMPWithdraws) (p : BgpSessionParams) : FreshE (x.encodeTo p) where
  both S a b h := by have he := h.1; unfold BgpMPWithdraws.encodeTo; fresh

theorem fresh_value (x : BgpAttrItem) (p : BgpSessionParams) (hx : ∀ v, x ≠ .AggregatorAS v) : FreshE (x.encodeValue p) where
  both S a b h := by
    cases x <;> unfold BgpAttrItem.encodeValue
    case PMSITunnel x => exact both_panic
    case AttrSet a l => exact both_panic
    case AggregatorAS v => exact absurd rfl (hx v)
    all_goals
      rename_i x
      first | exact Fresh.both (f := x.encodeTo) S a b h | exact Fresh.both (f := x.encodeTo p) S a b h

theorem fresh_attr (x : BgpAttrItem) (p : BgpSessionParams) (hx : ∀ v, x ≠ .AggregatorAS v) : FreshE (x.encodeTo p) where
  both S a b h := by
    have he := h.1
    have := fresh_value x p hx
    unfold BgpAttrItem.encodeTo BgpAttrItem.encodeBgpattr
    by_cases hf : x.attr.flags &&& 16 > 0
    · simp only [if_pos hf]; fresh
    · simp only [if_neg hf]; fresh

/-! ## UPDATE -/

theorem both_attrs (p : BgpSessionParams) (lp : Nat) (l : List BgpAttrItem) (hx : ∀ x ∈ l, ∀ v, x ≠ .AggregatorAS v) (h : Same S a b)
    (pos : Nat) :
    Both (WroteL S pos a.length) (BgpUpdateMessage.encodeAttrs p lp l a pos) (BgpUpdateMessage.encodeAttrs p lp l b pos) := by
  induction l generalizing S a b pos with
  | nil => exact wroteL_nil h pos
  | cons x l ih =>
    have := fresh_attr x p (hx x (by simp))
    unfold BgpUpdateMessage.encodeAttrs
    refine both_ite Iff.rfl (fun _ => both_err _) fun _ => ?_
    fresh_step
    refine wroteL_step (ih (fun y hy => hx y (by simp [hy])) (by assumption) _) (by omega) (by omega) ?_
    positions

theorem fresh_section {p : BgpSessionParams} {x : BgpAddrs} {enc : Enc} (h : BgpUpdateMessage.nlriEncoder p x = some enc) :
    FreshE enc := by
  rw [nlriEncoder_eq] at h
  split at h
  · cases h; infer_instance
  · cases h

instance (f : Bytes → Res Bytes) (n : Nat) [FreshB f n] : Fresh (fun b => do .ok (← f b, ())) (fun _ => n) where
  both S a b h := by have he := h.1; fresh

theorem fresh_update (x : BgpUpdateMessage) (p : BgpSessionParams) (hx : ∀ y ∈ x.attrs, ∀ v, y ≠ .AggregatorAS v) :
    FreshE (x.encodeTo p) where
  both S a b h := by
    have he := h.1
    unfold BgpUpdateMessage.encodeTo
    refine both_bind (R := fun x y => 2 ≤ x.2 ∧ Wrote (fun n => n) S a.length x y) ?_ ?_
    · unfold BgpUpdateMessage.encodeWithdraws
      cases hw : BgpUpdateMessage.nlriEncoder p x.withdraws with
      | some enc =>
        have := fresh_section hw
        simp only []
        fresh_step
        refine both_ite Iff.rfl (fun _ => both_err _) fun _ => ?_
        fresh_step
        exact ⟨by dsimp only; omega, rfl, by dsimp only; omega, Same.mono (by assumption) (by positions)⟩
      | none =>
        simp only []
        fresh_step
        exact ⟨by dsimp only; omega, rfl, by dsimp only; omega, Same.mono (by assumption) (by positions)⟩
    · rintro ⟨x1, n⟩ ⟨y1, m⟩ ⟨_, hn, hl, hs⟩; dsimp only at hn; subst hn; dsimp only at *; have he := hs.1
      refine both_bind (both_attrs _ _ _ hx hs _) ?_
      rintro ⟨x2, n2⟩ ⟨y2, m2⟩ ⟨hn, hle, hl, hs⟩; dsimp only at hn; subst hn; dsimp only at *; have he := hs.1
      fresh_step
      cases hu : BgpUpdateMessage.nlriEncoder p x.updates with
      | some enc =>
        have := fresh_section hu
        simp only []
        fresh
      | none => simp only []; fresh

/-! ## OPEN, NOTIFICATION, KEEPALIVE and headers -/

theorem freshB_copyAll (src : Bytes) (n : Nat) (hn : n ≤ src.length) (h : Same S a b) :
    Both (WroteB S a.length n) (copyAll a src) (copyAll b src) := by
  unfold copyAll
  exact both_ite (by rw [h.1]) (fun hl => ⟨hl.symm, same_all _ _⟩) fun _ => both_panic

theorem fresh_chunks (k : Nat) (enc : α → Bytes → Res Bytes) (hf : ∀ x, FreshB (enc x) k) (l : List α) :
    FreshB (BgpCapability.fillChunks k enc l) (l.length * k) where
  both S a b h := by
    induction l generalizing S a b with
    | nil => exact both_okB rfl h (by rw [List.length_nil, Nat.zero_mul]; positions)
    | cons x l ih =>
      unfold BgpCapability.fillChunks
      refine both_ite (by rw [h.1]) (fun hk => ?_) fun _ => both_panic
      refine both_bind ((hf x).both _ _ _ (h.slice 0 k)) fun x1 y1 h1 => ?_
      refine both_bind (ih _ _ _ (h.drop k)) fun x2 y2 h2 => ?_
      have hl1 : x1.length = k := by rw [h1.1]; simp [hk]
      have hl1' : y1.length = k := by rw [← h1.2.1, hl1]
      refine ⟨by simp [hl1, h2.1]; omega, by simp [h1.2.1, h2.2.1], fun i hi => ?_⟩
      by_cases hik : i < k
      · rw [List.getElem?_append_left (by omega), List.getElem?_append_left (by omega)]
        exact h1.2.2 i (.inr ⟨Nat.zero_le _, hik⟩)
      · rw [List.getElem?_append_right (by omega), List.getElem?_append_right (by omega), hl1, hl1']
        refine h2.2.2 _ ?_
        rcases hi with hi | hi
        · left; dsimp only; rwa [show k + (i - k) = i by omega]
        · right
          have : (x :: l).length * k = l.length * k + k := by simp [Nat.add_mul]
          omega

instance (c : BgpCapGR) : FreshB c.encodeTo 4 where
  both S a b h := by
    have he := h.1
    unfold BgpCapGR.encodeTo
    refine both_ite (by rw [he]) (fun _ => both_err _) fun _ => ?_
    fresh_step; fresh_step; fresh_step
    fresh
instance (c : BgpCapLLGR) : FreshB c.encodeTo 7 where
  both S a b h := by have he := h.1; unfold BgpCapLLGR.encodeTo; fresh
instance (c : BgpCapAddPath) : FreshB c.encodeTo 4 where
  both S a b h := by have he := h.1; unfold BgpCapAddPath.encodeTo; fresh

theorem fresh_cap (c : BgpCapability) (hc : ∀ h d, c ≠ .CapFQDN h d) : FreshB c.fillBuffer c.bytesLen where
  both S a b h := by
    have he := h.1
    unfold BgpCapability.fillBuffer
    refine both_ite (by rw [he]) (fun _ => both_err _) fun _ => ?_
    cases c
    case CapFQDN x y _ => exact absurd rfl (hc x y)
    case CapGR t r l _ =>
      have := fresh_chunks 4 BgpCapGR.encodeTo (fun _ => inferInstance) l
      simp only [BgpCapability.bytesLen]
      fresh_step; fresh_step
      refine both_ite Iff.rfl (fun _ => both_err _) fun _ => ?_
      fresh_step
      fresh
    case CapAddPath l _ =>
      have := fresh_chunks 4 BgpCapAddPath.encodeTo (fun _ => inferInstance) l
      simp only [BgpCapability.bytesLen]
      fresh
    case CapLLGR l _ =>
      have := fresh_chunks 7 BgpCapLLGR.encodeTo (fun _ => inferInstance) l
      simp only [BgpCapability.bytesLen]
      fresh
    all_goals exact freshB_copyAll _ _ (by simp [BgpCapability.bytesLen]) h

theorem fresh_caps (l : List BgpCapability) (hc : ∀ c ∈ l, ∀ h d, c ≠ .CapFQDN h d) : FreshE (BgpOpenMessage.encodeCaps l) := by
  induction l with
  | nil => exact ⟨fun S a b h => by unfold BgpOpenMessage.encodeCaps; fresh⟩
  | cons x l ih =>
    have h1 := fresh_cap x (hc x (by simp))
    have h2 := ih fun y hy => hc y (by simp [hy])
    exact ⟨fun S a b h => by have he := h.1; unfold BgpOpenMessage.encodeCaps; fresh⟩

theorem fresh_open (m : BgpOpenMessage) (hc : ∀ c ∈ m.caps, ∀ h d, c ≠ .CapFQDN h d) : FreshE m.encodeTo where
  both S a b h := by
    have he := h.1
    have := fresh_caps m.caps hc
    unfold BgpOpenMessage.encodeTo; fresh

instance (m : BgpNotificationMessage) : FreshE m.encodeTo where
  both S a b h := by have he := h.1; unfold BgpNotificationMessage.encodeTo; fresh

instance : FreshE keepaliveEncode where
  both S a b h := by unfold keepaliveEncode; fresh

/-- the 19 octets of the header -/
instance (ty : BgpMessageType) (n : Nat) : Fresh (fun b => BgpSessionParams.prepareMessageBuf b ty n) fun _ => 19 where
  both S a b h := by have he := h.1; unfold BgpSessionParams.prepareMessageBuf; fresh

/-- the header reports no more than its 19 octets and the message -/
theorem prepare_le {ty : BgpMessageType} {n : Nat} {r : Bytes × Nat} (h : BgpSessionParams.prepareMessageBuf a ty n = .ok r) :
    r.2 ≤ n + 19 := by
  unfold BgpSessionParams.prepareMessageBuf at h
  split at h
  · cases h
  · obtain ⟨_, _, h⟩ := Res.bind_eq_ok.1 h
    obtain ⟨x, hx, h⟩ := Res.bind_eq_ok.1 h
    obtain ⟨_, _, h⟩ := Res.bind_eq_ok.1 h
    obtain ⟨_, _, h⟩ := Res.bind_eq_ok.1 h
    obtain ⟨_, _, h⟩ := Res.bind_eq_ok.1 h
    cases h
    unfold addC at hx
    split at hx
    · cases hx
      dsimp only
      rw [BitVec.toNat_add, Nat.mod_eq_of_lt (by assumption), BitVec.toNat_ofNat]
      have := Nat.mod_le n (2 ^ 16)
      have : (19 : BitVec 16).toNat = 19 := rfl
      omega
    · cases hx

end Zbgp
