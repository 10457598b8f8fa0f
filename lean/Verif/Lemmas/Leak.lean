import Verif.Lemmas.FreshMsg
import Verif.Spec.Fresh

/-!
# What the AGGREGATOR attribute and the FQDN capability leave in the buffer
-/

namespace Zbgp

open Spec

variable {α : Type} {S : Nat → Prop} {a b : Bytes}

/-- the encoder does not look at the old contents -/
abbrev Blind (f : Bytes → Res (Bytes × α)) : Prop := Fresh f fun _ => 0

theorem blind_of {f : Bytes → Res (Bytes × α)} {c : α → Nat} (h : Fresh f c) : Blind f :=
  ⟨fun S a b hs => wrote_le (h.both S a b hs) fun _ => Nat.zero_le _⟩

theorem blind_value (x : BgpAttrItem) (p : BgpSessionParams) : Blind (x.encodeValue p) := by
  by_cases hx : ∀ v, x ≠ .AggregatorAS v
  · exact blind_of (fresh_value x p hx)
  · simp only [ne_eq, not_forall, not_not] at hx
    obtain ⟨v, rfl⟩ := hx
    exact ⟨fun S a b h => by unfold BgpAttrItem.encodeValue BgpAggregatorAS.encodeTo; dsimp only; fresh⟩

theorem blind_attr (x : BgpAttrItem) (p : BgpSessionParams) : Blind (x.encodeTo p) where
  both S a b h := by
    have he := h.1
    have := blind_value x p
    unfold BgpAttrItem.encodeTo BgpAttrItem.encodeBgpattr
    by_cases hf : x.attr.flags &&& 16 > 0
    · simp only [if_pos hf]; fresh
    · simp only [if_neg hf]; fresh

abbrev Kept (S : Nat → Prop) (l : Nat) : Bytes × α → Bytes × α → Prop := fun x y => x.2 = y.2 ∧ x.1.length = l ∧ Same S x.1 y.1

theorem kept_attrs (p : BgpSessionParams) (lp : Nat) (l : List BgpAttrItem) (h : Same S a b) (pos : Nat) :
    Both (Kept S a.length) (BgpUpdateMessage.encodeAttrs p lp l a pos) (BgpUpdateMessage.encodeAttrs p lp l b pos) := by
  induction l generalizing S a b pos with
  | nil => exact ⟨rfl, rfl, h⟩
  | cons x l ih =>
    have := blind_attr x p
    unfold BgpUpdateMessage.encodeAttrs
    refine both_ite Iff.rfl (fun _ => both_err _) fun _ => ?_
    fresh_step
    rename_i hl hs _
    refine both_mono (ih hs _) fun x y h => ⟨h.1, h.2.1.trans hl, h.2.2.mono fun i hi => .inl hi⟩

theorem blind_update (x : BgpUpdateMessage) (p : BgpSessionParams) : Blind (x.encodeTo p) where
  both S a b h := by
    have he := h.1
    unfold BgpUpdateMessage.encodeTo
    refine both_bind (R := Kept S a.length) ?_ ?_
    · unfold BgpUpdateMessage.encodeWithdraws
      cases hw : BgpUpdateMessage.nlriEncoder p x.withdraws with
      | some enc =>
        have := fresh_section hw
        simp only []
        fresh_step
        refine both_ite Iff.rfl (fun _ => both_err _) fun _ => ?_
        fresh_step
        exact ⟨rfl, by dsimp only; omega, Same.mono (by assumption) fun i hi => Or.inl (Or.inl hi)⟩
      | none =>
        simp only []
        fresh_step
        exact ⟨rfl, by dsimp only; omega, Same.mono (by assumption) fun i hi => Or.inl hi⟩
    · rintro ⟨x1, n⟩ ⟨y1, m⟩ ⟨hn, hl, hs⟩; dsimp only at hn; subst hn; dsimp only at *; have he := hs.1
      refine both_bind (kept_attrs _ _ _ hs _) ?_
      rintro ⟨x2, n2⟩ ⟨y2, m2⟩ ⟨hn, hl, hs⟩; dsimp only at hn; subst hn; dsimp only at *; have he := hs.1
      fresh_step
      cases hu : BgpUpdateMessage.nlriEncoder p x.updates with
      | some enc =>
        have := fresh_section hu
        simp only []
        fresh
      | none => simp only []; fresh

/-! ## AGGREGATOR in an UPDATE -/

theorem encodeAttrs_append (p : BgpSessionParams) (lp : Nat) (l m : List BgpAttrItem) (b : Bytes) (pos : Nat) :
    BgpUpdateMessage.encodeAttrs p lp (l ++ m) b pos =
      (BgpUpdateMessage.encodeAttrs p lp l b pos >>= fun r => BgpUpdateMessage.encodeAttrs p lp m r.1 r.2) := by
  induction l generalizing b pos with
  | nil => rfl
  | cons x l ih =>
    simp only [List.cons_append, BgpUpdateMessage.encodeAttrs]
    split
    · rfl
    · cases onSliceE b pos b.length (x.encodeTo p) with
      | ok r => exact ih _ _
      | _ => rfl

theorem onSliceEnd_ok {f : Bytes → Res (Bytes × α)} {b r : Bytes} {s : Nat} {n : α} (h : onSliceE b s b.length f = .ok (r, n)) :
    s ≤ b.length ∧ ∃ t, f (b.drop s) = .ok (t, n) ∧ r = b.take s ++ t := by
  unfold onSliceE at h
  split at h
  · rename_i hs
    obtain ⟨⟨t, m⟩, h1, h2⟩ := Res.bind_eq_ok.1 h
    rw [List.take_length] at h1
    simp only [List.drop_length, List.append_nil] at h2
    cases h2
    exact ⟨hs.1, t, h1, rfl⟩
  · cases h

theorem onSliceEnd_before {f : Bytes → Res (Bytes × α)} {b r : Bytes} {s : Nat} {n : α} (h : onSliceE b s b.length f = .ok (r, n))
    (k : Nat) (hk : k < s) : r[k]? = b[k]? := by
  obtain ⟨h1, t, -, rfl⟩ := onSliceEnd_ok h
  rw [getElem?_tail _ _ _ _ h1, if_pos hk]

theorem encodeAttrs_before (p : BgpSessionParams) (lp : Nat) (l : List BgpAttrItem) {b r : Bytes} {pos n : Nat}
    (h : BgpUpdateMessage.encodeAttrs p lp l b pos = .ok (r, n)) : pos ≤ n ∧ ∀ k < pos, r[k]? = b[k]? := by
  induction l generalizing b pos with
  | nil => cases h; exact ⟨Nat.le_refl _, fun _ _ => rfl⟩
  | cons x l ih =>
    unfold BgpUpdateMessage.encodeAttrs at h
    split at h
    · cases h
    · obtain ⟨⟨b1, m⟩, h1, h2⟩ := Res.bind_eq_ok.1 h
      obtain ⟨h3, h4⟩ := ih h2
      exact ⟨by omega, fun k hk => (h4 k (by omega)).trans (onSliceEnd_before h1 k hk)⟩

/-- nothing is written behind the three octets of the header of an AGGREGATOR -/
theorem aggregator_ok {v : BgpAggregatorAS} {p : BgpSessionParams} {b r : Bytes} {n : Nat}
    (h : (BgpAttrItem.AggregatorAS v).encodeTo p b = .ok (r, n)) :
    3 ≤ b.length ∧ n = 3 + (if p.hasAs32bit then 4 else 2) ∧ r.drop 3 = b.drop 3 := by
  unfold BgpAttrItem.encodeTo at h
  rcases b with _ | ⟨b0, _ | ⟨b1, _ | ⟨b2, t⟩⟩⟩
  · cases h
  · cases h
  · simp [BgpAttrItem.encodeBgpattr, BgpAttrItem.attr, BgpAggregatorAS.attr, setIdx, onFrom] at h
  · rw [encodeBgpattr_eq _ _ _ (by simp [BgpAttrItem.attr, BgpAggregatorAS.attr, extended])] at h
    cases hp : p.hasAs32bit <;>
      simp [BgpAttrItem.attr, BgpAggregatorAS.attr, extended, BgpAttrItem.encodeValue, BgpAggregatorAS.encodeTo, hp, maxValue,
        attrHeader] at h <;>
      obtain ⟨rfl, rfl⟩ := h <;> simp

/-- The octets of the buffer where the value of an AGGREGATOR belongs are as they were, if nothing before it is written behind
what is reported. -/
theorem update_aggregator_ok {x : BgpUpdateMessage} {p : BgpSessionParams} {pre post : List BgpAttrItem} {v : BgpAggregatorAS}
    (hx : x.attrs = pre ++ .AggregatorAS v :: post) (hp : ∀ y ∈ pre, AttrFramed y) {b r : Bytes} {n : Nat}
    (h : x.encodeTo p b = .ok (r, n)) :
    ∃ b0 c, BgpUpdateMessage.encodeTo ⟨.None, x.withdraws, pre⟩ p b = .ok (b0, c) ∧
      c + 3 + (if p.hasAs32bit then 4 else 2) ≤ n ∧
      ∀ k, c + 3 ≤ k → k < c + 3 + (if p.hasAs32bit then 4 else 2) → r[k]? = b[k]? := by
  have hf := frame_update p ⟨.None, x.withdraws, pre⟩ hp
  unfold BgpUpdateMessage.encodeTo at h
  obtain ⟨⟨b1, lp⟩, h1, h⟩ := Res.bind_eq_ok.1 h
  obtain ⟨⟨b2, c2⟩, h2, h⟩ := Res.bind_eq_ok.1 h
  rw [hx, encodeAttrs_append] at h2
  obtain ⟨⟨b3, c⟩, h3, h2⟩ := Res.bind_eq_ok.1 h2
  simp only [BgpUpdateMessage.encodeAttrs] at h2
  split at h2
  · cases h2
  obtain ⟨⟨b4, m⟩, h4, h2⟩ := Res.bind_eq_ok.1 h2
  obtain ⟨⟨b5, u⟩, h5, h⟩ := Res.bind_eq_ok.1 h
  obtain ⟨hc, t, ht, rfl⟩ := onSliceEnd_ok h4
  obtain ⟨ha1, ha2, ha3⟩ := aggregator_ok ht
  obtain ⟨hm, hb⟩ := encodeAttrs_before _ _ _ h2
  obtain ⟨hlc, -⟩ := encodeAttrs_before _ _ _ h3
  dsimp only at *
  have hset : ∀ (b : Bytes) (v : U16), Post (onSliceE b lp (lp + 2) fun b => do .ok (← setn16 v b, ())) fun r =>
      lp ≤ lp + 2 ∧ lp + 2 ≤ b.length ∧ r.1.length = b.length ∧ ∀ k, lp + 2 ≤ k → r.1[k]? = b[k]? := fun b v =>
    post_onSliceE _ _ _ _ fun t => post_bind (KeepsLen.post t) fun r h => post_ok h
  have h6 := (hset _ _) _ h5
  have h7 : ∀ k < c2, r[k]? = b5[k]? := by
    split at h
    · obtain ⟨⟨b6, w⟩, h8, h9⟩ := Res.bind_eq_ok.1 h
      cases h9
      exact fun k hk => onSliceEnd_before h8 k hk
    · cases h; exact fun _ _ => rfl
  have h8 : c2 ≤ n := by
    split at h
    · obtain ⟨⟨b6, w⟩, h8, h9⟩ := Res.bind_eq_ok.1 h
      cases h9
      dsimp only; omega
    · cases h; exact Nat.le_refl _
  have h9 : ∃ b0, BgpUpdateMessage.encodeTo ⟨.None, x.withdraws, pre⟩ p b = .ok (b0, c) ∧ ∀ k, c ≤ k → b0[k]? = b3[k]? := by
    have hw : BgpUpdateMessage.encodeWithdraws ⟨.None, x.withdraws, pre⟩ p b = x.encodeWithdraws p b := rfl
    have hn : BgpUpdateMessage.nlriEncoder p .None = none := by unfold BgpUpdateMessage.nlriEncoder; cases p.peerMode <;> rfl
    have hs : ∃ r, (onSliceE b3 lp (lp + 2) fun b => do .ok (← setn16 (BitVec.ofNat 16 (c - lp - 2)) b, ())) = .ok (r, ()) := by
      unfold onSliceE
      rw [if_pos (by omega)]
      have hl : ((b3.take (lp + 2)).drop lp).length = 2 := by simp; omega
      rcases hd : (b3.take (lp + 2)).drop lp with _ | ⟨y, _ | ⟨z, _ | _⟩⟩
      · simp [hd] at hl
      · simp [hd] at hl
      · exact ⟨_, rfl⟩
      · simp [hd] at hl
    obtain ⟨b0, hb0⟩ := hs
    refine ⟨b0, ?_, fun k hk => ((hset _ _) _ hb0).2.2.2 k (by omega)⟩
    unfold BgpUpdateMessage.encodeTo
    rw [hw, h1]
    simp only [Res.ok_bind]
    rw [h3]
    simp only [Res.ok_bind]
    rw [hb0]
    simp only [Res.ok_bind, hn]
  obtain ⟨b0, h9, h10⟩ := h9
  refine ⟨b0, c, h9, by omega, fun k hk hk' => ?_⟩
  have h11 := (hf _ _ _ h9).2.2
  rw [h7 k (by omega), h6.2.2.2 k (by omega), hb k (by omega), getElem?_tail _ _ _ _ hc, if_neg (by omega)]
  have h12 : t[k - c]? = (b3.drop c)[k - c]? := by
    have h13 := congrArg (fun l => l[k - c - 3]?) ha3
    simp only [List.getElem?_drop] at h13 ⊢
    rw [show 3 + (k - c - 3) = k - c by omega] at h13
    exact h13
  rw [h12, List.getElem?_drop, show c + (k - c) = k by omega, ← h10 k (by omega)]
  have h14 := congrArg (fun l => l[k - c]?) h11
  simp only [List.getElem?_drop] at h14
  rwa [show c + (k - c) = k by omega] at h14

/-! ## FQDN in an OPEN -/

theorem blind_cap (c : BgpCapability) : FreshB c.fillBuffer 0 := by
  by_cases hc : ∀ h d, c ≠ .CapFQDN h d
  · have := fresh_cap c hc
    exact ⟨fun S a b h => both_mono (this.both S a b h) fun x y h => ⟨h.1, h.2.mono fun i hi => by
      rcases hi with hi | hi
      · exact .inl hi
      · omega⟩⟩
  · simp only [ne_eq, not_forall, not_not] at hc
    obtain ⟨x, y, rfl⟩ := hc
    refine ⟨fun S a b h => ?_⟩
    have he := h.1
    unfold BgpCapability.fillBuffer
    refine both_ite (by rw [he]) (fun _ => both_err _) fun _ => ?_
    fresh

theorem blind_caps (l : List BgpCapability) : Blind (BgpOpenMessage.encodeCaps l) := by
  induction l with
  | nil => exact ⟨fun S a b h => by unfold BgpOpenMessage.encodeCaps; fresh⟩
  | cons x l ih =>
    have h1 := blind_cap x
    exact ⟨fun S a b h => by have he := h.1; unfold BgpOpenMessage.encodeCaps; fresh⟩

theorem blind_open (m : BgpOpenMessage) : Blind m.encodeTo where
  both S a b h := by
    have he := h.1
    have := blind_caps m.caps
    unfold BgpOpenMessage.encodeTo; fresh

/-- nothing is written into the last two octets of the capability -/
theorem post_fqdn (h d b : Bytes) : Post ((BgpCapability.CapFQDN h d).fillBuffer b) fun r =>
    4 + h.length + d.length ≤ b.length ∧ r.length = b.length ∧ ∀ k, 2 + h.length + d.length ≤ k → r[k]? = b[k]? := by
  unfold BgpCapability.fillBuffer
  split
  · exact post_err
  · rename_i hb
    simp only [BgpCapability.bytesLen] at hb
    repeat frame_step
    refine post_mono (post_copyAt _ _ _ _) ?_
    rintro _ ⟨_, _, _, _, _⟩
    refine ⟨by omega, by omega, fun k hk => ?_⟩
    simp (disch := omega) only [*]

theorem onSliceE_split {f : Bytes → Res (Bytes × α)} {b r : Bytes} {s e : Nat} {n : α} (h : onSliceE b s e f = .ok (r, n)) :
    s ≤ e ∧ e ≤ b.length ∧ ∃ t, f ((b.take e).drop s) = .ok (t, n) ∧ r = b.take s ++ t ++ b.drop e := by
  unfold onSliceE at h
  split at h
  · rename_i hs
    obtain ⟨⟨t, m⟩, h1, h2⟩ := Res.bind_eq_ok.1 h
    cases h2
    exact ⟨hs.1, hs.2, t, h1, rfl⟩
  · cases h

theorem onFrom_split {f : Bytes → Res (Bytes × α)} {b r : Bytes} {s : Nat} {n : α} (h : onFrom b s f = .ok (r, n)) :
    s ≤ b.length ∧ ∃ t, f (b.drop s) = .ok (t, n) ∧ r = b.take s ++ t := by
  unfold onFrom at h
  split at h
  · rename_i hs
    obtain ⟨⟨t, m⟩, h1, h2⟩ := Res.bind_eq_ok.1 h
    cases h2
    exact ⟨hs, t, h1, rfl⟩
  · cases h

theorem setIdx_split {b r : Bytes} {i : Nat} {v : U8} (h : setIdx b i v = .ok r) : i < b.length ∧ r = b.set i v := by
  unfold setIdx at h
  split at h
  · rename_i hi; cases h; exact ⟨hi, rfl⟩
  · cases h

theorem caps_fqdn_ok (pre post : List BgpCapability) (h d : Bytes) {b r : Bytes} {n : Nat}
    (he : BgpOpenMessage.encodeCaps (pre ++ .CapFQDN h d :: post) b = .ok (r, n)) :
    paramsSize pre + 6 + h.length + d.length ≤ n ∧ paramsSize pre + 6 + h.length + d.length ≤ b.length ∧
      ∀ k, paramsSize pre + 4 + h.length + d.length ≤ k → k < paramsSize pre + 6 + h.length + d.length → r[k]? = b[k]? := by
  induction pre generalizing b r n with
  | nil =>
    simp only [List.nil_append, BgpOpenMessage.encodeCaps, BgpCapability.bytesLen] at he
    obtain ⟨b1, h1, he⟩ := Res.bind_eq_ok.1 he
    obtain ⟨b2, h2, he⟩ := Res.bind_eq_ok.1 he
    obtain ⟨⟨b3, u⟩, h3, he⟩ := Res.bind_eq_ok.1 he
    obtain ⟨⟨b4, m⟩, h4, he⟩ := Res.bind_eq_ok.1 he
    cases he
    obtain ⟨-, rfl⟩ := setIdx_split h1
    obtain ⟨-, rfl⟩ := setIdx_split h2
    obtain ⟨-, h5, t, h6, rfl⟩ := onSliceE_split h3
    obtain ⟨-, t', h7, rfl⟩ := onFrom_split h4
    obtain ⟨t1, h8, h9⟩ := Res.bind_eq_ok.1 h6
    cases h9
    obtain ⟨h10, h11, h12⟩ := (post_fqdn h d _) _ h8
    simp only [List.length_set, List.length_drop, List.length_take] at h5 h10 h11
    refine ⟨by simp [paramsSize]; omega, by simp [paramsSize]; omega, fun k hk hk' => ?_⟩
    simp only [paramsSize, List.map_nil, List.sum_nil] at hk hk'
    rw [getElem?_tail _ _ _ _ (by simp; omega), if_pos (by omega), getElem?_splice _ _ _ _ _ (by simp; omega) (by omega) (by omega) (by simp; omega),
      if_neg (by omega), if_pos (by omega), h12 _ (by omega), List.getElem?_drop, List.getElem?_take_of_lt (by omega),
      List.getElem?_set_ne (by omega), List.getElem?_set_ne (by omega)]
    congr 1; omega
  | cons c pre ih =>
    simp only [List.cons_append, BgpOpenMessage.encodeCaps] at he
    obtain ⟨b1, h1, he⟩ := Res.bind_eq_ok.1 he
    obtain ⟨b2, h2, he⟩ := Res.bind_eq_ok.1 he
    obtain ⟨⟨b3, u⟩, h3, he⟩ := Res.bind_eq_ok.1 he
    obtain ⟨⟨b4, m⟩, h4, he⟩ := Res.bind_eq_ok.1 he
    cases he
    obtain ⟨-, rfl⟩ := setIdx_split h1
    obtain ⟨-, rfl⟩ := setIdx_split h2
    have h5 := (post_onSliceE _ _ _ _ fun t => post_bind (KeepsLen.post t) fun r h => post_ok h) _ h3
    obtain ⟨hb, t', h7, rfl⟩ := onFrom_split h4
    obtain ⟨h8, h9, h10⟩ := ih h7
    simp only [List.length_set, List.length_drop] at h5 h9 hb
    refine ⟨by simp [paramsSize] at *; omega, by simp [paramsSize] at *; omega, fun k hk hk' => ?_⟩
    simp only [paramsSize, List.map_cons, List.sum_cons] at hk hk' h8 h9 h10
    rw [getElem?_tail _ _ _ _ hb, if_neg (by omega), h10 _ (by omega) (by omega), List.getElem?_drop, h5.2.2.2 _ (by omega),
      List.getElem?_set_ne (by omega), List.getElem?_set_ne (by omega)]
    congr 1; omega

theorem open_fqdn_ok {m : BgpOpenMessage} {pre post : List BgpCapability} {h d : Bytes} (hm : m.caps = pre ++ .CapFQDN h d :: post)
    {b r : Bytes} {n : Nat} (he : m.encodeTo b = .ok (r, n)) :
    paramsSize pre + 16 + h.length + d.length ≤ n ∧ paramsSize pre + 16 + h.length + d.length ≤ b.length ∧
      ∀ k, paramsSize pre + 14 + h.length + d.length ≤ k → k < paramsSize pre + 16 + h.length + d.length → r[k]? = b[k]? := by
  unfold BgpOpenMessage.encodeTo at he
  split at he
  · cases he
  rw [hm] at he
  obtain ⟨b1, h1, he⟩ := Res.bind_eq_ok.1 he
  obtain ⟨b2, h2, he⟩ := Res.bind_eq_ok.1 he
  obtain ⟨b3, h3, he⟩ := Res.bind_eq_ok.1 he
  obtain ⟨b4, h4, he⟩ := Res.bind_eq_ok.1 he
  obtain ⟨b5, h5, he⟩ := Res.bind_eq_ok.1 he
  obtain ⟨⟨b6, q⟩, h6, he⟩ := Res.bind_eq_ok.1 he
  cases he
  obtain ⟨-, rfl⟩ := setIdx_split h1
  obtain ⟨-, rfl⟩ := setIdx_split h5
  obtain ⟨_, _, _, hc2, hk2⟩ := post_copyAt _ _ _ _ _ h2
  obtain ⟨_, _, _, hc3, hk3⟩ := post_copyAt _ _ _ _ _ h3
  obtain ⟨_, _, _, hc4, hk4⟩ := post_copyAt _ _ _ _ _ h4
  obtain ⟨hb, t, h7, rfl⟩ := onFrom_split h6
  obtain ⟨h8, h9, h10⟩ := caps_fqdn_ok pre post h d h7
  simp only [List.length_set, List.length_drop] at *
  refine ⟨by omega, by omega, fun k hk hk' => ?_⟩
  rw [getElem?_tail _ _ _ _ (by simpa using hb), if_neg (by omega), h10 _ (by omega) (by omega), List.getElem?_drop,
    show 10 + (k - 10) = k by omega, List.getElem?_set_ne (by omega), hk4 _ (by omega), hk3 _ (by omega), hk2 _ (by omega), List.getElem?_set_ne (by omega)]

end Zbgp
