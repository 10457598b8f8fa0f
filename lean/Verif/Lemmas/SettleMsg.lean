import Verif.Lemmas.Settle

/-!
# Encoders of FlowSpec, attributes and messages settle
-/

namespace Zbgp

open Spec

variable {α : Type}

/-! ## FlowSpec -/

class FsSmall (T : Type) [FSItem T] : Prop where
  small : ∀ x : T, FSItem.storeSize x ≤ 1000

instance : FsSmall BgpAddrV4 := ⟨fun x => by have := x.prefixlen.isLt; simp only [FSItem.storeSize]; omega⟩
instance : FsSmall FS6 := ⟨fun x => by have := x.ipv6.prefixlen.isLt; simp only [FSItem.storeSize]; omega⟩
instance : FsSmall FSV4U := ⟨fun x => by have := x.pfx.pfx.prefixlen.isLt; simp only [FSItem.storeSize]; omega⟩

theorem foldl_sum {β : Type} (f : β → Nat) (l : List β) (n : Nat) : l.foldl (fun a c => a + f c) n = n + (l.map f).sum := by
  induction l generalizing n with
  | nil => simp
  | cons x l ih => simp [ih]; omega

theorem counted_vals (v : FSOperVec FSOperValItem) : v.bytesLen = (v.items.map countedVal).sum := by
  unfold FSOperVec.bytesLen
  rw [foldl_sum, Nat.zero_add]
  congr 2
  funext x
  simp only [FSOperItem.bytesLen, countedVal]
  repeat' split
  all_goals omega

theorem counted_masks (v : FSOperVec FSOperMaskItem) : v.bytesLen = (v.items.map countedMask).sum := by
  unfold FSOperVec.bytesLen
  rw [foldl_sum, Nat.zero_add]
  congr 2
  funext x
  simp only [FSOperItem.bytesLen, countedMask]
  repeat' split
  all_goals omega

section flowspec

variable {T : Type} [FSItem T] [FsSets T] [FsSmall T]

omit [FsSets T] in
theorem tooLong_iff (x : BgpFlowSpec T) : TooLong x ↔ x.nlen > 4094 := by
  cases x <;> simp only [TooLong, BgpFlowSpec.nlen, counted_vals, counted_masks, gt_iff_lt]
  case prefixDst a => have := FsSmall.small a; simp; omega
  case prefixSrc a => have := FsSmall.small a; simp; omega

theorem sets_putOps {I : Type} [FSOperItem I] [OpSets I] (code : U8) (v : FSOperVec I) (pos : Nat) :
    Sets fun b => BgpFlowSpec.putOps code v b pos := by unfold BgpFlowSpec.putOps; settle

omit [FsSmall T] in
theorem sets_putPrefix (code : U8) (x : T) (pos : Nat) : Sets fun b => BgpFlowSpec.putPrefix code x b pos := by
  unfold BgpFlowSpec.putPrefix; settle

omit [FsSmall T] in
theorem sets_putBody (x : BgpFlowSpec T) (pos : Nat) : Sets fun b => x.putBody b pos := by
  cases x <;> first | exact sets_putPrefix _ _ _ | exact sets_putOps _ _ _

theorem sets_fs (x : BgpFlowSpec T) (h : ¬ TooLong x) (mode : BgpTransportMode) : Sets (BgpAddrItem.encodeTo x mode) := by
  change Sets x.encodeTo
  rw [tooLong_iff] at h
  unfold BgpFlowSpec.encodeTo
  simp only [if_neg h]
  refine sets_ite (fun _ => ?_) fun _ => ?_
  · settle_step
    settle_step
    exact sets_putBody _ _
  · settle_step
    settle_step
    settle_step
    exact sets_putBody _ _

theorem sets_fsItems (l : List (BgpFlowSpec T)) (h : ∀ x ∈ l, ¬ TooLong x) (mode : BgpTransportMode) : Sets (encodeAddrItems l mode) :=
  sets_encLoop _ l (fun x hx => sets_fs x (h x hx) mode) 0

omit [FsSets T] in
theorem never_fs (x : BgpFlowSpec T) (h : TooLong x) : NeverEnough x.encodeTo := fun b => by
  rw [tooLong_iff] at h
  unfold BgpFlowSpec.encodeTo
  simp only [if_pos h]

end flowspec

theorem sets_addrs (x : BgpAddrs) (h : AddrsFit x) (p : BgpSessionParams) : Sets (x.encodeTo p) := by
  cases x <;> unfold BgpAddrs.encodeTo
  case None => settle
  case L2VPLS v => exact sets_encLoop _ v (fun _ _ => inferInstance) 0
  case FS4U v => exact sets_fsItems v h _
  case FS6U v => exact sets_fsItems v h _
  case FSV4U v => exact sets_fsItems v h _
  all_goals first
    | exact inferInstanceAs (Sets (encodeItems _))
    | exact inferInstanceAs (Sets (encodePathIdItems _))
    | exact inferInstanceAs (Sets (encodeAddrItems _ _))

/-! ## Attributes -/

theorem not_empty (b : Bytes) (h : 1 ≤ b.length) : ¬ b.isEmpty = true := by cases b <;> simp at h ⊢

instance (x : BgpOrigin) : Sets x.encodeTo := by
  unfold BgpOrigin.encodeTo
  refine sets_large 1 not_empty ?_
  cases x.value <;> settle

theorem sets_asns (as32 : Bool) (l : List BgpAS) (pos : Nat) : Sets fun b => BgpASpath.encodeAsns as32 l b pos := by
  induction l generalizing pos with
  | nil => unfold BgpASpath.encodeAsns; settle
  | cons x l ih =>
    unfold BgpASpath.encodeAsns
    refine sets_ite (fun _ => ?_) fun _ => ?_
    all_goals
      settle_step
      exact ih _

instance (x : BgpASpath) (p : BgpSessionParams) : Sets (x.encodeTo p) := by
  have := fun as32 pos => sets_asns as32 x.value pos
  unfold BgpASpath.encodeTo
  settle
  all_goals exact this _ _

instance (x : BgpNextHop) (p : BgpSessionParams) : Sets (x.encodeTo p) := by
  unfold BgpNextHop.encodeTo
  cases x.value with
  | v4 v =>
    by_cases hm : p.peerMode = .IPv4
    · simp only [hm, true_and]; exact sets_large' 4 (fun b hb => hb) inferInstance
    · simp only [hm, false_and, if_false]; settle
  | v6 v =>
    by_cases hm : p.peerMode = .IPv6
    · simp only [hm, true_and]; exact sets_large' 16 (fun b hb => hb) inferInstance
    · simp only [hm, false_and, if_false]; settle

instance (x : BgpMED) : Sets x.encodeTo := by unfold BgpMED.encodeTo; settle
instance (x : BgpLocalpref) : Sets x.encodeTo := by unfold BgpLocalpref.encodeTo; settle
instance (x : BgpAggregatorAS) (p : BgpSessionParams) : Sets (x.encodeTo p) := by unfold BgpAggregatorAS.encodeTo; settle
instance (x : BgpAtomicAggregate) : Sets x.encodeTo := inferInstanceAs (Sets (encodeAddr _))
instance (x : BgpOriginatorID) (p : BgpSessionParams) : Sets (x.encodeTo p) := by
  unfold BgpOriginatorID.encodeTo
  cases p.peerMode <;> cases x.value <;> dsimp only <;> settle
instance (x : BgpClusterList) : Sets x.encodeTo := sets_encLoop _ _ (fun _ _ => inferInstance) 0
instance (x : BgpConnector) : Sets x.encodeTo := by unfold BgpConnector.encodeTo; settle
instance (x : BgpAttrUnknown) : Sets x.encodeTo := by unfold BgpAttrUnknown.encodeTo; settle
instance (x : BgpCommunity) : Sets x.encodeTo := by unfold BgpCommunity.encodeTo; settle
instance (x : BgpLargeCommunity) : Sets x.encodeTo := by unfold BgpLargeCommunity.encodeTo; settle
instance (x : BgpExtCommunity) : Sets x.encodeTo := by unfold BgpExtCommunity.encodeTo; settle
instance (x : BgpCommunityList) : Sets x.encodeTo := by
  unfold BgpCommunityList.encodeTo
  settle_step
  exact sets_encLoop _ _ (fun _ _ => inferInstance) 0
instance (x : BgpLargeCommunityList) : Sets x.encodeTo := sets_encLoop _ _ (fun _ _ => inferInstance) 0
instance (x : BgpExtCommunityList) : Sets x.encodeTo := sets_encLoop _ _ (fun _ _ => inferInstance) 0

theorem sets_nexthop (nh : BgpAddr) (p : BgpSessionParams) : Sets (BgpMPUpdates.encodeNexthop nh p) := by
  unfold BgpMPUpdates.encodeNexthop
  cases nh <;> dsimp only <;> settle

theorem sets_mpUpdates (x : BgpMPUpdates) (p : BgpSessionParams) (h : AddrsFit x.addrs) : Sets (x.encodeTo p) := by
  have := sets_addrs x.addrs h p
  unfold BgpMPUpdates.encodeTo
  settle_step; settle_step
  refine sets_bind (sets_nexthop _ _) fun a => ?_
  dsimp only
  settle

theorem sets_mpWithdraws (x : BgpMPWithdraws) (p : BgpSessionParams) (h : AddrsFit x.addrs) : Sets (x.encodeTo p) := by
  have := sets_addrs x.addrs h p
  unfold BgpMPWithdraws.encodeTo
  settle

theorem sets_value (x : BgpAttrItem) (p : BgpSessionParams) (h : AttrFits x) : Sets (x.encodeValue p) := by
  cases x <;> unfold BgpAttrItem.encodeValue
  case PMSITunnel x => exact sets_panic
  case AttrSet a l => exact sets_panic
  case MPUpdates x => exact sets_mpUpdates x p h
  case MPWithdraws x => exact sets_mpWithdraws x p h
  all_goals
    rename_i x
    first | exact inferInstanceAs (Sets x.encodeTo) | exact inferInstanceAs (Sets (x.encodeTo p))

theorem sets_attr (x : BgpAttrItem) (p : BgpSessionParams) (h : AttrFits x) : Sets (x.encodeTo p) := by
  have := sets_value x p h
  unfold BgpAttrItem.encodeTo BgpAttrItem.encodeBgpattr
  by_cases hf : x.attr.flags &&& 16 > 0
  · simp only [if_pos hf]
    settle_step; settle_step; settle_step
    rename_i n
    refine sets_ite (c := n > 65535) (fun _ => ?_) fun _ => ?_ <;> settle
  · simp only [if_neg hf]
    settle_step; settle_step; settle_step
    rename_i n
    refine sets_ite (c := n > 255) (fun _ => ?_) fun _ => ?_ <;> settle

/-! ## UPDATE -/

theorem sets_sliceEnd (s : Nat) {f : Bytes → Res (Bytes × α)} (hf : Sets f) : Sets fun b => onSliceE b s b.length f := by
  obtain ⟨N, o, ho, h⟩ := (sets_onFrom s hf).sets
  refine ⟨max s N, o, ho, fun b hb => ?_⟩
  have := h b (by omega)
  rw [onFrom, if_pos (by omega)] at this
  rw [onSliceE, if_pos ⟨by omega, Nat.le_refl _⟩]
  simpa using this

theorem sets_sliceFix (s e : Nat) {f : Bytes → Res (Bytes × α)} {k : Nat} (hf : Fix f k) (hk : e - s = k) (hse : s ≤ e) :
    Sets fun b => onSliceE b s e f := by
  obtain ⟨N, o, ho, h⟩ := (sets_onRange s e hf hk).sets
  refine ⟨max e N, o, ho, fun b hb => ?_⟩
  have := h b (by omega)
  rw [onRange, if_pos ⟨hse, by omega⟩] at this
  rw [onSliceE, if_pos ⟨hse, by omega⟩]
  exact this

theorem fix_unit {f : Bytes → Res Bytes} {k : Nat} (h : FixB f k) : Fix (fun b => f b >>= fun r => .ok (r, ())) k := ⟨h.fix⟩
theorem sets_unit {f : Bytes → Res Bytes} (h : SetsB f) : Sets fun b => f b >>= fun r => .ok (r, ()) := setsB_iff.1 h

theorem sets_attrs (p : BgpSessionParams) (lp : Nat) (l : List BgpAttrItem) (hl : ∀ x ∈ l, AttrFits x) (pos : Nat) :
    Sets fun b => BgpUpdateMessage.encodeAttrs p lp l b pos := by
  induction l generalizing pos with
  | nil => unfold BgpUpdateMessage.encodeAttrs; settle
  | cons x l ih =>
    unfold BgpUpdateMessage.encodeAttrs
    refine sets_ite (fun _ => ?_) fun _ => ?_
    · settle
    · refine sets_bind (sets_sliceEnd _ (sets_attr x p (hl x (by simp)))) fun n => ?_
      exact ih (fun y hy => hl y (by simp [hy])) _

theorem sets_section {p : BgpSessionParams} {x : BgpAddrs} {enc : Enc} (h : BgpUpdateMessage.nlriEncoder p x = some enc) (hx : AddrsFit x) :
    Sets enc := by
  rw [nlriEncoder_eq] at h
  split at h
  · cases h; exact sets_addrs x hx p
  · cases h

theorem sets_update (x : BgpUpdateMessage) (p : BgpSessionParams) (hx : UpdateFits x) : Sets (x.encodeTo p) := by
  unfold BgpUpdateMessage.encodeTo
  refine sets_bind ?_ fun lp => ?_
  · unfold BgpUpdateMessage.encodeWithdraws
    cases hw : BgpUpdateMessage.nlriEncoder p x.withdraws with
    | some enc =>
      refine sets_bind (sets_sliceEnd _ (sets_section hw hx.1)) fun n => ?_
      refine sets_ite (c := n > 65535) (fun _ => ?_) fun _ => ?_
      · settle
      · refine sets_bind (sets_sliceEnd _ (sets_unit inferInstance)) fun _ => ?_
        settle
    | none => dsimp only; settle
  · refine sets_bind (sets_attrs p lp x.attrs hx.2.2 (lp + 2)) fun cp => ?_
    refine sets_bind (sets_sliceFix _ _ (fix_unit inferInstance) (by omega) (by omega)) fun _ => ?_
    cases hu : BgpUpdateMessage.nlriEncoder p x.updates with
    | some enc =>
      refine sets_bind (sets_sliceEnd _ (sets_section hu hx.2.1)) fun n => ?_
      settle
    | none => settle

/-! ## OPEN -/

theorem fixB_ok {k : Nat} : FixB (fun b => .ok b) k := ⟨.ok (), fun h => (by cases h), fun _ _ => ⟨rfl, rfl⟩⟩
theorem fixB_err {k : Nat} {e : BgpError} (he : e ≠ .insufficientBufferSize) : FixB (fun _ => .err e) k :=
  ⟨.err e, fun h => he (by cases h; rfl), fun _ _ => rfl⟩

theorem fixB_bind {f g : Bytes → Res Bytes} {k : Nat} (hf : FixB f k) (hg : FixB g k) : FixB (fun b => f b >>= g) k := by
  obtain ⟨o, ho, h⟩ := hf.fix
  obtain ⟨o', ho', h'⟩ := hg.fix
  have assoc : ∀ b, ((f b >>= g) >>= fun r => Res.ok (r, ())) = f b >>= fun r => g r >>= fun r => Res.ok (r, ()) := fun b => bind_assoc _ _ _
  cases o with
  | ok u =>
    refine ⟨o', ho', fun b hb => ?_⟩
    have := h b hb
    rw [assoc]
    cases hx : f b with
    | ok r => rw [hx] at this; have hr := this.2; rw [← hr]; exact h' r (by omega)
    | err e => rw [hx] at this; cases this
    | panic => rw [hx] at this; cases this
    | hang => rw [hx] at this; exact this.elim
  | err e =>
    refine ⟨.err e, fun h => ho (by cases h; rfl), fun b hb => ?_⟩
    have := h b hb
    rw [assoc]
    cases hx : f b with
    | ok r => rw [hx] at this; exact absurd this.1 (by simp)
    | err e => rw [hx] at this; exact this
    | panic => rw [hx] at this; cases this
    | hang => rw [hx] at this; exact this.elim
  | panic =>
    refine ⟨.panic, fun h => (by cases h), fun b hb => ?_⟩
    have := h b hb
    rw [assoc]
    cases hx : f b with
    | ok r => rw [hx] at this; exact absurd this.1 (by simp)
    | err e => rw [hx] at this; cases this
    | panic => rfl
    | hang => rw [hx] at this; exact this.elim
  | hang =>
    refine ⟨.panic, fun h => (by cases h), fun b hb => ?_⟩
    have := h b hb
    rw [assoc]
    cases hx : f b with
    | ok r => rw [hx] at this; exact absurd this.1 (by simp)
    | err e => rw [hx] at this; cases this
    | panic => rfl
    | hang => rw [hx] at this; exact this.elim

theorem fixB_ite {c : Prop} [Decidable c] {f g : Bytes → Res Bytes} {k : Nat} (hf : FixB f k) (hg : FixB g k) :
    FixB (fun b => if c then f b else g b) k := by
  by_cases h : c
  · simp only [if_pos h]; exact hf
  · simp only [if_neg h]; exact hg

theorem fixB_long {f g : Bytes → Res Bytes} {k n : Nat} (hn : n ≤ k) (hg : FixB g k) : FixB (fun b => if b.length < n then f b else g b) k := by
  obtain ⟨o, ho, h⟩ := hg.fix
  exact ⟨o, ho, fun b hb => by rw [if_neg (by omega)]; exact h b hb⟩

theorem fixB_setIdx {i k : Nat} (hi : i < k) (v : U8) : FixB (fun b => setIdx b i v) k :=
  fix_of fun b hb => ⟨b.set i v, by rw [setIdx, if_pos (by omega)], by simp [hb]⟩

theorem fixB_copyAt {s e k : Nat} (src : Bytes) (hs : s ≤ e) (he : e ≤ k) (hl : src.length = e - s) : FixB (fun b => copyAt b s e src) k :=
  fix_of fun b hb => ⟨_, by rw [copyAt, if_pos ⟨hs, by omega, hl⟩], by simp [hl, hb]; omega⟩

theorem fixB_or {i k : Nat} (hi : i < k) (g : U8 → U8) : FixB (fun b => idx b i >>= fun x => setIdx b i (g x)) k :=
  fix_of fun b hb => ⟨b.set i (g b[i]), by
    rw [idx, List.getElem?_eq_getElem (by omega)]
    simp only [Res.ok_bind, setIdx, if_pos (show i < b.length by omega)], by simp [hb]⟩

theorem fixB_orK {i k : Nat} (hi : i < k) (g : U8 → U8) {f : Bytes → Res Bytes} (hf : FixB f k) :
    FixB (fun b => idx b i >>= fun x => setIdx b i (g x) >>= f) k := by
  have : (fun b => idx b i >>= fun x => setIdx b i (g x) >>= f) = fun b => (idx b i >>= fun x => setIdx b i (g x)) >>= f :=
    funext fun b => (bind_assoc _ _ _).symm
  rw [this]
  exact fixB_bind (fixB_or hi g) hf

theorem fixB_copyAll {k : Nat} (src : Bytes) (hl : src.length = k) : FixB (fun b => copyAll b src) k :=
  fix_of fun b hb => ⟨src, by rw [copyAll, if_pos (by omega)], hl⟩

theorem gives_map {o : Res Unit} {x : Res Bytes} {g : Bytes → Bytes} {l m : Nat} (h : Gives o l (x >>= fun r => .ok (r, ())))
    (hg : ∀ r : Bytes, r.length = l → (g r).length = m) : Gives o m ((x >>= fun r => .ok (g r)) >>= fun r => .ok (r, ())) := by
  cases x with
  | ok r => exact ⟨h.1, hg r h.2⟩
  | err e => exact h
  | panic => exact h
  | hang => exact h

theorem fixB_modRange {s e k j : Nat} {f : Bytes → Res Bytes} (hf : FixB f j) (hs : s ≤ e) (he : e ≤ k) (hj : e - s = j) :
    FixB (fun b => modRange b s e f) k := by
  obtain ⟨o, ho, h⟩ := hf.fix
  refine ⟨o, ho, fun b hb => ?_⟩
  rw [modRange, if_pos ⟨hs, by omega⟩]
  exact gives_map (h ((b.take e).drop s) (by simp; omega)) fun r hr => by simp at hr ⊢; omega

theorem fixB_modFrom {s k j : Nat} {f : Bytes → Res Bytes} (hf : FixB f j) (hs : s + j = k) : FixB (fun b => modFrom b s f) k := by
  obtain ⟨o, ho, h⟩ := hf.fix
  refine ⟨o, ho, fun b hb => ?_⟩
  rw [modFrom, if_pos (by omega)]
  exact gives_map (h (b.drop s) (by simp; omega)) fun r hr => by simp at hr ⊢; omega

theorem fixB_chunks (k : Nat) (enc : α → Bytes → Res Bytes) (hf : ∀ x, FixB (enc x) k) (l : List α) :
    FixB (BgpCapability.fillChunks k enc l) (l.length * k) := by
  induction l with
  | nil => exact fixB_ok
  | cons x l ih =>
    have hm : (x :: l).length * k = l.length * k + k := by simp [Nat.add_mul]
    have e : ∀ b : Bytes, b.length = (x :: l).length * k → BgpCapability.fillChunks k enc (x :: l) b
        = modRange b 0 k (enc x) >>= fun b => modFrom b k (BgpCapability.fillChunks k enc l) := by
      intro b hb
      rw [BgpCapability.fillChunks, if_pos (by omega), modRange, if_pos ⟨Nat.zero_le _, by omega⟩]
      obtain ⟨o, _, h⟩ := (hf x).fix
      have := h (b.take k) (by simp; omega)
      simp only [List.drop_zero, List.take_zero, List.nil_append]
      cases hx : enc x (b.take k) with
      | ok r =>
        rw [hx] at this
        have hr : r.length = k := by have := this.2; simp at this; omega
        simp only [Res.ok_bind]
        rw [modFrom, if_pos (by simp; omega)]
        have h1 : (r ++ b.drop k).drop k = b.drop k := by rw [← hr, List.drop_left]
        have h2 : (r ++ b.drop k).take k = r := by rw [← hr, List.take_left]
        rw [h1, h2]
      | err e => rfl
      | panic => rfl
      | hang => rfl
    have h : FixB (fun b => modRange b 0 k (enc x) >>= fun b => modFrom b k (BgpCapability.fillChunks k enc l)) ((x :: l).length * k) :=
      fixB_bind (fixB_modRange (hf x) (Nat.zero_le _) (by omega) (by omega)) (fixB_modFrom ih (by omega))
    obtain ⟨o, ho, h⟩ := h.fix
    exact ⟨o, ho, fun b hb => by rw [e b hb]; exact h b hb⟩

macro "fix_step" : tactic => `(tactic| first
  | exact fixB_ok
  | exact fixB_err (by simp)
  | refine fixB_long (by omega) ?_
  | exact fixB_setIdx (by omega) _
  | exact fixB_copyAt _ (by omega) (by omega) (by simp; try omega)
  | exact fixB_or (by omega) _
  | refine fixB_orK (by omega) _ ?_
  | exact fixB_modFrom (by assumption) (by omega)
  | refine fixB_bind (fixB_setIdx (by omega) _) ?_
  | refine fixB_bind (fixB_copyAt _ (by omega) (by omega) (by simp; try omega)) ?_
  | refine fixB_bind (fixB_modRange inferInstance (by omega) (by omega) (by omega)) ?_
  | refine fixB_ite ?_ ?_
  | refine fixB_bind (fixB_ite (fixB_or (by omega) _) fixB_ok) ?_)

instance (c : BgpCapGR) : FixB c.encodeTo 4 := by
  unfold BgpCapGR.encodeTo
  repeat' fix_step
instance (c : BgpCapLLGR) : FixB c.encodeTo 7 := by
  unfold BgpCapLLGR.encodeTo
  repeat' fix_step
instance (c : BgpCapAddPath) : FixB c.encodeTo 4 := by
  unfold BgpCapAddPath.encodeTo
  repeat' fix_step

theorem fix_cap (c : BgpCapability) : FixB c.fillBuffer c.bytesLen := by
  unfold BgpCapability.fillBuffer
  refine fixB_long (Nat.le_refl _) ?_
  cases c <;> simp only [BgpCapability.bytesLen]
  case CapFQDN x y => repeat' fix_step
  case CapGR t r l =>
    have := fixB_chunks 4 BgpCapGR.encodeTo (fun _ => inferInstance) l
    repeat' fix_step
  case CapAddPath l =>
    have := fixB_chunks 4 BgpCapAddPath.encodeTo (fun _ => inferInstance) l
    repeat' fix_step
  case CapLLGR l =>
    have := fixB_chunks 7 BgpCapLLGR.encodeTo (fun _ => inferInstance) l
    repeat' fix_step
  all_goals exact fixB_copyAll _ rfl

instance sets_caps (l : List BgpCapability) : Sets (BgpOpenMessage.encodeCaps l) := by
  induction l with
  | nil =>
    have : BgpOpenMessage.encodeCaps [] = fun t => .ok (t, 0) := by funext t; rfl
    rw [this]; settle
  | cons x l ih =>
    have : BgpOpenMessage.encodeCaps (x :: l) = fun t => BgpOpenMessage.encodeCaps (x :: l) t := rfl
    rw [this]
    simp only [BgpOpenMessage.encodeCaps]
    settle_step; settle_step
    refine sets_bind (sets_sliceFix _ _ (fix_unit (fix_cap x)) (by omega) (by omega)) fun _ => ?_
    dsimp only
    settle

instance (m : BgpOpenMessage) : Sets m.encodeTo := by unfold BgpOpenMessage.encodeTo; settle
instance (m : BgpNotificationMessage) : Sets m.encodeTo := by unfold BgpNotificationMessage.encodeTo; settle
instance : Sets keepaliveEncode := sets_ok _
instance (ty : BgpMessageType) (n : Nat) : Sets fun b => BgpSessionParams.prepareMessageBuf b ty n := by
  unfold BgpSessionParams.prepareMessageBuf; settle

/-! ## BMP -/

theorem sets_left (p n : Nat) {f k : Bytes → Res (Bytes × α)} (hk : Sets k) :
    Sets fun b => subN b.length p >>= fun left => if left < n then f b else k b := by
  obtain ⟨N, o, ho, h⟩ := hk.sets
  refine ⟨max N (p + n), o, ho, fun b hb => ?_⟩
  rw [subN, if_pos (by omega)]
  simp only [Res.ok_bind]
  rw [if_neg (by omega)]
  exact h b (by omega)

theorem sets_map {k : Bytes → Res (Bytes × α)} (hk : Sets k) : Sets fun b => k (b.map fun _ => 0) := by
  obtain ⟨N, o, ho, h⟩ := hk.sets
  exact ⟨N, o, ho, fun b hb => by have := h (b.map fun _ => 0) (by simpa using hb); simpa using this⟩

instance (h : BmpMessageHeader) : Sets h.encodeTo := by unfold BmpMessageHeader.encodeTo; settle
instance (x : BmpInfoVal) : Sets x.encodeTo := by unfold BmpInfoVal.encodeTo; settle

theorem sets_info (ty : U16) (s : Option Bytes) (pos : Nat) : Sets fun b => BmpMessageInitiation.encodeInfo ty s b pos := by
  cases s <;> simp only [BmpMessageInitiation.encodeInfo] <;> settle

instance (x : BmpMessageInitiation) : Sets x.encodeTo := by
  unfold BmpMessageInitiation.encodeTo
  refine sets_bind (sets_info _ _ _) fun n => ?_
  refine sets_bind (sets_info _ _ _) fun n => ?_
  exact sets_info _ _ _

instance (x : BmpMessageTermination) : Sets x.encodeTo := by
  unfold BmpMessageTermination.encodeTo
  refine sets_bind ?_ fun n => ?_
  · cases x.str0 <;> simp only [BmpMessageTermination.encodeStr]
    · settle
    · refine sets_left _ _ ?_
      settle
  · cases x.reason <;> simp only [BmpMessageTermination.encodeReason]
    · settle
    · refine sets_left _ _ ?_
      settle

instance (x : IpAddr) : Sets (encodeBmpAddr x) := by
  unfold encodeBmpAddr
  settle_step
  cases x with
  | v4 v =>
    dsimp only
    refine sets_map (k := fun b => onFrom b 12 (encodeAddrV4 v) >>= fun r => .ok (r.1, 16)) ?_
    settle
  | v6 v => dsimp only; settle

instance (x : BmpMessagePeerHeader) : Sets x.encodeTo := by unfold BmpMessagePeerHeader.encodeTo; settle

theorem sets_embedded (ty : BgpMessageType) {enc : Enc} (hf : Sets enc) (pos : Nat) : Sets fun b => encodeEmbedded ty enc b pos := by
  unfold encodeEmbedded; settle

theorem sets_routeMonitoring (x : BmpMessageRouteMonitoring) (hx : UpdateFits x.update) : Sets x.encodeTo := by
  unfold BmpMessageRouteMonitoring.encodeTo
  settle_step
  refine sets_bind inferInstance fun n => ?_
  exact sets_embedded _ (sets_update _ _ hx) _

instance (x : BmpMessagePeerUp) : Sets x.encodeTo := by
  unfold BmpMessagePeerUp.encodeTo
  settle_step; settle_step; settle_step; settle_step; settle_step
  refine sets_bind (sets_embedded _ inferInstance _) fun n => ?_
  exact sets_embedded _ inferInstance _

theorem sets_notif (code : U8) (m : BgpNotificationMessage) (pos : Nat) : Sets fun b => BmpMessagePeerDown.encodeNotification code m b pos := by
  unfold BmpMessagePeerDown.encodeNotification
  settle_step
  refine sets_left _ _ ?_
  exact sets_embedded _ inferInstance _

instance (x : BmpMessagePeerDown) : Sets x.encodeTo := by
  unfold BmpMessagePeerDown.encodeTo
  settle_step; settle_step
  cases x.reason <;> dsimp only
  case AdministrativelyClosed m => exact sets_notif _ _ _
  case RemoteNotification m => exact sets_notif _ _ _
  case LocalSystemState s =>
    settle_step
    refine sets_left _ _ ?_
    settle
  all_goals settle

theorem sets_typed (code : U8) {enc : Enc} (hf : Sets enc) : Sets (BmpMessage.encodeTyped code enc) := by
  unfold BmpMessage.encodeTyped; settle

theorem sets_bmp (x : BmpMessage) (hx : ∀ m, x = .RouteMonitoring m → UpdateFits m.update) : Sets x.encodeTo := by
  unfold BmpMessage.encodeTo
  refine sets_large 1 not_empty ?_
  cases x <;> dsimp only
  case RouteMonitoring m => exact sets_typed _ (sets_routeMonitoring m (hx m rfl))
  case StatisticsReport => exact sets_panic
  case RouteMirroring => exact sets_panic
  all_goals exact sets_typed _ inferInstance

/-! ## Never enough -/

/-- buffers of this size and larger ones are too small -/
def Asks (N : Nat) (f : Bytes → Res (Bytes × α)) : Prop := ∀ b : Bytes, N ≤ b.length → f b = .err .insufficientBufferSize

theorem asks_setIdx {N i : Nat} (hi : i < N) (v : U8) {k : Bytes → Res (Bytes × α)} (hk : Asks N k) : Asks N fun b => setIdx b i v >>= k :=
  fun b hb => by dsimp only; rw [setIdx, if_pos (by omega), Res.ok_bind]; exact hk _ (by simpa using hb)

theorem asks_setn16 {N : Nat} (hn : 2 ≤ N) (v : U16) {k : Bytes → Res (Bytes × α)} (hk : Asks N k) : Asks N fun b => setn16 v b >>= k := by
  intro b hb
  simp only [setn16, bind_assoc]
  exact asks_setIdx (by omega) _ (asks_setIdx (by omega) _ hk) b hb

theorem asks_modRange {N : Nat} (s : Nat) (hn : s + 2 ≤ N) (v : U16) {k : Bytes → Res (Bytes × α)} (hk : Asks N k) :
    Asks N fun b => modRange b s (s + 2) (setn16 v) >>= k := by
  intro b hb
  obtain ⟨o, ho, h⟩ := (fixB_modRange (k := b.length) (f := setn16 v) inferInstance (show s ≤ s + 2 by omega) (by omega) (by omega)).fix
  have he : ∃ r, modRange b s (s + 2) (setn16 v) = .ok r ∧ r.length = b.length := by
    rw [modRange, if_pos (by omega)]
    have hl : ((b.take (s + 2)).drop s).length = 2 := by simp; omega
    generalize (b.take (s + 2)).drop s = m at hl
    obtain ⟨x, y, rfl⟩ : ∃ x y, m = [x, y] := by
      match m, hl with
      | [x, y], _ => exact ⟨x, y, rfl⟩
    exact ⟨_, rfl, by simp; omega⟩
  obtain ⟨r, hr, hl⟩ := he
  dsimp only
  rw [hr, Res.ok_bind]
  exact hk r (by omega)

theorem asks_onFrom {β : Type} {N M : Nat} (s : Nat) (hn : s + M ≤ N) {f : Bytes → Res (Bytes × β)} (hf : Asks M f) (k : Bytes × β → Res (Bytes × α)) :
    Asks N fun b => onFrom b s f >>= k := fun b hb => by
  dsimp only
  rw [onFrom, if_pos (by omega), hf _ (by simp; omega)]; rfl

theorem asks_sliceEnd {β : Type} {N M : Nat} (s : Nat) (hn : s + M ≤ N) {f : Bytes → Res (Bytes × β)} (hf : Asks M f) (k : Bytes × β → Res (Bytes × α)) :
    Asks N fun b => onSliceE b s b.length f >>= k := fun b hb => by
  dsimp only
  rw [onSliceE, if_pos (by omega), hf _ (by simp; omega)]; rfl

theorem asks_fs4 (x : BgpFlowSpec BgpAddrV4) (r : List (BgpFlowSpec BgpAddrV4)) (p : BgpSessionParams) (h : TooLong x) :
    Asks 0 (BgpAddrs.encodeTo (.FS4U (x :: r)) p) := by
  intro b _
  have := never_fs x h b
  simp only [BgpAddrs.encodeTo, encodeAddrItems, encLoop, onFrom, Nat.zero_le, if_true, List.drop_zero]
  rw [show BgpAddrItem.encodeTo x p.peerMode b = x.encodeTo b from rfl, this]
  rfl

theorem asks_withdraw {a : BgpAddrs} {p : BgpSessionParams} (h : Asks 0 (a.encodeTo p)) : Asks 16 ((BgpAttrItem.MPWithdraws ⟨a⟩).encodeTo p) := by
  unfold BgpAttrItem.encodeTo BgpAttrItem.encodeBgpattr
  have hv : Asks 4 ((BgpAttrItem.MPWithdraws ⟨a⟩).encodeValue p) := by
    change Asks 4 (BgpMPWithdraws.encodeTo ⟨a⟩ p)
    unfold BgpMPWithdraws.encodeTo
    refine asks_modRange 0 (by omega) _ ?_
    refine asks_setIdx (by omega) _ ?_
    exact asks_onFrom 3 (by omega) h _
  by_cases hf : (BgpAttrItem.MPWithdraws ⟨a⟩).attr.flags &&& 16 > 0
  · simp only [if_pos hf]
    refine asks_setIdx (by omega) _ ?_
    refine asks_setIdx (by omega) _ ?_
    exact asks_onFrom _ (by omega) hv _
  · simp only [if_neg hf]
    refine asks_setIdx (by omega) _ ?_
    refine asks_setIdx (by omega) _ ?_
    exact asks_onFrom _ (by omega) hv _

theorem asks_update {a : BgpAddrs} {p : BgpSessionParams} (h : Asks 0 (a.encodeTo p)) :
    Asks 20 (BgpUpdateMessage.encodeTo ⟨.None, .None, [.MPWithdraws ⟨a⟩]⟩ p) := by
  unfold BgpUpdateMessage.encodeTo BgpUpdateMessage.encodeWithdraws
  have : BgpUpdateMessage.nlriEncoder p .None = none := by rw [nlriEncoder_eq]; rfl
  simp only [this, BgpUpdateMessage.encodeAttrs, bind_assoc]
  refine asks_setn16 (by omega) _ ?_
  simp only [Res.ok_bind]
  intro b hb
  dsimp only
  rw [if_neg (by omega)]
  simp only [bind_assoc]
  exact asks_sliceEnd 4 (by omega) (asks_withdraw h) _ b hb

end Zbgp
