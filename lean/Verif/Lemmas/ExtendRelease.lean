import Verif.Lemmas.FrameRelease
import Verif.Lemmas.Extend

/-!
# Longer buffers, for a build without overflow checks (C67)
-/

namespace Zbgp

open Spec

/-- prefix items of a build without overflow checks do the same in longer buffers -/
class ItemExtR (T : Type) [BgpItemIn T] : Prop where
  ext : ∀ x : T, Ext (BgpItemIn.setBits .release x)

attribute [instance] ItemExtR.ext

theorem ext_encItemsR {T : Type} [BgpItemIn T] [h : ItemExtR T] (l : List T) : Ext (BgpAddrs.encItemsIn .release l) := by
  letI : BgpItem T := itemIn T .release
  haveI : ItemExt T := ⟨fun x => h.ext x⟩
  exact inferInstanceAs (Ext (encodeItems l))

theorem ext_encPathIdItemsR {T : Type} [BgpItemIn T] [h : ItemExtR T] (l : List (WithPathId T)) :
    Ext (BgpAddrs.encPathIdItemsIn .release l) := by
  letI : BgpItem T := itemIn T .release
  haveI : ItemExt T := ⟨fun x => h.ext x⟩
  exact inferInstanceAs (Ext (encodePathIdItems l))

instance ext_toBitsV4R (x : BgpAddrV4) : Ext (x.toBitsIn .release) where
  sim b e := by unfold BgpAddrV4.toBitsIn; simp only [Build.add, Res.ok_bind]; extend
instance ext_toBitsV6R (x : BgpAddrV6) : Ext (x.toBitsIn .release) where
  sim b e := by unfold BgpAddrV6.toBitsIn; simp only [Build.add, Res.ok_bind]; extend

instance : ItemExtR BgpAddrV4 where
  ext x := ext_toBitsV4R x
instance : ItemExtR BgpAddrV6 where
  ext x := ext_toBitsV6R x

instance {T : Type} [BgpItemIn T] [ItemExtR T] : ItemExtR (Labeled T) where
  ext x := ⟨fun b e => by simp only [BgpItemIn.setBits, labels_release, Build.add, Res.ok_bind]; extend⟩
instance {T : Type} [BgpItemIn T] [ItemExtR T] : ItemExtR (WithRd T) where
  ext x := ⟨fun b e => by simp only [BgpItemIn.setBits, Build.add, Res.ok_bind]; extend⟩

instance : ItemExtR BgpMdtV4 where
  ext x := ⟨fun b e => by
    simp only [BgpItemIn.setBits, Build.add, Res.ok_bind]
    refine sim_bind (R := BufR e) ?_ ?_
    · extend
    · rintro ⟨_, _⟩ _ rfl; dsimp only
      extend⟩
instance : ItemExtR BgpMdtV6 where
  ext x := ⟨fun b e => by
    simp only [BgpItemIn.setBits, Build.add, Res.ok_bind]
    refine sim_bind (R := BufR e) ?_ ?_
    · extend
    · rintro ⟨_, _⟩ _ rfl; dsimp only
      extend⟩

theorem ext_vplsR (x : BgpAddrL2) : Ext (@encodeLongItem _ (vplsIn .release) x) := by
  have h : ∀ x, (vplsIn .release).packTo x = (vplsIn .checked).packTo x := by
    intro x
    unfold vplsIn
    rw [labels_release]
    rfl
  have : @encodeLongItem _ (vplsIn .release) x = encodeLongItem x := by
    funext b
    unfold encodeLongItem
    rw [h, vpls_checked]
  rw [this]
  infer_instance

theorem ext_fs4R (x : BgpAddrV4) : ExtB ((fsV4In .release).encodeFs x) :=
  ⟨fun b e => by simp only [FSItem.encodeFs]; extend⟩
theorem ext_fs6R (x : FS6) : ExtB ((fsV6In .release).encodeFs x) :=
  ⟨fun b e => by simp only [FSItem.encodeFs]; extend⟩
theorem ext_fsVpnR (x : FSV4U) : ExtB ((fsVpnIn .release).encodeFs x) :=
  ⟨fun b e => by
    have : Ext (BgpItemIn.setBits .release x.pfx) := inferInstance
    simp only [FSItem.encodeFs]; extend⟩

theorem ext_flowR {T : Type} (i : FSItem T) (hi : ∀ x, ExtB (i.encodeFs x)) (x : BgpFlowSpec T) (mode : BgpTransportMode) :
    Ext ((flowIn i).encodeTo x mode) := by
  letI := i
  haveI : FsExt T := ⟨hi⟩
  exact inferInstanceAs (Ext (BgpAddrItem.encodeTo x mode))

theorem ext_addrsR (x : BgpAddrs) (p : BgpSessionParams) : Ext (x.encodeToIn .release p) where
  sim b e := by
    cases x <;> unfold BgpAddrs.encodeToIn
    case None => exact sim_ok rfl
    case L2VPLS v => exact sim_encLoop _ _ (fun _ _ => ext_vplsR _) _ _ _
    case EVPN v => exact sim_encLoop _ _ (fun y _ => by rw [evpn_release]; infer_instance) _ _ _
    case FS4U v => exact sim_encLoop _ _ (fun y _ => ext_flowR _ ext_fs4R y _) _ _ _
    case FS6U v => exact sim_encLoop _ _ (fun y _ => ext_flowR _ ext_fs6R y _) _ _ _
    case FSV4U v => exact sim_encLoop _ _ (fun y _ => ext_flowR _ ext_fsVpnR y _) _ _ _
    all_goals first
      | exact (ext_encItemsR _).sim b e
      | exact (ext_encPathIdItemsR _).sim b e
      | exact Ext.sim (f := encodeAddrItems _ _) b e

theorem ext_valueR (x : BgpAttrItem) (p : BgpSessionParams) : Ext (x.encodeValueIn .release p) := by
  have key : ∀ y : BgpAttrItem, y.encodeValueIn .release p = y.encodeValue p → Ext (y.encodeValueIn .release p) :=
    fun y e => e ▸ ext_value y p
  cases x
  case MPUpdates u =>
    refine ⟨fun b e => ?_⟩
    have := ext_addrsR u.addrs p
    change Sim _ (BgpMPUpdates.encodeToIn .release u p b) (BgpMPUpdates.encodeToIn .release u p (b ++ e))
    unfold BgpMPUpdates.encodeToIn
    ext_step; ext_step
    refine sim_bind (sim_nexthop _ _ _ _) ?_
    rintro ⟨_, _⟩ _ rfl; dsimp only
    extend
  case MPWithdraws u =>
    refine ⟨fun b e => ?_⟩
    have := ext_addrsR u.addrs p
    change Sim _ (BgpMPWithdraws.encodeToIn .release u p b) (BgpMPWithdraws.encodeToIn .release u p (b ++ e))
    unfold BgpMPWithdraws.encodeToIn
    extend
  all_goals exact key _ rfl

instance ext_attrR (x : BgpAttrItem) (p : BgpSessionParams) : Ext (x.encodeToIn .release p) where
  sim b e := by
    have := ext_valueR x p
    unfold BgpAttrItem.encodeToIn BgpAttrItem.encodeBgpattr
    extend

theorem sim_attrsR (p : BgpSessionParams) (lp : Nat) (l : List BgpAttrItem) (b e : Bytes) (pos : Nat) :
    Sim (BufR e) (BgpUpdateMessage.encodeAttrsIn .release p lp l b pos) (BgpUpdateMessage.encodeAttrsIn .release p lp l (b ++ e) pos) := by
  induction l generalizing b pos with
  | nil => exact sim_ok rfl
  | cons x l ih =>
    unfold BgpUpdateMessage.encodeAttrsIn
    extend
    exact ih _ _

theorem ext_sectionR {p : BgpSessionParams} {x : BgpAddrs} {enc : Enc} (h : BgpUpdateMessage.nlriEncoderIn .release p x = some enc) :
    Ext enc := by
  unfold BgpUpdateMessage.nlriEncoderIn at h
  split at h <;> cases h <;> first | exact ext_encItemsR _ | exact ext_encPathIdItemsR _

instance ext_updateR (x : BgpUpdateMessage) (p : BgpSessionParams) : Ext (x.encodeToIn .release p) where
  sim b e := by
    unfold BgpUpdateMessage.encodeToIn
    refine sim_bind (R := BufR e) ?_ ?_
    · unfold BgpUpdateMessage.encodeWithdrawsIn
      cases h : BgpUpdateMessage.nlriEncoderIn .release p x.withdraws with
      | some enc =>
        have := ext_sectionR h
        simp only []
        extend
      | none => simp only []; extend
    · rintro ⟨_, _⟩ _ rfl; dsimp only
      refine sim_bind (sim_attrsR _ _ _ _ _ _) ?_
      rintro ⟨_, _⟩ _ rfl; dsimp only
      ext_step
      cases h : BgpUpdateMessage.nlriEncoderIn .release p x.updates with
      | some enc =>
        have := ext_sectionR h
        simp only []
        extend
      | none => simp only []; extend

/-! ## BMP -/

instance ext_prepareR (ty : BgpMessageType) (n : Nat) : Ext (fun b => BgpSessionParams.prepareMessageBufIn .release b ty n) where
  sim b e := by unfold BgpSessionParams.prepareMessageBufIn; simp only [Build.add, Res.ok_bind]; extend

theorem sim_embeddedR (ty : BgpMessageType) (enc : Enc) [Ext enc] (b e : Bytes) (pos : Nat) :
    Sim (BufR e) (encodeEmbeddedIn .release ty enc b pos) (encodeEmbeddedIn .release ty enc (b ++ e) pos) := by
  unfold encodeEmbeddedIn; extend

theorem ext_routeMonitoringR (x : BmpMessageRouteMonitoring) (h6 : isV4 x.peer.peeraddress = false) : Ext (x.encodeToIn .release) where
  sim b e := by
    have := ext_peer x.peer h6
    unfold BmpMessageRouteMonitoring.encodeToIn
    ext_step
    ext_step
    exact sim_embeddedR _ _ _ _ _

theorem ext_peerUpR (x : BmpMessagePeerUp) (h6 : isV4 x.peer.peeraddress = false) (l6 : isV4 x.localaddress = false) :
    Ext (x.encodeToIn .release) where
  sim b e := by
    have := ext_peer x.peer h6
    obtain ⟨p, a, _, _, _, _⟩ := x
    cases a with
    | v4 a => cases l6
    | v6 a =>
      have := ext_addr6 a
      dsimp only at *
      unfold BmpMessagePeerUp.encodeToIn
      dsimp only
      ext_step
      ext_step
      ext_step
      ext_step
      ext_step
      refine sim_bind (sim_embeddedR _ _ _ _ _) ?_
      rintro ⟨_, _⟩ _ rfl; dsimp only
      exact sim_embeddedR _ _ _ _ _

theorem left_release {b : Bytes} {n : Nat} (h : n ≤ b.length) (e : Bytes) :
    Build.release.subN b.length n = .ok (b.length - n) ∧ Build.release.subN (b ++ e).length n = .ok (b.length - n + e.length) := by
  have h2 : n ≤ b.length + e.length := by omega
  simp only [Build.subN, List.length_append, if_pos h, if_pos h2, Res.ok.injEq, true_and]
  omega

theorem ext_terminationR (x : BmpMessageTermination) : Ext (x.encodeToIn .release) where
  sim b e := by
    unfold BmpMessageTermination.encodeToIn
    refine sim_bind (R := BufR e) ?_ ?_
    · cases x.str0 <;> simp only [BmpMessageTermination.encodeStrIn]
      · exact sim_ok rfl
      · rw [(left_release (Nat.zero_le b.length) e).1, (left_release (Nat.zero_le b.length) e).2]
        simp only [Res.ok_bind]
        refine sim_short (by omega) fun _ => ?_
        extend
    · rintro ⟨b1, n⟩ _ rfl; dsimp only
      cases x.reason <;> simp only [BmpMessageTermination.encodeReasonIn]
      · exact sim_ok rfl
      · by_cases hn : n ≤ b1.length
        · rw [(left_release hn e).1, (left_release hn e).2]
          simp only [Res.ok_bind]
          refine sim_short (by omega) fun _ => ?_
          extend
        · have hm : ∀ f, modFrom b1 n f = .panic := fun f => by unfold modFrom; rw [if_neg hn]
          intro r hr
          simp only [Build.subN, Res.ok_bind, hm] at hr
          split at hr
          · split at hr <;> cases hr
          · split at hr <;> cases hr

theorem sim_setIdx_lt (b e : Bytes) (n : Nat) (v : U8) :
    Sim (fun x y => y = x ++ e ∧ n < x.length) (setIdx b n v) (setIdx (b ++ e) n v) := by
  unfold setIdx
  split
  · rename_i h
    rw [if_pos (by simp only [List.length_append]; omega)]
    exact sim_ok ⟨by rw [List.set_append_left _ _ h], by simpa using h⟩
  · exact sim_panic

theorem sim_notificationR (code : U8) (m : BgpNotificationMessage) (b e : Bytes) (pos : Nat) :
    Sim (BufR e) (BmpMessagePeerDown.encodeNotificationIn .release code m b pos)
      (BmpMessagePeerDown.encodeNotificationIn .release code m (b ++ e) pos) := by
  unfold BmpMessagePeerDown.encodeNotificationIn
  refine sim_bind (sim_setIdx_lt _ _ _ _) ?_
  rintro b1 _ ⟨rfl, hn⟩
  dsimp only
  rw [(left_release (by omega : pos + 1 ≤ b1.length) e).1, (left_release (by omega : pos + 1 ≤ b1.length) e).2]
  simp only [Res.ok_bind]
  refine sim_short (by omega) fun _ => ?_
  exact sim_embeddedR _ _ _ _ _

theorem ext_peerDownR (x : BmpMessagePeerDown) (h6 : isV4 x.peer.peeraddress = false) : Ext (x.encodeToIn .release) where
  sim b e := by
    have := ext_peer x.peer h6
    unfold BmpMessagePeerDown.encodeToIn
    ext_step
    ext_step
    cases x.reason <;> dsimp only
    · exact sim_notificationR _ _ _ _ _
    · refine sim_bind (sim_setIdx_lt _ _ _ _) ?_
      rintro b1 _ ⟨rfl, hn⟩
      rw [(left_release hn e).1, (left_release hn e).2]
      simp only [Res.ok_bind]
      refine sim_short (by omega) fun _ => ?_
      extend
    · exact sim_notificationR _ _ _ _ _
    · extend
    · extend

end Zbgp
