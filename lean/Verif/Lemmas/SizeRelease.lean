import Verif.Lemmas.FreshRelease
import Verif.Lemmas.FrameMsg

/-!
# Sizes of buffers, for a build without overflow checks (C62)
-/

namespace Zbgp

open Spec

theorem keeps_of_fresh {α : Type} {pos : α → Nat} {f : Bytes → Res (Bytes × α)} (h : Fresh f pos) : KeepsSize f where
  post b := by
    have h1 := h.both (fun _ => False) b b ⟨rfl, fun _ hi => hi.elim⟩
    intro r hr
    rw [hr] at h1
    exact h1.2.1

theorem size_mod (b : Bytes) (s : Nat) (f : Bytes → Res Bytes) (hf : ∀ b, Post (f b) fun r => r.length = b.length) :
    Post (modFrom b s f) fun r => r.length = b.length := by
  unfold modFrom
  split
  · refine post_bind (hf _) fun r h => ?_
    simp only [List.length_drop] at h
    refine post_ok ?_
    simp only [List.length_append, List.length_take]; omega
  · exact post_panic

theorem size_fs4R (x : BgpAddrV4) (b : Bytes) : Post ((fsV4In .release).encodeFs x b) fun r => r.length = b.length := by
  have := keeps_of_fresh (fresh_v4R x)
  simp only [FSItem.encodeFs]
  size

theorem size_fs6R (x : FS6) (b : Bytes) : Post ((fsV6In .release).encodeFs x b) fun r => r.length = b.length := by
  have := keeps_of_fresh (fresh_v6R x.ipv6)
  simp only [FSItem.encodeFs]
  size

theorem size_fsVpnR (x : FSV4U) (b : Bytes) : Post ((fsVpnIn .release).encodeFs x b) fun r => r.length = b.length := by
  have : KeepsSize (BgpItemIn.setBits .release x.pfx) := keeps_of_fresh (ItemFreshR.fresh x.pfx)
  simp only [FSItem.encodeFs]
  size

theorem size_flowR {T : Type} (i : FSItem T) (hi : ∀ y b, Post (i.encodeFs y b) fun r => r.length = b.length)
    (x : BgpFlowSpec T) (mode : BgpTransportMode) : KeepsSize ((flowIn i).encodeTo x mode) where
  post b := by
    have hp : ∀ c y b pos, Post (@BgpFlowSpec.putPrefix T i c y b pos) fun r => r.1.length = b.length := by
      intro c y b pos
      unfold BgpFlowSpec.putPrefix
      size_step
      refine post_bind (size_mod _ _ _ (hi y)) ?_
      intro _ _
      size
    have hb : ∀ b pos, Post (@BgpFlowSpec.putBody T i x b pos) fun r => r.1.length = b.length := by
      intro b pos
      cases x
      case prefixDst y => exact hp _ _ _ _
      case prefixSrc y => exact hp _ _ _ _
      all_goals exact post_mono (post_putOps _ _ _ _) fun _ h => h.2.2.1
    change Post (@BgpFlowSpec.encodeTo T i x b) _
    unfold BgpFlowSpec.encodeTo
    simp only []
    split
    · exact post_err
    split
    · split
      · exact post_err
      · refine post_bind (post_setIdx _ _ _) ?_
        rintro _ ⟨_, h1, _⟩
        exact post_mono (hb _ _) fun _ h => by omega
    · split
      · exact post_err
      · refine post_bind (Fills.post (f := setn16 _) b) ?_
        rintro _ ⟨_, h1, _⟩
        refine post_bind (post_idx _ _) ?_
        intro _ _
        refine post_bind (post_setIdx _ _ _) ?_
        rintro _ ⟨_, h2, _⟩
        exact post_mono (hb _ _) fun _ h => by omega

theorem size_addrsR (x : BgpAddrs) (p : BgpSessionParams) : KeepsSize (x.encodeToIn .release p) := by
  cases x
  case FS4U v => exact ⟨fun b => size_encLoop _ _ (fun y _ => size_flowR _ size_fs4R y _) _ _⟩
  case FS6U v => exact ⟨fun b => size_encLoop _ _ (fun y _ => size_flowR _ size_fs6R y _) _ _⟩
  case FSV4U v => exact ⟨fun b => size_encLoop _ _ (fun y _ => size_flowR _ size_fsVpnR y _) _ _⟩
  all_goals exact keeps_of_fresh (fresh_addrsR _ p trivial)

theorem size_valueR (x : BgpAttrItem) (p : BgpSessionParams) : KeepsSize (x.encodeValueIn .release p) := by
  have key : ∀ y : BgpAttrItem, y.encodeValueIn .release p = y.encodeValue p → KeepsSize (y.encodeValueIn .release p) :=
    fun y e => e ▸ size_encodeValue y p
  cases x
  case MPUpdates u =>
    refine ⟨fun b => ?_⟩
    have := size_addrsR u.addrs p
    change Post (BgpMPUpdates.encodeToIn .release u p b) _
    unfold BgpMPUpdates.encodeToIn
    size_step
    size_step
    refine post_bind (post_nexthop _ _ _) ?_
    rintro ⟨_, _⟩ ⟨_, _, _⟩
    (try simp only [id] at *)
    size
  case MPWithdraws u =>
    refine ⟨fun b => ?_⟩
    have := size_addrsR u.addrs p
    change Post (BgpMPWithdraws.encodeToIn .release u p b) _
    unfold BgpMPWithdraws.encodeToIn
    size
  all_goals exact key _ rfl

instance size_attrR (x : BgpAttrItem) (p : BgpSessionParams) : KeepsSize (x.encodeToIn .release p) where
  post b := by
    have := size_valueR x p
    unfold BgpAttrItem.encodeToIn BgpAttrItem.encodeBgpattr
    size

theorem size_attrsR (p : BgpSessionParams) (lp : Nat) (l : List BgpAttrItem) (b : Bytes) (pos : Nat) :
    Post (BgpUpdateMessage.encodeAttrsIn .release p lp l b pos) fun r => r.1.length = b.length := by
  induction l generalizing b pos with
  | nil => exact post_ok rfl
  | cons x l ih =>
    unfold BgpUpdateMessage.encodeAttrsIn
    size_step
    · exact post_err
    · refine post_bind (size_onSliceE _ _ _ _) ?_
      rintro ⟨_, _⟩ h1
      refine post_mono (ih _ _) fun _ h2 => ?_
      simp only at h1
      omega

instance size_updateR (x : BgpUpdateMessage) (p : BgpSessionParams) : KeepsSize (x.encodeToIn .release p) where
  post b := by
    unfold BgpUpdateMessage.encodeToIn
    refine post_bind (Q := fun r => r.1.length = b.length) ?_ ?_
    · unfold BgpUpdateMessage.encodeWithdrawsIn
      split
      · rename_i enc he
        have := keeps_of_fresh (fresh_sectionR he)
        size
      · refine post_bind (Fills.post (f := setn16 0) b) ?_
        rintro _ ⟨_, _, _⟩
        exact post_ok (by simp only; omega)
    · rintro ⟨_, _⟩ _
      (try simp only [id] at *)
      refine post_bind (size_attrsR _ _ _ _ _) ?_
      rintro ⟨_, _⟩ _
      size_step
      split
      · rename_i enc he
        have := keeps_of_fresh (fresh_sectionR he)
        size
      · size

theorem size_embeddedR (ty : BgpMessageType) (enc : Enc) [KeepsSize enc] (b : Bytes) (pos : Nat) :
    Post (encodeEmbeddedIn .release ty enc b pos) fun r => r.1.length = b.length := by
  unfold encodeEmbeddedIn
  size_step
  refine post_bind (size_onFrom _ _ _ (hf := keeps_of_fresh inferInstance)) ?_
  rintro ⟨_, _⟩ _
  size

instance (x : BmpMessageRouteMonitoring) : KeepsSize (x.encodeToIn .release) where
  post b := by
    unfold BmpMessageRouteMonitoring.encodeToIn
    size_step
    · exact post_err
    · size_step
      refine post_mono (size_embeddedR _ _ _ _) ?_
      intro _ _
      (try simp only at *)
      omega

instance (x : BmpMessagePeerUp) : KeepsSize (x.encodeToIn .release) where
  post b := by
    unfold BmpMessagePeerUp.encodeToIn
    size_step
    · exact post_err
    · repeat size_step
      refine post_bind (size_embeddedR _ _ _ _) ?_
      rintro ⟨_, _⟩ _
      refine post_mono (size_embeddedR _ _ _ _) ?_
      intro _ _
      (try simp only at *)
      omega

instance size_bmpR (x : BmpMessage) : KeepsSize (x.encodeToIn .release) where
  post b := by
    have h1 : ∀ m : BmpMessagePeerDown, KeepsSize (m.encodeToIn .release) := fun m => keeps_of_fresh inferInstance
    have h2 : ∀ m : BmpMessageTermination, KeepsSize (m.encodeToIn .release) := fun m => keeps_of_fresh inferInstance
    unfold BmpMessage.encodeToIn
    split
    · exact post_err
    · split <;> first | exact post_panic | exact size_typed _ _ _

end Zbgp
