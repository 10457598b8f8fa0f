import Verif.Lemmas.FreshMsg

/-!
# Encoders of BMP messages do not look at what the buffer held
-/

namespace Zbgp

open Spec

variable {α : Type} {S : Nat → Prop} {a b : Bytes}

theorem both_with {β : Type} {R : α → β → Prop} {P : α → Prop} {x : Res α} {y : Res β} (h : Both R x y) (hp : ∀ a, x = .ok a → P a) :
    Both (fun a b => R a b ∧ P a) x y := by
  cases x <;> cases y <;> first | exact ⟨h, hp _ rfl⟩ | exact h

instance (h : BmpMessageHeader) : FreshE h.encodeTo where
  both S a b h := by have he := h.1; unfold BmpMessageHeader.encodeTo; fresh

instance (x : BmpInfoVal) : FreshE x.encodeTo where
  both S a b h := by have he := h.1; unfold BmpInfoVal.encodeTo; fresh

theorem both_encodeInfo (ty : U16) (s : Option Bytes) (h : Same S a b) (pos : Nat) :
    Both (WroteL S pos a.length) (BmpMessageInitiation.encodeInfo ty s a pos) (BmpMessageInitiation.encodeInfo ty s b pos) := by
  cases s <;> simp only [BmpMessageInitiation.encodeInfo]
  · exact wroteL_nil h pos
  · fresh_step
    exact ⟨rfl, by dsimp only; omega, by dsimp only; omega, Same.mono (by assumption) (by positions)⟩

instance (x : BmpMessageInitiation) : FreshE x.encodeTo where
  both S a b h := by
    unfold BmpMessageInitiation.encodeTo
    refine both_bind (both_encodeInfo _ _ h _) ?_
    rintro ⟨x, n⟩ ⟨y, m⟩ ⟨hn, hle, hl, hs⟩; dsimp only at hn; subst hn; dsimp only at *
    refine both_bind (both_encodeInfo _ _ hs _) ?_
    rintro ⟨x2, n2⟩ ⟨y2, m2⟩ ⟨hn2, hle2, hl2, hs2⟩; dsimp only at hn2; subst hn2; dsimp only at *
    refine wrote_of_wroteL (both_encodeInfo _ _ hs2 _) (by omega) ?_
    positions

instance (x : BmpMessageTermination) : FreshE x.encodeTo where
  both S a b h := by
    have he := h.1
    unfold BmpMessageTermination.encodeTo
    refine both_bind (R := Wrote (fun n => n) S a.length) ?_ ?_
    · cases x.str0 <;> simp only [BmpMessageTermination.encodeStr] <;> fresh
    · rintro ⟨x1, n⟩ ⟨y1, m⟩ ⟨hn, hl, hs⟩; dsimp only at hn; subst hn; dsimp only at *; have he := hs.1
      cases x.reason <;> simp only [BmpMessageTermination.encodeReason, ← he] <;> fresh

theorem same_map (h : Same S a b) (T : Nat → Prop) : Same T (a.map fun _ => (0 : U8)) (b.map fun _ => (0 : U8)) := by
  have : (a.map fun _ => (0 : U8)) = (b.map fun _ => (0 : U8)) := by
    rw [List.map_const', List.map_const', h.1]
  rw [this]
  exact same_all _ _

instance (x : IpAddr) : Fresh (encodeBmpAddr x) fun n => max n 16 where
  both S a b h := by
    have he := h.1
    unfold encodeBmpAddr
    refine both_ite (by rw [he]) (fun _ => both_err _) fun hn => ?_
    cases x with
    | v4 v =>
      have hs := same_map h (fun _ => True)
      have hl : (a.map fun _ => (0 : U8)).length = a.length := by simp
      dsimp only
      fresh_step
      refine ⟨rfl, by dsimp only; omega, Same.mono (by assumption) fun i _ => ?_⟩
      exact .inl trivial
    | v6 v => dsimp only; fresh

instance (x : BmpMessagePeerHeader) : Fresh x.encodeTo fun n => max n 42 where
  both S a b h := by have he := h.1; unfold BmpMessagePeerHeader.encodeTo; fresh

theorem both_embedded (ty : BgpMessageType) (enc : Enc) (hf : FreshE enc) (h : Same S a b) (pos : Nat) :
    Both (WroteL S pos a.length) (encodeEmbedded ty enc a pos) (encodeEmbedded ty enc b pos) := by
  unfold encodeEmbedded
  fresh_step
  rename_i x n y hl hs he
  refine both_bind (both_with (P := fun r => r.2 ≤ n + 19) (both_onFrom hs pos fun b => BgpSessionParams.prepareMessageBuf b ty n) ?_) ?_
  · intro r hr
    unfold onFrom at hr
    split at hr
    · obtain ⟨⟨_, m⟩, h1, h2⟩ := Res.bind_eq_ok.1 hr
      cases h2
      have := prepare_le h1
      exact this
    · cases hr
  · rintro ⟨x2, n2⟩ ⟨y2, m2⟩ ⟨⟨hn2, hl2, hs2⟩, hle⟩
    dsimp only at hn2; subst hn2; dsimp only at *
    refine ⟨rfl, by dsimp only; omega, by dsimp only; omega, hs2.mono ?_⟩
    positions

theorem fresh_routeMonitoring (x : BmpMessageRouteMonitoring) (hx : ∀ y ∈ x.update.attrs, ∀ v, y ≠ .AggregatorAS v) : FreshE x.encodeTo where
  both S a b h := by
    have he := h.1
    unfold BmpMessageRouteMonitoring.encodeTo
    refine both_ite (by rw [he]) (fun _ => both_err _) fun _ => ?_
    fresh_step
    refine wrote_of_wroteL (both_embedded _ _ (fresh_update _ _ hx) (by assumption) _) (by omega) ?_
    positions

theorem fresh_peerUp (x : BmpMessagePeerUp) (h1 : ∀ c ∈ x.msg1.caps, ∀ h d, c ≠ .CapFQDN h d)
    (h2 : ∀ c ∈ x.msg2.caps, ∀ h d, c ≠ .CapFQDN h d) : FreshE x.encodeTo where
  both S a b h := by
    have he := h.1
    unfold BmpMessagePeerUp.encodeTo
    refine both_ite (by rw [he]) (fun _ => both_err _) fun _ => ?_
    fresh_step; fresh_step; fresh_step; fresh_step
    rename_i hs _
    refine both_bind (both_embedded _ _ (fresh_open _ h1) hs _) ?_
    rintro ⟨x, n⟩ ⟨y, m⟩ ⟨hn, hle, hl, hs⟩; dsimp only at hn; subst hn; dsimp only at *
    refine wrote_of_wroteL (both_embedded _ _ (fresh_open _ h2) hs _) (by omega) ?_
    positions

theorem both_notification (code : U8) (m : BgpNotificationMessage) (h : Same S a b) (pos : Nat) :
    Both (WroteL S pos a.length) (BmpMessagePeerDown.encodeNotification code m a pos)
      (BmpMessagePeerDown.encodeNotification code m b pos) := by
  have he := h.1
  unfold BmpMessagePeerDown.encodeNotification
  fresh_step
  rename_i hl hs he
  rw [← he]
  simp only []
  refine both_bind (both_refl _) ?_
  rintro x _ rfl
  refine both_ite Iff.rfl (fun _ => both_err _) fun _ => ?_
  refine wroteL_step (both_embedded _ _ inferInstance hs _) (by omega) (by omega) ?_
  positions

instance (x : BmpMessagePeerDown) : FreshE x.encodeTo where
  both S a b h := by
    have he := h.1
    unfold BmpMessagePeerDown.encodeTo
    refine both_ite (by rw [he]) (fun _ => both_err _) fun _ => ?_
    fresh_step
    rename_i x1 n y1 hl hs he
    cases x.reason <;> dsimp only
    case AdministrativelyClosed m =>
      refine wrote_of_wroteL (both_notification _ _ hs _) (by omega) ?_
      positions
    case RemoteNotification m =>
      refine wrote_of_wroteL (both_notification _ _ hs _) (by omega) ?_
      positions
    case LocalSystemState s =>
      fresh_step
      rename_i hs he
      rw [← he]
      fresh
    all_goals fresh

theorem fresh_typed (code : U8) (enc : Enc) (hf : FreshE enc) : FreshE (BmpMessage.encodeTyped code enc) where
  both S a b h := by have he := h.1; unfold BmpMessage.encodeTyped; fresh

end Zbgp
