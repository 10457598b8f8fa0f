import Verif.Lemmas.FreshBmp
import Verif.Spec.FreshRelease

/-!
# Encoders of a build without overflow checks do not look at what the buffer held
-/

namespace Zbgp

open Spec

variable {α : Type} {S : Nat → Prop} {a b : Bytes}

/-- prefix items of a build without overflow checks do not look at the old contents -/
class ItemFreshR (T : Type) [BgpItemIn T] : Prop where
  fresh : ∀ x : T, FreshP (BgpItemIn.setBits .release x)

attribute [instance] ItemFreshR.fresh

theorem fresh_encItemsR {T : Type} [BgpItemIn T] [h : ItemFreshR T] (l : List T) : FreshE (BgpAddrs.encItemsIn .release l) := by
  letI : BgpItem T := itemIn T .release
  haveI : ItemFresh T := ⟨fun x => h.fresh x⟩
  exact inferInstanceAs (FreshE (encodeItems l))

theorem fresh_encPathIdItemsR {T : Type} [BgpItemIn T] [h : ItemFreshR T] (l : List (WithPathId T)) :
    FreshE (BgpAddrs.encPathIdItemsIn .release l) := by
  letI : BgpItem T := itemIn T .release
  haveI : ItemFresh T := ⟨fun x => h.fresh x⟩
  exact inferInstanceAs (FreshE (encodePathIdItems l))

theorem setLoop_pos (l : List U32) (b : Bytes) (pos : Nat) (r : Bytes × Nat) (h : MplsLabels.setLoop l b pos = .ok r) :
    r.2 = pos + 3 * l.length := by
  induction l generalizing b pos with
  | nil => cases h; rfl
  | cons x l ih =>
    unfold MplsLabels.setLoop at h
    obtain ⟨_, _, h⟩ := Res.bind_eq_ok.1 h
    obtain ⟨_, _, h⟩ := Res.bind_eq_ok.1 h
    obtain ⟨_, _, h⟩ := Res.bind_eq_ok.1 h
    have := ih _ _ h
    rw [List.length_cons]
    omega

instance fresh_labelsR (m : MplsLabels) : FreshP (m.setBitsIn .release) where
  both S a b h := by
    have he := h.1
    unfold MplsLabels.setBitsIn
    refine both_ite Iff.rfl (fun _ => ?_) fun hne => ?_
    · fresh
    · have hpos : 0 < m.labels.length := by
        rcases hm : m.labels with _ | _
        · simp [hm] at hne
        · simp
      refine both_bind (both_with (both_setLoop _ h 0) fun r hr => setLoop_pos _ _ _ r hr) ?_
      rintro ⟨x, n⟩ ⟨y, m⟩ ⟨⟨hn, _, hl, hs⟩, hp⟩
      dsimp only at hn; subst hn; dsimp only at *; have he := hs.1
      have h1 : 1 ≤ n := by omega
      simp only [Build.subN, if_pos h1, Res.ok_bind]
      fresh

theorem add7_nat (x : U8) (h : x.toNat ≤ 248) : (x + 7).toNat = x.toNat + 7 := by
  rw [BitVec.toNat_add]
  have : (7 : U8).toNat = 7 := rfl
  omega

theorem fresh_v4R (x : BgpAddrV4) : Fresh (x.toBitsIn .release) fun n => if x.prefixlen.toNat ≤ 248 then max n.2 ((x.prefixlen.toNat + 7) / 8) else n.2 where
  both S a b h := by
    have he := h.1
    unfold BgpAddrV4.toBitsIn
    refine both_ite Iff.rfl (fun h0 => ?_) fun _ => ?_
    · simp only [h0, Nat.zero_le, ↓reduceIte]; fresh
    · fresh_step
      simp only [Build.add, Res.ok_bind]
      by_cases hx : x.prefixlen.toNat ≤ 248
      · simp only [if_pos hx, add7_nat _ hx]; fresh
      · simp only [if_neg hx]; fresh

theorem fresh_v6R (x : BgpAddrV6) : Fresh (x.toBitsIn .release) fun n => if x.prefixlen.toNat ≤ 248 then max n.2 ((x.prefixlen.toNat + 7) / 8) else n.2 where
  both S a b h := by
    have he := h.1
    unfold BgpAddrV6.toBitsIn
    refine both_ite Iff.rfl (fun h0 => ?_) fun _ => ?_
    · simp only [h0, Nat.zero_le, ↓reduceIte]; fresh
    · fresh_step
      simp only [Build.add, Res.ok_bind]
      by_cases hx : x.prefixlen.toNat ≤ 248
      · simp only [if_pos hx, add7_nat _ hx]; fresh
      · simp only [if_neg hx]; fresh

instance : ItemFreshR BgpAddrV4 where
  fresh x := ⟨fun S a b h => wrote_le ((fresh_v4R x).both S a b h) fun _ => by split <;> omega⟩
instance : ItemFreshR BgpAddrV6 where
  fresh x := ⟨fun S a b h => wrote_le ((fresh_v6R x).both S a b h) fun _ => by split <;> omega⟩

instance {T : Type} [BgpItemIn T] [ItemFreshR T] : ItemFreshR (Labeled T) where
  fresh x := ⟨fun S a b h => by have he := h.1; simp only [BgpItemIn.setBits]; fresh⟩
instance {T : Type} [BgpItemIn T] [ItemFreshR T] : ItemFreshR (WithRd T) where
  fresh x := ⟨fun S a b h => by have he := h.1; simp only [BgpItemIn.setBits]; fresh⟩

instance : ItemFreshR BgpMdtV4 where
  fresh x := ⟨fun S a b h => by
    have he := h.1
    simp only [BgpItemIn.setBits]
    refine both_bind (R := Wrote (fun n => n) S a.length) ?_ ?_
    · fresh
    · rintro ⟨x, n⟩ ⟨y, m⟩ ⟨hn, hl, hs⟩; dsimp only at hn; subst hn; dsimp only at *; have he := hs.1
      fresh⟩
instance : ItemFreshR BgpMdtV6 where
  fresh x := ⟨fun S a b h => by
    have he := h.1
    simp only [BgpItemIn.setBits]
    refine both_bind (R := Wrote (fun n => n) S a.length) ?_ ?_
    · fresh
    · rintro ⟨x, n⟩ ⟨y, m⟩ ⟨hn, hl, hs⟩; dsimp only at hn; subst hn; dsimp only at *; have he := hs.1
      fresh⟩

theorem fresh_vplsR (x : BgpAddrL2) : FreshE ((vplsIn .release).packTo x) where
  both S a b h := by have he := h.1; simp only [BgpItemLong.packTo]; fresh

theorem fresh_longR (x : BgpAddrL2) : FreshE (@encodeLongItem _ (vplsIn .release) x) where
  both S a b h := by
    have he := h.1
    have := fresh_vplsR x
    unfold encodeLongItem
    fresh

theorem fresh_evpn1R (x : BgpEVPN1) (mode : BgpTransportMode) : FreshE ((evpn1In .release).encodeTo x mode) where
  both S a b h := by
    have he := h.1
    simp only [BgpAddrItem.encodeTo]
    fresh_step
    fresh_esi
    fresh

theorem fresh_evpn2R (x : BgpEVPN2) (mode : BgpTransportMode) : FreshE ((evpn2In .release).encodeTo x mode) where
  both S a b h := by
    have he := h.1
    simp only [BgpAddrItem.encodeTo]
    fresh_step
    fresh_esi
    fresh_step; fresh_step; fresh_step
    refine both_bind (R := Wrote (fun n => n) S a.length) ?_ ?_
    · rcases x.ip with _ | _ | _ <;> fresh
    · rintro ⟨x, n⟩ ⟨y, m⟩ ⟨hn, hl, hs⟩; dsimp only at hn; subst hn; dsimp only at *; have he := hs.1
      fresh

theorem fresh_evpn5R (x : BgpEVPN5) (mode : BgpTransportMode) : FreshE ((evpn5In .release).encodeTo x mode) where
  both S a b h := by
    have he := h.1
    simp only [BgpAddrItem.encodeTo]
    fresh_step
    fresh_esi
    fresh_step; fresh_step
    refine both_bind (R := Wrote (fun n => n) S a.length) ?_ ?_
    · rcases x.pfx with _ | _ <;> rcases x.gwIp with _ | _ <;> fresh
    · rintro ⟨x, n⟩ ⟨y, m⟩ ⟨hn, hl, hs⟩; dsimp only at hn; subst hn; dsimp only at *; have he := hs.1
      fresh

theorem both_evpnEnd {x y : Res (Bytes × Nat)}
    (h : Both (fun x y => x.2 = y.2 ∧ x.1.length = a.length ∧ Same (span (span S 0 1) 2 (2 + x.2)) x.1 y.1) x y) :
    Both (Wrote (fun n => n) S a.length)
      (do
        let (buf, pos) ← x
        if pos ≤ 0xff then do
          let buf ← setIdx buf 1 (BitVec.ofNat 8 pos)
          .ok (buf, pos + 2)
        else .err .tooManyData)
      (do
        let (buf, pos) ← y
        if pos ≤ 0xff then do
          let buf ← setIdx buf 1 (BitVec.ofNat 8 pos)
          .ok (buf, pos + 2)
        else .err .tooManyData) := by
  refine both_bind h ?_
  rintro ⟨x, n⟩ ⟨y, m⟩ ⟨hn, hl, hs⟩; dsimp only at hn; subst hn; dsimp only at *; have he := hs.1
  fresh

theorem fresh_evpnR (x : BgpEVPN) (mode : BgpTransportMode) : FreshE ((evpnIn .release).encodeTo x mode) where
  both S a b h := by
    cases x
    case evpn1 r => have := fresh_evpn1R r mode; exact both_evpnEnd (both_routeBody 1 _ h)
    case evpn2 r => have := fresh_evpn2R r mode; exact both_evpnEnd (both_routeBody 2 _ h)
    case evpn3 r => exact both_evpnEnd (both_routeBody 3 (BgpAddrItem.encodeTo r mode) h)
    case evpn4 r => exact both_evpnEnd (both_routeBody 4 (BgpAddrItem.encodeTo r mode) h)
    case evpn5 r => have := fresh_evpn5R r mode; exact both_evpnEnd (both_routeBody 5 _ h)

/-! ## FlowSpec -/

theorem fresh_fs4R (x : BgpAddrV4) (hx : x.prefixlen.toNat ≤ 248) : FreshB ((fsV4In .release).encodeFs x) ((fsV4In .release).storeSize x) where
  both S a b h := by
    have he := h.1
    have := fresh_v4R x
    simp only [if_pos hx] at this
    simp only [FSItem.encodeFs, FSItem.storeSize]
    fresh

theorem fresh_fs6R (x : FS6) (hx : x.ipv6.prefixlen.toNat ≤ 248) : FreshB ((fsV6In .release).encodeFs x) ((fsV6In .release).storeSize x) where
  both S a b h := by
    have he := h.1
    have := fresh_v6R x.ipv6
    simp only [if_pos hx] at this
    simp only [FSItem.encodeFs, FSItem.storeSize]
    fresh

theorem rd_pos (r : BgpRD) (b : Bytes) (p : Bytes × Nat) (h : r.encodeTo b = .ok p) : p.2 = 8 := by
  unfold BgpRD.encodeTo at h
  obtain ⟨_, _, h⟩ := Res.bind_eq_ok.1 h
  obtain ⟨_, _, h⟩ := Res.bind_eq_ok.1 h
  cases h; rfl

theorem fresh_rd4R (x : WithRd BgpAddrV4) (hx : x.pfx.prefixlen.toNat ≤ 248) :
    Fresh (BgpItemIn.setBits .release x) fun n => max n.2 (8 + (x.pfx.prefixlen.toNat + 7) / 8) where
  both S a b h := by
    have he := h.1
    have hv := fresh_v4R x.pfx
    simp only [if_pos hx] at hv
    have : ∀ b, BgpItemIn.setBits .release x b = (do
      let (buf, rdpos) ← x.rd.encodeTo b
      let (buf, pfxp) ← onFrom buf rdpos (x.pfx.toBitsIn .release)
      let bits ← Build.release.add (BitVec.ofNat 8 (rdpos * 8)) pfxp.1
      .ok (buf, (bits, rdpos + pfxp.2))) := fun _ => rfl
    rw [this, this]
    refine both_bind (both_with (Fresh.both (f := x.rd.encodeTo) S a b h) fun r hr => rd_pos _ _ r hr) ?_
    rintro ⟨x1, n⟩ ⟨y1, m⟩ ⟨⟨hn, hl, hs⟩, h8⟩
    dsimp only at hn; subst hn; dsimp only at *; have he := hs.1
    fresh

theorem fresh_fsVpnR (x : FSV4U) (hx : x.pfx.pfx.prefixlen.toNat ≤ 248) :
    FreshB ((fsVpnIn .release).encodeFs x) ((fsVpnIn .release).storeSize x) where
  both S a b h := by
    have he := h.1
    have := fresh_rd4R x.pfx hx
    simp only [FSItem.encodeFs, FSItem.storeSize]
    fresh_step; fresh_step
    refine both_bind (both_onFrom (hf := this) (by assumption) _ _) ?_
    rintro ⟨x, n⟩ ⟨y, m⟩ ⟨hn, hl, hs⟩; dsimp only at hn; subst hn; dsimp only at *; have he := hs.1
    fresh

theorem both_putPrefixR {T : Type} (i : FSItem T) (code : U8) (x : T) (hx : FreshB (i.encodeFs x) (i.storeSize x)) (h : Same S a b) (pos : Nat) :
    Both (WroteL S pos a.length) (@BgpFlowSpec.putPrefix T i code x a pos) (@BgpFlowSpec.putPrefix T i code x b pos) := by
  unfold BgpFlowSpec.putPrefix
  fresh_step; fresh_step
  exact ⟨rfl, by dsimp only; omega, by dsimp only; omega, Same.mono (by assumption) (by positions)⟩

theorem fresh_flowR {T : Type} (i : FSItem T) (len : T → U8) (hi : ∀ y, (len y).toNat ≤ 248 → FreshB (i.encodeFs y) (i.storeSize y))
    (x : BgpFlowSpec T) (hx : FsShort len x) (mode : BgpTransportMode) : FreshE ((flowIn i).encodeTo x mode) where
  both S a b h := by
    have he := h.1
    have hb : ∀ {S : Nat → Prop} {a b : Bytes}, Same S a b → ∀ pos,
        Both (WroteL S pos a.length) (@BgpFlowSpec.putBody T i x a pos) (@BgpFlowSpec.putBody T i x b pos) := by
      intro S a b h pos
      cases x
      case prefixDst y => exact both_putPrefixR i _ _ (hi y hx) h _
      case prefixSrc y => exact both_putPrefixR i _ _ (hi y hx) h _
      all_goals exact both_putOps _ _ h _
    change Both _ (@BgpFlowSpec.encodeTo T i x a) (@BgpFlowSpec.encodeTo T i x b)
    unfold BgpFlowSpec.encodeTo
    simp only []
    fresh
    all_goals
      refine wrote_of_wroteL (hb (by assumption) _) (by omega) ?_
      positions

theorem fresh_addrsR (x : BgpAddrs) (p : BgpSessionParams) (hx : NoLongFlowspec x) : FreshE (x.encodeToIn .release p) where
  both S a b h := by
    cases x <;> unfold BgpAddrs.encodeToIn
    case None => fresh
    case L2VPLS v => exact wrote_of_loop (both_encLoop _ _ (fun _ _ => fresh_longR _) h _)
    case EVPN v => exact wrote_of_loop (both_encLoop _ _ (fun _ _ => fresh_evpnR _ _) h _)
    case FS4U v =>
      exact wrote_of_loop (both_encLoop _ _ (fun y hy => fresh_flowR _ _ fresh_fs4R y (hx y hy) _) h _)
    case FS6U v =>
      exact wrote_of_loop (both_encLoop _ _ (fun y hy => fresh_flowR _ _ fresh_fs6R y (hx y hy) _) h _)
    case FSV4U v =>
      exact wrote_of_loop (both_encLoop _ _ (fun y hy => fresh_flowR _ _ fresh_fsVpnR y (hx y hy) _) h _)
    all_goals first
      | exact (fresh_encItemsR _).both S a b h
      | exact (fresh_encPathIdItemsR _).both S a b h
      | exact Fresh.both (f := encodeAddrItems _ _) S a b h

/-! ## Attributes and UPDATE -/

theorem fresh_mpUpdatesR (x : BgpMPUpdates) (p : BgpSessionParams) (hx : NoLongFlowspec x.addrs) : FreshE (x.encodeToIn .release p) where
  both S a b h := by
    have he := h.1
    have := fresh_addrsR x.addrs p hx
    unfold BgpMPUpdates.encodeToIn
    fresh_step; fresh_step
    refine both_bind (both_nexthop _ _ (by assumption)) ?_
    rintro ⟨x, n⟩ ⟨y, m⟩ ⟨hn, hl, hs⟩; dsimp only at hn; subst hn; dsimp only at *; have he := hs.1
    fresh

theorem fresh_mpWithdrawsR (x : BgpMPWithdraws) (p : BgpSessionParams) (hx : NoLongFlowspec x.addrs) : FreshE (x.encodeToIn .release p) where
  both S a b h := by
    have he := h.1
    have := fresh_addrsR x.addrs p hx
    unfold BgpMPWithdraws.encodeToIn
    fresh

theorem fresh_valueR (x : BgpAttrItem) (p : BgpSessionParams) (hx : AttrFresh x) : FreshE (x.encodeValueIn .release p) := by
  have key : ∀ y : BgpAttrItem, (∀ v, y ≠ .AggregatorAS v) → y.encodeValueIn .release p = y.encodeValue p →
      FreshE (y.encodeValueIn .release p) := fun y h e => e ▸ fresh_value y p h
  cases x
  case MPUpdates u => exact fresh_mpUpdatesR u p hx
  case MPWithdraws u => exact fresh_mpWithdrawsR u p hx
  case AggregatorAS v => exact hx.elim
  all_goals
    refine key _ ?_ rfl
    intro v hv
    cases hv

theorem fresh_attrR (x : BgpAttrItem) (p : BgpSessionParams) (hx : AttrFresh x) : FreshE (x.encodeToIn .release p) where
  both S a b h := by
    have he := h.1
    have := fresh_valueR x p hx
    unfold BgpAttrItem.encodeToIn BgpAttrItem.encodeBgpattr
    by_cases hf : x.attr.flags &&& 16 > 0
    · simp only [if_pos hf]; fresh
    · simp only [if_neg hf]; fresh

theorem both_attrsR (p : BgpSessionParams) (lp : Nat) (l : List BgpAttrItem) (hx : ∀ x ∈ l, AttrFresh x) (h : Same S a b) (pos : Nat) :
    Both (WroteL S pos a.length) (BgpUpdateMessage.encodeAttrsIn .release p lp l a pos) (BgpUpdateMessage.encodeAttrsIn .release p lp l b pos) := by
  induction l generalizing S a b pos with
  | nil => exact wroteL_nil h pos
  | cons x l ih =>
    have := fresh_attrR x p (hx x (by simp))
    unfold BgpUpdateMessage.encodeAttrsIn
    refine both_ite Iff.rfl (fun _ => both_err _) fun _ => ?_
    fresh_step
    refine wroteL_step (ih (fun y hy => hx y (by simp [hy])) (by assumption) _) (by omega) (by omega) ?_
    positions

theorem fresh_sectionR {p : BgpSessionParams} {x : BgpAddrs} {enc : Enc} (h : BgpUpdateMessage.nlriEncoderIn .release p x = some enc) :
    FreshE enc := by
  unfold BgpUpdateMessage.nlriEncoderIn at h
  split at h <;> cases h <;> first | exact fresh_encItemsR _ | exact fresh_encPathIdItemsR _

theorem fresh_updateR (x : BgpUpdateMessage) (p : BgpSessionParams) (hx : ∀ y ∈ x.attrs, AttrFresh y) : FreshE (x.encodeToIn .release p) where
  both S a b h := by
    have he := h.1
    unfold BgpUpdateMessage.encodeToIn
    refine both_bind (R := fun x y => 2 ≤ x.2 ∧ Wrote (fun n => n) S a.length x y) ?_ ?_
    · unfold BgpUpdateMessage.encodeWithdrawsIn
      cases hw : BgpUpdateMessage.nlriEncoderIn .release p x.withdraws with
      | some enc =>
        have := fresh_sectionR hw
        simp only []
        fresh_step
        refine both_ite Iff.rfl (fun _ => both_err _) fun _ => ?_
        fresh_step
        exact ⟨by dsimp only; omega, rfl, by dsimp only; omega, Same.mono (by assumption) (by positions)⟩
      | none =>
        simp only []
        fresh_step
        exact ⟨by dsimp only; omega, rfl, by dsimp only; omega, Same.mono (by assumption) (by positions)⟩
    · rintro ⟨x1, n⟩ ⟨y1, m⟩ ⟨_, hn, hl, hs⟩; dsimp only at hn; subst hn; dsimp only at *; have he := hs.1
      refine both_bind (both_attrsR _ _ _ hx hs _) ?_
      rintro ⟨x2, n2⟩ ⟨y2, m2⟩ ⟨hn, hle, hl, hs⟩; dsimp only at hn; subst hn; dsimp only at *; have he := hs.1
      fresh_step
      cases hu : BgpUpdateMessage.nlriEncoderIn .release p x.updates with
      | some enc =>
        have := fresh_sectionR hu
        simp only []
        fresh
      | none => simp only []; fresh

/-! ## BMP -/

instance (x : BmpMessageTermination) : FreshE (x.encodeToIn .release) where
  both S a b h := by
    have he := h.1
    unfold BmpMessageTermination.encodeToIn
    refine both_bind (R := Wrote (fun n => n) S a.length) ?_ ?_
    · cases x.str0 <;> simp only [BmpMessageTermination.encodeStrIn, ← he] <;> fresh
    · rintro ⟨x1, n⟩ ⟨y1, m⟩ ⟨hn, hl, hs⟩; dsimp only at hn; subst hn; dsimp only at *; have he := hs.1
      cases x.reason <;> simp only [BmpMessageTermination.encodeReasonIn, ← he] <;> fresh

instance (ty : BgpMessageType) (n : Nat) : Fresh (fun b => BgpSessionParams.prepareMessageBufIn .release b ty n) fun _ => 19 where
  both S a b h := by
    have he := h.1
    unfold BgpSessionParams.prepareMessageBufIn
    simp only [Build.add, Res.ok_bind]
    fresh

theorem prepareR_le {ty : BgpMessageType} {n : Nat} {r : Bytes × Nat} (h : BgpSessionParams.prepareMessageBufIn .release a ty n = .ok r) :
    r.2 ≤ n + 19 := by
  unfold BgpSessionParams.prepareMessageBufIn at h
  split at h
  · cases h
  · obtain ⟨_, _, h⟩ := Res.bind_eq_ok.1 h
    simp only [Build.add, Res.ok_bind] at h
    obtain ⟨_, _, h⟩ := Res.bind_eq_ok.1 h
    obtain ⟨_, _, h⟩ := Res.bind_eq_ok.1 h
    obtain ⟨_, _, h⟩ := Res.bind_eq_ok.1 h
    cases h
    have : (19 : U16).toNat = 19 := rfl
    simp only [BitVec.toNat_add, BitVec.toNat_ofNat]
    omega

theorem both_embeddedR (ty : BgpMessageType) (enc : Enc) (hf : FreshE enc) (h : Same S a b) (pos : Nat) :
    Both (WroteL S pos a.length) (encodeEmbeddedIn .release ty enc a pos) (encodeEmbeddedIn .release ty enc b pos) := by
  unfold encodeEmbeddedIn
  fresh_step
  rename_i x n y hl hs he
  refine both_bind (both_with (P := fun r => r.2 ≤ n + 19) (both_onFrom hs pos fun b => BgpSessionParams.prepareMessageBufIn .release b ty n) ?_) ?_
  · intro r hr
    unfold onFrom at hr
    split at hr
    · obtain ⟨⟨_, m⟩, h1, h2⟩ := Res.bind_eq_ok.1 hr
      cases h2
      have := prepareR_le h1
      exact this
    · cases hr
  · rintro ⟨x2, n2⟩ ⟨y2, m2⟩ ⟨⟨hn2, hl2, hs2⟩, hle⟩
    dsimp only at hn2; subst hn2; dsimp only at *
    refine ⟨rfl, by dsimp only; omega, by dsimp only; omega, hs2.mono ?_⟩
    positions

theorem fresh_routeMonitoringR (x : BmpMessageRouteMonitoring) (hx : ∀ y ∈ x.update.attrs, AttrFresh y) : FreshE (x.encodeToIn .release) where
  both S a b h := by
    have he := h.1
    unfold BmpMessageRouteMonitoring.encodeToIn
    refine both_ite (by rw [he]) (fun _ => both_err _) fun _ => ?_
    fresh_step
    refine wrote_of_wroteL (both_embeddedR _ _ (fresh_updateR _ _ hx) (by assumption) _) (by omega) ?_
    positions

theorem fresh_peerUpR (x : BmpMessagePeerUp) (h1 : NoFqdn x.msg1.caps) (h2 : NoFqdn x.msg2.caps) : FreshE (x.encodeToIn .release) where
  both S a b h := by
    have he := h.1
    unfold BmpMessagePeerUp.encodeToIn
    refine both_ite (by rw [he]) (fun _ => both_err _) fun _ => ?_
    fresh_step; fresh_step; fresh_step; fresh_step
    rename_i hs _
    refine both_bind (both_embeddedR _ _ (fresh_open _ h1) hs _) ?_
    rintro ⟨x, n⟩ ⟨y, m⟩ ⟨hn, hle, hl, hs⟩; dsimp only at hn; subst hn; dsimp only at *
    refine wrote_of_wroteL (both_embeddedR _ _ (fresh_open _ h2) hs _) (by omega) ?_
    positions

theorem both_notificationR (code : U8) (m : BgpNotificationMessage) (h : Same S a b) (pos : Nat) :
    Both (WroteL S pos a.length) (BmpMessagePeerDown.encodeNotificationIn .release code m a pos)
      (BmpMessagePeerDown.encodeNotificationIn .release code m b pos) := by
  have he := h.1
  unfold BmpMessagePeerDown.encodeNotificationIn
  fresh_step
  rename_i hl hs he
  rw [← he]
  simp only []
  refine both_bind (both_refl _) ?_
  rintro x _ rfl
  refine both_ite Iff.rfl (fun _ => both_err _) fun _ => ?_
  refine wroteL_step (both_embeddedR _ _ inferInstance hs _) (by omega) (by omega) ?_
  positions

instance (x : BmpMessagePeerDown) : FreshE (x.encodeToIn .release) where
  both S a b h := by
    have he := h.1
    unfold BmpMessagePeerDown.encodeToIn
    refine both_ite (by rw [he]) (fun _ => both_err _) fun _ => ?_
    fresh_step
    rename_i x1 n y1 hl hs he
    cases x.reason <;> dsimp only
    case AdministrativelyClosed m =>
      refine wrote_of_wroteL (both_notificationR _ _ hs _) (by omega) ?_
      positions
    case RemoteNotification m =>
      refine wrote_of_wroteL (both_notificationR _ _ hs _) (by omega) ?_
      positions
    case LocalSystemState s =>
      fresh_step
      rename_i hs he
      rw [← he]
      fresh
    all_goals fresh

end Zbgp
