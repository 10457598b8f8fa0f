import Verif.Lemmas.SizeRelease
import Verif.Lemmas.ReleaseMsg

/-!
# Octets behind those reported, for a build without overflow checks (C62)
-/

namespace Zbgp

open Spec

theorem labels_release : MplsLabels.setBitsIn .release = MplsLabels.setBits := by
  funext m b
  unfold MplsLabels.setBitsIn MplsLabels.setBits
  split
  · rfl
  · rename_i hne
    have hpos : 0 < m.labels.length := by
      rcases hm : m.labels with _ | _
      · simp [hm] at hne
      · simp
    cases hs : MplsLabels.setLoop m.labels b 0 with
    | ok r =>
      have hp := setLoop_pos _ _ _ r hs
      have h1 : 1 ≤ r.2 := by omega
      simp only [Res.ok_bind, Build.subN, subN, if_pos h1]
    | err _ => rfl
    | panic => rfl
    | hang => rfl

theorem evpn_release (x : BgpEVPN) (mode : BgpTransportMode) : (evpnIn .release).encodeTo x mode = BgpAddrItem.encodeTo x mode := by
  have h1 : ∀ x mode, (evpn1In .release).encodeTo x mode = (evpn1In .checked).encodeTo x mode := by
    intro x mode
    unfold evpn1In
    rw [labels_release]
    rfl
  have h2 : ∀ x mode, (evpn2In .release).encodeTo x mode = (evpn2In .checked).encodeTo x mode := by
    intro x mode
    unfold evpn2In
    rw [labels_release]
    rfl
  have h5 : ∀ x mode, (evpn5In .release).encodeTo x mode = (evpn5In .checked).encodeTo x mode := by
    intro x mode
    unfold evpn5In
    rw [labels_release]
    rfl
  have h : (evpnIn .release).encodeTo x mode = (evpnIn .checked).encodeTo x mode := by
    unfold evpnIn
    simp only [BgpAddrItem.encodeTo, labels_release, setLabels_checked]
  rw [h, evpn_checked]

/-- prefix items of a build without overflow checks keep the bytes behind -/
class ItemFramedR (T : Type) [BgpItemIn T] : Prop where
  frame : ∀ x : T, Framed (fun r : U8 × Nat => r.2) (BgpItemIn.setBits .release x)

attribute [instance] ItemFramedR.frame

theorem framed_encItemsR {T : Type} [BgpItemIn T] [h : ItemFramedR T] (l : List T) : Framed id (BgpAddrs.encItemsIn .release l) := by
  letI : BgpItem T := itemIn T .release
  haveI : ItemFramed T := ⟨fun x => h.frame x⟩
  exact inferInstanceAs (Framed id (encodeItems l))

theorem framed_encPathIdItemsR {T : Type} [BgpItemIn T] [h : ItemFramedR T] (l : List (WithPathId T)) :
    Framed id (BgpAddrs.encPathIdItemsIn .release l) := by
  letI : BgpItem T := itemIn T .release
  haveI : ItemFramed T := ⟨fun x => h.frame x⟩
  exact inferInstanceAs (Framed id (encodePathIdItems l))

theorem post_toBitsV4R (x : BgpAddrV4) (b : Bytes) :
    Post (x.toBitsIn .release b) fun r => r.2.2 ≤ (x.prefixlen.toNat + 7) / 8 ∧ r.2.2 ≤ b.length ∧ r.1.length = b.length ∧
      ∀ k, r.2.2 ≤ k → r.1[k]? = b[k]? := by
  unfold BgpAddrV4.toBitsIn
  split
  · exact post_ok ⟨by simp, by simp, rfl, fun _ _ => rfl⟩
  · simp only [Build.add, Res.ok_bind]
    repeat frame_step
    have : BitVec.toNat (7 : U8) = 7 := rfl
    have : (x.prefixlen + 7).toNat ≤ x.prefixlen.toNat + 7 := by rw [BitVec.toNat_add]; omega
    refine ⟨by (try simp only [id] at *); omega, by (try simp only [id] at *); omega, by (try simp only [id] at *); omega, fun k hk => ?_⟩
    (try simp only [id] at *)
    simp (disch := omega) only [*]

theorem post_toBitsV6R (x : BgpAddrV6) (b : Bytes) :
    Post (x.toBitsIn .release b) fun r => r.2.2 ≤ (x.prefixlen.toNat + 7) / 8 ∧ r.2.2 ≤ b.length ∧ r.1.length = b.length ∧
      ∀ k, r.2.2 ≤ k → r.1[k]? = b[k]? := by
  unfold BgpAddrV6.toBitsIn
  split
  · exact post_ok ⟨by simp, by simp, rfl, fun _ _ => rfl⟩
  · simp only [Build.add, Res.ok_bind]
    repeat frame_step
    have : BitVec.toNat (7 : U8) = 7 := rfl
    have : (x.prefixlen + 7).toNat ≤ x.prefixlen.toNat + 7 := by rw [BitVec.toNat_add]; omega
    refine ⟨by (try simp only [id] at *); omega, by (try simp only [id] at *); omega, by (try simp only [id] at *); omega, fun k hk => ?_⟩
    (try simp only [id] at *)
    simp (disch := omega) only [*]

instance : ItemFramedR BgpAddrV4 where
  frame x := ⟨fun b => post_mono (post_toBitsV4R x b) fun _ h => h.2⟩
instance : ItemFramedR BgpAddrV6 where
  frame x := ⟨fun b => post_mono (post_toBitsV6R x b) fun _ h => h.2⟩

instance {T : Type} [BgpItemIn T] [ItemFramedR T] : ItemFramedR (Labeled T) where
  frame x := ⟨fun b => by
    simp only [BgpItemIn.setBits, labels_release, Build.add, Res.ok_bind]
    frame⟩

instance {T : Type} [BgpItemIn T] [ItemFramedR T] : ItemFramedR (WithRd T) where
  frame x := ⟨fun b => by
    simp only [BgpItemIn.setBits, Build.add, Res.ok_bind]
    frame⟩

instance : ItemFramedR BgpMdtV4 where
  frame x := ⟨fun b => by
    simp only [BgpItemIn.setBits, Build.add, Res.ok_bind]
    refine post_bind (Q := fun r => r.2 ≤ b.length ∧ r.1.length = b.length ∧ ∀ k, r.2 ≤ k → r.1[k]? = b[k]?) ?_ ?_
    · frame
    · rintro ⟨_, _⟩ ⟨_, _, _⟩
      (try simp only [id] at *)
      frame⟩

instance : ItemFramedR BgpMdtV6 where
  frame x := ⟨fun b => by
    simp only [BgpItemIn.setBits, Build.add, Res.ok_bind]
    refine post_bind (Q := fun r => r.2 ≤ b.length ∧ r.1.length = b.length ∧ ∀ k, r.2 ≤ k → r.1[k]? = b[k]?) ?_ ?_
    · frame
    · rintro ⟨_, _⟩ ⟨_, _, _⟩
      (try simp only [id] at *)
      frame⟩

/-! ## FlowSpec -/

/-- the prefix encoder changes nothing behind the octets it is charged with -/
def FsBehind {T : Type} (i : FSItem T) : Prop := ∀ (x : T) (b : Bytes), Post (i.encodeFs x b) fun r =>
  r.length = b.length ∧ ∀ k, i.storeSize x ≤ k → r[k]? = b[k]?

theorem behind_onFrom {α : Type} {f : Bytes → Res (Bytes × α)} {n : Nat}
    (hf : ∀ b, Post (f b) fun r => r.1.length = b.length ∧ ∀ k, n ≤ k → r.1[k]? = b[k]?) (b : Bytes) (s : Nat) :
    Post (onFrom b s f) fun r => r.1.length = b.length ∧ ∀ k, s + n ≤ k → r.1[k]? = b[k]? := by
  unfold onFrom
  split
  · refine post_bind (hf _) ?_
    rintro ⟨r, a⟩ ⟨h1, h2⟩
    simp only [List.length_drop] at h1 h2
    refine post_ok ⟨by simp only [List.length_append, List.length_take]; omega, fun k hk => ?_⟩
    simp only
    rw [List.getElem?_append_right (by simp only [List.length_take]; omega), h2 _ (by simp only [List.length_take]; omega),
      List.getElem?_drop]
    simp only [List.length_take]
    congr 1; omega
  · exact post_panic

theorem behind_modFrom {f : Bytes → Res Bytes} {n : Nat}
    (hf : ∀ b, Post (f b) fun r => r.length = b.length ∧ ∀ k, n ≤ k → r[k]? = b[k]?) (b : Bytes) (s : Nat) :
    Post (modFrom b s f) fun r => r.length = b.length ∧ ∀ k, s + n ≤ k → r[k]? = b[k]? := by
  unfold modFrom
  split
  · refine post_bind (hf _) ?_
    rintro r ⟨h1, h2⟩
    simp only [List.length_drop] at h1 h2
    refine post_ok ⟨by simp only [List.length_append, List.length_take]; omega, fun k hk => ?_⟩
    rw [List.getElem?_append_right (by simp only [List.length_take]; omega), h2 _ (by simp only [List.length_take]; omega),
      List.getElem?_drop]
    simp only [List.length_take]
    congr 1; omega
  · exact post_panic

theorem behind_fs4R : FsBehind (fsV4In .release) := by
  intro x b
  simp only [FSItem.encodeFs, FSItem.storeSize]
  frame_step
  refine post_bind (behind_onFrom (n := (x.prefixlen.toNat + 7) / 8) (fun b => post_mono (post_toBitsV4R x b) ?_) _ _) ?_
  · rintro ⟨_, _, n⟩ ⟨h1, _, h2, h3⟩
    exact ⟨h2, fun k hk => h3 k (by simp only at *; omega)⟩
  · rintro ⟨_, _⟩ ⟨h1, h2⟩
    refine post_ok ⟨by simp only at *; omega, fun k hk => ?_⟩
    simp only at *
    simp (disch := omega) only [*]

theorem behind_fs6R : FsBehind (fsV6In .release) := by
  intro x b
  simp only [FSItem.encodeFs, FSItem.storeSize]
  frame_step
  frame_step
  refine post_bind (behind_onFrom (n := (x.ipv6.prefixlen.toNat + 7) / 8) (fun b => post_mono (post_toBitsV6R x.ipv6 b) ?_) _ _) ?_
  · rintro ⟨_, _, n⟩ ⟨h1, _, h2, h3⟩
    exact ⟨h2, fun k hk => h3 k (by simp only at *; omega)⟩
  · rintro ⟨_, _⟩ ⟨h1, h2⟩
    refine post_ok ⟨by simp only at *; omega, fun k hk => ?_⟩
    simp only at *
    simp (disch := omega) only [*]

theorem behind_fsVpnR : FsBehind (fsVpnIn .release) := by
  intro x b
  simp only [FSItem.encodeFs, FSItem.storeSize]
  frame_step
  frame_step
  have hw : ∀ b, Post (BgpItemIn.setBits .release x.pfx b) fun r => r.1.length = b.length ∧
      ∀ k, 8 + (x.pfx.pfx.prefixlen.toNat + 7) / 8 ≤ k → r.1[k]? = b[k]? := by
    intro b
    have : BgpItemIn.setBits .release x.pfx b = (do
      let (buf, rdpos) ← x.pfx.rd.encodeTo b
      let (buf, pfxp) ← onFrom buf rdpos (x.pfx.pfx.toBitsIn .release)
      let bits ← Build.release.add (BitVec.ofNat 8 (rdpos * 8)) pfxp.1
      .ok (buf, (bits, rdpos + pfxp.2))) := rfl
    rw [this]
    have h8 : Post (x.pfx.rd.encodeTo b) fun r => r.2 = 8 := fun r hr => rd_pos _ _ r hr
    refine post_bind (post_and (Framed.post (f := x.pfx.rd.encodeTo) b) h8) ?_
    rintro ⟨_, n⟩ ⟨⟨_, _, _⟩, h8⟩
    (try simp only [id] at *)
    subst h8
    refine post_bind (behind_onFrom (n := (x.pfx.pfx.prefixlen.toNat + 7) / 8) (fun b => post_mono (post_toBitsV4R x.pfx.pfx b) ?_) _ _) ?_
    · rintro ⟨_, _, n⟩ ⟨h1, _, h2, h3⟩
      exact ⟨h2, fun k hk => h3 k (by simp only at *; omega)⟩
    · rintro ⟨_, _⟩ ⟨h1, h2⟩
      refine post_ok ⟨by simp only at *; omega, fun k hk => ?_⟩
      simp only at *
      simp (disch := omega) only [*]
  refine post_bind (behind_onFrom hw _ _) ?_
  rintro ⟨_, _⟩ ⟨h1, h2⟩
  refine post_ok ⟨by simp only at *; omega, fun k hk => ?_⟩
  simp only at *
  simp (disch := omega) only [*]

theorem framed_flowR {T : Type} (i : FSItem T) (hi : FsBehind i) (x : BgpFlowSpec T) (mode : BgpTransportMode) :
    Framed id ((flowIn i).encodeTo x mode) where
  post b := by
    have hp : ∀ c y b pos, Post (@BgpFlowSpec.putPrefix T i c y b pos) fun r => r.2 = pos + (1 + i.storeSize y) ∧ r.1.length = b.length ∧
        ∀ k, r.2 ≤ k → r.1[k]? = b[k]? := by
      intro c y b pos
      unfold BgpFlowSpec.putPrefix
      frame_step
      refine post_bind (behind_modFrom (hi y) _ _) ?_
      rintro _ ⟨_, _⟩
      refine post_ok ⟨by simp only; omega, by simp only; omega, fun k hk => ?_⟩
      simp only at *
      simp (disch := omega) only [*]
    have hb : ∀ b pos, pos + @BgpFlowSpec.nlen T i x ≤ b.length →
        Post (@BgpFlowSpec.putBody T i x b pos) fun r => pos ≤ r.2 ∧ r.2 ≤ b.length ∧ r.1.length = b.length ∧
          ∀ k, r.2 ≤ k → r.1[k]? = b[k]? := by
      intro b pos hl
      cases x
      case prefixDst y => exact post_mono (hp _ _ _ _) fun r h =>
        ⟨by have := h.1; omega, by have := h.1; simp only [BgpFlowSpec.nlen] at hl; omega, h.2⟩
      case prefixSrc y => exact post_mono (hp _ _ _ _) fun r h =>
        ⟨by have := h.1; omega, by have := h.1; simp only [BgpFlowSpec.nlen] at hl; omega, h.2⟩
      all_goals exact post_mono (post_putOps _ _ _ _) fun _ h => h
    change Post (@BgpFlowSpec.encodeTo T i x b) _
    unfold BgpFlowSpec.encodeTo
    simp only []
    (repeat' frame_step)
    all_goals
      refine post_mono (hb _ _ (by omega)) ?_
      rintro ⟨_, _⟩ ⟨_, _, _, _⟩
      frame_end

/-! ## Lists of routes, attributes and UPDATE -/

theorem framed_addrsR (x : BgpAddrs) (p : BgpSessionParams) (h : AddrsFramed x) : Framed id (x.encodeToIn .release p) where
  post b := by
    obtain ⟨hl2, hev⟩ := h
    cases x <;> unfold BgpAddrs.encodeToIn
    case L2VPLS v => exact absurd rfl (hl2 v)
    case EVPN v =>
      exact (@framed_addrItems _ (evpnIn .release) v _ fun e he => by rw [evpn_release]; exact framed_evpn e _ (hev v rfl e he)).post b
    case None => exact post_ok ⟨by simp, rfl, fun _ _ => rfl⟩
    case FS4U v => exact (@framed_addrItems _ (flowIn (fsV4In .release)) v _ fun e _ => framed_flowR _ behind_fs4R e _).post b
    case FS6U v => exact (@framed_addrItems _ (flowIn (fsV6In .release)) v _ fun e _ => framed_flowR _ behind_fs6R e _).post b
    case FSV4U v => exact (@framed_addrItems _ (flowIn (fsVpnIn .release)) v _ fun e _ => framed_flowR _ behind_fsVpnR e _).post b
    all_goals first
      | exact (framed_encItemsR _).post b
      | exact (framed_encPathIdItemsR _).post b
      | exact (framed_addrItems _ _ fun e he => inferInstance).post b

theorem framed_valueR (x : BgpAttrItem) (p : BgpSessionParams) (h : AttrFramed x) : Framed id (x.encodeValueIn .release p) := by
  have key : ∀ y : BgpAttrItem, AttrFramed y → y.encodeValueIn .release p = y.encodeValue p → Framed id (y.encodeValueIn .release p) :=
    fun y hy e => e ▸ framed_value y p hy
  cases x
  case MPUpdates u =>
    refine ⟨fun b => ?_⟩
    have := framed_addrsR u.addrs p h
    change Post (BgpMPUpdates.encodeToIn .release u p b) _
    unfold BgpMPUpdates.encodeToIn
    frame_step
    frame_step
    refine post_bind (post_nexthop _ _ _) ?_
    rintro ⟨_, _⟩ ⟨_, _, _⟩
    (try simp only [id] at *)
    frame
  case MPWithdraws u =>
    refine ⟨fun b => ?_⟩
    have := framed_addrsR u.addrs p h
    change Post (BgpMPWithdraws.encodeToIn .release u p b) _
    unfold BgpMPWithdraws.encodeToIn
    frame
  case AggregatorAS => exact h.elim
  all_goals exact key _ trivial rfl

theorem framed_attrR (x : BgpAttrItem) (p : BgpSessionParams) (h : AttrFramed x) : Framed id (x.encodeToIn .release p) where
  post b := by
    have := framed_valueR x p h
    exact Framed.post (f := BgpAttrItem.encodeBgpattr x.attr (x.encodeValueIn .release p)) b

theorem framed_sectionR {p : BgpSessionParams} {x : BgpAddrs} {enc : Enc} (h : BgpUpdateMessage.nlriEncoderIn .release p x = some enc) :
    Framed id enc := by
  unfold BgpUpdateMessage.nlriEncoderIn at h
  split at h <;> cases h <;> first | exact framed_encItemsR _ | exact framed_encPathIdItemsR _

theorem frame_onSliceE {α : Type} {pos : α → Nat} (b : Bytes) (s e : Nat) (f : Bytes → Res (Bytes × α)) (hf : Framed pos f) :
    Post (onSliceE b s e f) fun r => s ≤ e ∧ e ≤ b.length ∧ s + pos r.2 ≤ e ∧ r.1.length = b.length ∧
      ∀ k, s + pos r.2 ≤ k → r.1[k]? = b[k]? := by
  unfold onSliceE
  split
  · rename_i hs
    refine post_bind (hf.post _) ?_
    rintro ⟨t, a⟩ ⟨h1, h2, h3⟩
    simp only [List.length_drop, List.length_take] at h1 h2
    refine post_ok ⟨hs.1, hs.2, by simp only; omega, by simp; omega, fun k hk => ?_⟩
    simp only at hk ⊢
    by_cases hke : k < e
    · rw [List.append_assoc, List.getElem?_append_right (by simp; omega), List.getElem?_append_left (by simp; omega),
        h3 _ (by simp; omega), List.getElem?_drop, List.getElem?_take_of_lt (by simp; omega)]
      congr 1; simp; omega
    · rw [List.getElem?_append_right (by simp; omega), List.getElem?_drop]
      congr 1; simp; omega
  · exact post_err

theorem framed_setLen (v : U16) : Framed (fun _ : Unit => 2) (fun b => do .ok (← setn16 v b, ())) where
  post b := by
    refine post_bind (Fills.post (f := setn16 v) b) ?_
    rintro _ ⟨_, _, _⟩
    exact post_ok ⟨by assumption, by assumption, by assumption⟩

theorem frame_attrsR (p : BgpSessionParams) (lp : Nat) (l : List BgpAttrItem) (h : ∀ x ∈ l, AttrFramed x) (b : Bytes) (pos : Nat) :
    Post (BgpUpdateMessage.encodeAttrsIn .release p lp l b pos) fun r => pos ≤ r.2 ∧ (pos ≤ b.length → r.2 ≤ b.length) ∧
      r.1.length = b.length ∧ ∀ k, r.2 ≤ k → r.1[k]? = b[k]? := by
  induction l generalizing b pos with
  | nil => exact post_ok ⟨Nat.le_refl _, id, rfl, fun _ _ => rfl⟩
  | cons x l ih =>
    unfold BgpUpdateMessage.encodeAttrsIn
    split
    · exact post_err
    · refine post_bind (frame_onSliceE _ _ _ _ (framed_attrR x p (h x (by simp)))) ?_
      rintro ⟨b1, n⟩ ⟨h1, h2, h3, h4, h5⟩
      refine post_mono (ih (fun y hy => h y (by simp [hy])) _ _) ?_
      rintro ⟨b2, m⟩ ⟨g1, g2, g3, g4⟩
      simp only [id] at *
      refine ⟨by omega, fun _ => ?_, by omega, fun k hk => ?_⟩
      · have := g2 (by omega); omega
      · rw [g4 k hk, h5 k (by omega)]

theorem framed_updateR (x : BgpUpdateMessage) (p : BgpSessionParams) (h : ∀ a ∈ x.attrs, AttrFramed a) :
    Framed id (x.encodeToIn .release p) where
  post b := by
    unfold BgpUpdateMessage.encodeToIn
    refine post_bind (Q := fun r => 2 ≤ r.2 ∧ r.1.length = b.length ∧ ∀ k, r.2 ≤ k → r.1[k]? = b[k]?) ?_ ?_
    · unfold BgpUpdateMessage.encodeWithdrawsIn
      split
      · rename_i enc he
        refine post_bind (frame_onSliceE _ _ _ _ (framed_sectionR he)) ?_
        rintro ⟨b1, n⟩ ⟨h1, h2, h3, h4, h5⟩
        simp only [id] at *
        split
        · exact post_err
        · refine post_bind (frame_onSliceE _ _ _ _ (framed_setLen _)) ?_
          rintro ⟨b2, m⟩ ⟨g1, g2, g3, g4, g5⟩
          simp only at *
          refine post_ok ⟨by simp only; omega, by simp only; omega, fun k hk => ?_⟩
          simp only at *
          rw [g5 k (by omega), h5 k (by omega)]
      · refine post_bind (Fills.post (f := setn16 0) b) ?_
        rintro _ ⟨_, _, h3⟩
        exact post_ok ⟨Nat.le_refl _, by assumption, h3⟩
    · rintro ⟨b0, lp⟩ ⟨w1, w2, w3⟩
      simp only at *
      refine post_bind (frame_attrsR p lp x.attrs h _ _) ?_
      rintro ⟨b1, c⟩ ⟨h1, h2, h3, h4⟩
      simp only at *
      refine post_bind (frame_onSliceE _ _ _ _ (framed_setLen _)) ?_
      rintro ⟨b2, m⟩ ⟨g1, g2, g3, g4, g5⟩
      simp only at *
      have hc := h2 (by omega)
      split
      · rename_i enc he
        refine post_bind (frame_onSliceE _ _ _ _ (framed_sectionR he)) ?_
        rintro ⟨b3, n⟩ ⟨e1, e2, e3, e4, e5⟩
        simp only [id] at *
        refine post_ok ⟨by simp only; omega, by simp only; omega, fun k hk => ?_⟩
        simp only at *
        rw [e5 k (by omega), g5 k (by omega), h4 k (by omega), w3 k (by omega)]
      · refine post_ok ⟨by simp only [id]; omega, by simp only; omega, fun k hk => ?_⟩
        simp only [id] at *
        rw [g5 k (by omega), h4 k (by omega), w3 k (by omega)]

end Zbgp
