import Verif.Lemmas.Release

/-!
# Both builds: collections, attributes, messages, headers and containment
-/

namespace Zbgp

/-! ## Items and collections -/

section items
variable {T : Type} [BgpItem T] [BgpItemIn T] [ItemBuilds T]

theorem itemIn_checked : itemIn T .checked = (inferInstance : BgpItem T) := by
  have e1 : (BgpItemIn.extractBits .checked : U8 → Bytes → Res (T × Nat)) = BgpItem.extractBits :=
    funext fun bits => funext fun b => ItemBuilds.extract bits b
  have e2 : (BgpItemIn.setBits .checked : T → Bytes → Res (Bytes × (U8 × Nat))) = BgpItem.setBits :=
    funext fun x => funext fun b => ItemBuilds.set x b
  unfold itemIn
  rw [e1, e2]

theorem bsim_decodeItem (b : Bytes) : BSim (decodeItem (T := T) b) (@decodeItem T (itemIn T .release) b) := by
  unfold decodeItem
  simul
  exact ItemBuilds.bsimExtract _ _

theorem bsim_decodeItems (b : Bytes) : BSim (decodeItems (T := T) b) (@decodeItems T (itemIn T .release) b) :=
  bsim_decList bsim_decodeItem b

theorem bsim_decodePathIdItems (b : Bytes) :
    BSim (decodePathIdItems (T := T) b) (@decodePathIdItems T (itemIn T .release) b) := by
  refine bsim_decList (fun b => ?_) b
  unfold decodePathIdItem
  simul
  exact bsim_decodeItem _

theorem bsim_encodeItems (v : List T) (b : Bytes) :
    BSim (encodeItems v b) (@encodeItems T (itemIn T .release) v b) := by
  refine bsim_encLoop (fun x b => ?_) v b 0
  unfold encodeItem
  simul
  exact bsim_onFrom _ _ fun b => ItemBuilds.bsimSet x b

theorem bsim_encodePathIdItems (v : List (WithPathId T)) (b : Bytes) :
    BSim (encodePathIdItems v b) (@encodePathIdItems T (itemIn T .release) v b) := by
  refine bsim_encLoop (fun x b => ?_) v b 0
  unfold encodePathIdItem
  simul
  exact bsim_onFrom _ _ fun b => ItemBuilds.bsimSet x.nlri b

theorem addpath_checked (p : BgpSessionParams) (afi : U16) (safi : U8) (w : List (WithPathId T) → BgpAddrs)
    (pl : List T → BgpAddrs) (b : Bytes) :
    BgpAddrs.decodeAddpathIn .checked p afi safi w pl b = BgpAddrs.decodeAddpath p afi safi w pl b := by
  unfold BgpAddrs.decodeAddpathIn; rw [itemIn_checked]

theorem bsim_addpath (p : BgpSessionParams) (afi : U16) (safi : U8) (w : List (WithPathId T) → BgpAddrs)
    (pl : List T → BgpAddrs) (b : Bytes) :
    BSim (BgpAddrs.decodeAddpath p afi safi w pl b) (BgpAddrs.decodeAddpathIn .release p afi safi w pl b) := by
  unfold BgpAddrs.decodeAddpathIn BgpAddrs.decodeAddpath
  exact bsim_ite (bsim_bind (bsim_decodePathIdItems b) fun _ => bsim_refl _)
    (bsim_bind (bsim_decodeItems b) fun _ => bsim_refl _)

theorem encItems_checked (v : List T) (b : Bytes) : BgpAddrs.encItemsIn .checked v b = encodeItems v b := by
  unfold BgpAddrs.encItemsIn; rw [itemIn_checked]
theorem encPathIdItems_checked (v : List (WithPathId T)) (b : Bytes) :
    BgpAddrs.encPathIdItemsIn .checked v b = encodePathIdItems v b := by
  unfold BgpAddrs.encPathIdItemsIn; rw [itemIn_checked]
theorem bsim_encItems (v : List T) (b : Bytes) : BSim (encodeItems v b) (BgpAddrs.encItemsIn .release v b) :=
  bsim_encodeItems v b
theorem bsim_encPathIdItems (v : List (WithPathId T)) (b : Bytes) :
    BSim (encodePathIdItems v b) (BgpAddrs.encPathIdItemsIn .release v b) := bsim_encodePathIdItems v b

end items

/-! ### Flowspec -/

theorem fsV4_checked : fsV4In .checked = (inferInstance : FSItem BgpAddrV4) := rfl
theorem fsV6_checked : fsV6In .checked = (inferInstance : FSItem FS6) := rfl
theorem fsVpn_checked : fsVpnIn .checked = (inferInstance : FSItem FSV4U) := by
  have e : ∀ x : WithRd BgpAddrV4, (BgpItemIn.setBits .checked x : Bytes → _) = BgpItem.setBits x :=
    fun x => funext fun b => ItemBuilds.set x b
  unfold fsVpnIn
  simp only [e]
  rfl

/-- `i'` does what `i` does where `i` does not panic -/
structure FsSim {T : Type} (i i' : FSItem T) : Prop where
  dec : ∀ b, BSim (i.decodeFs b) (i'.decodeFs b)
  enc : ∀ x b, BSim (i.encodeFs x b) (i'.encodeFs x b)
  size : i.storeSize = i'.storeSize

theorem bsim_modFrom (b : Bytes) (n : Nat) {f g : Bytes → Res Bytes} (h : ∀ b, BSim (f b) (g b)) :
    BSim (modFrom b n f) (modFrom b n g) := by
  unfold modFrom; split
  · exact bsim_bind (h _) fun _ => bsim_refl _
  · exact bsim_refl _

theorem fsSim_v4 : FsSim (inferInstance : FSItem BgpAddrV4) (fsV4In .release) where
  dec b := by
    refine bsim_bindr _ fun l => bsim_bindr _ fun r => ?_
    exact bsim_bind (ItemBuilds.bsimExtract (T := BgpAddrV4) l r) fun _ => bsim_refl _
  enc x b := by
    refine bsim_bindr _ fun l => ?_
    exact bsim_bind (bsim_onFrom _ _ fun b => ItemBuilds.bsimSet x b) fun _ => bsim_refl _
  size := rfl

theorem fsSim_v6 : FsSim (inferInstance : FSItem FS6) (fsV6In .release) where
  dec b := by
    refine bsim_bindr _ fun l => bsim_bindr _ fun r => ?_
    exact bsim_bind (ItemBuilds.bsimExtract (T := BgpAddrV6) l r) fun _ => bsim_refl _
  enc x b := by
    refine bsim_bindr _ fun l => bsim_bindr _ fun _ => ?_
    exact bsim_bind (bsim_onFrom _ _ fun b => ItemBuilds.bsimSet x.ipv6 b) fun _ => bsim_refl _
  size := rfl

theorem fsSim_vpn : FsSim (inferInstance : FSItem FSV4U) (fsVpnIn .release) where
  dec b := by
    refine bsim_bindr _ fun l => bsim_bindr _ fun r => bsim_bindr _ fun _ => bsim_bind (bsim_sub _ _) fun _ =>
      bsim_bindr _ fun _ => ?_
    exact bsim_bind (ItemBuilds.bsimExtract (T := BgpAddrV4) _ _) fun _ => bsim_refl _
  enc x b := by
    refine bsim_bindr _ fun l => bsim_bindr _ fun _ => ?_
    exact bsim_bind (bsim_onFrom _ _ fun b => ItemBuilds.bsimSet x.pfx b) fun _ => bsim_refl _
  size := rfl

theorem bsim_getPrefix {T : Type} {i i' : FSItem T} (h : FsSim i i') (c : T → BgpFlowSpec T) (b : Bytes) (pos n : Nat) :
    BSim (@BgpFlowSpec.getPrefix T i c b pos n) (@BgpFlowSpec.getPrefix T i' c b pos n) := by
  unfold BgpFlowSpec.getPrefix
  exact bsim_bindr _ fun _ => bsim_bind (h.dec _) fun _ => bsim_refl _

theorem bsim_getBody {T : Type} {i i' : FSItem T} (h : FsSim i i') (b : Bytes) (pos n : Nat) :
    BSim (@BgpFlowSpec.getBody T i b pos n) (@BgpFlowSpec.getBody T i' b pos n) := by
  unfold BgpFlowSpec.getBody
  refine bsim_bindr _ fun _ => ?_
  refine bsim_ite (bsim_getPrefix h _ _ _ _) (bsim_ite (bsim_getPrefix h _ _ _ _) ?_)
  exact bsim_refl _

theorem bsim_flowDec {T : Type} {i i' : FSItem T} (h : FsSim i i') (b : Bytes) :
    BSim (@BgpFlowSpec.decodeFrom T i b) (@BgpFlowSpec.decodeFrom T i' b) := by
  unfold BgpFlowSpec.decodeFrom
  refine bsim_bindr _ fun _ => bsim_ite (bsim_bindr _ fun _ => bsim_getBody h _ _ _) (bsim_getBody h _ _ _)

theorem bsim_putBody {T : Type} {i i' : FSItem T} (h : FsSim i i') (x : BgpFlowSpec T) (b : Bytes) (pos : Nat) :
    BSim (@BgpFlowSpec.putBody T i x b pos) (@BgpFlowSpec.putBody T i' x b pos) := by
  have key : ∀ code a, BSim (@BgpFlowSpec.putPrefix T i code a b pos) (@BgpFlowSpec.putPrefix T i' code a b pos) := by
    intro code a
    unfold BgpFlowSpec.putPrefix
    rw [h.size]
    exact bsim_bindr _ fun _ => bsim_bind (bsim_modFrom _ _ (h.enc a)) fun _ => bsim_refl _
  unfold BgpFlowSpec.putBody
  split <;> first | exact key _ _ | exact bsim_refl _

theorem bsim_flowEnc {T : Type} {i i' : FSItem T} (h : FsSim i i') (x : BgpFlowSpec T) (b : Bytes) :
    BSim (@BgpFlowSpec.encodeTo T i x b) (@BgpFlowSpec.encodeTo T i' x b) := by
  have e : @BgpFlowSpec.nlen T i x = @BgpFlowSpec.nlen T i' x := by
    unfold BgpFlowSpec.nlen; rw [h.size]
  unfold BgpFlowSpec.encodeTo
  rw [e]
  dsimp only
  refine bsim_ite (bsim_refl _) (bsim_ite (bsim_ite (bsim_refl _) (bsim_bindr _ fun _ => bsim_putBody h _ _ _))
    (bsim_ite (bsim_refl _) (bsim_bindr _ fun _ => bsim_bindr _ fun _ => bsim_bindr _ fun _ => bsim_putBody h _ _ _)))

theorem bsim_flowItems {T : Type} {i i' : FSItem T} (h : FsSim i i') (mode : BgpTransportMode) (b : Bytes) :
    BSim (@decodeAddrItems _ (flowIn i) mode b) (@decodeAddrItems _ (flowIn i') mode b) :=
  bsim_decList (fun b => bsim_flowDec h b) b

theorem bsim_flowItemsEnc {T : Type} {i i' : FSItem T} (h : FsSim i i') (v : List (BgpFlowSpec T))
    (mode : BgpTransportMode) (b : Bytes) :
    BSim (@encodeAddrItems _ (flowIn i) v mode b) (@encodeAddrItems _ (flowIn i') v mode b) :=
  bsim_encLoop (fun x b => bsim_flowEnc h x b) v b 0

/-! ### VPLS and EVPN -/

theorem labelsFn_checked : MplsLabels.extractBitsIn .checked = MplsLabels.extractBits :=
  funext fun bits => funext fun b => labels_checked bits b
theorem setLabels_checked : MplsLabels.setBitsIn .checked = MplsLabels.setBits := rfl

theorem vpls_checked : vplsIn .checked = (inferInstance : BgpItemLong BgpAddrL2) := by
  unfold vplsIn
  rw [labelsFn_checked, setLabels_checked]
  rfl

theorem evpn1_checked : evpn1In .checked = (inferInstance : BgpAddrItem BgpEVPN1) := by
  unfold evpn1In
  rw [labelsFn_checked, setLabels_checked]
  rfl

theorem evpn2_checked : evpn2In .checked = (inferInstance : BgpAddrItem BgpEVPN2) := by
  unfold evpn2In
  rw [labelsFn_checked, setLabels_checked]
  rfl

theorem evpn5_checked : evpn5In .checked = (inferInstance : BgpAddrItem BgpEVPN5) := by
  unfold evpn5In
  rw [labelsFn_checked, setLabels_checked]
  rfl

theorem evpn_checked : evpnIn .checked = (inferInstance : BgpAddrItem BgpEVPN) := by
  unfold evpnIn
  rw [evpn1_checked, evpn2_checked, evpn5_checked]
  rfl

theorem bsim_vplsDec (b : Bytes) : BSim (decodeLongItems (T := BgpAddrL2) b) (@decodeLongItems _ (vplsIn .release) b) := by
  refine bsim_decList (fun b => ?_) b
  unfold decodeLongItem
  simp only [BgpItemLong.extractFrom]
  simul

theorem bsim_vplsEnc (v : List BgpAddrL2) (b : Bytes) :
    BSim (encodeLongItems v b) (@encodeLongItems _ (vplsIn .release) v b) := by
  refine bsim_encLoop (fun x b => ?_) v b 0
  unfold encodeLongItem
  simp only [BgpItemLong.packTo]
  refine bsim_bind (bsim_onFrom _ _ fun b => ?_) fun _ => bsim_refl _
  simul
  exact bsim_onFrom _ _ fun b => bsim_setLabels x.labels b

theorem bsim_evpn1Dec (mode : BgpTransportMode) (b : Bytes) :
    BSim (BgpAddrItem.decodeFrom (T := BgpEVPN1) mode b) ((evpn1In .release).decodeFrom mode b) := by
  simp only [BgpAddrItem.decodeFrom]; simul
theorem bsim_evpn2Dec (mode : BgpTransportMode) (b : Bytes) :
    BSim (BgpAddrItem.decodeFrom (T := BgpEVPN2) mode b) ((evpn2In .release).decodeFrom mode b) := by
  simp only [BgpAddrItem.decodeFrom]; simul
theorem bsim_evpn5Dec (mode : BgpTransportMode) (b : Bytes) :
    BSim (BgpAddrItem.decodeFrom (T := BgpEVPN5) mode b) ((evpn5In .release).decodeFrom mode b) := by
  simp only [BgpAddrItem.decodeFrom]; simul
theorem bsim_evpn1Enc (x : BgpEVPN1) (mode : BgpTransportMode) (b : Bytes) :
    BSim (BgpAddrItem.encodeTo x mode b) ((evpn1In .release).encodeTo x mode b) := by
  simp only [BgpAddrItem.encodeTo]; simul
  exact bsim_onFrom _ _ fun b => bsim_setLabels x.labels b
theorem bsim_evpn2Enc (x : BgpEVPN2) (mode : BgpTransportMode) (b : Bytes) :
    BSim (BgpAddrItem.encodeTo x mode b) ((evpn2In .release).encodeTo x mode b) := by
  simp only [BgpAddrItem.encodeTo]; simul
  · exact bsim_refl _
  · exact bsim_onFrom _ _ fun b => bsim_setLabels x.labels b
theorem bsim_evpn5Enc (x : BgpEVPN5) (mode : BgpTransportMode) (b : Bytes) :
    BSim (BgpAddrItem.encodeTo x mode b) ((evpn5In .release).encodeTo x mode b) := by
  simp only [BgpAddrItem.encodeTo]; simul
  · exact bsim_refl _
  · exact bsim_onFrom _ _ fun b => bsim_setLabels x.labels b

theorem bsim_evpnDec (mode : BgpTransportMode) (b : Bytes) :
    BSim (decodeAddrItems (T := BgpEVPN) mode b) (@decodeAddrItems _ (evpnIn .release) mode b) := by
  refine bsim_decList (fun b => ?_) b
  show BSim (BgpEVPN.decodeFrom mode b) _
  unfold BgpEVPN.decodeFrom
  refine bsim_bindr _ fun _ => bsim_bindr _ fun _ => ?_
  dsimp only
  refine bsim_ite (bsim_refl _) (bsim_ite ?_ (bsim_ite ?_ (bsim_ite (bsim_refl _) (bsim_ite (bsim_refl _)
    (bsim_ite ?_ (bsim_refl _))))))
  · exact bsim_bindr _ fun _ => bsim_bind (bsim_evpn1Dec _ _) fun _ => bsim_refl _
  · exact bsim_bindr _ fun _ => bsim_bind (bsim_evpn2Dec _ _) fun _ => bsim_refl _
  · exact bsim_bindr _ fun _ => bsim_bind (bsim_evpn5Dec _ _) fun _ => bsim_refl _

theorem bsim_evpnEnc (v : List BgpEVPN) (mode : BgpTransportMode) (b : Bytes) :
    BSim (encodeAddrItems v mode b) (@encodeAddrItems _ (evpnIn .release) v mode b) := by
  refine bsim_encLoop (fun x b => ?_) v b 0
  show BSim (BgpEVPN.encodeTo x mode b) _
  unfold BgpEVPN.encodeTo
  refine bsim_bind ?_ fun _ => bsim_refl _
  cases x
  · exact bsim_bindr _ fun _ => bsim_onFrom _ _ fun b => bsim_evpn1Enc _ _ _
  · exact bsim_bindr _ fun _ => bsim_onFrom _ _ fun b => bsim_evpn2Enc _ _ _
  · exact bsim_refl _
  · exact bsim_refl _
  · exact bsim_bindr _ fun _ => bsim_onFrom _ _ fun b => bsim_evpn5Enc _ _ _

/-! ### Collections -/

theorem addrsDec_checked (p : BgpSessionParams) (afi : U16) (safi : U8) (b : Bytes) :
    BgpAddrs.decodeFromIn .checked p afi safi b = BgpAddrs.decodeFrom p afi safi b := by
  unfold BgpAddrs.decodeFromIn BgpAddrs.decodeFrom
  simp only [addpath_checked]
  rw [fsV4_checked, fsV6_checked, fsVpn_checked, vpls_checked, evpn_checked]
  rfl

theorem bsim_addrsDec (p : BgpSessionParams) (afi : U16) (safi : U8) (b : Bytes) :
    BSim (BgpAddrs.decodeFrom p afi safi b) (BgpAddrs.decodeFromIn .release p afi safi b) := by
  unfold BgpAddrs.decodeFromIn BgpAddrs.decodeFrom
  generalize afi.toNat = x
  generalize safi.toNat = y
  split <;> first
    | exact bsim_addpath _ _ _ _ _ _
    | exact bsim_bind (bsim_flowItems fsSim_v4 _ _) fun _ => bsim_refl _
    | exact bsim_bind (bsim_flowItems fsSim_v6 _ _) fun _ => bsim_refl _
    | exact bsim_bind (bsim_flowItems fsSim_vpn _ _) fun _ => bsim_refl _
    | exact bsim_bind (bsim_vplsDec _) fun _ => bsim_refl _
    | exact bsim_bind (bsim_evpnDec _ _) fun _ => bsim_refl _
    | exact bsim_refl _
    | (split <;> first | exact bsim_refl _ | (exfalso; repeat (first | (rename_i h; exact h rfl rfl) | (rename_i h; clear h))))

theorem addrsEnc_checked (x : BgpAddrs) (p : BgpSessionParams) (b : Bytes) :
    x.encodeToIn .checked p b = x.encodeTo p b := by
  unfold BgpAddrs.encodeToIn BgpAddrs.encodeTo
  simp only [encItems_checked, encPathIdItems_checked]
  rw [fsV4_checked, fsV6_checked, fsVpn_checked, vpls_checked, evpn_checked]
  rfl

theorem bsim_addrsEnc (x : BgpAddrs) (p : BgpSessionParams) (b : Bytes) :
    BSim (x.encodeTo p b) (x.encodeToIn .release p b) := by
  unfold BgpAddrs.encodeToIn BgpAddrs.encodeTo
  split <;> first
    | exact bsim_encItems _ _
    | exact bsim_encPathIdItems _ _
    | exact bsim_flowItemsEnc fsSim_v4 _ _ _
    | exact bsim_flowItemsEnc fsSim_v6 _ _ _
    | exact bsim_flowItemsEnc fsSim_vpn _ _ _
    | exact bsim_vplsEnc _ _
    | exact bsim_evpnEnc _ _ _
    | exact bsim_refl _

/-! ## Attributes -/

theorem mpuDec_checked (p : BgpSessionParams) (b : Bytes) :
    BgpMPUpdates.decodeFromIn .checked p b = BgpMPUpdates.decodeFrom p b := by
  unfold BgpMPUpdates.decodeFromIn BgpMPUpdates.decodeFrom
  simp only [addrsDec_checked]
theorem bsim_mpuDec (p : BgpSessionParams) (b : Bytes) :
    BSim (BgpMPUpdates.decodeFrom p b) (BgpMPUpdates.decodeFromIn .release p b) := by
  unfold BgpMPUpdates.decodeFromIn BgpMPUpdates.decodeFrom
  refine bsim_bindr _ fun _ => bsim_bindr _ fun _ => bsim_bindr _ fun _ => bsim_bindr _ fun _ => bsim_bindr _ fun _ =>
    bsim_bindr _ fun _ => bsim_bindr _ fun _ => ?_
  exact bsim_bind (bsim_addrsDec _ _ _ _) fun _ => bsim_refl _
theorem mpwDec_checked (p : BgpSessionParams) (b : Bytes) :
    BgpMPWithdraws.decodeFromIn .checked p b = BgpMPWithdraws.decodeFrom p b := by
  unfold BgpMPWithdraws.decodeFromIn BgpMPWithdraws.decodeFrom
  simp only [addrsDec_checked]
theorem bsim_mpwDec (p : BgpSessionParams) (b : Bytes) :
    BSim (BgpMPWithdraws.decodeFrom p b) (BgpMPWithdraws.decodeFromIn .release p b) := by
  unfold BgpMPWithdraws.decodeFromIn BgpMPWithdraws.decodeFrom
  refine bsim_bindr _ fun _ => bsim_bindr _ fun _ => bsim_bindr _ fun _ => ?_
  exact bsim_bind (bsim_addrsDec _ _ _ _) fun _ => bsim_refl _

theorem addrsEncFn_checked (x : BgpAddrs) (p : BgpSessionParams) : x.encodeToIn .checked p = x.encodeTo p :=
  funext fun b => addrsEnc_checked x p b

theorem mpuEnc_checked (x : BgpMPUpdates) (p : BgpSessionParams) (b : Bytes) :
    x.encodeToIn .checked p b = x.encodeTo p b := by
  unfold BgpMPUpdates.encodeToIn BgpMPUpdates.encodeTo
  simp only [addrsEncFn_checked]
theorem bsim_mpuEnc (x : BgpMPUpdates) (p : BgpSessionParams) (b : Bytes) :
    BSim (x.encodeTo p b) (x.encodeToIn .release p b) := by
  unfold BgpMPUpdates.encodeToIn BgpMPUpdates.encodeTo
  refine bsim_bindr _ fun _ => bsim_bindr _ fun _ => bsim_bindr _ fun _ => bsim_bindr _ fun _ => bsim_bindr _ fun _ => ?_
  exact bsim_bind (bsim_onFrom _ _ fun b => bsim_addrsEnc _ _ _) fun _ => bsim_refl _
theorem mpwEnc_checked (x : BgpMPWithdraws) (p : BgpSessionParams) (b : Bytes) :
    x.encodeToIn .checked p b = x.encodeTo p b := by
  unfold BgpMPWithdraws.encodeToIn BgpMPWithdraws.encodeTo
  simp only [addrsEncFn_checked]
theorem bsim_mpwEnc (x : BgpMPWithdraws) (p : BgpSessionParams) (b : Bytes) :
    BSim (x.encodeTo p b) (x.encodeToIn .release p b) := by
  unfold BgpMPWithdraws.encodeToIn BgpMPWithdraws.encodeTo
  refine bsim_bindr _ fun _ => bsim_bindr _ fun _ => ?_
  exact bsim_bind (bsim_onFrom _ _ fun b => bsim_addrsEnc _ _ _) fun _ => bsim_refl _

theorem bsim_setLoop {d d' : AttrDec} (h : ∀ t f n b, BSim (d t f n b) (d' t f n b)) (buf : Bytes) (fuel pos : Nat) :
    BSim (BgpAttrSet.loop d buf fuel pos) (BgpAttrSet.loop d' buf fuel pos) := by
  induction fuel generalizing pos with
  | zero => simp only [BgpAttrSet.loop]; exact bsim_refl _
  | succ f ih =>
    rw [BgpAttrSet.loop, BgpAttrSet.loop]
    refine bsim_ite (bsim_bindr _ fun _ => bsim_bindr _ fun _ => bsim_bindr _ fun _ => ?_) (bsim_refl _)
    refine bsim_ite (bsim_refl _) (bsim_bindr _ fun _ => bsim_bind (h _ _ _ _) fun _ => bsim_bind (ih _) fun _ => bsim_refl _)

theorem bsim_set {d d' : AttrDec} (h : ∀ t f n b, BSim (d t f n b) (d' t f n b)) (p : BgpSessionParams) (buf : Bytes) :
    BSim (BgpAttrSet.decodeFrom d p buf) (BgpAttrSet.decodeFrom d' p buf) := by
  unfold BgpAttrSet.decodeFrom
  exact bsim_ite (bsim_refl _) (bsim_ite (bsim_refl _) (bsim_bind (bsim_setLoop h _ _ _) fun _ => bsim_refl _))

theorem decodeN_checked (p : BgpSessionParams) (fuel : Nat) :
    BgpAttrItem.decodeNIn .checked p fuel = BgpAttrItem.decodeN p fuel := by
  induction fuel with
  | zero =>
    funext t f n b
    unfold BgpAttrItem.decodeNIn
    split
    · rename_i h; unfold BgpAttrItem.decodeN; simp only [h, mpuDec_checked]
    · rename_i h; unfold BgpAttrItem.decodeN; simp only [h, mpwDec_checked]
    · rename_i h; unfold BgpAttrItem.decodeN; simp only [h]
    · rfl
  | succ k ih =>
    funext t f n b
    unfold BgpAttrItem.decodeNIn
    split
    · rename_i h; unfold BgpAttrItem.decodeN; simp only [h, mpuDec_checked]
    · rename_i h; unfold BgpAttrItem.decodeN; simp only [h, mpwDec_checked]
    · rename_i h; rw [BgpAttrItem.decodeN.eq_def]; simp only [h, ih]
    · rfl

theorem bsim_decodeN (p : BgpSessionParams) (fuel : Nat) (t f : U8) (n : Nat) (b : Bytes) :
    BSim (BgpAttrItem.decodeN p fuel t f n b) (BgpAttrItem.decodeNIn .release p fuel t f n b) := by
  induction fuel generalizing t f n b with
  | zero =>
    unfold BgpAttrItem.decodeNIn
    split
    · rename_i h; unfold BgpAttrItem.decodeN; simp only [h]
      exact bsim_bind (bsim_mpuDec _ _) fun _ => bsim_refl _
    · rename_i h; unfold BgpAttrItem.decodeN; simp only [h]
      exact bsim_bind (bsim_mpwDec _ _) fun _ => bsim_refl _
    · rename_i h; unfold BgpAttrItem.decodeN; simp only [h]; exact bsim_refl _
    · exact bsim_refl _
  | succ k ih =>
    unfold BgpAttrItem.decodeNIn
    split
    · rename_i h; unfold BgpAttrItem.decodeN; simp only [h]
      exact bsim_bind (bsim_mpuDec _ _) fun _ => bsim_refl _
    · rename_i h; unfold BgpAttrItem.decodeN; simp only [h]
      exact bsim_bind (bsim_mpwDec _ _) fun _ => bsim_refl _
    · rename_i h; rw [BgpAttrItem.decodeN.eq_def]; simp only [h]; exact bsim_set ih _ _
    · exact bsim_refl _

theorem attrDec_checked (p : BgpSessionParams) : BgpAttrItem.decodeFromIn .checked p = BgpAttrItem.decodeFrom p := by
  funext t f n b
  unfold BgpAttrItem.decodeFromIn BgpAttrItem.decodeFrom
  rw [decodeN_checked]
theorem bsim_attrDec (p : BgpSessionParams) (t f : U8) (n : Nat) (b : Bytes) :
    BSim (BgpAttrItem.decodeFrom p t f n b) (BgpAttrItem.decodeFromIn .release p t f n b) := bsim_decodeN _ _ _ _ _ _

theorem attrEncV_checked (x : BgpAttrItem) (p : BgpSessionParams) : x.encodeValueIn .checked p = x.encodeValue p := by
  funext b
  cases x with
  | MPUpdates y => exact mpuEnc_checked y p b
  | MPWithdraws y => exact mpwEnc_checked y p b
  | _ => rfl
theorem bsim_attrEncV (x : BgpAttrItem) (p : BgpSessionParams) (b : Bytes) :
    BSim (x.encodeValue p b) (x.encodeValueIn .release p b) := by
  cases x with
  | MPUpdates y => exact bsim_mpuEnc y p b
  | MPWithdraws y => exact bsim_mpwEnc y p b
  | _ => exact bsim_of_eq rfl

theorem attrEnc_checked (x : BgpAttrItem) (p : BgpSessionParams) : x.encodeToIn .checked p = x.encodeTo p := by
  funext b
  unfold BgpAttrItem.encodeToIn BgpAttrItem.encodeTo
  rw [attrEncV_checked]
theorem bsim_attrEnc (x : BgpAttrItem) (p : BgpSessionParams) (b : Bytes) :
    BSim (x.encodeTo p b) (x.encodeToIn .release p b) := by
  unfold BgpAttrItem.encodeToIn BgpAttrItem.encodeTo BgpAttrItem.encodeBgpattr
  refine bsim_bindr _ fun _ => bsim_bindr _ fun _ => ?_
  exact bsim_bind (bsim_onFrom _ _ fun b => bsim_attrEncV _ _ _) fun _ => bsim_refl _

/-! ## UPDATE -/

theorem nlriDec_checked (p : BgpSessionParams) (b : Bytes) :
    BgpUpdateMessage.decodeNlriIn .checked p b = BgpUpdateMessage.decodeNlri p b := by
  unfold BgpUpdateMessage.decodeNlriIn BgpUpdateMessage.decodeNlri
  simp only [addpath_checked]
  rfl
theorem bsim_nlriDec (p : BgpSessionParams) (b : Bytes) :
    BSim (BgpUpdateMessage.decodeNlri p b) (BgpUpdateMessage.decodeNlriIn .release p b) := by
  unfold BgpUpdateMessage.decodeNlriIn BgpUpdateMessage.decodeNlri
  refine bsim_bind ?_ fun _ => bsim_refl _
  cases p.peerMode
  · exact bsim_addpath p 1 1 .IPV4UP .IPV4U b
  · exact bsim_addpath p 2 1 .IPV6UP .IPV6U b

theorem attrLoop_checked (p : BgpSessionParams) (buf : Bytes) (stop fuel pos : Nat) :
    BgpUpdateMessage.attrLoopIn .checked p buf stop fuel pos = BgpUpdateMessage.attrLoop p buf stop fuel pos := by
  induction fuel generalizing pos with
  | zero => simp only [BgpUpdateMessage.attrLoopIn, BgpUpdateMessage.attrLoop]
  | succ f ih =>
    rw [BgpUpdateMessage.attrLoopIn, BgpUpdateMessage.attrLoop]
    simp only [ih, attrDec_checked]
theorem bsim_attrLoop (p : BgpSessionParams) (buf : Bytes) (stop fuel pos : Nat) :
    BSim (BgpUpdateMessage.attrLoop p buf stop fuel pos) (BgpUpdateMessage.attrLoopIn .release p buf stop fuel pos) := by
  induction fuel generalizing pos with
  | zero => simp only [BgpUpdateMessage.attrLoopIn, BgpUpdateMessage.attrLoop]; exact bsim_refl _
  | succ f ih =>
    rw [BgpUpdateMessage.attrLoopIn, BgpUpdateMessage.attrLoop]
    refine bsim_ite (bsim_bindr _ fun _ => bsim_bindr _ fun _ => bsim_bindr _ fun _ => ?_) (bsim_refl _)
    exact bsim_ite (bsim_refl _) (bsim_bindr _ fun _ => bsim_bind (bsim_attrDec _ _ _ _ _) fun _ => bsim_bind (ih _) fun _ =>
      bsim_refl _)

theorem updDec_checked (x : BgpUpdateMessage) (p : BgpSessionParams) (b : Bytes) :
    x.decodeFromIn .checked p b = x.decodeFrom p b := by
  unfold BgpUpdateMessage.decodeFromIn BgpUpdateMessage.decodeFrom
  simp only [nlriDec_checked, attrLoop_checked]
theorem bsim_updDec (x : BgpUpdateMessage) (p : BgpSessionParams) (b : Bytes) :
    BSim (x.decodeFrom p b) (x.decodeFromIn .release p b) := by
  unfold BgpUpdateMessage.decodeFromIn BgpUpdateMessage.decodeFrom
  refine bsim_bindr _ fun _ => bsim_bindr _ fun _ => ?_
  dsimp only
  refine bsim_ite (bsim_refl _) (bsim_bindr _ fun _ => bsim_bind (bsim_nlriDec _ _) fun _ => bsim_bindr _ fun _ =>
    bsim_bindr _ fun _ => ?_)
  refine bsim_ite (bsim_refl _) (bsim_bind (bsim_attrLoop _ _ _ _ _) fun _ => bsim_bindr _ fun _ =>
    bsim_bind (bsim_nlriDec _ _) fun _ => bsim_refl _)

theorem bsim_onSliceE {α : Type} (b : Bytes) (s e : Nat) {f g : Bytes → Res (Bytes × α)} (h : ∀ b, BSim (f b) (g b)) :
    BSim (onSliceE b s e f) (onSliceE b s e g) := by
  unfold onSliceE; split
  · exact bsim_bind (h _) fun _ => bsim_refl _
  · exact bsim_refl _

theorem nlriEncoder_checked (p : BgpSessionParams) (x : BgpAddrs) :
    BgpUpdateMessage.nlriEncoderIn .checked p x = BgpUpdateMessage.nlriEncoder p x := by
  have e1 : ∀ v : List BgpAddrV4, BgpAddrs.encItemsIn .checked v = encodeItems v := fun v => funext (encItems_checked v)
  have e2 : ∀ v : List BgpAddrV6, BgpAddrs.encItemsIn .checked v = encodeItems v := fun v => funext (encItems_checked v)
  have e3 : ∀ v : List (WithPathId BgpAddrV4), BgpAddrs.encPathIdItemsIn .checked v = encodePathIdItems v :=
    fun v => funext (encPathIdItems_checked v)
  have e4 : ∀ v : List (WithPathId BgpAddrV6), BgpAddrs.encPathIdItemsIn .checked v = encodePathIdItems v :=
    fun v => funext (encPathIdItems_checked v)
  unfold BgpUpdateMessage.nlriEncoderIn BgpUpdateMessage.nlriEncoder
  simp only [e1, e2, e3, e4]
  rfl

theorem bsim_nlriEncoder (p : BgpSessionParams) (x : BgpAddrs) :
    (BgpUpdateMessage.nlriEncoder p x = none ∧ BgpUpdateMessage.nlriEncoderIn .release p x = none) ∨
    ∃ e e', BgpUpdateMessage.nlriEncoder p x = some e ∧ BgpUpdateMessage.nlriEncoderIn .release p x = some e' ∧
      ∀ b, BSim (e b) (e' b) := by
  unfold BgpUpdateMessage.nlriEncoderIn BgpUpdateMessage.nlriEncoder
  generalize p.peerMode = md
  cases md <;> cases x <;> first
    | exact .inl ⟨rfl, rfl⟩
    | exact .inr ⟨_, _, rfl, rfl, bsim_encItems _⟩
    | exact .inr ⟨_, _, rfl, rfl, bsim_encPathIdItems _⟩

theorem encodeAttrs_checked (p : BgpSessionParams) (l : Nat) (v : List BgpAttrItem) (b : Bytes) (pos : Nat) :
    BgpUpdateMessage.encodeAttrsIn .checked p l v b pos = BgpUpdateMessage.encodeAttrs p l v b pos := by
  induction v generalizing b pos with
  | nil => rfl
  | cons a r ih => simp only [BgpUpdateMessage.encodeAttrsIn, BgpUpdateMessage.encodeAttrs, ih, attrEnc_checked]
theorem bsim_encodeAttrs (p : BgpSessionParams) (l : Nat) (v : List BgpAttrItem) (b : Bytes) (pos : Nat) :
    BSim (BgpUpdateMessage.encodeAttrs p l v b pos) (BgpUpdateMessage.encodeAttrsIn .release p l v b pos) := by
  induction v generalizing b pos with
  | nil => exact bsim_refl _
  | cons a r ih =>
    simp only [BgpUpdateMessage.encodeAttrsIn, BgpUpdateMessage.encodeAttrs]
    exact bsim_ite (bsim_refl _) (bsim_bind (bsim_onSliceE _ _ _ fun b => bsim_attrEnc _ _ _) fun _ => ih _ _)

theorem withdraws_checked (x : BgpUpdateMessage) (p : BgpSessionParams) (b : Bytes) :
    x.encodeWithdrawsIn .checked p b = x.encodeWithdraws p b := by
  unfold BgpUpdateMessage.encodeWithdrawsIn BgpUpdateMessage.encodeWithdraws
  rw [nlriEncoder_checked]
  rfl
theorem bsim_withdraws (x : BgpUpdateMessage) (p : BgpSessionParams) (b : Bytes) :
    BSim (x.encodeWithdraws p b) (x.encodeWithdrawsIn .release p b) := by
  unfold BgpUpdateMessage.encodeWithdrawsIn BgpUpdateMessage.encodeWithdraws
  rcases bsim_nlriEncoder p x.withdraws with ⟨h1, h2⟩ | ⟨e, e', h1, h2, h⟩
  · rw [h1, h2]; exact bsim_refl _
  · rw [h1, h2]; exact bsim_bind (bsim_onSliceE _ _ _ h) fun _ => bsim_refl _

theorem updEnc_checked (x : BgpUpdateMessage) (p : BgpSessionParams) (b : Bytes) :
    x.encodeToIn .checked p b = x.encodeTo p b := by
  unfold BgpUpdateMessage.encodeToIn BgpUpdateMessage.encodeTo
  simp only [withdraws_checked, encodeAttrs_checked, nlriEncoder_checked]
  rfl
theorem bsim_updEnc (x : BgpUpdateMessage) (p : BgpSessionParams) (b : Bytes) :
    BSim (x.encodeTo p b) (x.encodeToIn .release p b) := by
  unfold BgpUpdateMessage.encodeToIn BgpUpdateMessage.encodeTo
  refine bsim_bind (bsim_withdraws _ _ _) fun _ => bsim_bind (bsim_encodeAttrs _ _ _ _ _) fun _ => bsim_bindr _ fun _ => ?_
  rcases bsim_nlriEncoder p x.updates with ⟨h1, h2⟩ | ⟨e, e', h1, h2, h⟩
  · rw [h1, h2]; exact bsim_refl _
  · rw [h1, h2]; exact bsim_bind (bsim_onSliceE _ _ _ h) fun _ => bsim_refl _

/-! ## Headers -/

theorem head_checked : BgpSessionParams.decodeMessageHeadIn .checked = BgpSessionParams.decodeMessageHead := rfl
theorem prepare_checked : BgpSessionParams.prepareMessageBufIn .checked = BgpSessionParams.prepareMessageBuf := rfl
theorem send_checked : BgpSessionParams.sendMessageBufIn .checked = BgpSessionParams.sendMessageBuf := rfl

theorem bsim_head (b : Bytes) :
    BSim (BgpSessionParams.decodeMessageHead b) (BgpSessionParams.decodeMessageHeadIn .release b) := by
  unfold BgpSessionParams.decodeMessageHead BgpSessionParams.decodeMessageHeadIn; simul
theorem bsim_prepare (b : Bytes) (t : BgpMessageType) (n : Nat) :
    BSim (BgpSessionParams.prepareMessageBuf b t n) (BgpSessionParams.prepareMessageBufIn .release b t n) := by
  unfold BgpSessionParams.prepareMessageBuf BgpSessionParams.prepareMessageBufIn; simul
theorem bsim_send (b : Bytes) (t : BgpMessageType) (n : Nat) :
    BSim (BgpSessionParams.sendMessageBuf b t n) (BgpSessionParams.sendMessageBufIn .release b t n) := by
  unfold BgpSessionParams.sendMessageBuf BgpSessionParams.sendMessageBufIn; simul

/-! ## Containment -/

theorem containsV4_checked : BgpAddrV4.containsIn .checked = BgpAddrV4.contains := rfl
theorem containsV6_checked : BgpAddrV6.containsIn .checked = BgpAddrV6.contains := rfl
theorem containsMac_checked : BgpAddrMac.containsIn .checked = BgpAddrMac.contains := rfl

theorem bsim_hostMaskV4 (a : BgpAddrV4) : BSim a.hostMask (a.hostMaskIn .release) := by
  unfold BgpAddrV4.hostMask BgpAddrV4.hostMaskIn; simul
theorem bsim_normV4 (a : BgpAddrV4) : BSim a.normSubnet (a.normSubnetIn .release) := by
  unfold BgpAddrV4.normSubnet BgpAddrV4.normSubnetIn
  simul
  exact bsim_hostMaskV4 _
theorem bsim_inSubnetV4 (s : BgpAddrV4) (a : IPv4) : BSim (s.inSubnet a) (s.inSubnetIn .release a) := by
  unfold BgpAddrV4.inSubnet BgpAddrV4.inSubnetIn
  simul
  · exact bsim_normV4 _
  · exact bsim_hostMaskV4 _
theorem bsim_rangeFirstV4 (a : BgpAddrV4) : BSim a.rangeFirst (a.rangeFirstIn .release) := by
  unfold BgpAddrV4.rangeFirst BgpAddrV4.rangeFirstIn
  exact bsim_bind (bsim_normV4 _) fun _ => bsim_refl _
theorem bsim_rangeLastV4 (a : BgpAddrV4) : BSim a.rangeLast (a.rangeLastIn .release) := by
  unfold BgpAddrV4.rangeLast BgpAddrV4.rangeLastIn
  simul
  · exact bsim_rangeFirstV4 _
  · exact bsim_normV4 _
  · exact bsim_hostMaskV4 _
theorem bsim_containsV4 (s a : BgpAddrV4) : BSim (s.contains a) (s.containsIn .release a) := by
  unfold BgpAddrV4.contains BgpAddrV4.containsIn
  simul
  · exact bsim_rangeFirstV4 _
  · exact bsim_inSubnetV4 _ _
  · exact bsim_rangeLastV4 _
  · exact bsim_inSubnetV4 _ _

theorem bsim_hostMaskV6 (a : BgpAddrV6) : BSim a.hostMask (a.hostMaskIn .release) := by
  unfold BgpAddrV6.hostMask BgpAddrV6.hostMaskIn; simul
theorem bsim_normV6 (a : BgpAddrV6) : BSim a.normSubnet (a.normSubnetIn .release) := by
  unfold BgpAddrV6.normSubnet BgpAddrV6.normSubnetIn
  simul
  exact bsim_hostMaskV6 _
theorem bsim_inSubnetV6 (s : BgpAddrV6) (a : IPv6) : BSim (s.inSubnet a) (s.inSubnetIn .release a) := by
  unfold BgpAddrV6.inSubnet BgpAddrV6.inSubnetIn
  simul
  · exact bsim_normV6 _
  · exact bsim_hostMaskV6 _
theorem bsim_rangeFirstV6 (a : BgpAddrV6) : BSim a.rangeFirst (a.rangeFirstIn .release) := by
  unfold BgpAddrV6.rangeFirst BgpAddrV6.rangeFirstIn
  exact bsim_bind (bsim_normV6 _) fun _ => bsim_refl _
theorem bsim_rangeLastV6 (a : BgpAddrV6) : BSim a.rangeLast (a.rangeLastIn .release) := by
  unfold BgpAddrV6.rangeLast BgpAddrV6.rangeLastIn
  simul
  · exact bsim_rangeFirstV6 _
  · exact bsim_normV6 _
  · exact bsim_hostMaskV6 _
theorem bsim_containsV6 (s a : BgpAddrV6) : BSim (s.contains a) (s.containsIn .release a) := by
  unfold BgpAddrV6.contains BgpAddrV6.containsIn
  simul
  exact bsim_hostMaskV6 _

theorem bsim_hostMaskMac (a : BgpAddrMac) : BSim a.hostMask (a.hostMaskIn .release) := by
  unfold BgpAddrMac.hostMask BgpAddrMac.hostMaskIn; simul
theorem bsim_normMac (a : BgpAddrMac) : BSim a.normSubnet (a.normSubnetIn .release) := by
  unfold BgpAddrMac.normSubnet BgpAddrMac.normSubnetIn
  simul
  exact bsim_hostMaskMac _
theorem bsim_inSubnetMac (s : BgpAddrMac) (a : MacAddress) : BSim (s.inSubnet a) (s.inSubnetIn .release a) := by
  unfold BgpAddrMac.inSubnet BgpAddrMac.inSubnetIn
  simul
  · exact bsim_normMac _
  · exact bsim_hostMaskMac _
theorem bsim_rangeFirstMac (a : BgpAddrMac) : BSim a.rangeFirst (a.rangeFirstIn .release) := by
  unfold BgpAddrMac.rangeFirst BgpAddrMac.rangeFirstIn
  exact bsim_bind (bsim_normMac _) fun _ => bsim_refl _
theorem bsim_rangeLastMac (a : BgpAddrMac) : BSim a.rangeLast (a.rangeLastIn .release) := by
  unfold BgpAddrMac.rangeLast BgpAddrMac.rangeLastIn
  simul
  · exact bsim_rangeFirstMac _
  · exact bsim_normMac _
  · exact bsim_hostMaskMac _
theorem bsim_containsMac (s a : BgpAddrMac) : BSim (s.contains a) (s.containsIn .release a) := by
  unfold BgpAddrMac.contains BgpAddrMac.containsIn
  simul
  · exact bsim_rangeFirstMac _
  · exact bsim_inSubnetMac _ _
  · exact bsim_rangeLastMac _
  · exact bsim_inSubnetMac _ _

end Zbgp
