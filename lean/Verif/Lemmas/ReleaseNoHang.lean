import Verif.Lemmas.ReleaseReads

/-! # The decoders end without overflow checks -/

namespace Zbgp

open Spec

theorem nhr_labels (bits : U8) (b : Bytes) : NoHang (MplsLabels.extractBitsIn .release bits b) :=
  (wrapLabels_exactly bits b).noHang

theorem nhr_fromBitsV4 (bits : U8) (b : Bytes) : NoHang (BgpAddrV4.fromBitsIn .release bits b) :=
  (WrapExact.exact (T := BgpAddrV4) bits b).noHang
theorem nhr_fromBitsV6 (bits : U8) (b : Bytes) : NoHang (BgpAddrV6.fromBitsIn .release bits b) :=
  (WrapExact.exact (T := BgpAddrV6) bits b).noHang
theorem nhr_sub {w : Nat} (a b : BitVec w) : NoHang (Build.release.sub a b) := nh_ok
theorem nhr_subN (a b : Nat) : NoHang (Build.release.subN a b) := nh_ok
theorem nhr_add {w : Nat} (a b : BitVec w) : NoHang (Build.release.add a b) := nh_ok

macro_rules | `(tactic| nh_atom) => `(tactic| first
  | exact nhr_labels _ _ | exact nhr_fromBitsV4 _ _ | exact nhr_fromBitsV6 _ _ | exact nhr_sub _ _ | exact nhr_subN _ _
  | exact nhr_add _ _)

theorem nhr_addpath {T : Type} [BgpItemIn T] [WrapReads T] [WrapExact T] (p : BgpSessionParams) (afi : U16) (safi : U8)
    (w : List (WithPathId T) → BgpAddrs) (f : List T → BgpAddrs) (b : Bytes) :
    NoHang (BgpAddrs.decodeAddpathIn .release p afi safi w f b) := by
  unfold BgpAddrs.decodeAddpathIn BgpAddrs.decodeAddpath
  split
  · exact nh_bind (wrapPathIds_exactly b).noHang fun _ _ => nh_ok
  · exact nh_bind (wrapNlris_exactly b).noHang fun _ _ => nh_ok

theorem nhr_fs {T : Type} (i : FSItem T) (h : ∀ b, NoHang (i.decodeFs b)) (mode : BgpTransportMode) (b : Bytes) :
    NoHang (@decodeAddrItems _ (flowIn i) mode b) := by
  have e : @FSItemEnds T i := @FSItemEnds.mk T i h
  exact nh_decList (@fs_progress T i mode) (fun b => @AddrItemEnds.ends (BgpFlowSpec T) _ _ mode b) b

theorem nhr_evpn1 (mode : BgpTransportMode) (b : Bytes) : NoHang ((evpn1In .release).decodeFrom mode b) := by nohang
theorem nhr_evpn2 (mode : BgpTransportMode) (b : Bytes) : NoHang ((evpn2In .release).decodeFrom mode b) := by nohang
theorem nhr_evpn5 (mode : BgpTransportMode) (b : Bytes) : NoHang ((evpn5In .release).decodeFrom mode b) := by nohang

theorem nhr_evpn (mode : BgpTransportMode) (b : Bytes) : NoHang (@decodeAddrItems _ (evpnIn .release) mode b) := by
  refine nh_decList (progress_of_post fun b => ?_) (fun b => ?_) b
  · show Post ((evpnIn .release).decodeFrom mode b) _
    counts
  · refine nh_bind (nh_idx _ _) fun _ _ => nh_bind (nh_idx _ _) fun _ _ => nh_ite nh_err ?_
    refine nh_ite (nh_bind (nh_rslice _ _ _) fun _ _ => nh_bind (nhr_evpn1 _ _) fun _ _ => nh_ok) ?_
    refine nh_ite (nh_bind (nh_rslice _ _ _) fun _ _ => nh_bind (nhr_evpn2 _ _) fun _ _ => nh_ok) ?_
    refine nh_ite (nh_bind (nh_rslice _ _ _) fun _ _ => nh_bind (AddrItemEnds.ends _ _) fun _ _ => nh_ok) ?_
    refine nh_ite (nh_bind (nh_rslice _ _ _) fun _ _ => nh_bind (AddrItemEnds.ends _ _) fun _ _ => nh_ok) ?_
    exact nh_ite (nh_bind (nh_rslice _ _ _) fun _ _ => nh_bind (nhr_evpn5 _ _) fun _ _ => nh_ok) nh_err

theorem nhr_vpls (b : Bytes) : NoHang (@decodeLongItems _ (vplsIn .release) b) := by
  refine nh_decList (progress_of_post fun b => ?_) (fun b => ?_) b
  · unfold decodeLongItem; counts
  · unfold decodeLongItem BgpItemLong.extractFrom vplsIn; nohang

theorem nhr_addrs (p : BgpSessionParams) (afi : U16) (safi : U8) (b : Bytes) :
    NoHang (BgpAddrs.decodeFromIn .release p afi safi b) := by
  unfold BgpAddrs.decodeFromIn
  split
  all_goals first
    | exact nhr_addpath _ _ _ _ _ _
    | exact nh_bind (nh_addrItems _ (mvpn_progress _) _) fun _ _ => nh_ok
    | exact nh_bind (nhr_evpn _ _) fun _ _ => nh_ok
    | exact nh_bind (nhr_fs _ (fun b => by nohang) _ _) fun _ _ => nh_ok
    | exact nh_bind (nhr_vpls _) fun _ _ => nh_ok
    | exact nh_err
macro_rules | `(tactic| nh_atom) => `(tactic| exact nhr_addrs _ _ _ _)

theorem nhr_decodeN (p : BgpSessionParams) (fuel : Nat) (tc fl : U8) (n : Nat) (b : Bytes) (h : b.length < fuel) :
    NoHang (BgpAttrItem.decodeNIn .release p fuel tc fl n b) := by
  induction fuel generalizing tc fl n b with
  | zero => omega
  | succ fuel ih =>
    rw [BgpAttrItem.decodeNIn]
    split
    · refine nh_bind ?_ fun _ _ => nh_ok; unfold BgpMPUpdates.decodeFromIn; nohang
    · refine nh_bind ?_ fun _ _ => nh_ok; unfold BgpMPWithdraws.decodeFromIn; nohang
    · unfold BgpAttrSet.decodeFrom
      split
      · exact nh_err
      split
      · exact nh_err
      refine nh_bind (nh_set _ _ (fun _ _ _ _ hb => ih _ _ _ _ (by omega)) _ _ (by omega) (by omega)) fun _ _ => ?_
      nohang
    · exact nh_decodeN p (fuel + 1) tc fl n b h

theorem nhr_attr (p : BgpSessionParams) (tc fl : U8) (n : Nat) (b : Bytes) :
    NoHang (BgpAttrItem.decodeFromIn .release p tc fl n b) := nhr_decodeN p _ tc fl n b (by omega)

theorem nhr_attrLoop (p : BgpSessionParams) (buf : Bytes) (stop fuel pos : Nat) (h : stop < fuel + pos) :
    NoHang (BgpUpdateMessage.attrLoopIn .release p buf stop fuel pos) := by
  induction fuel generalizing pos with
  | zero => rw [BgpUpdateMessage.attrLoopIn, if_neg (by omega)]; exact nh_ok
  | succ fuel ih =>
    rw [BgpUpdateMessage.attrLoopIn]
    split
    · refine nh_bind (nh_idx _ _) fun _ _ => nh_bind (nh_idx _ _) fun _ _ =>
        nh_bind (by nohang) fun r hr => ?_
      have hr' : pos + 3 ≤ r.1 := by
        split at hr <;> simp only [Res.bind_eq_ok, Res.ok.injEq] at hr
        · obtain ⟨_, _, _, _, rfl⟩ := hr; simp
        · obtain ⟨_, _, rfl⟩ := hr; simp
      obtain ⟨c, n⟩ := r
      simp only at hr' ⊢
      split
      · exact nh_err
      · refine nh_bind (by nohang) fun v hv => nh_bind (nhr_attr _ _ _ _ _) fun _ _ =>
          nh_bind (ih _ (by omega)) fun _ _ => nh_ok
    · exact nh_ok

theorem nhr_decodeNlri (p : BgpSessionParams) (b : Bytes) : NoHang (BgpUpdateMessage.decodeNlriIn .release p b) := by
  unfold BgpUpdateMessage.decodeNlriIn
  split <;> exact nh_bind (nhr_addpath _ _ _ _ _ _) fun _ _ => nh_ok

theorem nhr_update (self : BgpUpdateMessage) (p : BgpSessionParams) (b : Bytes) :
    NoHang (self.decodeFromIn .release p b) := by
  unfold BgpUpdateMessage.decodeFromIn
  refine nh_bind (nh_sliceE _ _ _) fun _ _ => nh_bind (nh_getn16 _) fun _ _ => nh_ite nh_err ?_
  refine nh_bind (nh_sliceE _ _ _) fun _ _ => nh_bind (nhr_decodeNlri _ _) fun _ _ => ?_
  refine nh_bind (nh_sliceE _ _ _) fun _ _ => nh_bind (nh_getn16 _) fun _ _ => nh_ite nh_err ?_
  refine nh_bind (nhr_attrLoop _ _ _ _ _ (by omega)) fun r _ => ?_
  exact nh_bind (nh_sliceE _ _ _) fun _ _ => nh_bind (nhr_decodeNlri _ _) fun _ _ => nh_ok

end Zbgp
