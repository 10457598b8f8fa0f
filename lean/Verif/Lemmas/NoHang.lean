import Verif.Lemmas.AttrTotal
import Verif.Lemmas.Frame
import Verif.Model.Update

/-! # No decoder loops for ever -/

namespace Zbgp

/-- the computation ends (with a value, an error or a panic) -/
def NoHang {α : Type} (r : Res α) : Prop := r ≠ .hang

theorem nh_ok {α : Type} {a : α} : NoHang (.ok a) := by intro h; cases h
theorem nh_err {α : Type} {e : BgpError} : NoHang (.err e : Res α) := by intro h; cases h
theorem nh_panic {α : Type} : NoHang (.panic : Res α) := by intro h; cases h
theorem nh_bind {α β : Type} {r : Res α} {f : α → Res β} (h : NoHang r) (hf : ∀ a, r = .ok a → NoHang (f a)) :
    NoHang (r >>= f) := by
  cases r with
  | ok a => exact hf a rfl
  | err e => exact nh_err
  | panic => exact nh_panic
  | hang => exact absurd rfl h

theorem nh_ite {α : Type} {c : Prop} [Decidable c] {a b : Res α} (ha : NoHang a) (hb : NoHang b) :
    NoHang (if c then a else b) := by split <;> assumption
theorem post_ite {α : Type} {c : Prop} [Decidable c] {a b : Res α} {P : α → Prop} (ha : Post a P) (hb : Post b P) :
    Post (if c then a else b) P := by split <;> assumption

theorem nh_of_returns {α : Type} {r : Res α} (h : r.Returns) : NoHang r := (Res.returns_iff.1 h).2

theorem nh_idx {α : Type} (b : List α) (i : Nat) : NoHang (idx b i) := by
  unfold idx; split <;> first | exact nh_ok | exact nh_panic
theorem nh_rslice {α : Type} (b : List α) (s e : Nat) : NoHang (rslice b s e) := by
  unfold rslice; split <;> first | exact nh_ok | exact nh_panic
theorem nh_rfrom {α : Type} (b : List α) (s : Nat) : NoHang (rfrom b s) := by
  unfold rfrom; split <;> first | exact nh_ok | exact nh_panic
theorem nh_copyAll (b s : Bytes) : NoHang (copyAll b s) := by
  unfold copyAll; split <;> first | exact nh_ok | exact nh_panic
theorem nh_copyAt (b : Bytes) (s e : Nat) (t : Bytes) : NoHang (copyAt b s e t) := by
  unfold copyAt; split <;> first | exact nh_ok | exact nh_panic
theorem nh_addC {w : Nat} (a b : BitVec w) : NoHang (addC a b) := by
  unfold addC; split <;> first | exact nh_ok | exact nh_panic
theorem nh_subC {w : Nat} (a b : BitVec w) : NoHang (subC a b) := by
  unfold subC; split <;> first | exact nh_ok | exact nh_panic
theorem nh_subN (a b : Nat) : NoHang (subN a b) := by
  unfold subN; split <;> first | exact nh_ok | exact nh_panic
theorem nh_sliceE {α : Type} (b : List α) (s e : Nat) : NoHang (sliceE b s e) := nh_of_returns (sliceE_returns b s e)

/-- steps through a `do` block -/
syntax "nh_atom" : tactic
macro_rules | `(tactic| nh_atom) => `(tactic| first
  | exact nh_ok | exact nh_err | exact nh_panic | exact nh_idx _ _ | exact nh_rslice _ _ _ | exact nh_rfrom _ _
  | exact nh_copyAll _ _ | exact nh_copyAt _ _ _ _ | exact nh_addC _ _ | exact nh_subC _ _ | exact nh_subN _ _
  | exact nh_sliceE _ _ _)
macro "nohang" : tactic => `(tactic| (repeat' first | (with_reducible nh_atom) | (refine nh_bind ?_ fun _ _ => ?_) | split | (simp only [])))

theorem nh_getn16 (b : Bytes) : NoHang (getn16 b) := by unfold getn16; nohang
theorem nh_getn32 (b : Bytes) : NoHang (getn32 b) := by unfold getn32; nohang
theorem nh_decodeAddrV4 (b : Bytes) : NoHang (decodeAddrV4 b) := nh_of_returns (decodeAddrV4_returns b)
theorem nh_decodeAddrV6 (b : Bytes) : NoHang (decodeAddrV6 b) := nh_of_returns (decodeAddrV6_returns b)
theorem nh_decodeAddr (b : Bytes) : NoHang (decodeAddr b) := nh_of_returns (decodeAddr_returns b)
theorem nh_rd (b : Bytes) : NoHang (BgpRD.decodeFrom b) := nh_of_returns (rd_returns b)
macro_rules | `(tactic| nh_atom) => `(tactic| first
  | exact nh_getn16 _ | exact nh_getn32 _ | exact nh_decodeAddrV4 _ | exact nh_decodeAddrV6 _ | exact nh_decodeAddr _
  | exact nh_rd _)

/-! ## Loops -/

theorem nh_decList {α : Type} {lim : Nat} {dec : Bytes → Res (α × Nat)} (hp : Progress dec)
    (h : ∀ b, NoHang (dec b)) (b : Bytes) : NoHang (decList lim dec b) := by
  refine decList_induct hp (fun _ r => NoHang r) (fun _ _ => nh_ok) (fun _ _ _ _ => nh_err) (fun _ _ _ => nh_panic)
    (fun b _ hd => absurd hd (h b)) (fun b x n _ _ _ ih => ?_) b
  exact nh_bind ih fun _ _ => nh_ok

theorem nh_extractLoop (fuel : Nat) (bits : U8) (b : Bytes) (hf : bits.toNat < fuel) :
    NoHang (MplsLabels.extractLoop fuel bits b) := by
  induction fuel generalizing bits b with
  | zero => omega
  | succ fuel ih =>
    rw [MplsLabels.extractLoop]
    split
    · refine nh_bind (nh_idx _ _) fun _ _ => nh_bind (nh_idx _ _) fun _ _ => nh_bind (nh_idx _ _) fun _ _ => ?_
      simp only
      refine nh_bind (nh_subC _ _) fun left hl => ?_
      split
      · exact nh_ok
      split
      · exact nh_ok
      refine nh_bind (ih _ _ ?_) fun _ _ => nh_ok
      unfold subC at hl
      split at hl
      · rename_i hle
        simp only [Res.ok.injEq] at hl
        have h24 : (24 : U8).toNat = 24 := rfl
        rw [← hl, BitVec.toNat_sub_of_le (by rw [BitVec.le_def]; exact hle)]
        omega
      · cases hl
    · exact nh_ok

theorem nh_labels (bits : U8) (b : Bytes) : NoHang (MplsLabels.extractBits bits b) := by
  unfold MplsLabels.extractBits
  exact nh_bind (nh_extractLoop _ _ _ (by omega)) fun _ _ => nh_ok

/-- items whose decoder ends -/
class ItemEnds (T : Type) [BgpItem T] : Prop where
  ends : ∀ (bits : U8) (b : Bytes), NoHang (BgpItem.extractBits (T := T) bits b)

macro_rules | `(tactic| nh_atom) => `(tactic| first | exact nh_labels _ _ | exact ItemEnds.ends _ _)

theorem nh_fromBitsV4 (bits : U8) (b : Bytes) : NoHang (BgpAddrV4.fromBits bits b) := by
  unfold BgpAddrV4.fromBits; nohang
theorem nh_fromBitsV6 (bits : U8) (b : Bytes) : NoHang (BgpAddrV6.fromBits bits b) := by
  unfold BgpAddrV6.fromBits; nohang
macro_rules | `(tactic| nh_atom) => `(tactic| first | exact nh_fromBitsV4 _ _ | exact nh_fromBitsV6 _ _)

instance : ItemEnds BgpAddrV4 where ends := nh_fromBitsV4
instance : ItemEnds BgpAddrV6 where ends := nh_fromBitsV6
instance {T : Type} [BgpItem T] [ItemEnds T] : ItemEnds (Labeled T) where
  ends bits b := by simp only [BgpItem.extractBits]; nohang
instance {T : Type} [BgpItem T] [ItemEnds T] : ItemEnds (WithRd T) where
  ends bits b := by simp only [BgpItem.extractBits]; nohang
instance : ItemEnds BgpMdtV4 where
  ends bits b := by simp only [BgpItem.extractBits]; nohang
instance : ItemEnds BgpMdtV6 where
  ends bits b := by simp only [BgpItem.extractBits]; nohang

theorem nh_items {T : Type} [BgpItem T] [ItemEnds T] (b : Bytes) : NoHang (decodeItems (T := T) b) :=
  nh_decList decodeItem_progress (fun b => by unfold decodeItem; nohang) b
theorem nh_pathIdItems {T : Type} [BgpItem T] [ItemEnds T] (b : Bytes) : NoHang (decodePathIdItems (T := T) b) :=
  nh_decList decodePathIdItem_progress (fun b => by unfold decodePathIdItem decodeItem; nohang) b

theorem nh_addpath {T : Type} [BgpItem T] [ItemEnds T] (p : BgpSessionParams) (afi : U16) (safi : U8)
    (w : List (WithPathId T) → BgpAddrs) (f : List T → BgpAddrs) (b : Bytes) :
    NoHang (BgpAddrs.decodeAddpath p afi safi w f b) := by
  unfold BgpAddrs.decodeAddpath
  split
  · exact nh_bind (nh_pathIdItems b) fun _ _ => nh_ok
  · exact nh_bind (nh_items b) fun _ _ => nh_ok

/-- steps through a `do` block down to the count of bytes -/
macro "counts" : tactic => `(tactic| (repeat' first
  | exact post_err | exact post_panic | (refine post_ok ?_; (simp only []; omega))
  | (refine post_bind post_true fun _ _ => ?_) | split | (simp only [])))

/-- address items whose decoder ends and consumes -/
class AddrItemEnds (T : Type) [BgpAddrItem T] : Prop where
  ends : ∀ (mode : BgpTransportMode) (b : Bytes), NoHang (BgpAddrItem.decodeFrom (T := T) mode b)
macro_rules | `(tactic| nh_atom) => `(tactic| exact AddrItemEnds.ends _ _)

theorem nh_esi (b : Bytes) : NoHang (EVPNESI.read b) := by
  unfold EVPNESI.read EVPNESI.ofSlice; nohang
theorem nh_mac (b : Bytes) : NoHang (MacAddress.fromNetworkBytes b) := by
  unfold MacAddress.fromNetworkBytes; nohang
theorem nh_readIp (b : Bytes) (pos : Nat) : NoHang (evpnReadIp b pos) := by
  unfold evpnReadIp; nohang
macro_rules | `(tactic| nh_atom) => `(tactic| first | exact nh_esi _ | exact nh_mac _ | exact nh_readIp _ _)

instance : AddrItemEnds BgpIPv4RD where
  ends mode b := by simp only [BgpAddrItem.decodeFrom]; nohang
instance : AddrItemEnds BgpIPv6RD where
  ends mode b := by simp only [BgpAddrItem.decodeFrom]; nohang
instance : AddrItemEnds BgpEVPN1 where
  ends mode b := by simp only [BgpAddrItem.decodeFrom]; nohang
instance : AddrItemEnds BgpEVPN2 where
  ends mode b := by simp only [BgpAddrItem.decodeFrom]; nohang
instance : AddrItemEnds BgpEVPN3 where
  ends mode b := by simp only [BgpAddrItem.decodeFrom]; nohang
instance : AddrItemEnds BgpEVPN4 where
  ends mode b := by simp only [BgpAddrItem.decodeFrom]; nohang
instance : AddrItemEnds BgpEVPN5 where
  ends mode b := by simp only [BgpAddrItem.decodeFrom]; nohang
instance : AddrItemEnds BgpEVPN where
  ends mode b := by show NoHang (BgpEVPN.decodeFrom mode b); unfold BgpEVPN.decodeFrom; nohang
instance : AddrItemEnds BgpMVPN1 where
  ends mode b := by simp only [BgpAddrItem.decodeFrom]; nohang
instance : AddrItemEnds BgpMVPN2 where
  ends mode b := by simp only [BgpAddrItem.decodeFrom]; nohang
instance : AddrItemEnds BgpMVPN3 where
  ends mode b := by simp only [BgpAddrItem.decodeFrom]; nohang
instance : AddrItemEnds BgpMVPN5 where
  ends mode b := by simp only [BgpAddrItem.decodeFrom]; nohang
instance : AddrItemEnds BgpMVPN67 where
  ends mode b := by simp only [BgpAddrItem.decodeFrom]; nohang

instance : AddrItemEnds BgpMVPN4 where
  ends mode b := by
    simp only [BgpAddrItem.decodeFrom]
    refine nh_bind (nh_idx _ _) fun t _ => nh_bind (by nohang) fun bad _ => ?_
    split
    · exact nh_err
    refine nh_bind (nh_rfrom _ _) fun c _ => ?_
    have := AddrItemEnds.ends (T := BgpMVPN3) mode c
    simp only [BgpAddrItem.decodeFrom] at this
    split
    · exact nh_err
    · exact nh_panic
    · rename_i h; exact absurd h this
    · nohang
instance : AddrItemEnds BgpMVPN where
  ends mode b := by show NoHang (BgpMVPN.decodeFrom mode b); unfold BgpMVPN.decodeFrom; nohang

theorem progress_of_post {α : Type} {dec : Bytes → Res (α × Nat)} (h : ∀ b, Post (dec b) fun r => 0 < r.2) :
    Progress dec := by
  intro b x n e
  exact h b (x, n) e

theorem evpn_progress (mode : BgpTransportMode) : Progress (BgpAddrItem.decodeFrom (T := BgpEVPN) mode) :=
  progress_of_post fun b => by
    show Post (BgpEVPN.decodeFrom mode b) _
    unfold BgpEVPN.decodeFrom; counts

theorem mvpn_progress (mode : BgpTransportMode) : Progress (BgpAddrItem.decodeFrom (T := BgpMVPN) mode) :=
  progress_of_post fun b => by
    show Post (BgpMVPN.decodeFrom mode b) _
    unfold BgpMVPN.decodeFrom; counts

/-! ### Flow specifications -/

class FSItemEnds (T : Type) [FSItem T] : Prop where
  ends : ∀ b : Bytes, NoHang (FSItem.decodeFs (T := T) b)
class FSOperEnds (T : Type) [FSOperItem T] : Prop where
  ends : ∀ b : Bytes, NoHang (FSOperItem.decodeFrom (T := T) b)
  progress : Progress (FSOperItem.decodeFrom (T := T))

instance : FSItemEnds BgpAddrV4 where ends b := by simp only [FSItem.decodeFs]; nohang
instance : FSItemEnds FS6 where ends b := by simp only [FSItem.decodeFs]; nohang
instance : FSItemEnds FSV4U where ends b := by simp only [FSItem.decodeFs]; nohang

theorem nh_fsVal (b : Bytes) : NoHang (fsDecodeVal b) := by unfold fsDecodeVal; nohang
theorem fsVal_count (b : Bytes) : Post (fsDecodeVal b) fun r => 0 < r.2.2 := by unfold fsDecodeVal; counts

instance : FSOperEnds FSOperValItem where
  ends b := nh_bind (nh_fsVal b) fun _ _ => nh_ok
  progress := progress_of_post fun b => post_bind (fsVal_count b) fun r h => post_ok h
instance : FSOperEnds FSOperMaskItem where
  ends b := nh_bind (nh_fsVal b) fun _ _ => nh_ok
  progress := progress_of_post fun b => post_bind (fsVal_count b) fun r h => post_ok h

theorem nh_getOps {T I : Type} [FSItem T] [FSOperItem I] [FSOperEnds I] (c : FSOperVec I → BgpFlowSpec T) (b : Bytes)
    (pos nlen : Nat) : NoHang (BgpFlowSpec.getOps c b pos nlen) := by
  unfold BgpFlowSpec.getOps FSOperVec.decodeFrom
  refine nh_bind (nh_rslice _ _ _) fun _ _ => nh_bind (nh_bind ?_ fun _ _ => nh_ok) fun _ _ => nh_ok
  exact nh_decList FSOperEnds.progress FSOperEnds.ends _
theorem nh_getPrefix {T : Type} [FSItem T] [FSItemEnds T] (c : T → BgpFlowSpec T) (b : Bytes)
    (pos nlen : Nat) : NoHang (BgpFlowSpec.getPrefix c b pos nlen) := by
  unfold BgpFlowSpec.getPrefix
  exact nh_bind (nh_rslice _ _ _) fun _ _ => nh_bind (FSItemEnds.ends _) fun _ _ => nh_ok
macro_rules | `(tactic| nh_atom) => `(tactic| first | exact nh_getOps _ _ _ _ | exact nh_getPrefix _ _ _ _)

theorem getOps_count {T I : Type} [FSItem T] [FSOperItem I] (c : FSOperVec I → BgpFlowSpec T) (b : Bytes)
    (pos nlen : Nat) : Post (BgpFlowSpec.getOps c b pos nlen) fun r => 0 < r.2 := by
  unfold BgpFlowSpec.getOps; counts
theorem getPrefix_count {T : Type} [FSItem T] (c : T → BgpFlowSpec T) (b : Bytes)
    (pos nlen : Nat) : Post (BgpFlowSpec.getPrefix c b pos nlen) fun r => 0 < r.2 := by
  unfold BgpFlowSpec.getPrefix; counts

theorem nh_getBody {T : Type} [FSItem T] [FSItemEnds T] (b : Bytes) (pos nlen : Nat) :
    NoHang (BgpFlowSpec.getBody (T := T) b pos nlen) := by
  unfold BgpFlowSpec.getBody
  refine nh_bind (nh_idx _ _) fun _ _ => ?_
  repeat' first | exact nh_err | exact nh_getOps _ _ _ _ | exact nh_getPrefix _ _ _ _ | refine nh_ite ?_ ?_
macro_rules | `(tactic| nh_atom) => `(tactic| exact nh_getBody _ _ _)

theorem getBody_count {T : Type} [FSItem T] (b : Bytes) (pos nlen : Nat) :
    Post (BgpFlowSpec.getBody (T := T) b pos nlen) fun r => 0 < r.2 := by
  unfold BgpFlowSpec.getBody
  refine post_bind post_true fun code _ => ?_
  repeat' first
    | exact post_err | exact getOps_count _ _ _ _ | exact getPrefix_count _ _ _ _ | refine post_ite ?_ ?_

instance {T : Type} [FSItem T] [FSItemEnds T] : AddrItemEnds (BgpFlowSpec T) where
  ends mode b := by
    show NoHang (BgpFlowSpec.decodeFrom b)
    unfold BgpFlowSpec.decodeFrom; nohang

theorem fs_progress {T : Type} [FSItem T] (mode : BgpTransportMode) :
    Progress (BgpAddrItem.decodeFrom (T := BgpFlowSpec T) mode) :=
  progress_of_post fun b => by
    show Post (BgpFlowSpec.decodeFrom b) _
    unfold BgpFlowSpec.decodeFrom
    refine post_bind post_true fun _ _ => ?_
    split
    · exact post_bind post_true fun _ _ => getBody_count _ _ _
    · exact getBody_count _ _ _

/-! ### NLRI of any family -/

theorem nh_addrItems {T : Type} [BgpAddrItem T] [AddrItemEnds T] (mode : BgpTransportMode)
    (hp : Progress (BgpAddrItem.decodeFrom (T := T) mode)) (b : Bytes) : NoHang (decodeAddrItems (T := T) mode b) :=
  nh_decList hp (AddrItemEnds.ends mode) b

theorem nh_vpls (b : Bytes) : NoHang (decodeLongItems (T := BgpAddrL2) b) := by
  refine nh_decList (progress_of_post fun b => ?_) (fun b => ?_) b
  · unfold decodeLongItem; counts
  · unfold decodeLongItem BgpItemLong.extractFrom instBgpItemLongBgpAddrL2; nohang

theorem nh_addrs (p : BgpSessionParams) (afi : U16) (safi : U8) (b : Bytes) :
    NoHang (BgpAddrs.decodeFrom p afi safi b) := by
  unfold BgpAddrs.decodeFrom
  split
  all_goals first
    | exact nh_addpath _ _ _ _ _ _
    | exact nh_bind (nh_addrItems _ (mvpn_progress _) _) fun _ _ => nh_ok
    | exact nh_bind (nh_addrItems _ (evpn_progress _) _) fun _ _ => nh_ok
    | exact nh_bind (nh_addrItems _ (fs_progress _) _) fun _ _ => nh_ok
    | exact nh_bind (nh_vpls _) fun _ _ => nh_ok
    | exact nh_err
macro_rules | `(tactic| nh_atom) => `(tactic| exact nh_addrs _ _ _ _)

/-! ### Attributes -/

theorem nh_chunks {α : Type} (lim k : Nat) (hk : 0 < k) (d : Bytes → Res α) (hd : ∀ b, NoHang (d b)) (b : Bytes) :
    NoHang (decList lim (fun b => do .ok (← d (← rslice b 0 k), k)) b) :=
  nh_decList (chunk_progress k hk d)
    (fun _ => nh_bind (nh_rslice _ _ _) fun _ _ => nh_bind (hd _) fun _ _ => nh_ok) b

theorem nh_skipSnpa (buf : Bytes) (n c : Nat) : NoHang (BgpMPUpdates.skipSnpa buf n c) := by
  induction n generalizing c with
  | zero => exact nh_ok
  | succ n ih => exact nh_bind (nh_idx _ _) fun _ _ => ih _
theorem nh_nexthop (p : BgpSessionParams) (afi : U16) (safi : U8) (n : Nat) (b : Bytes) :
    NoHang (BgpMPUpdates.decodeNexthop p afi safi n b) := by
  unfold BgpMPUpdates.decodeNexthop
  split <;> first | exact nh_err | (split <;> nohang)
macro_rules | `(tactic| nh_atom) => `(tactic| first | exact nh_skipSnpa _ _ _ | exact nh_nexthop _ _ _ _ _)

theorem nh_aspath (p : BgpSessionParams) (b : Bytes) : NoHang (BgpASpath.decodeFrom p b) := by
  unfold BgpASpath.decodeFrom
  split
  · exact nh_ok
  · refine nh_bind (nh_decList (decodeAsn_progress _) (fun b => ?_) _) fun _ _ => nh_ok
    unfold BgpASpath.decodeAsn; nohang

theorem nh_set (dec : AttrDec) (buf : Bytes) (hd : ∀ tc fl n b, b.length < buf.length → NoHang (dec tc fl n b))
    (fuel pos : Nat) (h0 : 0 < pos) (h : buf.length ≤ fuel + pos) : NoHang (BgpAttrSet.loop dec buf fuel pos) := by
  induction fuel generalizing pos with
  | zero => rw [BgpAttrSet.loop, if_neg (by omega)]; exact nh_ok
  | succ fuel ih =>
    rw [BgpAttrSet.loop]
    split
    · refine nh_bind (nh_idx _ _) fun _ _ => nh_bind (nh_idx _ _) fun _ _ =>
        nh_bind (by nohang) fun r hr => ?_
      have hr' : pos + 3 ≤ r.1 := by
        split at hr <;> simp only [Res.bind_eq_ok, Res.ok.injEq] at hr
        · obtain ⟨_, _, _, _, rfl⟩ := hr; simp
        · obtain ⟨_, _, rfl⟩ := hr; simp
      obtain ⟨c, n⟩ := r
      simp only at hr' ⊢
      split
      · exact nh_err
      · refine nh_bind (nh_rslice _ _ _) fun v hv => nh_bind (hd _ _ _ _ ?_) fun _ _ =>
          nh_bind (ih _ (by omega) (by omega)) fun _ _ => nh_ok
        rw [rslice_ok (by omega) (by omega)] at hv
        simp only [Res.ok.injEq] at hv
        rw [← hv]
        simp
        omega
    · exact nh_ok

theorem nh_decodeN (p : BgpSessionParams) (fuel : Nat) (tc fl : U8) (n : Nat) (b : Bytes) (h : b.length < fuel) :
    NoHang (BgpAttrItem.decodeN p fuel tc fl n b) := by
  induction fuel generalizing tc fl n b with
  | zero => omega
  | succ fuel ih =>
    rw [BgpAttrItem.decodeN]
    split
    · refine nh_bind ?_ fun _ _ => nh_ok; unfold BgpOrigin.decodeFrom; nohang
    · exact nh_bind (nh_aspath _ _) fun _ _ => nh_ok
    · refine nh_bind ?_ fun _ _ => nh_ok; unfold BgpNextHop.decodeFrom; nohang
    · refine nh_bind ?_ fun _ _ => nh_ok; unfold BgpMED.decodeFrom; nohang
    · refine nh_bind ?_ fun _ _ => nh_ok; unfold BgpLocalpref.decodeFrom; nohang
    · refine nh_bind ?_ fun _ _ => nh_ok; unfold BgpAtomicAggregate.decodeFrom; nohang
    · refine nh_bind ?_ fun _ _ => nh_ok; unfold BgpAggregatorAS.decodeFrom; nohang
    · refine nh_bind (nh_bind (nh_chunks 0 4 (by omega) _ (fun b => ?_) _) fun _ _ => nh_ok) fun _ _ => nh_ok
      unfold BgpCommunity.decodeFrom; nohang
    · refine nh_bind ?_ fun _ _ => nh_ok; unfold BgpOriginatorID.decodeFrom; nohang
    · exact nh_bind (nh_of_returns (clusterlist_returns _ _)) fun _ _ => nh_ok
    · refine nh_bind ?_ fun _ _ => nh_ok; unfold BgpMPUpdates.decodeFrom; nohang
    · refine nh_bind ?_ fun _ _ => nh_ok; unfold BgpMPWithdraws.decodeFrom; nohang
    · refine nh_bind (nh_bind (nh_chunks 7 8 (by omega) _ (fun b => ?_) _) fun _ _ => nh_ok) fun _ _ => nh_ok
      unfold BgpExtCommunity.decodeFrom; nohang
    · refine nh_bind ?_ fun _ _ => nh_ok; unfold BgpPMSITunnel.decodeFrom BgpPMSITunnel.addrAt; nohang
    · refine nh_bind ?_ fun _ _ => nh_ok; unfold BgpConnector.decodeFrom; nohang
    · refine nh_bind (nh_bind (nh_chunks 0 12 (by omega) _ (fun b => ?_) _) fun _ _ => nh_ok) fun _ _ => nh_ok
      unfold BgpLargeCommunity.decodeFrom; nohang
    · unfold BgpAttrSet.decodeFrom
      split
      · exact nh_err
      split
      · exact nh_err
      refine nh_bind (nh_set _ _ (fun _ _ _ _ hb => ih _ _ _ _ (by omega)) _ _ (by omega) (by omega)) fun _ _ => ?_
      nohang
    · refine nh_bind (nh_rslice _ _ _) fun _ _ => nh_bind ?_ fun _ _ => nh_ok
      unfold BgpAttrUnknown.decodeFrom; nohang

theorem nh_attr (p : BgpSessionParams) (tc fl : U8) (n : Nat) (b : Bytes) :
    NoHang (BgpAttrItem.decodeFrom p tc fl n b) := nh_decodeN p _ tc fl n b (by omega)

/-! ### UPDATE -/

theorem nh_attrLoop (p : BgpSessionParams) (buf : Bytes) (stop fuel pos : Nat) (h : stop < fuel + pos) :
    NoHang (BgpUpdateMessage.attrLoop p buf stop fuel pos) := by
  induction fuel generalizing pos with
  | zero => rw [BgpUpdateMessage.attrLoop, if_neg (by omega)]; exact nh_ok
  | succ fuel ih =>
    rw [BgpUpdateMessage.attrLoop]
    split
    · refine nh_bind (nh_idx _ _) fun _ _ => nh_bind (nh_idx _ _) fun _ _ =>
        nh_bind (by nohang) fun r hr => ?_
      have hr' : pos + 3 ≤ r.1 := by
        split at hr <;> simp only [Res.bind_eq_ok, Res.ok.injEq] at hr
        · obtain ⟨_, _, _, _, rfl⟩ := hr; simp
        · obtain ⟨_, _, rfl⟩ := hr; simp
      obtain ⟨c, n⟩ := r
      simp only at hr' ⊢
      split
      · exact nh_err
      · refine nh_bind (by nohang) fun v hv => nh_bind (nh_attr _ _ _ _ _) fun _ _ =>
          nh_bind (ih _ (by omega)) fun _ _ => nh_ok
    · exact nh_ok

theorem nh_decodeNlri (p : BgpSessionParams) (b : Bytes) : NoHang (BgpUpdateMessage.decodeNlri p b) := by
  unfold BgpUpdateMessage.decodeNlri
  split <;> exact nh_bind (nh_addpath _ _ _ _ _ _) fun _ _ => nh_ok

theorem nh_update (self : BgpUpdateMessage) (p : BgpSessionParams) (b : Bytes) : NoHang (self.decodeFrom p b) := by
  unfold BgpUpdateMessage.decodeFrom
  refine nh_bind (nh_sliceE _ _ _) fun _ _ => nh_bind (nh_getn16 _) fun _ _ => nh_ite nh_err ?_
  refine nh_bind (nh_sliceE _ _ _) fun _ _ => nh_bind (nh_decodeNlri _ _) fun _ _ => ?_
  refine nh_bind (nh_sliceE _ _ _) fun _ _ => nh_bind (nh_getn16 _) fun _ _ => nh_ite nh_err ?_
  refine nh_bind (nh_attrLoop _ _ _ _ _ (by omega)) fun r _ => ?_
  exact nh_bind (nh_sliceE _ _ _) fun _ _ => nh_bind (nh_decodeNlri _ _) fun _ _ => nh_ok

end Zbgp
