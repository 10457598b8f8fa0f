import Verif.Model.ReleaseBmp
import Verif.Lemmas.ReleaseMsg
import Verif.Lemmas.ReleaseNoHang
import Verif.Lemmas.Bmp

/-! # BMP in both builds: the checked copies are the model, the other ones agree with them unless they panic -/

namespace Zbgp

/-! ## The checked copies -/

theorem updDec_checked' (x : BgpUpdateMessage) (p : BgpSessionParams) : x.decodeFromIn .checked p = x.decodeFrom p :=
  funext fun b => updDec_checked x p b
theorem updEnc_checked' (x : BgpUpdateMessage) (p : BgpSessionParams) : x.encodeToIn .checked p = x.encodeTo p :=
  funext fun b => updEnc_checked x p b

theorem embDec_checked {α : Type} (ty : BgpMessageType) (dec : Bytes → Res α) :
    decodeEmbeddedIn .checked ty dec = decodeEmbedded ty dec := by
  funext b pos; unfold decodeEmbeddedIn decodeEmbedded; rw [head_checked]
theorem embEnc_checked (ty : BgpMessageType) (enc : Enc) : encodeEmbeddedIn .checked ty enc = encodeEmbedded ty enc := by
  funext b pos; unfold encodeEmbeddedIn encodeEmbedded; rw [prepare_checked]

/-- one round of the loop over the elements of a Termination message -/
def termRound (sub : Nat → Nat → Res Nat) (go : Nat → BmpMessageTermination → Res (BmpMessageTermination × Nat)) (buf : Bytes)
    (pos : Nat) (ret : BmpMessageTermination) : Res (BmpMessageTermination × Nat) := do
  let left ← sub buf.length pos
  if left ≥ 4 then do
    let infotype ← getn16 (← rfrom buf pos)
    let infolen := (← getn16 (← rfrom buf (pos + 2))).toNat
    let pos := pos + 4
    let left ← sub buf.length pos
    if left < infolen then .err .insufficientBufferSize
    else do
      let ret ← match infotype.toNat with
        | 0 => do
          let s ← BgpCapability.fromUtf8 (← rslice buf pos (pos + infolen))
          .ok { ret with str0 := some s }
        | 1 => do
          let r ← getn16 (← rfrom buf pos)
          .ok { ret with reason := some r }
        | _ => .ok ret
      go (pos + infolen) ret
  else .ok (ret, pos)

theorem termLoop_succ (buf : Bytes) (f : Nat) :
    BmpMessageTermination.loop buf (f + 1) = termRound subN (BmpMessageTermination.loop buf f) buf := by
  funext pos ret; rw [BmpMessageTermination.loop]; rfl
theorem termLoopIn_succ (m : Build) (buf : Bytes) (f : Nat) :
    BmpMessageTermination.loopIn m buf (f + 1) = termRound m.subN (BmpMessageTermination.loopIn m buf f) buf := by
  funext pos ret; rw [BmpMessageTermination.loopIn]; rfl

theorem termLoop_checked (buf : Bytes) : BmpMessageTermination.loopIn .checked buf = BmpMessageTermination.loop buf := by
  funext fuel
  induction fuel with
  | zero => funext pos ret; unfold BmpMessageTermination.loopIn BmpMessageTermination.loop; rfl
  | succ f ih => rw [termLoop_succ, termLoopIn_succ, ih]; rfl

theorem termLoop_release (buf : Bytes) (fuel pos : Nat) (hp : pos ≤ buf.length) (ret : BmpMessageTermination) :
    BmpMessageTermination.loopIn .release buf fuel pos ret = BmpMessageTermination.loop buf fuel pos ret := by
  have hs : ∀ q, q ≤ buf.length → Build.release.subN buf.length q = subN buf.length q := by
    intro q hq; simp [Build.subN, subN, hq]
  induction fuel generalizing pos ret with
  | zero => unfold BmpMessageTermination.loopIn BmpMessageTermination.loop; rw [hs _ hp]
  | succ f ih =>
    rw [termLoop_succ, termLoopIn_succ]
    unfold termRound
    rw [hs _ hp]
    simp only [subN, if_pos hp, Res.ok_bind]
    split
    · rename_i h4
      have e4 : pos + 4 ≤ buf.length := by omega
      refine congrArg _ (funext fun _ => congrArg _ (funext fun _ => congrArg _ (funext fun _ => congrArg _ (funext fun v => ?_))))
      rw [hs _ e4]
      simp only [subN, if_pos e4, Res.ok_bind]
      split
      · rfl
      · have ih' := funext fun r => ih (pos + 4 + v.toNat) (by omega) r
        simp only [ih']
    · rfl

theorem termDec_checked : BmpMessageTermination.decodeFromIn .checked = BmpMessageTermination.decodeFrom := by
  funext b; unfold BmpMessageTermination.decodeFromIn BmpMessageTermination.decodeFrom; rw [termLoop_checked]
theorem termEnc_checked : BmpMessageTermination.encodeToIn .checked = BmpMessageTermination.encodeTo := rfl

theorem rmonDec_checked : BmpMessageRouteMonitoring.decodeFromIn .checked = BmpMessageRouteMonitoring.decodeFrom := by
  funext b; unfold BmpMessageRouteMonitoring.decodeFromIn BmpMessageRouteMonitoring.decodeFrom
  simp only [embDec_checked, updDec_checked']
theorem rmonEnc_checked : BmpMessageRouteMonitoring.encodeToIn .checked = BmpMessageRouteMonitoring.encodeTo := by
  funext x b; unfold BmpMessageRouteMonitoring.encodeToIn BmpMessageRouteMonitoring.encodeTo
  simp only [embEnc_checked, updEnc_checked']
theorem upDec_checked : BmpMessagePeerUp.decodeFromIn .checked = BmpMessagePeerUp.decodeFrom := by
  funext b; unfold BmpMessagePeerUp.decodeFromIn BmpMessagePeerUp.decodeFrom
  simp only [embDec_checked]
theorem upEnc_checked : BmpMessagePeerUp.encodeToIn .checked = BmpMessagePeerUp.encodeTo := by
  funext x b; unfold BmpMessagePeerUp.encodeToIn BmpMessagePeerUp.encodeTo
  simp only [embEnc_checked]
theorem downDec_checked : BmpMessagePeerDown.decodeFromIn .checked = BmpMessagePeerDown.decodeFrom := by
  funext b
  unfold BmpMessagePeerDown.decodeFromIn BmpMessagePeerDown.decodeFrom BmpMessagePeerDown.decodeReasonIn
    BmpMessagePeerDown.decodeReason
  simp only [embDec_checked]; rfl
theorem downEnc_checked : BmpMessagePeerDown.encodeToIn .checked = BmpMessagePeerDown.encodeTo := by
  funext x b
  unfold BmpMessagePeerDown.encodeToIn BmpMessagePeerDown.encodeTo BmpMessagePeerDown.encodeNotificationIn
    BmpMessagePeerDown.encodeNotification
  simp only [embEnc_checked]; rfl
theorem bmpDec_checked : BmpMessage.decodeFromIn .checked = BmpMessage.decodeFrom := by
  funext b; unfold BmpMessage.decodeFromIn BmpMessage.decodeFrom
  rw [rmonDec_checked, downDec_checked, upDec_checked, termDec_checked]; rfl
theorem bmpEnc_checked : BmpMessage.encodeToIn .checked = BmpMessage.encodeTo := by
  funext x b; unfold BmpMessage.encodeToIn BmpMessage.encodeTo
  rw [rmonEnc_checked, downEnc_checked, upEnc_checked, termEnc_checked]; rfl
theorem rm_checked : BMPSession.decodeRmIn .checked = BMPSession.decodeRm := by
  funext s b; unfold BMPSession.decodeRmIn BMPSession.decodeRm
  simp only [embDec_checked, updDec_checked']
theorem session_checked : BMPSession.decodeFromIn .checked = BMPSession.decodeFrom := by
  funext s b; unfold BMPSession.decodeFromIn BMPSession.decodeFrom
  rw [rm_checked, downDec_checked, upDec_checked, termDec_checked]; rfl

/-! ## Agreement -/

theorem bsim_embDec {α : Type} (ty : BgpMessageType) {d d' : Bytes → Res α} (h : ∀ b, BSim (d b) (d' b)) (b : Bytes)
    (pos : Nat) : BSim (decodeEmbedded ty d b pos) (decodeEmbeddedIn .release ty d' b pos) := by
  unfold decodeEmbedded decodeEmbeddedIn
  refine bsim_bindr _ fun _ => bsim_bind (bsim_head _) fun y => ?_
  dsimp only
  exact bsim_ite (bsim_refl _) (bsim_bindr _ fun _ => bsim_bind (h _) fun _ => bsim_refl _)

theorem bsim_onFrom' {α : Type} (b : Bytes) (n : Nat) {f g : Bytes → Res (Bytes × α)} (h : ∀ b, BSim (f b) (g b)) :
    BSim (onFrom b n f) (onFrom b n g) := by
  unfold onFrom; split
  · exact bsim_bind (h _) fun _ => bsim_refl _
  · exact bsim_refl _

theorem bsim_embEnc (ty : BgpMessageType) {e e' : Enc} (h : ∀ b, BSim (e b) (e' b)) (b : Bytes) (pos : Nat) :
    BSim (encodeEmbedded ty e b pos) (encodeEmbeddedIn .release ty e' b pos) := by
  unfold encodeEmbedded encodeEmbeddedIn
  refine bsim_bind (bsim_onFrom' _ _ h) fun y => ?_
  dsimp only
  exact bsim_bind (bsim_onFrom' _ _ fun b => bsim_prepare b ty _) fun _ => bsim_refl _

theorem bsim_termDec (b : Bytes) :
    BSim (BmpMessageTermination.decodeFrom b) (BmpMessageTermination.decodeFromIn .release b) :=
  bsim_of_eq (termLoop_release b b.length 0 (by omega) .new)

theorem bsim_termEnc (x : BmpMessageTermination) (b : Bytes) : BSim (x.encodeTo b) (x.encodeToIn .release b) := by
  unfold BmpMessageTermination.encodeTo BmpMessageTermination.encodeToIn
  refine bsim_bind ?_ fun y => ?_
  · cases x.str0 with
    | none => exact bsim_refl _
    | some s => exact bsim_bind (bsim_subN _ _) fun _ => bsim_refl _
  · dsimp only
    cases x.reason with
    | none => exact bsim_refl _
    | some s => exact bsim_bind (bsim_subN _ _) fun _ => bsim_refl _

theorem bsim_rmonDec (b : Bytes) :
    BSim (BmpMessageRouteMonitoring.decodeFrom b) (BmpMessageRouteMonitoring.decodeFromIn .release b) := by
  unfold BmpMessageRouteMonitoring.decodeFrom BmpMessageRouteMonitoring.decodeFromIn
  refine bsim_ite (bsim_refl _) (bsim_bindr _ fun y => ?_)
  dsimp only
  exact bsim_bind (bsim_embDec _ (fun b => bsim_updDec _ _ b) _ _) fun _ => bsim_refl _
theorem bsim_rmonEnc (x : BmpMessageRouteMonitoring) (b : Bytes) : BSim (x.encodeTo b) (x.encodeToIn .release b) := by
  unfold BmpMessageRouteMonitoring.encodeTo BmpMessageRouteMonitoring.encodeToIn
  refine bsim_ite (bsim_refl _) (bsim_bindr _ fun y => ?_)
  dsimp only
  exact bsim_embEnc _ (fun b => bsim_updEnc _ _ b) _ _
theorem bsim_upDec (b : Bytes) : BSim (BmpMessagePeerUp.decodeFrom b) (BmpMessagePeerUp.decodeFromIn .release b) := by
  unfold BmpMessagePeerUp.decodeFrom BmpMessagePeerUp.decodeFromIn
  refine bsim_ite (bsim_refl _) (bsim_bindr _ fun y => ?_)
  dsimp only
  refine bsim_bindr _ fun _ => bsim_bindr _ fun _ => bsim_bindr _ fun _ => bsim_bindr _ fun _ => bsim_bindr _ fun _ =>
    bsim_bindr _ fun _ => bsim_bind (bsim_embDec _ (fun b => bsim_refl _) _ _) fun _ => ?_
  exact bsim_bind (bsim_embDec _ (fun b => bsim_refl _) _ _) fun _ => bsim_refl _
theorem bsim_upEnc (x : BmpMessagePeerUp) (b : Bytes) : BSim (x.encodeTo b) (x.encodeToIn .release b) := by
  unfold BmpMessagePeerUp.encodeTo BmpMessagePeerUp.encodeToIn
  refine bsim_ite (bsim_refl _) (bsim_bindr _ fun y => ?_)
  dsimp only
  refine bsim_bindr _ fun _ => ?_
  refine bsim_bindr _ fun _ => bsim_bindr _ fun _ => bsim_bind (bsim_embEnc _ (fun b => bsim_refl _) _ _) fun _ => ?_
  exact bsim_embEnc _ (fun b => bsim_refl _) _ _
theorem bsim_downDec (b : Bytes) :
    BSim (BmpMessagePeerDown.decodeFrom b) (BmpMessagePeerDown.decodeFromIn .release b) := by
  unfold BmpMessagePeerDown.decodeFrom BmpMessagePeerDown.decodeFromIn
  refine bsim_ite (bsim_refl _) (bsim_bindr _ fun y => ?_)
  dsimp only
  refine bsim_bindr _ fun c => bsim_bind ?_ fun _ => bsim_refl _
  unfold BmpMessagePeerDown.decodeReason BmpMessagePeerDown.decodeReasonIn
  generalize c.toNat = k
  match k with
  | 0 => exact bsim_refl _
  | 1 => exact bsim_bind (bsim_embDec _ (fun b => bsim_refl _) _ _) fun _ => bsim_refl _
  | 2 => exact bsim_bind (bsim_subN _ _) fun _ => bsim_refl _
  | 3 => exact bsim_bind (bsim_embDec _ (fun b => bsim_refl _) _ _) fun _ => bsim_refl _
  | 4 => exact bsim_refl _
  | 5 => exact bsim_refl _
  | k + 6 => exact bsim_refl _
theorem bsim_downEnc (x : BmpMessagePeerDown) (b : Bytes) : BSim (x.encodeTo b) (x.encodeToIn .release b) := by
  have hn : ∀ c n b p, BSim (BmpMessagePeerDown.encodeNotification c n b p)
      (BmpMessagePeerDown.encodeNotificationIn .release c n b p) := by
    intro c n b p
    unfold BmpMessagePeerDown.encodeNotification BmpMessagePeerDown.encodeNotificationIn
    refine bsim_bindr _ fun _ => ?_
    dsimp only
    exact bsim_bind (bsim_subN _ _) fun _ => bsim_ite (bsim_refl _) (bsim_embEnc _ (fun b => bsim_refl _) _ _)
  unfold BmpMessagePeerDown.encodeTo BmpMessagePeerDown.encodeToIn
  refine bsim_ite (bsim_refl _) (bsim_bindr _ fun y => ?_)
  dsimp only
  cases x.reason with
  | AdministrativelyClosed n => exact hn _ _ _ _
  | LocalSystemState s => exact bsim_bindr _ fun _ => bsim_bind (bsim_subN _ _) fun _ => bsim_refl _
  | RemoteNotification n => exact hn _ _ _ _
  | Remote => exact bsim_refl _
  | BmpDisabled => exact bsim_refl _

theorem bsim_bmpDec (b : Bytes) : BSim (BmpMessage.decodeFrom b) (BmpMessage.decodeFromIn .release b) := by
  unfold BmpMessage.decodeFrom BmpMessage.decodeFromIn
  refine bsim_bindr _ fun c => ?_
  generalize c.toNat = k
  match k with
  | 0 => exact bsim_bindr _ fun _ => bsim_bind (bsim_rmonDec _) fun _ => bsim_refl _
  | 1 => exact bsim_refl (Res.ok BmpMessage.StatisticsReport)
  | 2 => exact bsim_bindr _ fun _ => bsim_bind (bsim_downDec _) fun _ => bsim_refl _
  | 3 => exact bsim_bindr _ fun _ => bsim_bind (bsim_upDec _) fun _ => bsim_refl _
  | 4 => exact bsim_bindr (rfrom b 1) fun _ => bsim_bindr (BmpMessageInitiation.decodeFrom _) fun x => bsim_refl (Res.ok (BmpMessage.Initiation x.1))
  | 5 => exact bsim_bindr _ fun _ => bsim_bind (bsim_termDec _) fun _ => bsim_refl _
  | 6 => exact bsim_refl (Res.ok BmpMessage.RouteMirroring)
  | k + 7 => exact bsim_refl (.err .static)

theorem bsim_typed (c : U8) {e e' : Enc} (h : ∀ b, BSim (e b) (e' b)) (b : Bytes) :
    BSim (BmpMessage.encodeTyped c e b) (BmpMessage.encodeTyped c e' b) := by
  unfold BmpMessage.encodeTyped
  exact bsim_bindr _ fun _ => bsim_bind (bsim_onFrom' _ _ h) fun _ => bsim_refl _

theorem bsim_bmpEnc (x : BmpMessage) (b : Bytes) : BSim (x.encodeTo b) (x.encodeToIn .release b) := by
  unfold BmpMessage.encodeTo BmpMessage.encodeToIn
  refine bsim_ite (bsim_refl _) ?_
  cases x with
  | RouteMonitoring x => exact bsim_typed _ (bsim_rmonEnc _) _
  | StatisticsReport => exact bsim_refl .panic
  | PeerDownNotification x => exact bsim_typed _ (bsim_downEnc _) _
  | PeerUpNotification x => exact bsim_typed _ (bsim_upEnc _) _
  | Initiation x => exact bsim_refl (BmpMessage.encodeTyped 4 x.encodeTo b)
  | Termination x => exact bsim_typed _ (bsim_termEnc _) _
  | RouteMirroring => exact bsim_refl .panic

theorem bsim_rm (s : BMPSession) (b : Bytes) : BSim (s.decodeRm b) (s.decodeRmIn .release b) := by
  unfold BMPSession.decodeRm BMPSession.decodeRmIn
  refine bsim_ite (bsim_refl _) (bsim_bindr _ fun y => ?_)
  dsimp only
  exact bsim_bind (bsim_embDec _ (fun b => bsim_updDec _ _ b) _ _) fun _ => bsim_refl _

private def finDown (s : BMPSession) (r : Res (BmpMessagePeerDown × Nat)) : Res BmpMessage × BMPSession :=
  match r with
  | .ok (x, _) => (.ok (.PeerDownNotification x), ⟨BTree.remove (.ofPeer x.peer) s.sessions⟩)
  | .err e => (.err e, s)
  | .panic => (.panic, s)
  | .hang => (.hang, s)

private def finUp (s : BMPSession) (r : Res (BmpMessagePeerUp × Nat)) : Res BmpMessage × BMPSession :=
  match r with
  | .ok (x, _) => (.ok (.PeerUpNotification x), ⟨BTree.insert (.ofPeer x.peer) x s.sessions⟩)
  | .err e => (.err e, s)
  | .panic => (.panic, s)
  | .hang => (.hang, s)

private def SSim (x y : Res BmpMessage × BMPSession) : Prop := x.1 = .panic ∨ y = x

private theorem ssim_refl (x : Res BmpMessage × BMPSession) : SSim x x := .inr rfl
private theorem ssim_pair {x y : Res BmpMessage} (s : BMPSession) (h : BSim x y) : SSim (x, s) (y, s) := by
  rcases h with h | h
  · exact .inl h
  · exact .inr (by rw [h])
private theorem ssim_down (s : BMPSession) {x y : Res (BmpMessagePeerDown × Nat)} (h : BSim x y) :
    SSim (finDown s x) (finDown s y) := by
  rcases h with h | h
  · left; rw [h]; rfl
  · right; rw [h]
private theorem ssim_up (s : BMPSession) {x y : Res (BmpMessagePeerUp × Nat)} (h : BSim x y) :
    SSim (finUp s x) (finUp s y) := by
  rcases h with h | h
  · left; rw [h]; rfl
  · right; rw [h]

/-- the session after the call is the same too -/
theorem bsim_session (s : BMPSession) (b : Bytes) :
    (s.decodeFrom b).1 = .panic ∨ s.decodeFromIn .release b = s.decodeFrom b := by
  change SSim (s.decodeFrom b) (s.decodeFromIn .release b)
  unfold BMPSession.decodeFrom BMPSession.decodeFromIn
  cases idx b 0 with
  | ok c =>
    dsimp only
    generalize c.toNat = k
    match k with
    | 0 =>
      refine ssim_pair s (x := do let m ← s.decodeRm (← rfrom b 1); .ok (.RouteMonitoring m))
        (y := do let m ← s.decodeRmIn .release (← rfrom b 1); .ok (.RouteMonitoring m)) ?_
      exact bsim_bindr (rfrom b 1) fun t => bsim_bind (bsim_rm s t) fun x => bsim_refl (Res.ok (BmpMessage.RouteMonitoring x))
    | 1 => exact ssim_refl (.ok .StatisticsReport, s)
    | 2 => exact ssim_down s (bsim_bindr (rfrom b 1) fun t => bsim_downDec t)
    | 3 => exact ssim_up s (bsim_bindr (rfrom b 1) fun t => bsim_upDec t)
    | 4 => exact ssim_refl ((do let (x, _) ← BmpMessageInitiation.decodeFrom (← rfrom b 1); .ok (.Initiation x)), s)
    | 5 =>
      refine ssim_pair s (x := do let (m, _) ← BmpMessageTermination.decodeFrom (← rfrom b 1); .ok (.Termination m))
        (y := do let (m, _) ← BmpMessageTermination.decodeFromIn .release (← rfrom b 1); .ok (.Termination m)) ?_
      exact bsim_bindr (rfrom b 1) fun t => bsim_bind (bsim_termDec t) fun x => bsim_refl (Res.ok (BmpMessage.Termination x.1))
    | 6 => exact ssim_refl (.ok .RouteMirroring, s)
    | k + 7 => exact ssim_refl (.err .static, s)
  | err e => exact ssim_refl (.panic, s)
  | panic => exact ssim_refl (.panic, s)
  | hang => exact ssim_refl (.panic, s)

/-! ## No endless loops -/

theorem nhr_head (b : Bytes) : NoHang (BgpSessionParams.decodeMessageHeadIn .release b) := by
  unfold BgpSessionParams.decodeMessageHeadIn
  refine nh_ite nh_err (nh_bind (nh_rslice _ _ _) fun _ _ => nh_ite nh_err (nh_bind (nh_idx _ _) fun c _ => nh_bind ?_ fun _ _ =>
    nh_bind (nh_rslice _ _ _) fun _ _ => nh_bind (nh_getn16 _) fun _ _ => nh_bind (nhr_sub _ _) fun _ _ => nh_ok))
  unfold BgpMessageType.decodeFrom
  split
  all_goals first | exact nh_ok | exact nh_err

theorem nhr_embedded {α : Type} (ty : BgpMessageType) {dec : Bytes → Res α} (h : ∀ b, NoHang (dec b)) (b : Bytes)
    (pos : Nat) : NoHang (decodeEmbeddedIn .release ty dec b pos) := by
  unfold decodeEmbeddedIn
  exact nh_bind (nh_rfrom _ _) fun _ _ => nh_bind (nhr_head _) fun _ _ => nh_ite nh_err (nh_bind (nh_rslice _ _ _) fun _ _ =>
    nh_bind (h _) fun _ _ => nh_ok)

theorem nhr_rmon (b : Bytes) : NoHang (BmpMessageRouteMonitoring.decodeFromIn .release b) := by
  unfold BmpMessageRouteMonitoring.decodeFromIn
  exact nh_ite nh_err (nh_bind (nh_peerHeader _) fun _ _ =>
    nh_bind (nhr_embedded _ (fun _ => nhr_update _ _ _) _ _) fun _ _ => nh_ok)
theorem nhr_decodeRm (s : BMPSession) (b : Bytes) : NoHang (s.decodeRmIn .release b) := by
  unfold BMPSession.decodeRmIn
  exact nh_ite nh_err (nh_bind (nh_peerHeader _) fun _ _ =>
    nh_bind (nhr_embedded _ (fun _ => nhr_update _ _ _) _ _) fun _ _ => nh_ok)
theorem nhr_peerUp (b : Bytes) : NoHang (BmpMessagePeerUp.decodeFromIn .release b) := by
  unfold BmpMessagePeerUp.decodeFromIn
  refine nh_ite nh_err (nh_bind (nh_peerHeader _) fun _ _ => nh_bind (nh_rfrom _ _) fun _ _ => nh_bind (nh_bmpAddr _) fun _ _ =>
    nh_bind (nh_rfrom _ _) fun _ _ => nh_bind (nh_getn16 _) fun _ _ => nh_bind (nh_rfrom _ _) fun _ _ =>
    nh_bind (nh_getn16 _) fun _ _ => nh_bind (nhr_embedded _ (fun _ => nh_open _ _) _ _) fun _ _ =>
    nh_bind (nhr_embedded _ (fun _ => nh_open _ _) _ _) fun _ _ => nh_ok)
theorem nhr_peerDown (b : Bytes) : NoHang (BmpMessagePeerDown.decodeFromIn .release b) := by
  unfold BmpMessagePeerDown.decodeFromIn
  refine nh_ite nh_err (nh_bind (nh_peerHeader _) fun _ _ => nh_bind (nh_idx _ _) fun _ _ => nh_bind ?_ fun _ _ => nh_ok)
  unfold BmpMessagePeerDown.decodeReasonIn
  have := nhr_embedded .Notification (nh_notif BgpNotificationMessage.new)
  split
  · exact nh_bind (this _ _) fun _ _ => nh_ok
  · exact nh_bind (nhr_subN _ _) fun _ _ => nh_ite nh_err (nh_bind (nh_rslice _ _ _) fun _ _ => nh_ok)
  · exact nh_bind (this _ _) fun _ _ => nh_ok
  · exact nh_ok
  · exact nh_ok
  · exact nh_err
theorem nhr_term (b : Bytes) : NoHang (BmpMessageTermination.decodeFromIn .release b) := by
  unfold BmpMessageTermination.decodeFromIn
  rw [termLoop_release b b.length 0 (by omega)]
  exact nh_termLoop _ _ _ (by omega) _

theorem nhr_bmp (b : Bytes) : NoHang (BmpMessage.decodeFromIn .release b) := by
  unfold BmpMessage.decodeFromIn
  refine nh_bind (nh_idx _ _) fun _ _ => ?_
  split
  · exact nh_bind (nh_rfrom _ _) fun _ _ => nh_bind (nhr_rmon _) fun _ _ => nh_ok
  · exact nh_ok
  · exact nh_bind (nh_rfrom _ _) fun _ _ => nh_bind (nhr_peerDown _) fun _ _ => nh_ok
  · exact nh_bind (nh_rfrom _ _) fun _ _ => nh_bind (nhr_peerUp _) fun _ _ => nh_ok
  · exact nh_bind (nh_rfrom _ _) fun _ _ => nh_bind (nh_initLoop _ _ _ (by omega) _) fun _ _ => nh_ok
  · exact nh_bind (nh_rfrom _ _) fun _ _ => nh_bind (nhr_term _) fun _ _ => nh_ok
  · exact nh_ok
  · exact nh_err

theorem nhr_session (s : BMPSession) (b : Bytes) : NoHang (s.decodeFromIn .release b).1 := by
  unfold BMPSession.decodeFromIn
  split
  · split
    · exact nh_bind (nh_rfrom _ _) fun _ _ => nh_bind (nhr_decodeRm _ _) fun _ _ => nh_ok
    · exact nh_ok
    · have : NoHang (do BmpMessagePeerDown.decodeFromIn .release (← rfrom b 1) : Res (BmpMessagePeerDown × Nat)) :=
        nh_bind (nh_rfrom _ _) fun _ _ => nhr_peerDown _
      split
      · exact nh_ok
      · exact nh_err
      · exact nh_panic
      · rename_i h; exact absurd h this
    · have : NoHang (do BmpMessagePeerUp.decodeFromIn .release (← rfrom b 1) : Res (BmpMessagePeerUp × Nat)) :=
        nh_bind (nh_rfrom _ _) fun _ _ => nhr_peerUp _
      split
      · exact nh_ok
      · exact nh_err
      · exact nh_panic
      · rename_i h; exact absurd h this
    · exact nh_bind (nh_rfrom _ _) fun _ _ => nh_bind (nh_initLoop _ _ _ (by omega) _) fun _ _ => nh_ok
    · exact nh_bind (nh_rfrom _ _) fun _ _ => nh_bind (nhr_term _) fun _ _ => nh_ok
    · exact nh_ok
    · exact nh_err
  · exact nh_panic

end Zbgp
