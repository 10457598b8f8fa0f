import Verif.Lemmas.Frame
import Verif.Lemmas.Bmp

/-! # What the encoders of messages leave alone -/

namespace Zbgp

open Spec

/-! ## Capabilities -/

instance (c : BgpCapGR) : KeepsLen c.encodeTo where
  post b := by
    unfold BgpCapGR.encodeTo
    (repeat' frame_step)
    · refine post_mono (post_setIdx _ _ _) ?_
      rintro _ ⟨_, _, _⟩
      omega
    · omega

instance (c : BgpCapLLGR) : KeepsLen c.encodeTo where
  post b := by
    unfold BgpCapLLGR.encodeTo
    (repeat' frame_step)
    refine post_mono (post_copyAt _ _ _ _) ?_
    rintro _ ⟨_, _, _, _, _⟩
    omega

instance (c : BgpCapAddPath) : KeepsLen c.encodeTo where
  post b := by
    unfold BgpCapAddPath.encodeTo
    (repeat' frame_step)
    refine post_mono (post_setIdx _ _ _) ?_
    rintro _ ⟨_, _, _⟩
    omega

instance fills_chunks {α : Type} (k : Nat) (enc : α → Bytes → Res Bytes) [h : ∀ x, KeepsLen (enc x)] (l : List α) :
    Fills (l.length * k) (BgpCapability.fillChunks k enc l) where
  post t := by
    induction l generalizing t with
    | nil => exact post_ok ⟨by simp, rfl, fun _ _ => rfl⟩
    | cons x l ih =>
      unfold BgpCapability.fillChunks
      split
      · refine post_bind ((h x).post _) fun r1 h1 => post_bind (ih _) ?_
        rintro r2 ⟨h2, h3, h4⟩
        simp only [List.length_take, List.length_drop] at h1 h2 h3
        simp only [List.length_cons, Nat.add_mul]
        refine post_ok ⟨by omega, by simp only [List.length_append]; omega, fun j hj => ?_⟩
        rw [List.getElem?_append_right (by omega), h4 _ (by omega), List.getElem?_drop]
        congr 1; omega
      · exact post_panic

theorem post_copyAll' (b src : Bytes) (n : Nat) (hn : src.length = n) :
    Post (copyAll b src) fun r => n ≤ b.length ∧ r.length = b.length ∧ ∀ k, n ≤ k → r[k]? = b[k]? := by
  refine post_mono (post_and (post_copyAll b src) fun r hr => (?_ : r = src)) ?_
  · unfold copyAll at hr
    split at hr <;> cases hr
    rfl
  · rintro r ⟨⟨h1, h2⟩, h3⟩
    subst h3
    refine ⟨by omega, h1, fun k hk => ?_⟩
    rw [List.getElem?_eq_none (by omega), List.getElem?_eq_none (by omega)]

instance (c : BgpCapability) : Fills c.bytesLen c.fillBuffer where
  post b := by
    unfold BgpCapability.fillBuffer
    split
    · exact post_err
    · cases c
      case CapGR t s l hh =>
        frame_step; frame_step
        split
        · exact post_err
        · frame_step
          extract_lets jp
          have hjp : ∀ c : Bytes, Post (jp c) fun r => 4 + l.length * 4 ≤ c.length ∧ r.length = c.length ∧
              ∀ k, 4 + l.length * 4 ≤ k → r[k]? = c[k]? := by
            intro c
            refine post_mono (post_modFrom _ _ _) ?_
            rintro _ ⟨_, _, _⟩
            frame_end
          split
          · repeat frame_step
            refine post_mono (hjp _) ?_
            rintro _ ⟨_, _, _⟩
            simp only [BgpCapability.bytesLen] at *
            frame_end
          · refine post_mono (hjp _) ?_
            rintro _ ⟨_, _, _⟩
            simp only [BgpCapability.bytesLen] at *
            frame_end
      case CapFQDN h d =>
        repeat frame_step
        refine post_mono (post_copyAt _ _ _ _) ?_
        rintro _ ⟨_, _, _, _, _⟩
        simp only [BgpCapability.bytesLen] at *
        refine ⟨by omega, by omega, fun k hk => ?_⟩
        simp (disch := omega) only [*]
      case CapAddPath l =>
        repeat frame_step
        refine post_mono (post_modFrom _ _ _) ?_
        rintro _ ⟨_, _, _⟩
        simp only [BgpCapability.bytesLen] at *
        frame_end
      case CapLLGR l =>
        repeat frame_step
        refine post_mono (post_modFrom _ _ _) ?_
        rintro _ ⟨_, _, _⟩
        simp only [BgpCapability.bytesLen] at *
        frame_end
      all_goals exact post_copyAll' _ _ _ rfl

theorem post_onSliceE {α : Type} (b : Bytes) (s e : Nat) (f : Bytes → Res (Bytes × α))
    (hf : ∀ t, Post (f t) fun r => r.1.length = t.length) :
    Post (onSliceE b s e f) fun r => s ≤ e ∧ e ≤ b.length ∧ r.1.length = b.length ∧ ∀ k, e ≤ k → r.1[k]? = b[k]? := by
  unfold onSliceE
  split
  · rename_i hs
    refine post_bind (hf _) fun r h2 => ?_
    obtain ⟨t, a⟩ := r
    simp only [List.length_drop, List.length_take] at h2
    refine post_ok ⟨hs.1, hs.2, by simp; omega, fun k hk => ?_⟩
    simp only
    rw [List.getElem?_append_right (by simp; omega), List.getElem?_drop]
    congr 1; simp; omega
  · exact post_err

instance framed_caps (l : List BgpCapability) : Framed id (BgpOpenMessage.encodeCaps l) where
  post b := by
    induction l generalizing b with
    | nil => exact post_ok ⟨by simp, rfl, fun _ _ => rfl⟩
    | cons c l ih =>
      have : Framed id (BgpOpenMessage.encodeCaps l) := ⟨ih⟩
      unfold BgpOpenMessage.encodeCaps
      frame_step; frame_step
      refine post_bind (post_onSliceE _ _ _ _ fun t => post_bind (KeepsLen.post t) fun r h => post_ok h) ?_
      rintro ⟨_, _⟩ ⟨_, _, _, _⟩
      (try simp only at *)
      frame

instance (m : BgpOpenMessage) : Framed id m.encodeTo where
  post b := by unfold BgpOpenMessage.encodeTo; frame

instance (m : BgpNotificationMessage) : Framed id m.encodeTo where
  post b := by unfold BgpNotificationMessage.encodeTo; frame

instance : Framed id keepaliveEncode where
  post b := post_ok ⟨by simp, rfl, fun _ _ => rfl⟩

theorem post_prepare (b : Bytes) (ty : BgpMessageType) (n : Nat) :
    Post (BgpSessionParams.prepareMessageBuf b ty n) fun r => 19 ≤ r.2 ∧ r.2 ≤ n + 19 ∧ n + 19 ≤ b.length ∧ r.1.length = b.length ∧
      ∀ k, 19 ≤ k → r.1[k]? = b[k]? := by
  unfold BgpSessionParams.prepareMessageBuf
  split
  · exact post_err
  · repeat frame_step
    rename_i hlt _ _ _ _ _ _ x hx _ _ _ _ _ _ _ _ _ _ _ _
    have : (BitVec.ofNat 16 n).toNat ≤ n := by simp [Nat.mod_le]
    have : (19 : U16).toNat = 19 := rfl
    refine ⟨by simp only; omega, by simp only; omega, by omega, by simp only; omega, fun k hk => ?_⟩
    simp (disch := omega) only [*]

instance (ty : BgpMessageType) (n : Nat) : Framed id (fun b => BgpSessionParams.prepareMessageBuf b ty n) where
  post b := by
    refine post_mono (post_prepare b ty n) ?_
    rintro ⟨_, _⟩ ⟨_, _, _, _, _⟩
    frame_end

theorem frame_update (p : BgpSessionParams) (x : BgpUpdateMessage) (h : ∀ a ∈ x.attrs, AttrFramed a) :
    Frame (x.encodeTo p) := by
  intro buf buf' n he
  obtain ⟨w, ws, u, h1, h2, h3, h4, h5, h6, h7⟩ := update_encode_ok p x h buf buf' n he
  refine ⟨h6, ?_, ?_⟩
  · rw [h7]; simp only [List.length_append, List.length_drop]; omega
  · rw [h7, h5]; simp

theorem framed_update (p : BgpSessionParams) (x : BgpUpdateMessage) (h : ∀ a ∈ x.attrs, AttrFramed a) :
    Framed id (x.encodeTo p) := frame_iff.1 (frame_update p x h)

/-! ## Sizes -/

/-- the encoder keeps the size of the buffer -/
class KeepsSize {α : Type} (f : Bytes → Res (Bytes × α)) : Prop where
  post : ∀ b, Post (f b) fun r => r.1.length = b.length

instance (priority := low) {α : Type} {pos : α → Nat} {f : Bytes → Res (Bytes × α)} [h : Framed pos f] : KeepsSize f where
  post b := post_mono (h.post b) fun _ h => h.2.1

theorem keepsSize_of {α : Type} {pos : α → Nat} {f : Bytes → Res (Bytes × α)} (h : Framed pos f) : KeepsSize f := inferInstance

theorem size_onFrom {α : Type} (b : Bytes) (s : Nat) (f : Bytes → Res (Bytes × α)) [hf : KeepsSize f] :
    Post (onFrom b s f) fun r => r.1.length = b.length := by
  unfold onFrom
  split
  · refine post_bind (hf.post _) fun r h => ?_
    simp only [List.length_drop] at h
    refine post_ok ?_
    simp only [List.length_append, List.length_take]; omega
  · exact post_panic

theorem size_onRange {α : Type} (b : Bytes) (s e : Nat) (f : Bytes → Res (Bytes × α)) [hf : KeepsSize f] :
    Post (onRange b s e f) fun r => r.1.length = b.length := by
  unfold onRange
  split
  · refine post_bind (hf.post _) fun r h => ?_
    simp only [List.length_drop, List.length_take] at h
    refine post_ok ?_
    simp only [List.length_append, List.length_take, List.length_drop]; omega
  · exact post_panic

theorem size_onSliceE {α : Type} (b : Bytes) (s e : Nat) (f : Bytes → Res (Bytes × α)) [hf : KeepsSize f] :
    Post (onSliceE b s e f) fun r => r.1.length = b.length :=
  post_mono (post_onSliceE b s e f hf.post) fun _ h => h.2.2.1

theorem size_modFrom {n : Nat} (b : Bytes) (s : Nat) (f : Bytes → Res Bytes) [hf : Fills n f] :
    Post (modFrom b s f) fun r => r.length = b.length := post_mono (post_modFrom b s f) fun _ h => h.2.1

/-- one step through an encoder, looking at sizes only -/
macro "size_step" : tactic => `(tactic| first
  | exact post_err
  | exact post_panic
  | exact post_hang
  | (refine post_bind (post_setIdx _ _ _) ?_; rintro _ ⟨_, _, _⟩)
  | (refine post_bind (post_idx _ _) ?_; intro _ _)
  | (refine post_bind (post_rslice _ _ _) ?_; rintro _ ⟨_, _, _⟩)
  | (refine post_bind (post_addC _ _) ?_; intro _ _)
  | (refine post_bind (post_subN _ _) ?_; rintro _ ⟨_, _⟩)
  | (refine post_bind (post_copyAt _ _ _ _) ?_; rintro _ ⟨_, _, _, _, _⟩)
  | (refine post_bind (post_modRange _ _ _ _) ?_; rintro _ ⟨_, _, _, _⟩)
  | (refine post_bind (size_modFrom _ _ _) ?_; intro _ _)
  | (refine post_bind (size_onFrom _ _ _) ?_; rintro ⟨_, _⟩ _; (try dsimp only at *))
  | (refine post_bind (size_onRange _ _ _ _) ?_; rintro ⟨_, _⟩ _; (try dsimp only at *))
  | (refine post_bind (size_onSliceE _ _ _ _) ?_; rintro ⟨_, _⟩ _; (try dsimp only at *))
  | (refine post_bind (KeepsSize.post _) ?_; rintro ⟨_, _⟩ _; (try dsimp only at *))
  | (refine post_ok ?_)
  | split)

macro "size" : tactic => `(tactic| ((repeat' size_step) <;> (try simp only [id] at *) <;> omega))

theorem size_encLoop {α : Type} (enc : α → Enc) (l : List α) (h : ∀ x ∈ l, KeepsSize (enc x)) (b : Bytes) (pos : Nat) :
    Post (encLoop enc l b pos) fun r => r.1.length = b.length := by
  induction l generalizing b pos with
  | nil => exact post_ok rfl
  | cons x l ih =>
    have := h x (by simp)
    unfold encLoop
    refine post_bind (size_onFrom _ _ _) ?_
    rintro ⟨_, _⟩ h1
    refine post_mono (ih (fun y hy => h y (by simp [hy])) _ _) fun _ h2 => ?_
    simp only at h1
    omega

instance (x : BgpAddrL2) : KeepsSize (BgpItemLong.packTo x) where
  post b := by simp only [BgpItemLong.packTo]; size

instance (x : BgpAddrL2) : KeepsSize (encodeLongItem x) where
  post b := by unfold encodeLongItem; size

theorem size_esi (t : U8) (e : EVPNESI) (b : Bytes) (pos : Nat) : Post (e.write t b pos) fun r => r.length = b.length :=
  post_mono (post_esi t e b pos) fun _ h => h.2.1

instance (x : BgpEVPN5) (mode : BgpTransportMode) : KeepsSize (BgpAddrItem.encodeTo x mode) where
  post b := by
    simp only [BgpAddrItem.encodeTo]
    size_step
    refine post_bind (size_esi _ _ _ _) ?_
    intro _ _
    size_step
    size_step
    rename_i b1 _ _ _
    refine post_bind (Q := fun r => r.1.length = b1.length) ?_ ?_
    · size
    · rintro ⟨_, _⟩ _
      size

instance (x : BgpEVPN) (mode : BgpTransportMode) : KeepsSize (BgpAddrItem.encodeTo x mode) where
  post b := by
    change Post (BgpEVPN.encodeTo x mode b) _
    unfold BgpEVPN.encodeTo
    refine post_bind (Q := fun r => r.1.length = b.length) ?_ ?_
    · cases x
      all_goals
        size_step
        refine post_mono (size_onFrom _ _ _) ?_
        intro _ _
        omega
    · rintro ⟨_, _⟩ _
      (try simp only [id] at *)
      size

instance size_addrs (x : BgpAddrs) (p : BgpSessionParams) : KeepsSize (x.encodeTo p) where
  post b := by
    cases x
    case L2VPLS v =>
      unfold BgpAddrs.encodeTo encodeLongItems
      exact size_encLoop _ _ (fun _ _ => inferInstance) _ _
    case EVPN v =>
      unfold BgpAddrs.encodeTo encodeAddrItems
      exact size_encLoop _ _ (fun _ _ => inferInstance) _ _
    all_goals
      exact post_mono ((framed_addrs _ p (by intro v h; cases h) (by intro v h; cases h)).post b) fun _ h => h.2.1

instance (x : BgpMPUpdates) (p : BgpSessionParams) : KeepsSize (x.encodeTo p) where
  post b := by
    unfold BgpMPUpdates.encodeTo
    size_step
    size_step
    refine post_bind (post_nexthop _ _ _) ?_
    rintro ⟨_, _⟩ ⟨_, _, _⟩
    (try simp only [id] at *)
    size

instance (x : BgpMPWithdraws) (p : BgpSessionParams) : KeepsSize (x.encodeTo p) where
  post b := by
    unfold BgpMPWithdraws.encodeTo
    size

theorem size_encodeValue (x : BgpAttrItem) (p : BgpSessionParams) : KeepsSize (x.encodeValue p) where
  post b := by
    cases x
    case AggregatorAS x => exact post_ok rfl
    case MPUpdates x => exact KeepsSize.post (f := x.encodeTo p) b
    case MPWithdraws x => exact KeepsSize.post (f := x.encodeTo p) b
    all_goals exact post_mono ((framed_value _ p (by simp [AttrFramed])).post b) fun _ h => h.2.1

instance size_attr (x : BgpAttrItem) (p : BgpSessionParams) : KeepsSize (x.encodeTo p) where
  post b := by
    have := size_encodeValue x p
    unfold BgpAttrItem.encodeTo BgpAttrItem.encodeBgpattr
    size

theorem size_attrs (p : BgpSessionParams) (lp : Nat) (l : List BgpAttrItem) (b : Bytes) (pos : Nat) :
    Post (BgpUpdateMessage.encodeAttrs p lp l b pos) fun r => r.1.length = b.length := by
  induction l generalizing b pos with
  | nil => exact post_ok rfl
  | cons x l ih =>
    unfold BgpUpdateMessage.encodeAttrs
    size_step
    · exact post_err
    · refine post_bind (size_onSliceE _ _ _ _) ?_
      rintro ⟨_, _⟩ h1
      refine post_mono (ih _ _) fun _ h2 => ?_
      simp only at h1
      omega

theorem size_section {p : BgpSessionParams} {x : BgpAddrs} {enc : Enc} (h : BgpUpdateMessage.nlriEncoder p x = some enc) :
    KeepsSize enc := by
  rw [nlriEncoder_eq] at h
  split at h
  · cases h; infer_instance
  · cases h

instance (v : U16) : KeepsSize (fun b => do .ok (← setn16 v b, ())) where
  post b := by
    refine post_bind (Fills.post (f := setn16 v) b) ?_
    rintro _ ⟨_, _, _⟩
    exact post_ok (by simp only; omega)

instance size_update (x : BgpUpdateMessage) (p : BgpSessionParams) : KeepsSize (x.encodeTo p) where
  post b := by
    unfold BgpUpdateMessage.encodeTo
    refine post_bind (Q := fun r => r.1.length = b.length) ?_ ?_
    · unfold BgpUpdateMessage.encodeWithdraws
      split
      · rename_i enc he
        have := size_section he
        size
      · refine post_bind (Fills.post (f := setn16 0) b) ?_
        rintro _ ⟨_, _, _⟩
        exact post_ok (by simp only; omega)
    · rintro ⟨_, _⟩ _
      (try simp only [id] at *)
      refine post_bind (size_attrs _ _ _ _ _) ?_
      rintro ⟨_, _⟩ _
      size_step
      split
      · rename_i enc he
        have := size_section he
        size
      · size

/-! ## BMP -/

instance (a : IpAddr) : KeepsSize (encodeBmpAddr a) where
  post b := by
    unfold encodeBmpAddr
    split
    · exact post_err
    · split
      · refine post_bind (size_onFrom _ _ _) ?_
        rintro ⟨_, _⟩ h
        exact post_ok (by simpa using h)
      · size

instance (h : BmpMessagePeerHeader) : KeepsSize h.encodeTo where
  post b := by unfold BmpMessagePeerHeader.encodeTo; size

instance (h : BmpMessageHeader) : Framed id h.encodeTo where
  post b := by unfold BmpMessageHeader.encodeTo; frame

instance (x : BmpInfoVal) : Framed id x.encodeTo where
  post b := by unfold BmpInfoVal.encodeTo; frame

theorem post_encodeInfo (ty : U16) (s : Option Bytes) (b : Bytes) (pos : Nat) (hp : pos ≤ b.length) :
    Post (BmpMessageInitiation.encodeInfo ty s b pos) fun r => r.2 ≤ b.length ∧ r.1.length = b.length ∧
      pos ≤ r.2 ∧ ∀ k, r.2 ≤ k → r.1[k]? = b[k]? := by
  unfold BmpMessageInitiation.encodeInfo
  split
  · exact post_ok ⟨hp, rfl, Nat.le_refl _, fun _ _ => rfl⟩
  · frame_step
    refine post_ok ⟨by simp only; omega, by simp only; omega, by simp only; omega, fun k hk => ?_⟩
    simp only at *
    simp (disch := omega) only [*]

instance (x : BmpMessageInitiation) : Framed id x.encodeTo where
  post b := by
    unfold BmpMessageInitiation.encodeTo
    refine post_bind (post_encodeInfo _ _ _ _ (by omega)) ?_
    rintro ⟨_, _⟩ ⟨_, _, _, _⟩
    (try simp only at *)
    refine post_bind (post_encodeInfo _ _ _ _ (by omega)) ?_
    rintro ⟨_, _⟩ ⟨_, _, _, _⟩
    (try simp only at *)
    refine post_mono (post_encodeInfo _ _ _ _ (by omega)) ?_
    rintro ⟨_, _⟩ ⟨_, _, _, _⟩
    frame_end

instance (x : BmpMessageTermination) : Framed id x.encodeTo where
  post b := by
    unfold BmpMessageTermination.encodeTo
    refine post_bind (Q := fun r => r.2 ≤ b.length ∧ r.1.length = b.length ∧ ∀ k, r.2 ≤ k → r.1[k]? = b[k]?) ?_ ?_
    · unfold BmpMessageTermination.encodeStr
      split
      · exact post_ok ⟨by simp, rfl, fun _ _ => rfl⟩
      · frame
    · rintro ⟨_, _⟩ ⟨_, _, _⟩
      (try simp only at *)
      unfold BmpMessageTermination.encodeReason
      split
      · frame
      · frame

theorem size_embedded (ty : BgpMessageType) (enc : Enc) [KeepsSize enc] (b : Bytes) (pos : Nat) :
    Post (encodeEmbedded ty enc b pos) fun r => r.1.length = b.length := by
  unfold encodeEmbedded
  size_step
  refine post_bind (size_onFrom _ _ _ (hf := keepsSize_of (pos := id) inferInstance)) ?_
  rintro ⟨_, _⟩ _
  size

instance (x : BmpMessageRouteMonitoring) : KeepsSize x.encodeTo where
  post b := by
    unfold BmpMessageRouteMonitoring.encodeTo
    size_step
    · exact post_err
    · size_step
      refine post_mono (size_embedded _ _ _ _) ?_
      intro _ _
      (try simp only at *)
      omega

instance (x : BmpMessagePeerUp) : KeepsSize x.encodeTo where
  post b := by
    unfold BmpMessagePeerUp.encodeTo
    size_step
    · exact post_err
    · repeat size_step
      refine post_bind (size_embedded _ _ _ _) ?_
      rintro ⟨_, _⟩ _
      refine post_mono (size_embedded _ _ _ _) ?_
      intro _ _
      (try simp only at *)
      omega

theorem size_notification (code : U8) (m : BgpNotificationMessage) (b : Bytes) (pos : Nat) :
    Post (BmpMessagePeerDown.encodeNotification code m b pos) fun r => r.1.length = b.length := by
  unfold BmpMessagePeerDown.encodeNotification
  size_step
  size_step
  size_step
  · exact post_err
  · refine post_mono (size_embedded _ _ _ _) ?_
    intro _ _
    omega

instance (x : BmpMessagePeerDown) : KeepsSize x.encodeTo where
  post b := by
    unfold BmpMessagePeerDown.encodeTo
    size_step
    · exact post_err
    · size_step
      size_step
      · refine post_mono (size_notification _ _ _ _) ?_
        intro _ _
        (try simp only at *)
        omega
      · size
      · refine post_mono (size_notification _ _ _ _) ?_
        intro _ _
        (try simp only at *)
        omega
      · size
      · size

theorem size_typed (code : U8) (enc : Enc) [KeepsSize enc] (b : Bytes) :
    Post (BmpMessage.encodeTyped code enc b) fun r => r.1.length = b.length := by
  unfold BmpMessage.encodeTyped
  size

instance size_bmp (x : BmpMessage) : KeepsSize x.encodeTo where
  post b := by
    unfold BmpMessage.encodeTo
    split
    · exact post_err
    · split <;> first | exact post_panic | exact size_typed _ _ _

end Zbgp
