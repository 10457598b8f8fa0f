import Verif.Lemmas.Extend

/-!
# Encoders in buffers that are too short
-/

namespace Zbgp

open Spec

attribute [-simp] List.length_flatMap

theorem sizeIndependent_of (f : Enc) [h : Ext f] : SizeIndependent f := by
  intro buf buf' n ext he
  obtain ⟨b, hb, rfl⟩ := h.sim buf ext _ he
  exact hb

/-- an encoder that does not look at the size of the buffer does not succeed in one that is too short -/
theorem short_not_ok {f : Enc} {w : Bytes} (he : SizeIndependent f) (hw : Writes f w) {buf : Bytes} (hb : buf.length < w.length) :
    ∀ r, f buf ≠ .ok r := by
  rintro ⟨buf', n⟩ h
  have key : ∀ x : U8, w[buf.length]? = some x := by
    intro x
    have h1 := he buf buf' n (List.replicate w.length x) h
    rw [hw _ (by simp)] at h1
    simp only [Res.ok.injEq, Prod.mk.injEq] at h1
    have h2 := h1.1
    -- the lengths of the buffers
    have h3 := congrArg List.length h2
    simp only [List.length_append, List.length_drop, List.length_replicate] at h3
    have h4 : (w ++ List.drop w.length (buf ++ List.replicate w.length x))[buf.length]? =
        (buf' ++ List.replicate w.length x)[buf.length]? := by rw [h2]
    rw [List.getElem?_append_left hb, List.getElem?_append_right (by omega), List.getElem?_replicate] at h4
    rw [h4, if_pos (by omega)]
  have h0 := key 0
  rw [key 1] at h0
  cases h0

theorem errs_of_returns {f : Enc} {w : Bytes} (he : SizeIndependent f) (hw : Writes f w) (hr : NeverPanics f) :
    ErrsWhenShort f w := by
  refine ⟨hw, fun buf hb => ?_⟩
  have h1 := short_not_ok he hw hb
  have h2 := hr buf
  cases h : f buf with
  | ok a => exact absurd h (h1 a)
  | err e => trivial
  | panic => rw [h] at h2; exact h2.elim
  | hang => rw [h] at h2; exact h2.elim

/-- the computation ends without an error: it succeeds or panics -/
def Plain {α : Type} (r : Res α) : Prop := (∃ a, r = .ok a) ∨ r = .panic

theorem plain_ok {α : Type} {a : α} : Plain (.ok a) := .inl ⟨a, rfl⟩
theorem plain_panic {α : Type} : Plain (.panic : Res α) := .inr rfl
theorem plain_bind {α β : Type} {r : Res α} {f : α → Res β} (h : Plain r) (hf : ∀ a, Plain (f a)) : Plain (r >>= f) := by
  rcases h with ⟨a, rfl⟩ | rfl
  · exact hf a
  · exact plain_panic

theorem plain_idx {α : Type} (b : List α) (i : Nat) : Plain (idx b i) := by
  unfold idx; split <;> first | exact plain_ok | exact plain_panic
theorem plain_setIdx {α : Type} (b : List α) (i : Nat) (x : α) : Plain (setIdx b i x) := by
  unfold setIdx; split <;> first | exact plain_ok | exact plain_panic
theorem plain_rslice {α : Type} (b : List α) (s e : Nat) : Plain (rslice b s e) := by
  unfold rslice; split <;> first | exact plain_ok | exact plain_panic
theorem plain_copyAll (b s : Bytes) : Plain (copyAll b s) := by
  unfold copyAll; split <;> first | exact plain_ok | exact plain_panic
theorem plain_copyAt (b : Bytes) (s e : Nat) (t : Bytes) : Plain (copyAt b s e t) := by
  unfold copyAt; split <;> first | exact plain_ok | exact plain_panic
theorem plain_addC {w : Nat} (a b : BitVec w) : Plain (addC a b) := by
  unfold addC; split <;> first | exact plain_ok | exact plain_panic
theorem plain_subN (a b : Nat) : Plain (subN a b) := by
  unfold subN; split <;> first | exact plain_ok | exact plain_panic
theorem plain_onFrom {α : Type} (b : Bytes) (s : Nat) {f : Bytes → Res (Bytes × α)} (h : ∀ b, Plain (f b)) : Plain (onFrom b s f) := by
  unfold onFrom; split
  · exact plain_bind (h _) fun _ => plain_ok
  · exact plain_panic
theorem plain_modRange (b : Bytes) (s e : Nat) {f : Bytes → Res Bytes} (h : ∀ b, Plain (f b)) : Plain (modRange b s e f) := by
  unfold modRange; split
  · exact plain_bind (h _) fun _ => plain_ok
  · exact plain_panic

syntax "plain_atom" : tactic
macro_rules | `(tactic| plain_atom) => `(tactic| first
  | exact plain_ok | exact plain_panic | exact plain_idx _ _ | exact plain_setIdx _ _ _ | exact plain_rslice _ _ _
  | exact plain_copyAll _ _ | exact plain_copyAt _ _ _ _ | exact plain_addC _ _ | exact plain_subN _ _)
macro "plain" : tactic => `(tactic| (repeat' first | (with_reducible plain_atom) | (refine plain_bind ?_ fun _ => ?_) | split | (simp only [])))

theorem plain_setn32 (v : U32) (b : Bytes) : Plain (setn32 v b) := by unfold setn32; plain
theorem plain_rd (r : BgpRD) (b : Bytes) : Plain (r.encodeTo b) := by
  unfold BgpRD.encodeTo
  exact plain_bind (plain_setn32 _ _) fun _ => plain_bind (plain_modRange _ _ _ (plain_setn32 _)) fun _ => plain_ok

/-- an NLRI kind whose encoder never returns an error -/
class ItemPlain (T : Type) [BgpItem T] : Prop where
  plain : ∀ (x : T) b, Plain (BgpItem.setBits x b)

instance : ItemPlain BgpAddrV4 where
  plain x b := by show Plain (BgpAddrV4.toBits x b); unfold BgpAddrV4.toBits; plain
instance : ItemPlain BgpAddrV6 where
  plain x b := by show Plain (BgpAddrV6.toBits x b); unfold BgpAddrV6.toBits; plain
theorem plain_setLoop (l : List U32) (b : Bytes) (pos : Nat) : Plain (MplsLabels.setLoop l b pos) := by
  induction l generalizing b pos with
  | nil => exact plain_ok
  | cons x xs ih =>
    rw [MplsLabels.setLoop]
    exact plain_bind (plain_setIdx _ _ _) fun _ => plain_bind (plain_setIdx _ _ _) fun _ =>
      plain_bind (plain_setIdx _ _ _) fun _ => ih _ _
theorem plain_labels (m : MplsLabels) (b : Bytes) : Plain (m.setBits b) := by
  unfold MplsLabels.setBits
  split
  · exact plain_ok
  · refine plain_bind (plain_setLoop _ _ _) fun _ => ?_
    plain
instance {T : Type} [BgpItem T] [ItemPlain T] : ItemPlain (Labeled T) where
  plain x b := by
    refine plain_bind (plain_labels _ _) fun _ => plain_bind (plain_onFrom _ _ (ItemPlain.plain _)) fun _ => ?_
    plain
instance {T : Type} [BgpItem T] [ItemPlain T] : ItemPlain (WithRd T) where
  plain x b := by
    refine plain_bind (plain_rd _ _) fun _ => plain_bind (plain_onFrom _ _ (ItemPlain.plain _)) fun _ => ?_
    plain
instance : ItemPlain BgpMdtV4 where
  plain x b := by simp only [BgpItem.setBits]; plain
instance : ItemPlain BgpMdtV6 where
  plain x b := by simp only [BgpItem.setBits]; plain

theorem plain_item {T : Type} [BgpItem T] [ItemPlain T] (x : T) (b : Bytes) : Plain (encodeItem x b) := by
  refine plain_bind (plain_onFrom _ _ (ItemPlain.plain _)) fun _ => ?_
  plain
theorem plain_pathIdItem {T : Type} [BgpItem T] [ItemPlain T] (x : WithPathId T) (b : Bytes) : Plain (encodePathIdItem x b) := by
  refine plain_bind (plain_setn32 _ _) fun _ => plain_bind (plain_onFrom _ _ (ItemPlain.plain _)) fun _ => ?_
  plain
theorem plain_encLoop {α : Type} {enc : α → Enc} (h : ∀ x b, Plain (enc x b)) (l : List α) (b : Bytes) (pos : Nat) :
    Plain (encLoop enc l b pos) := by
  induction l generalizing b pos with
  | nil => exact plain_ok
  | cons x xs ih => exact plain_bind (plain_onFrom _ _ (h x)) fun _ => ih _ _

theorem panics_of_plain {f : Enc} {w : Bytes} (he : SizeIndependent f) (hw : Writes f w) (hp : ∀ b, Plain (f b)) :
    PanicsWhenShort f w :=
  ⟨hw, fun buf hb => (hp buf).resolve_left fun ⟨a, ha⟩ => short_not_ok he hw hb a ha⟩

/-! ## Encoders that never panic -/

theorem ret_ok {α : Type} {a : α} : (Res.ok a).Returns := trivial
theorem ret_err {α : Type} {e : BgpError} : (Res.err e : Res α).Returns := trivial

theorem returns_of_isOk {α : Type} {r : Res α} (h : ∃ a, r = .ok a) : r.Returns := by
  obtain ⟨a, rfl⟩ := h; trivial

/-- an encoder that checks the size first never panics -/
theorem never_of_check {f : Enc} {w : Bytes} (hw : Writes f w) (hs : ∀ buf, buf.length < w.length → (f buf).IsErr) : NeverPanics f := by
  intro buf
  by_cases h : w.length ≤ buf.length
  · rw [hw buf h]; trivial
  · have := hs buf (by omega)
    cases h : f buf <;> rw [h] at this <;> trivial

theorem errs_encLoop {α : Type} {enc : α → Enc} {w : α → Bytes} (l : List α)
    (h : ∀ x ∈ l, ErrsWhenShort (enc x) (w x)) : ErrsWhenShort (fun b => encLoop enc l b 0) (l.flatMap w) := by
  refine ⟨encLoop_writes_zero l fun x hx => (h x hx).1, fun buf hb => ?_⟩
  have key : ∀ (l : List α) (p t : Bytes), (∀ x ∈ l, ErrsWhenShort (enc x) (w x)) → t.length < (l.flatMap w).length →
      (encLoop enc l (p ++ t) p.length).IsErr := by
    intro l
    induction l with
    | nil => intro p t _ ht; simp at ht
    | cons x xs ih =>
      intro p t h ht
      simp only [List.flatMap_cons, List.length_append] at ht
      simp only [encLoop]
      rw [onFrom_append p t _ _ rfl]
      by_cases hx : (w x).length ≤ t.length
      · rw [(h x (by simp)).1 t hx]
        simp only [Res.ok_bind]
        rw [← List.append_assoc]
        have := ih (p ++ w x) (t.drop (w x).length) (fun y hy => h y (by simp [hy])) (by simp; omega)
        rwa [List.length_append] at this
      · have := (h x (by simp)).2 t (by omega)
        cases he : enc x t <;> rw [he] at this <;> simp_all
  exact key l [] buf h hb

theorem errs_addrV4 (a : IPv4) : ErrsWhenShort (encodeAddrV4 a) (be 4 a.toNat) :=
  ⟨writes_encodeAddrV4 a, fun buf hb => by simp only [be_length] at hb; simp [encodeAddrV4, hb]⟩
theorem errs_addrV6 (a : IPv6) : ErrsWhenShort (encodeAddrV6 a) (be 16 a.toNat) :=
  ⟨writes_encodeAddrV6 a, fun buf hb => by simp only [be_length] at hb; simp [encodeAddrV6, hb]⟩
theorem errs_addr (a : IpAddr) : ErrsWhenShort (encodeAddr a) (ipBody a) := by
  cases a with
  | v4 a => exact errs_addrV4 a
  | v6 a => exact errs_addrV6 a

theorem errs_notif (m : BgpNotificationMessage) : ErrsWhenShort m.encodeTo (notifWire m) :=
  ⟨notif_writes m, fun buf hb => by
    simp only [notifWire, notificationWire, List.length_append, be_length] at hb
    simp [BgpNotificationMessage.encodeTo, show buf.length < 4 by omega]⟩

theorem errs_community (c : BgpCommunity) : ErrsWhenShort c.encodeTo (communityWire c) :=
  ⟨community_writes c, fun buf hb => by
    simp only [communityWire, be_length] at hb; simp [BgpCommunity.encodeTo, hb]⟩
theorem errs_large (c : BgpLargeCommunity) : ErrsWhenShort c.encodeTo (largeCommunityWire c) :=
  ⟨largeCommunity_writes c, fun buf hb => by
    simp only [largeCommunityWire, be_length, List.length_append] at hb; simp [BgpLargeCommunity.encodeTo, hb]⟩
theorem errs_ext (c : BgpExtCommunity) : ErrsWhenShort c.encodeTo (extCommunityWire c) :=
  ⟨extCommunity_writes c, fun buf hb => by
    simp only [extCommunityWire, be_length, List.length_append, List.length_cons, List.length_nil] at hb
    simp [BgpExtCommunity.encodeTo, hb]⟩

theorem errs_value (p : BgpSessionParams) (x : BgpAttrItem) (h : AttrOk p x) (hc : ChecksSize x) :
    ErrsWhenShort (x.encodeValue p) (valueWire p.hasAs32bit x) := by
  refine ⟨value_writes p x h, fun buf hb => ?_⟩
  cases x with
  | Origin x =>
    obtain ⟨v⟩ := x
    have : buf = [] := by cases v <;> simp [valueWire] at hb <;> exact hb
    subst this; cases v <;> trivial
  | ASPath x =>
    simp only [valueWire, asPathWire] at hb
    simp only [BgpAttrItem.encodeValue, BgpASpath.encodeTo]
    split at hb
    · simp at hb
    · rename_i hx
      rw [if_neg (by simpa using hx)]
      simp only [List.length_append, List.length_cons, List.length_nil, asns_length] at hb
      cases hp : p.hasAs32bit
      · simp only [hp] at hb ⊢
        rw [if_neg (by simp), if_pos (by simp at hb; omega)]; trivial
      · simp only [hp] at hb ⊢
        rw [if_pos trivial, if_pos (by simp at hb; omega)]; trivial
  | NextHop x =>
    obtain ⟨v⟩ := x
    cases v <;> simp only [valueWire, ipBody, be_length] at hb <;> simp only [BgpAttrItem.encodeValue, BgpNextHop.encodeTo] <;>
      rw [if_neg (by omega)] <;> trivial
  | MED x =>
    simp only [valueWire, be_length] at hb
    simp only [BgpAttrItem.encodeValue, BgpMED.encodeTo]
    rw [if_neg (by omega)]; trivial
  | LocalPref x =>
    simp only [valueWire, be_length] at hb
    simp only [BgpAttrItem.encodeValue, BgpLocalpref.encodeTo]
    rw [if_neg (by omega)]; trivial
  | AtomicAggregate x => exact (errs_addr x.value).2 buf hb
  | AggregatorAS x => exact h.elim
  | CommunityList x =>
    simp only [BgpAttrItem.encodeValue, BgpCommunityList.encodeTo]
    split
    · trivial
    · exact (errs_encLoop x.value fun c _ => errs_community c).2 buf hb
  | OriginatorID x =>
    obtain ⟨v⟩ := x
    simp only [BgpAttrItem.encodeValue, BgpOriginatorID.encodeTo]
    split
    · exact (errs_addrV4 _).2 buf hb
    · exact (errs_addrV6 _).2 buf hb
    · trivial
  | ClusterList x => exact (errs_encLoop x.value fun c _ => errs_addr c).2 buf hb
  | MPUpdates x => exact hc.elim
  | MPWithdraws x => exact hc.elim
  | ExtCommunityList x => exact (errs_encLoop x.value fun c _ => errs_ext c).2 buf hb
  | LargeCommunityList x => exact (errs_encLoop x.value fun c _ => errs_large c).2 buf hb
  | PMSITunnel x => exact h.elim
  | AttrSet _ _ => exact h.elim
  | Connector x =>
    have : valueWire p.hasAs32bit (.Connector x) = valueWire true (.Connector x) := rfl
    simp only [valueWire, be_length, List.length_append] at hb
    simp only [BgpAttrItem.encodeValue, BgpConnector.encodeTo]
    rw [if_neg (by omega)]; trivial
  | Unknown x => exact hc.elim

theorem errs_commonHeader (h : BmpMessageHeader) : ErrsWhenShort h.encodeTo (commonHeaderWire h) :=
  ⟨commonHeader_writes h, fun buf hb => by
    simp only [commonHeaderWire, be_length, List.length_append, List.length_cons, List.length_nil] at hb
    simp [BmpMessageHeader.encodeTo, show buf.length < 5 by omega]⟩

theorem errs_bind {α β : Type} {r : Res α} {f : α → Res β} (h : r.IsErr) : (r >>= f).IsErr := by
  cases r <;> first | exact h.elim | trivial

theorem errs_typed {enc : Enc} (code : U8) (hs : ∀ buf, buf.length < n → (enc buf).IsErr) {buf : Bytes} (h0 : buf ≠ [])
    (hb : buf.length < n + 1) : (BmpMessage.encodeTyped code enc buf).IsErr := by
  cases buf with
  | nil => exact absurd rfl h0
  | cons a t =>
    unfold BmpMessage.encodeTyped
    simp only [setIdx_cons_zero, Res.ok_bind]
    rw [show code :: t = [code] ++ t by rfl, onFrom_append [code] t 1 enc rfl]
    exact errs_bind (errs_bind (hs t (by simpa using hb)))

theorem optInfo_some (ty : Nat) (s : Bytes) : (optInfo ty (some s)).length = 4 + s.length := by
  simp [optInfo, infoWire_length]

theorem short_term (x : BmpMessageTermination) (buf : Bytes) (hb : buf.length < (terminationWire x).length) :
    (x.encodeTo buf).IsErr := by
  obtain ⟨s, r⟩ := x
  simp only [terminationWire, List.length_append] at hb
  unfold BmpMessageTermination.encodeTo
  by_cases h : (optInfo 0 s).length ≤ buf.length
  · have e := encodeStr_writes s [] buf h
    simp only [List.nil_append, List.length_nil] at e
    simp only [e, Res.ok_bind]
    cases r with
    | none => simp [optInfo] at hb; simp [optInfo] at h; omega
    | some r =>
      simp only [Option.map_some, optInfo_some, be_length] at hb
      simp only [BmpMessageTermination.encodeReason]
      unfold subN
      rw [if_pos (by simp), Res.ok_bind, if_pos (by simp; omega)]
      trivial
  · cases s with
    | none => simp [optInfo] at h
    | some s =>
      simp only [optInfo_some] at h
      simp only [BmpMessageTermination.encodeStr]
      unfold subN
      rw [if_pos (by simp), Res.ok_bind, if_pos (by omega)]
      trivial

theorem short_peer (h : BmpMessagePeerHeader) (buf : Bytes) (hb : buf.length < 42) : (h.encodeTo buf).IsErr := by
  unfold BmpMessagePeerHeader.encodeTo
  rw [if_pos hb]; trivial

theorem short_notification (code : U8) (m : BgpNotificationMessage) (p t : Bytes) (h1 : 1 ≤ t.length) (ht : t.length < 24) :
    (BmpMessagePeerDown.encodeNotification code m (p ++ t) p.length).IsErr := by
  cases t with
  | nil => simp at h1
  | cons a t =>
    unfold BmpMessagePeerDown.encodeNotification
    rw [setIdx_append (by omega)]
    simp only [Nat.sub_self, setIdx_cons_zero, Res.ok_bind]
    unfold subN
    rw [if_pos (by simp), Res.ok_bind]
    simp only [List.length_append, List.length_cons] at ht ⊢
    by_cases h : p.length + (t.length + 1) - (p.length + 1) < 19
    · rw [if_pos h]; trivial
    · rw [if_neg h]
      obtain ⟨m', t', rfl, hm, -⟩ := exists_split 19 (show 19 ≤ t.length by omega)
      unfold encodeEmbedded
      rw [show p ++ code :: (m' ++ t') = (p ++ code :: m') ++ t' by simp, onFrom_append _ _ _ _ (by simp; omega)]
      refine errs_bind (errs_bind ((errs_notif m).2 _ ?_))
      simp only [notifWire, notificationWire, List.length_append, be_length]
      simp at ht; omega

theorem short_peerDown (x : BmpMessagePeerDown) (buf : Bytes) (hb : buf.length < (peerDownWire x).length) :
    (x.encodeTo buf).IsErr := by
  rw [peerDownWire_length] at hb
  unfold BmpMessagePeerDown.encodeTo
  by_cases h43 : buf.length < 43
  · rw [if_pos h43]; trivial
  rw [if_neg h43, peerHeader_clears x.peer buf (by simp [peerHeaderWire_length]; omega)]
  simp only [Res.ok_bind]
  have hlen : (behind (isV4 x.peer.peeraddress) (buf.drop (peerHeaderWire x.peer).length)).length = buf.length - 42 := by
    simp [behind_length, peerHeaderWire_length]
  have hn : ∀ m, (notifWire m).length = 4 := by intro m; simp [notifWire, notificationWire]
  obtain ⟨t, ht⟩ : ∃ t, t = behind (isV4 x.peer.peeraddress) (buf.drop (peerHeaderWire x.peer).length) := ⟨_, rfl⟩
  rw [← ht] at hlen ⊢
  obtain ⟨h, r⟩ := x
  cases r with
  | AdministrativelyClosed m =>
    simp only [reasonWire, List.length_append, be_length, message_length, hn] at hb
    exact short_notification _ _ _ _ (by omega) (by omega)
  | LocalSystemState s =>
    simp only [reasonWire, List.length_append, be_length] at hb
    cases t with
    | nil => simp at hlen; omega
    | cons a t =>
      simp only
      rw [setIdx_append (by simp)]
      simp only [Nat.sub_self, setIdx_cons_zero, Res.ok_bind]
      unfold subN
      rw [if_pos (by simp), Res.ok_bind, if_pos (by simp at hlen ⊢; omega)]
      trivial
  | RemoteNotification m =>
    simp only [reasonWire, List.length_append, be_length, message_length, hn] at hb
    exact short_notification _ _ _ _ (by omega) (by omega)
  | Remote => simp [reasonWire] at hb; omega
  | BmpDisabled => simp [reasonWire] at hb; omega

/-! ## Whole attributes -/

theorem short_attr {p : BgpSessionParams} {x : BgpAttrItem} (h : AttrOk p x) (hc : ChecksSize x) {buf : Bytes}
    (hb : buf.length < (attrWire p.hasAs32bit x).length) :
    (buf.length < (if extended (attrCode x).2 then 4 else 3) → x.encodeTo p buf = .panic) ∧
    ((if extended (attrCode x).2 then 4 else 3) ≤ buf.length → (x.encodeTo p buf).IsErr) := by
  have hcode := attr_code x
  have hf : x.attr.flags = (attrCode x).2 := by rw [← hcode]
  rw [← hf]
  refine ⟨fun hs => encodeBgpattr_small _ _ _ hs, fun hs => ?_⟩
  unfold BgpAttrItem.encodeTo
  rw [encodeBgpattr_eq _ _ _ hs]
  refine errs_bind ((errs_value p x h hc).2 _ ?_)
  simp only [attrWire, List.length_append, attrHeader_length] at hb
  rw [← hf] at hb
  simp only [List.length_drop]
  omega

theorem short_fs {T : Type} [FSItem T] [FsPrefix T] [FsPrefixLawful T] (x : BgpFlowSpec T) (h : FsOpsOk x ∨ FsPrefixOk x) (buf : Bytes)
    (hb : buf.length < (fsWire x).length) : (x.encodeTo buf).IsErr := by
  have hn : x.nlen = (fsComponent x).length := h.elim (nlen_ops x) (nlen_prefix x)
  unfold BgpFlowSpec.encodeTo fsWire fsLen at *
  simp only [hn]
  by_cases h1 : (fsComponent x).length > 4094
  · rw [if_pos h1]; trivial
  rw [if_neg h1]
  by_cases h240 : (fsComponent x).length < 240
  · rw [if_pos h240] at hb ⊢
    simp only [List.length_append, List.length_cons, List.length_nil] at hb
    rw [if_pos (by omega)]; trivial
  · rw [if_neg h240] at hb ⊢
    simp only [List.length_append, be_length] at hb
    rw [if_pos (by omega)]; trivial

/-! ## OPEN -/

theorem capsParams_cons (c : BgpCapability) (cs : List BgpCapability) (hc : CapEncodable c) :
    (capsParams (c :: cs)).length = 2 + c.bytesLen + (capsParams cs).length := by
  have hl := capTlv_length c (encodable_notFQDN hc)
  have e : capsParams (c :: cs) = tlv 2 (capTlv c) ++ capsParams cs := by simp [capsParams, capParam]
  rw [e, List.length_append, tlv_length, hl]

theorem short_caps (caps : List BgpCapability) (hc : ∀ c ∈ caps, CapEncodable c) (t : Bytes)
    (ht : t.length < (capsParams caps).length) :
    (CapBoundary caps t.length → BgpOpenMessage.encodeCaps caps t = .panic) ∧
    (¬ CapBoundary caps t.length → (BgpOpenMessage.encodeCaps caps t).IsErr) := by
  induction caps generalizing t with
  | nil => simp [capsParams] at ht
  | cons c cs ih =>
    have hc0 := hc c (by simp)
    have hl := capTlv_length c (encodable_notFQDN hc0)
    rw [capsParams_cons _ _ hc0] at ht
    match t, ht with
    | [], _ =>
      refine ⟨fun _ => rfl, fun h => absurd ⟨0, by simp, by simp [capsParams], by simp⟩ h⟩
    | [a], _ =>
      refine ⟨fun _ => rfl, fun h => absurd ⟨0, by simp, by simp [capsParams], by simp⟩ h⟩
    | x :: y :: t, ht =>
      simp only [List.length_cons] at ht
      unfold BgpOpenMessage.encodeCaps
      simp only [setIdx_cons_zero, setIdx_cons_succ, Res.ok_bind]
      by_cases hlen : c.bytesLen ≤ t.length
      · obtain ⟨m, r, rfl, hm, -⟩ := exists_split c.bytesLen hlen
        have h1 := onSliceE_append [2, BitVec.ofNat 8 c.bytesLen] m r 2 (c.bytesLen + 2)
          (fun b => do .ok (← c.fillBuffer b, ())) rfl (by simp; omega)
        simp only [List.cons_append, List.nil_append] at h1
        rw [h1, fillBuffer_ok c hc0 m hm]
        simp only [Res.ok_bind]
        have h2 := onFrom_append (2 :: BitVec.ofNat 8 c.bytesLen :: capTlv c) r (2 + c.bytesLen)
          (BgpOpenMessage.encodeCaps cs) (by simp; omega)
        simp only [List.cons_append] at h2
        rw [h2]
        have ih := ih (fun x hx => hc x (by simp [hx])) r (by simp [hm] at ht; omega)
        have hiff : CapBoundary (c :: cs) (x :: y :: (m ++ r)).length ↔ CapBoundary cs r.length := by
          constructor
          · rintro ⟨k, hk, h3, h4⟩
            cases k with
            | zero => simp [capsParams] at h3 h4
            | succ k =>
              rw [List.take_succ_cons, capsParams_cons _ _ hc0] at h3 h4
              simp only [List.length_cons, List.length_append, hm] at hk h3 h4
              exact ⟨k, by omega, by omega, by omega⟩
          · rintro ⟨k, hk, h3, h4⟩
            refine ⟨k + 1, by simpa using hk, ?_, ?_⟩ <;> rw [List.take_succ_cons, capsParams_cons _ _ hc0] <;>
              simp only [List.length_cons, List.length_append, hm] <;> omega
        rw [hiff]
        refine ⟨fun h => ?_, fun h => ?_⟩
        · rw [ih.1 h]; rfl
        · exact errs_bind (errs_bind (ih.2 h))
      · refine ⟨?_, fun _ => ?_⟩
        · rintro ⟨k, hk, h3, h4⟩
          cases k with
          | zero => simp [capsParams] at h4
          | succ k =>
            rw [List.take_succ_cons, capsParams_cons _ _ hc0] at h3 h4
            simp only [List.length_cons] at h3 h4
            omega
        · refine errs_bind ?_
          unfold onSliceE
          rw [if_neg (by simp; omega)]
          trivial

theorem short_open (m : BgpOpenMessage) (hc : ∀ c ∈ m.caps, CapEncodable c) (buf : Bytes)
    (hb : buf.length < 10 + (capsParams m.caps).length) :
    ((10 ≤ buf.length ∧ CapBoundary m.caps (buf.length - 10)) → m.encodeTo buf = .panic) ∧
    (¬ (10 ≤ buf.length ∧ CapBoundary m.caps (buf.length - 10)) → (m.encodeTo buf).IsErr) := by
  unfold BgpOpenMessage.encodeTo
  by_cases h10 : buf.length < 10
  · rw [if_pos h10]
    exact ⟨fun h => by omega, fun _ => trivial⟩
  rw [if_neg h10]
  rcases buf with _ | ⟨b0, _ | ⟨b1, _ | ⟨b2, _ | ⟨b3, _ | ⟨b4, _ | ⟨b5, _ | ⟨b6, _ | ⟨b7, _ | ⟨b8, _ | ⟨b9, t⟩⟩⟩⟩⟩⟩⟩⟩⟩⟩
  all_goals try (exfalso; apply h10; simp; done)
  simp only [List.length_cons] at hb
  have hs := short_caps m.caps hc t (by omega)
  have e1 : ∀ v : U16, ∃ x y, storeLe16 v = [x, y] := fun v => ⟨_, _, rfl⟩
  obtain ⟨x0, x1, hx⟩ := e1 (ntoh16 (if m.asNum.toNat < 65536 then m.asNum.setWidth 16 else 23456))
  obtain ⟨y0, y1, hy⟩ := e1 (ntoh16 m.holdTime)
  obtain ⟨o0, o1, o2, o3, ho⟩ : ∃ a b c d, ipv4Octets m.routerId = [a, b, c, d] := by
    have : (ipv4Octets m.routerId).length = 4 := by simp [ipv4Octets]
    match h : ipv4Octets m.routerId, this with
    | [a, b, c, d], _ => exact ⟨a, b, c, d, rfl⟩
  have hcp : ∀ (src : Bytes) (pre mid post : Bytes) a b, pre.length = a → a + mid.length = b → src.length = mid.length →
      copyAt (pre ++ (mid ++ post)) a b src = .ok (pre ++ (src ++ post)) := by
    intro src pre mid post a b h1 h2 h3
    exact copyAt_append pre mid post src a b h1.symm (by omega) (by omega)
  simp only [setIdx_cons_zero, Res.ok_bind, hx, hy, ho]
  rw [show (4 :: b1 :: b2 :: b3 :: b4 :: b5 :: b6 :: b7 :: b8 :: b9 :: t : Bytes) = [4] ++ ([b1, b2] ++ (b3 :: b4 :: b5 :: b6 :: b7 :: b8 :: b9 :: t)) by rfl,
    hcp [x0, x1] [4] [b1, b2] _ 1 3 rfl rfl rfl, Res.ok_bind]
  rw [show ([4] ++ ([x0, x1] ++ (b3 :: b4 :: b5 :: b6 :: b7 :: b8 :: b9 :: t)) : Bytes) = [4, x0, x1] ++ ([b3, b4] ++ (b5 :: b6 :: b7 :: b8 :: b9 :: t)) by rfl,
    hcp [y0, y1] [4, x0, x1] [b3, b4] _ 3 5 rfl rfl rfl, Res.ok_bind]
  rw [show ([4, x0, x1] ++ ([y0, y1] ++ (b5 :: b6 :: b7 :: b8 :: b9 :: t)) : Bytes) = [4, x0, x1, y0, y1] ++ ([b5, b6, b7, b8] ++ (b9 :: t)) by rfl,
    hcp [o0, o1, o2, o3] [4, x0, x1, y0, y1] [b5, b6, b7, b8] _ 5 9 rfl rfl rfl, Res.ok_bind]
  simp only [List.cons_append, List.nil_append, setIdx_cons_succ, setIdx_cons_zero, Res.ok_bind]
  obtain ⟨l, hl⟩ : ∃ l, l = BitVec.ofNat 8 (m.caps.foldl (fun sum i => sum + i.bytesLen + 2) 0) := ⟨_, rfl⟩
  rw [← hl, show (4 :: x0 :: x1 :: y0 :: y1 :: o0 :: o1 :: o2 :: o3 :: l :: t : Bytes) =
    [4, x0, x1, y0, y1, o0, o1, o2, o3, l] ++ t by rfl, onFrom_append _ _ 10 _ rfl]
  refine ⟨fun h => ?_, fun h => ?_⟩
  · rw [hs.1 (by simpa using h.2)]; rfl
  · exact errs_bind (errs_bind (hs.2 fun hk => h ⟨by simp, by simpa using hk⟩))

theorem Spec.PrefixKind.isExt {T : Type} [BgpItem T] [NlriKind T] (h : PrefixKind T) : ItemExt T := by
  induction h with
  | labeled _ ih => exact inferInstance
  | withRd _ ih => exact inferInstance
  | _ => exact inferInstance

theorem Spec.PrefixKind.isPlain {T : Type} [BgpItem T] [NlriKind T] (h : PrefixKind T) : ItemPlain T := by
  induction h with
  | labeled _ ih => exact inferInstance
  | withRd _ ih => exact inferInstance
  | _ => exact inferInstance

end Zbgp
