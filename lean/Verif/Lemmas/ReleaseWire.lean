import Verif.Lemmas.ReleaseReads
import Verif.Lemmas.Header

/-! # Overrunning items, encoders and the header without overflow checks -/

namespace Zbgp

open Spec BgpSessionParams

/-! ## Items that take more octets than announced -/

theorem wrapSub_lt (a b : Nat) : wrapSub a b < 256 := by unfold wrapSub; omega

theorem wrapLabels_read {bits : Nat} {b : Bytes} {ls : List U32} {k : Nat} (h : WrapLabels bits b ls k)
    (hb : bits < 256) (hk : 8 * k ≤ bits) : LabelsRead bits b ls k := by
  induction h with
  | done b => exact .done b
  | last bits v b hv h0 he => exact .last bits v b hv (by omega) he
  | more bits v b ls n hv h0 he hr ih =>
    have e : wrapSub bits 24 = bits - 24 := by unfold wrapSub; omega
    rw [e] at ih
    have := ih (by omega) (by omega)
    have h2 := LabelsRead.more (bits - 24) v b ls n hv he this
    rwa [show bits - 24 + 24 = bits by omega] at h2

/-- What a reader without overflow checks reads is either read with the checks, or takes at least one octet more than
announced. -/
class WrapOverrun (T : Type) [PrefixReads T] [WrapReads T] : Prop where
  cover : ∀ (bits : Nat) (b : Bytes) (x : T) (n : Nat), bits < 256 → WrapReads.Read bits b x n → bits ≤ 8 * n
  over : ∀ (bits : Nat) (b : Bytes) (x : T) (n : Nat), bits < 256 → WrapReads.Read bits b x n →
    PrefixReads.Read bits b x n ∨ bits + 8 ≤ 8 * n

instance : WrapOverrun BgpAddrV4 where
  cover bits b x n _ h := by have h := h.2.1; unfold octets at h; omega
  over _ _ _ _ _ h := .inl h

instance : WrapOverrun BgpAddrV6 where
  cover bits b x n _ h := by have h := h.2.1; unfold octets at h; omega
  over _ _ _ _ _ h := .inl h

instance : WrapOverrun BgpMdtV4 where
  cover bits b x n _ h := by
    obtain ⟨m, g, h1, h2, -, h4⟩ := h
    have h := h2.2.1; unfold octets at h; omega
  over _ _ _ _ _ h := .inl h

instance : WrapOverrun BgpMdtV6 where
  cover bits b x n _ h := by
    obtain ⟨m, g, h1, h0, h2, -, h4⟩ := h
    have h := h2.2.1; unfold octets at h; omega
  over _ _ _ _ _ h := .inl h

instance {T : Type} [PrefixReads T] [WrapReads T] [WrapOverrun T] : WrapOverrun (Labeled T) where
  cover bits b x n hb h := by
    obtain ⟨k, m, h1, h2, rfl⟩ := h
    have h3 := WrapOverrun.cover _ _ _ _ (wrapSub_lt _ _) h2
    unfold wrapSub at h3; omega
  over bits b x n hb h := by
    obtain ⟨k, m, h1, h2, rfl⟩ := h
    have h3 := WrapOverrun.cover _ _ _ _ (wrapSub_lt _ _) h2
    by_cases hk : 8 * k ≤ bits
    · have e : wrapSub bits (8 * k) = bits - 8 * k := by unfold wrapSub; omega
      rw [e] at h2
      rcases WrapOverrun.over _ _ _ _ (by omega) h2 with h4 | h4
      · exact .inl ⟨k, m, wrapLabels_read h1 hb hk, h4, rfl⟩
      · right; omega
    · right
      unfold wrapSub at h3; omega

instance {T : Type} [PrefixReads T] [WrapReads T] [WrapOverrun T] : WrapOverrun (WithRd T) where
  cover bits b x n hb h := by
    obtain ⟨t, m, h1, h2, rfl⟩ := h
    have h3 := WrapOverrun.cover _ _ _ _ (wrapSub_lt _ _) h2
    unfold wrapSub at h3; omega
  over bits b x n hb h := by
    obtain ⟨t, m, h1, h2, rfl⟩ := h
    have h3 := WrapOverrun.cover _ _ _ _ (wrapSub_lt _ _) h2
    by_cases hk : 64 ≤ bits
    · have e : wrapSub bits 64 = bits - 64 := by unfold wrapSub; omega
      rw [e] at h2
      rcases WrapOverrun.over _ _ _ _ (by omega) h2 with h4 | h4
      · exact .inl ⟨t, m, hk, h1, h4, rfl⟩
      · right; omega
    · right
      unfold wrapSub at h3; omega

/-! ## Encoders -/

/-- Items whose encoder without overflow checks writes the wire form, with the length modulo 256. -/
class WrapWire (T : Type) [BgpItemIn T] [NlriKind T] [WrapWritable T] : Prop where
  writes : ∀ x : T, WrapWritable.Ok x → @ItemWrites T (itemIn T .release) x (NlriKind.bits x) (NlriKind.body x)

theorem release_of_writes {T : Type} [BgpItem T] [BgpItemIn T] [ItemBuilds T] {x : T} {bits : Nat} {body : Bytes}
    (h : ItemWrites x bits body) : @ItemWrites T (itemIn T .release) x bits body := by
  intro buf hb
  have h1 := h buf hb
  rcases ItemBuilds.bsimSet x buf with h2 | h2
  · rw [h2] at h1; cases h1
  · change BgpItemIn.setBits .release x buf = _
    rw [h2, h1]

instance : WrapWire BgpAddrV4 where
  writes x h := release_of_writes (NlriLawful.writes x h)
instance : WrapWire BgpAddrV6 where
  writes x h := release_of_writes (NlriLawful.writes x h)

theorem setLabels_release (m : MplsLabels) (buf : Bytes) (hb : (labelsBody m.labels).length ≤ buf.length) :
    m.setBitsIn .release buf = .ok (labelsBody m.labels ++ buf.drop (labelsBody m.labels).length,
      (BitVec.ofNat 8 (24 * m.labels.length), (labelsBody m.labels).length)) := by
  have h1 := labels_writes m buf hb
  simp only [BgpItem.setBits] at h1
  rcases bsim_setLabels m buf with h2 | h2
  · rw [h2] at h1; cases h1
  · rw [h2, h1]

instance {T : Type} [BgpItemIn T] [NlriKind T] [WrapWritable T] [WrapWire T] : WrapWire (Labeled T) where
  writes x h := by
    intro buf hb
    simp only [NlriKind.body, NlriKind.bits, List.length_append] at hb ⊢
    change BgpItemIn.setBits Build.release x buf = _
    simp only [BgpItemIn.setBits]
    rw [setLabels_release x.labels buf (by omega)]
    simp only [Res.ok_bind]
    rw [onFrom_append _ _ _ _ rfl]
    have h2 := WrapWire.writes x.pfx h (buf.drop (labelsBody x.labels.labels).length) (by simp; omega)
    change BgpItemIn.setBits Build.release x.pfx _ = _ at h2
    rw [h2]
    simp only [Res.ok_bind, Build.add, List.drop_drop, List.append_assoc, Res.ok.injEq, Prod.mk.injEq, true_and,
      and_true]
    apply BitVec.eq_of_toNat_eq
    simp only [BitVec.toNat_add, BitVec.toNat_ofNat]
    omega

instance {T : Type} [BgpItemIn T] [NlriKind T] [WrapWritable T] [WrapWire T] : WrapWire (WithRd T) where
  writes x h := by
    intro buf hb
    simp only [NlriKind.body, NlriKind.bits, List.length_append, rdBody_length] at hb ⊢
    change BgpItemIn.setBits Build.release x buf = _
    simp only [BgpItemIn.setBits]
    rw [rd_writes x.rd buf (by simp; omega)]
    simp only [Res.ok_bind]
    rw [onFrom_append _ _ _ _ rfl]
    have h2 := WrapWire.writes x.pfx h (buf.drop (rdBody x.rd).length) (by simp; omega)
    change BgpItemIn.setBits Build.release x.pfx _ = _ at h2
    rw [h2]
    simp only [Res.ok_bind, Build.add, rdBody_length, List.drop_drop, List.append_assoc, Res.ok.injEq, Prod.mk.injEq,
      true_and, and_true]
    apply BitVec.eq_of_toNat_eq
    simp only [BitVec.toNat_add, BitVec.toNat_ofNat]
    omega

theorem WrapWire.of_kind {T : Type} [BgpItemIn T] [NlriKind T] [WrapWritable T] (h : WrapWireKind T) : WrapWire T := by
  induction h with
  | v4 => infer_instance
  | v6 => infer_instance
  | labeled _ ih => infer_instance
  | withRd _ ih => infer_instance

/-! ## The header -/

theorem be2_mod (v : Nat) : be 2 (v % 65536) = be 2 v := by
  simp only [be, List.cons.injEq, and_true]
  constructor <;> (apply BitVec.eq_of_toNat_eq; simp only [BitVec.toNat_ofNat]; omega)

theorem prepare_release (buf : Bytes) (ty : BgpMessageType) (n : Nat) (hb : n + 19 ≤ buf.length) :
    prepareMessageBufIn .release buf ty n = .ok (header ty n ++ buf.drop 19, (n + 19) % 65536) := by
  obtain ⟨m, t, rfl, hm, -⟩ := exists_split 16 (by omega : 16 ≤ buf.length)
  obtain ⟨p, q, rfl, hp, -⟩ := exists_split 3 (by simp at hb; omega : 3 ≤ t.length)
  match p, hp with
  | [x, y, z], _ =>
    unfold prepareMessageBufIn
    rw [if_neg (by omega)]
    have h := copyAt_append [] m ([x, y, z] ++ q) (List.replicate 16 255) 0 16 rfl (by simp [hm])
      (by simp [hm])
    simp only [List.nil_append] at h
    rw [h]
    have hadd : BitVec.ofNat 16 n + 19 = BitVec.ofNat 16 ((n + 19) % 65536) := by
      apply BitVec.eq_of_toNat_eq
      rw [BitVec.toNat_add]; simp
    simp only [Res.ok_bind, Build.add, hadd]
    rw [setIdx_append (by simp)]
    simp only [List.length_replicate, Nat.sub_self, List.cons_append, List.nil_append,
      setIdx_cons_zero, Res.ok_bind]
    rw [setIdx_append (by simp)]
    simp only [List.length_replicate, setIdx_cons_zero, setIdx_cons_succ, Res.ok_bind,
      Nat.reduceSub]
    rw [setIdx_append (by simp)]
    simp only [List.length_replicate, setIdx_cons_zero, setIdx_cons_succ, Res.ok_bind,
      Nat.reduceSub]
    have e : (BitVec.ofNat 16 ((n + 19) % 65536)).toNat = (n + 19) % 65536 := by simp
    have hd : List.drop 19 (m ++ (x :: y :: z :: q)) = q := by
      rw [List.drop_append, List.drop_eq_nil_of_le (by omega), hm]; rfl
    rw [hd, ofNat8_eq', ofNat8_eq0 _ (by decide), encode_typeCode, e]
    have h2 := be2_mod (n + 19)
    simp only [header]
    rw [← h2]
    simp [be]

theorem send_release (buf : Bytes) (ty : BgpMessageType) (n : Nat) (hb : n + 19 ≤ buf.length) :
    sendMessageBufIn .release buf ty n = .ok (header ty n ++ buf.drop 19,
      (header ty n ++ buf.drop 19).take ((n + 19) % 65536)) := by
  have e : sendMessageBufIn .release buf ty n = (do
      let (b, l) ← prepareMessageBufIn .release buf ty n
      let out ← rslice b 0 l
      .ok (b, out)) := by
    unfold sendMessageBufIn prepareMessageBufIn
    split
    · rfl
    · simp only [bind_assoc, Res.ok_bind]
  rw [e, prepare_release buf ty n hb]
  simp only [Res.ok_bind]
  rw [rslice_ok (by omega) (by rw [List.length_append, header_length, List.length_drop]; omega)]
  rfl

theorem head_release (ty : BgpMessageType) (L : Nat) (t : Bytes) :
    decodeMessageHeadIn .release (List.replicate 16 255 ++ (be 2 L ++ be 1 (typeCode ty)) ++ t) =
      .ok (ty, (L + 65517) % 65536) := by
  unfold decodeMessageHeadIn
  rw [if_neg (by simp; omega)]
  simp only [List.append_assoc]
  rw [rslice_append_zero _ _ _ (by simp)]
  simp only [Res.ok_bind]
  rw [if_neg (by simp)]
  rw [idx_append_right (by simp), rslice_append_right (by simp) (by simp)]
  simp only [List.length_replicate, Nat.reduceSub]
  rw [idx_be_skip (by simp), rslice_be_hit]
  simp only [Nat.reduceSub, be1_eq, List.cons_append, idx_cons_zero, Res.ok_bind, decode_typeCode,
    getn16_two, Build.sub]
  simp only [Res.ok.injEq, Prod.mk.injEq, true_and, BitVec.toNat_sub, BitVec.toNat_ofNat, show (19 : U16).toNat = 19 from rfl]
  omega

end Zbgp
