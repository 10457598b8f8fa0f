import Verif.Lemmas.OutcomeRelease
import Verif.Lemmas.Update

/-!
# Lemmas on the outcome of encoding: collections, attributes and messages
-/

namespace Zbgp

open Spec

/-! ## Collections -/

theorem ends_nlri (m : Build) (x : BgpAddrs) (p : BgpSessionParams) : Ends (x.encodeToIn m p) (nlriFate m x) := by
  cases m
  case release => exact ends_nlri_unchecked x p
  rw [addrsEncFn_checked]
  cases x
  case None => exact ends_of 0 fun buf _ => ⟨[], buf, trivial, rfl, rfl⟩
  case MVPN v => exact ends_all v fun x _ => ends_writes (mvpn_sent x _)
  case EVPN v => exact ends_all v fun x _ => ends_evpn x _
  case FS4U v => exact ends_all v fun x _ => ends_fs x
  case FS6U v => exact ends_all v fun x _ => ends_fs x
  case FSV4U v => exact ends_all v fun x _ => ends_fs x
  case L2VPLS v => exact ends_all v fun x _ => ends_vpls x
  all_goals first
    | exact ends_prefixes _
    | exact ends_pathIds _

/-! ## One encoder behind octets -/

theorem ends_behind {f g : Enc} {fate : Fate} (h : Ends g fate) (w : Bytes) (room : Nat)
    (hf : ∀ buf : Bytes, room ≤ buf.length → f buf = (onFrom (w ++ buf.drop w.length) w.length g >>= fun r =>
      .ok (r.1, w.length + r.2))) : Ends f ((Fate.octets w).andThen fate) := by
  obtain ⟨r1, h⟩ := ends_case h
  refine ends_of (room + (w.length + r1)) fun buf hb => ?_
  rw [hf buf (by omega)]
  have h3 := endCase_onFrom (p := w) (f := g) w.length rfl (h (buf.drop w.length) (by simp; omega))
  cases fate with
  | sent pat =>
    obtain ⟨v, rest, f1, e1, l1⟩ := h3
    refine ⟨w ++ v, rest, fits_append (fits_some w) f1, ?_, ?_⟩
    · rw [e1]; simp
    · simp only [List.length_append, List.length_drop] at l1 ⊢
      omega
  | refused => exact err_bind h3
  | crash =>
    simp only [AtCase] at h3
    simp only [Fate.octets, Fate.andThen, EndCase]
    rw [h3]; rfl

theorem family_octets (x : BgpAddrs) : familyOctets x = be 2 x.getAfiSafi.1.toNat ++ [x.getAfiSafi.2] := by
  cases x <;> rfl

theorem family_head {α : Type} (x : BgpAddrs) (buf : Bytes) (h : 3 ≤ buf.length) (k : Bytes → Res α) :
    (do
      let buf ← modRange buf 0 2 (setn16 x.getAfiSafi.1)
      let buf ← setIdx buf 2 x.getAfiSafi.2
      k buf) = k (familyOctets x ++ buf.drop 3) := by
  have h1 := cur_modRange (fill16 x.getAfiSafi.1) [] buf 0 2 rfl (by simp) (by simp; omega)
  rw [List.nil_append] at h1
  rw [h1]
  simp only [Res.ok_bind, List.nil_append]
  rw [cur_setIdx _ _ _ _ (by simp) (by simp; omega), family_octets]
  simp

theorem ends_mpUnreach (m : Build) (p : BgpSessionParams) (x : BgpMPWithdraws) :
    Ends (x.encodeToIn m p) ((Fate.octets (familyOctets x.addrs)).andThen (nlriFate m x.addrs)) := by
  have hl : (familyOctets x.addrs).length = 3 := by rw [family_octets]; simp
  refine ends_behind (ends_nlri m x.addrs p) _ 3 fun buf hb => ?_
  unfold BgpMPWithdraws.encodeToIn
  rw [family_head x.addrs buf hb, hl]

theorem ends_mpReach (m : Build) (p : BgpSessionParams) (x : BgpMPUpdates) (hnh : (∀ a, x.nexthop ≠ .L2 a) ∧ ∀ a, x.nexthop ≠ .MVPN a) :
    Ends (x.encodeToIn m p) ((Fate.octets (familyOctets x.addrs ++ [BitVec.ofNat 8 (nexthopWire x.nexthop).length] ++
      nexthopWire x.nexthop ++ [0])).andThen (nlriFate m x.addrs)) := by
  have hl : (familyOctets x.addrs).length = 3 := by rw [family_octets]; simp
  have hn := nexthopWire_small x.nexthop
  refine ends_behind (ends_nlri m x.addrs p) _ 29 fun buf hb => ?_
  unfold BgpMPUpdates.encodeToIn
  rw [family_head x.addrs buf (by omega)]
  obtain ⟨a, b, c, hf⟩ : ∃ a b c, familyOctets x.addrs = [a, b, c] := by
    rw [family_octets, be_two]; exact ⟨_, _, _, rfl⟩
  obtain ⟨d, t, ht⟩ := List.exists_cons_of_length_pos (l := buf.drop 3) (by simp; omega)
  have htl : t.length = buf.length - 4 := by
    have := congrArg List.length ht
    simp at this; omega
  have ht4 : ∀ k, buf.drop (4 + k) = t.drop k := by
    intro k
    rw [show 4 + k = 3 + (1 + k) by omega, ← List.drop_drop, ht]
    simp [Nat.add_comm 1 k]
  rw [hf, ht]
  simp only [List.cons_append, List.nil_append]
  rw [nexthop_encode _ hnh p _ _ _ _ _ (by omega)]
  simp only [Res.ok_bind, setIdx_cons_succ, setIdx_cons_zero]
  rw [show a :: b :: c :: BitVec.ofNat 8 (nexthopWire x.nexthop).length ::
      (nexthopWire x.nexthop ++ List.drop (nexthopWire x.nexthop).length t) =
      ([a, b, c, BitVec.ofNat 8 (nexthopWire x.nexthop).length] ++ nexthopWire x.nexthop) ++
        List.drop (nexthopWire x.nexthop).length t by simp]
  rw [cur_setIdx _ _ _ _ (by simp; omega) (by simp; omega)]
  simp only [Res.ok_bind]
  have e : ∀ n, n + 1 + 1 + 1 + 1 = 4 + n := by intro n; omega
  simp only [List.append_assoc, List.cons_append, List.nil_append, List.length_cons, List.length_append, List.length_nil,
    List.drop_drop]
  rw [show (nexthopWire x.nexthop).length + 1 + 1 + 1 + 1 + 1 = 4 + ((nexthopWire x.nexthop).length + 1) by omega, ht4,
    Nat.add_assoc 4]

theorem ends_mpReach_refused (m : Build) (p : BgpSessionParams) (x : BgpMPUpdates)
    (h : ∀ buf, BgpMPUpdates.encodeNexthop x.nexthop p buf = .err .static) : Ends (x.encodeToIn m p) .refused := by
  refine ends_of 3 fun buf hb => ?_
  show (x.encodeToIn m p buf).IsErr
  unfold BgpMPUpdates.encodeToIn
  rw [family_head x.addrs buf hb, h]
  trivial

/-! ## Attributes -/

theorem ends_value (m : Build) (p : BgpSessionParams) (x : BgpAttrItem) : Ends (x.encodeValueIn m p) (valueFate m p x) := by
  cases x with
  | Origin x => exact ends_writes (value_writes p (.Origin x) trivial)
  | ASPath x => exact ends_writes (aspath_writes p x)
  | NextHop x =>
    simp only [valueFate]
    by_cases h : addrFamily x.value = p.peerMode
    · rw [if_pos h]
      exact ends_writes (nexthop_writes p x h)
    · rw [if_neg h]
      refine ends_of 0 fun buf _ => ?_
      obtain ⟨v⟩ := x
      obtain ⟨_, _, mode, _, _, _, _⟩ := p
      cases v <;> cases mode <;> first | exact absurd rfl h | exact trivial
  | MED x => exact ends_writes (med_writes x)
  | LocalPref x => exact ends_writes (localpref_writes x)
  | AtomicAggregate x => exact ends_writes (writes_ip x.value)
  | AggregatorAS x =>
    refine ends_of 4 fun buf hb => ?_
    obtain ⟨m, t, rfl, hm, -⟩ := exists_split (if p.hasAs32bit then 4 else 2) (show (if p.hasAs32bit then 4 else 2) ≤ buf.length by split <;> omega)
    refine ⟨m, t, ?_, ?_, rfl⟩
    · rw [← hm]; exact fits_none m
    · simp only [BgpAttrItem.encodeValueIn, BgpAttrItem.encodeValue, BgpAggregatorAS.encodeTo, hm, List.nil_append, List.length_nil, Nat.zero_add]
  | CommunityList x => exact ends_writes (communities_writes x)
  | OriginatorID x =>
    simp only [valueFate]
    by_cases h : addrFamily x.value = p.peerMode
    · rw [if_pos h]
      exact ends_writes (originator_writes p x h)
    · rw [if_neg h]
      refine ends_of 0 fun buf _ => ?_
      obtain ⟨v⟩ := x
      obtain ⟨_, _, mode, _, _, _, _⟩ := p
      cases v <;> cases mode <;> first | exact absurd rfl h | exact trivial
  | ClusterList x => exact ends_writes (clusterlist_writes x)
  | MPUpdates x =>
    obtain ⟨nh, addrs⟩ := x
    cases nh with
    | L2 a => exact ends_mpReach_refused m p ⟨.L2 a, addrs⟩ fun _ => rfl
    | MVPN a => exact ends_mpReach_refused m p ⟨.MVPN a, addrs⟩ fun _ => rfl
    | _ => exact ends_mpReach m p ⟨_, addrs⟩ ⟨by simp, by simp⟩
  | MPWithdraws x => exact ends_mpUnreach m p x
  | ExtCommunityList x => exact ends_writes (extCommunities_writes x)
  | LargeCommunityList x => exact ends_writes (largeCommunities_writes x)
  | PMSITunnel x => exact ends_of 0 fun buf _ => rfl
  | AttrSet a l => exact ends_of 0 fun buf _ => rfl
  | Connector x => exact ends_writes (connector_writes x)
  | Unknown x => exact ends_writes (unknown_writes x)

def headedFate (code flags : U8) : Fate → Fate
  | .sent w => if w.length ≤ maxValue flags then .sent ((attrHeader code flags w.length).map some ++ w) else .refused
  | o => o

theorem ends_headed (q : BgpAttrParams) {enc : Enc} {fate : Fate} (h : Ends enc fate) :
    Ends (BgpAttrItem.encodeBgpattr q enc) (headedFate q.typecode q.flags fate) := by
  obtain ⟨room, h⟩ := ends_case h
  refine ends_of (4 + room) fun buf hb => ?_
  have hh := attrHeader_length q.typecode q.flags
  rw [encodeBgpattr_eq q enc buf (by split <;> omega)]
  generalize hk : (if extended q.flags then 4 else 3) = k at *
  have hk4 : k ≤ 4 := by subst hk; split <;> omega
  have h3 := h (buf.drop k) (by simp; omega)
  cases fate with
  | sent pat =>
    obtain ⟨w, rest, f1, e1, l1⟩ := h3
    simp only [List.nil_append, List.length_nil, Nat.zero_add] at e1
    rw [e1]
    simp only [Res.ok_bind, headedFate, fits_length f1]
    by_cases hm : w.length ≤ maxValue q.flags
    · rw [if_neg (by omega), if_pos hm]
      refine ⟨attrHeader q.typecode q.flags w.length ++ w, rest, fits_append (fits_some _) f1, ?_, ?_⟩
      · simp [hh]
      · simp only [List.length_append, List.length_drop, hh] at l1 ⊢
        omega
    · rw [if_pos (by omega), if_neg hm]
      trivial
  | refused => exact err_bind h3
  | crash =>
    simp only [EndCase] at h3
    simp only [headedFate, EndCase]
    rw [h3]; rfl

theorem ends_attr (m : Build) (p : BgpSessionParams) (x : BgpAttrItem) : Ends (x.encodeToIn m p) (attrFate m p x) := by
  have h := ends_headed x.attr (ends_value m p x)
  have hc := attr_code x
  rw [show x.attr.typecode = (attrCode x).1 by rw [← hc], show x.attr.flags = (attrCode x).2 by rw [← hc]] at h
  have e : attrFate m p x = headedFate (attrCode x).1 (attrCode x).2 (valueFate m p x) := by
    unfold attrFate headedFate
    cases valueFate m p x <;> rfl
  rw [e]
  exact h

theorem ends_attrs (m : Build) (p : BgpSessionParams) (l : List BgpAttrItem) (n : Nat) : ∃ room, ∀ lp (pre t : Bytes), pre.length = lp + 2 + n →
    room ≤ t.length → EndCase (BgpUpdateMessage.encodeAttrsIn m p lp l (pre ++ t) pre.length) pre t (attrsFate m p n l) := by
  induction l generalizing n with
  | nil => exact ⟨0, fun lp pre t _ _ => ⟨[], t, trivial, by simp [BgpUpdateMessage.encodeAttrsIn], rfl⟩⟩
  | cons a l ih =>
    obtain ⟨r1, h1⟩ := ends_case (ends_attr m p a)
    by_cases hn : n > 65533
    · refine ⟨0, fun lp pre t hp _ => ?_⟩
      rw [BgpUpdateMessage.encodeAttrsIn, if_pos (by omega), attrsFate, if_pos hn]
      trivial
    cases ha : attrFate m p a with
    | sent pat =>
      obtain ⟨r2, h2⟩ := ih (n + pat.length)
      refine ⟨r1 + (pat.length + r2), fun lp pre t hp ht => ?_⟩
      rw [BgpUpdateMessage.encodeAttrsIn, if_neg (by omega), attrsFate, if_neg hn, onSliceE_tail pre t _ _ _ rfl (by simp)]
      have h3 := h1 t (by omega)
      rw [ha] at h3
      obtain ⟨w, rest, f1, e1, l1⟩ := h3
      simp only [List.nil_append, List.length_nil, Nat.zero_add] at e1
      have fl := fits_length f1
      simp only [List.length_append] at l1
      rw [e1]
      simp only [Res.ok_bind, ha]
      have h4 := h2 lp (pre ++ w) rest (by simp; omega) (by omega)
      rw [List.append_assoc, List.length_append] at h4
      cases hl : attrsFate m p (n + pat.length) l with
      | sent pat2 =>
        rw [hl] at h4
        obtain ⟨w2, rest2, f2, e2, l2⟩ := h4
        exact ⟨w ++ w2, rest2, fits_append f1 f2, by rw [e2]; simp [Nat.add_assoc], by simp only [List.length_append] at l2 ⊢; omega⟩
      | refused => rw [hl] at h4; exact h4
      | crash => rw [hl] at h4; exact h4
    | refused =>
      refine ⟨r1, fun lp pre t hp ht => ?_⟩
      rw [BgpUpdateMessage.encodeAttrsIn, if_neg (by omega), attrsFate, if_neg hn, onSliceE_tail pre t _ _ _ rfl (by simp)]
      have h3 := h1 t (by omega)
      rw [ha] at h3 ⊢
      exact err_bind (err_bind h3)
    | crash =>
      refine ⟨r1, fun lp pre t hp ht => ?_⟩
      rw [BgpUpdateMessage.encodeAttrsIn, if_neg (by omega), attrsFate, if_neg hn, onSliceE_tail pre t _ _ _ rfl (by simp)]
      have h3 := h1 t (by omega)
      rw [ha] at h3 ⊢
      simp only [EndCase] at h3 ⊢
      rw [h3]; rfl

/-! ## Messages -/

theorem nlriEncoderIn_eq (m : Build) (p : BgpSessionParams) (x : BgpAddrs) : BgpUpdateMessage.nlriEncoderIn m p x =
    if InSession p x then some (x.encodeToIn m p) else none := by
  obtain ⟨_, _, mode, _, _, _, _⟩ := p
  cases mode <;> cases x <;> rfl

theorem ends_withdrawn (m : Build) (p : BgpSessionParams) (x : BgpUpdateMessage) :
    Ends (x.encodeWithdrawsIn m p) (withdrawnFate m p x.withdraws) := by
  unfold withdrawnFate sectionFate
  by_cases hi : InSession p x.withdraws
  · rw [if_pos hi]
    obtain ⟨room, h⟩ := ends_case (ends_nlri m x.withdraws p)
    refine ends_of (2 + room) fun buf hb => ?_
    obtain ⟨c, d, r, rfl⟩ := exists_cons2 (l := buf) (by omega)
    simp only [List.length_cons] at hb
    unfold BgpUpdateMessage.encodeWithdrawsIn
    rw [nlriEncoderIn_eq, if_pos hi]
    simp only
    rw [show c :: d :: r = [c, d] ++ r from rfl, onSliceE_tail _ _ _ _ _ (by simp) (by simp; omega)]
    have h3 := h r (by omega)
    cases hf : nlriFate m x.withdraws with
    | sent pat =>
      rw [hf] at h3
      obtain ⟨w, rest, f1, e1, l1⟩ := h3
      simp only [List.nil_append, List.length_nil, Nat.zero_add] at e1
      rw [e1]
      have fl := fits_length f1
      simp only [Res.ok_bind, fl]
      by_cases hl : w.length ≤ 65535
      · rw [if_neg (by omega), if_pos hl]
        refine ⟨be 2 w.length ++ w, rest, ?_, ?_, ?_⟩
        · unfold counted
          rw [fl]
          exact fits_append (fits_some _) f1
        · rw [show ([c, d] ++ (w ++ rest) : Bytes) = [] ++ ([c, d] ++ (w ++ rest)) from rfl,
            onSliceE_tail _ _ _ _ _ (by simp) (by simp)]
          simp only [List.cons_append, List.nil_append, setn16_cons2, Res.ok_bind]
          rw [BitVec.toNat_ofNat, Nat.mod_eq_of_lt (by omega)]
          simp
        · simp only [List.length_append, be_length, List.length_cons, List.length_nil] at l1 ⊢
          omega
      · rw [if_pos (by omega), if_neg hl]
        trivial
    | refused => rw [hf] at h3; exact err_bind (err_bind h3)
    | crash =>
      rw [hf] at h3
      simp only [EndCase] at h3 ⊢
      rw [h3]; rfl
  · rw [if_neg hi]
    refine ends_of 2 fun buf hb => ?_
    obtain ⟨c, d, r, rfl⟩ := exists_cons2 (l := buf) (by omega)
    unfold BgpUpdateMessage.encodeWithdrawsIn
    rw [nlriEncoderIn_eq, if_neg hi]
    simp only [setn16_cons2, Res.ok_bind, Fate.octets, List.map_nil, List.length_nil]
    exact ⟨[0, 0], r, ⟨.inr rfl, .inr rfl, trivial⟩, rfl, by simp⟩

/-- the last section -/
theorem ends_announced (m : Build) (p : BgpSessionParams) (x : BgpAddrs) : ∃ room, ∀ pre t : Bytes, room ≤ t.length →
    EndCase (match BgpUpdateMessage.nlriEncoderIn m p x with
      | some enc => do
        let (buf, n) ← onSliceE (pre ++ t) pre.length (pre ++ t).length enc
        .ok (buf, pre.length + n)
      | none => .ok (pre ++ t, pre.length)) pre t (sectionFate m p x) := by
  rw [nlriEncoderIn_eq]
  unfold sectionFate
  by_cases hi : InSession p x
  · rw [if_pos hi, if_pos hi]
    obtain ⟨room, h⟩ := ends_case (ends_nlri m x p)
    refine ⟨room, fun pre t ht => ?_⟩
    simp only
    rw [onSliceE_tail _ _ _ _ _ rfl (by simp)]
    have h3 := h t ht
    cases hf : nlriFate m x with
    | sent pat =>
      rw [hf] at h3
      obtain ⟨w, rest, f1, e1, l1⟩ := h3
      simp only [List.nil_append, List.length_nil, Nat.zero_add] at e1
      rw [e1]
      exact ⟨w, rest, f1, rfl, l1⟩
    | refused => rw [hf] at h3; exact err_bind (err_bind h3)
    | crash =>
      rw [hf] at h3
      simp only [EndCase] at h3 ⊢
      rw [h3]; rfl
  · rw [if_neg hi, if_neg hi]
    exact ⟨0, fun pre t _ => ⟨[], t, trivial, by simp, rfl⟩⟩

theorem ends_update (m : Build) (p : BgpSessionParams) (x : BgpUpdateMessage) : Ends (x.encodeToIn m p) (updateFate m p x) := by
  unfold updateFate
  obtain ⟨r1, h1⟩ := ends_case (ends_withdrawn m p x)
  obtain ⟨r2, h2⟩ := ends_attrs m p x.attrs 0
  obtain ⟨r3, h3⟩ := ends_announced m p x.updates
  cases hw : withdrawnFate m p x.withdraws with
  | refused =>
    refine ends_of r1 fun buf hb => ?_
    have h := h1 buf hb
    rw [hw] at h
    exact err_bind h
  | crash =>
    refine ends_of r1 fun buf hb => ?_
    have h := h1 buf hb
    rw [hw] at h
    simp only [EndCase] at h
    simp only [Fate.andThen, EndCase]
    unfold BgpUpdateMessage.encodeToIn
    rw [h]; rfl
  | sent wp =>
  cases ha : attrsFate m p 0 x.attrs with
  | refused =>
    refine ends_of (r1 + (wp.length + (2 + r2))) fun buf hb => ?_
    have h := h1 buf (by omega)
    rw [hw] at h
    obtain ⟨w, rest, f1, e1, l1⟩ := h
    have fl := fits_length f1
    simp only [List.length_append] at l1
    obtain ⟨c, d, r, rfl⟩ := exists_cons2 (l := rest) (by omega)
    simp only [List.length_cons] at l1
    have h := h2 w.length (w ++ [c, d]) r (by simp) (by omega)
    rw [ha] at h
    unfold BgpUpdateMessage.encodeToIn attributesFate
    rw [e1, ha]
    simp only [Res.ok_bind, List.nil_append, List.length_nil, Nat.zero_add]
    rw [show w ++ c :: d :: r = (w ++ [c, d]) ++ r by simp, show w.length + 2 = (w ++ [c, d]).length by simp]
    exact err_bind h
  | crash =>
    refine ends_of (r1 + (wp.length + (2 + r2))) fun buf hb => ?_
    have h := h1 buf (by omega)
    rw [hw] at h
    obtain ⟨w, rest, f1, e1, l1⟩ := h
    have fl := fits_length f1
    simp only [List.length_append] at l1
    obtain ⟨c, d, r, rfl⟩ := exists_cons2 (l := rest) (by omega)
    simp only [List.length_cons] at l1
    have h := h2 w.length (w ++ [c, d]) r (by simp) (by omega)
    rw [ha] at h
    unfold BgpUpdateMessage.encodeToIn attributesFate
    rw [e1, ha]
    simp only [Res.ok_bind, List.nil_append, List.length_nil, Nat.zero_add]
    rw [show w ++ c :: d :: r = (w ++ [c, d]) ++ r by simp, show w.length + 2 = (w ++ [c, d]).length by simp]
    simp only [EndCase] at h
    simp only [Fate.andThen, EndCase]
    rw [h]; rfl
  | sent ap =>
    refine ends_of (r1 + (wp.length + (2 + r2 + (ap.length + r3)))) fun buf hb => ?_
    have h := h1 buf (by omega)
    rw [hw] at h
    obtain ⟨w, rest, f1, e1, l1⟩ := h
    have fl := fits_length f1
    simp only [List.length_append] at l1
    obtain ⟨c, d, r, rfl⟩ := exists_cons2 (l := rest) (by omega)
    simp only [List.length_cons] at l1
    have h := h2 w.length (w ++ [c, d]) r (by simp) (by omega)
    rw [ha] at h
    obtain ⟨a, rest2, f2, e2, l2⟩ := h
    have fl2 := fits_length f2
    simp only [List.length_append] at l2
    unfold BgpUpdateMessage.encodeToIn attributesFate
    rw [e1, ha]
    simp only [Res.ok_bind, List.nil_append, List.length_nil, Nat.zero_add]
    rw [show w ++ c :: d :: r = (w ++ [c, d]) ++ r by simp, show w.length + 2 = (w ++ [c, d]).length by simp, e2]
    simp only [Res.ok_bind]
    rw [show w ++ [c, d] ++ (a ++ rest2) = w ++ ([c, d] ++ (a ++ rest2)) by simp,
      onSliceE_append _ _ _ _ _ _ rfl (by simp)]
    simp only [setn16_cons2, Res.ok_bind, List.append_nil]
    rw [show (w ++ [c, d]).length + a.length - w.length - 2 = a.length by simp; omega]
    have e3 : be 2 (BitVec.ofNat 16 a.length).toNat = be 2 a.length := by
      rw [BitVec.toNat_ofNat]
      exact be_congr_mod 2 _
    rw [e3, show w ++ (be 2 a.length ++ (a ++ rest2)) = (w ++ (be 2 a.length ++ a)) ++ rest2 by simp,
      show (w ++ [c, d]).length + a.length = (w ++ (be 2 a.length ++ a)).length by simp; omega]
    have h := h3 (w ++ (be 2 a.length ++ a)) rest2 (by omega)
    have f12 : Fits (wp ++ counted ap) (w ++ (be 2 a.length ++ a)) := by
      refine fits_append f1 ?_
      unfold counted
      rw [fl2]
      exact fits_append (fits_some _) f2
    cases hu : sectionFate m p x.updates with
    | sent up =>
      rw [hu] at h
      obtain ⟨u, rest3, f3, e4, l3⟩ := h
      refine ⟨w ++ (be 2 a.length ++ a) ++ u, rest3, ?_, ?_, ?_⟩
      · rw [← List.append_assoc]
        exact fits_append f12 f3
      · exact Eq.trans e4 (by simp [Nat.add_assoc])
      · simp only [List.length_append, be_length] at l3 ⊢
        omega
    | refused => rw [hu] at h; exact h
    | crash => rw [hu] at h; exact h

end Zbgp
