import Verif.Lemmas.ReturnsMsg

/-!
# Lemmas for C120: attributes and messages
-/

namespace Zbgp

open Spec

theorem fits_split : ∀ {p q : List (Option U8)} {w : Bytes}, Fits (p ++ q) w → ∃ a b, w = a ++ b ∧ Fits p a ∧ Fits q b
  | [], _, w, h => ⟨[], w, rfl, trivial, h⟩
  | _ :: p, q, [], h => h.elim
  | _ :: p, q, c :: w, h => by
    obtain ⟨a, b, rfl, h1, h2⟩ := fits_split h.2
    exact ⟨c :: a, b, rfl, ⟨h.1, h1⟩, h2⟩

theorem andThen_sent {a b : Fate} {pat : List (Option U8)} (h : a.andThen b = .sent pat) :
    ∃ p q, a = .sent p ∧ b = .sent q ∧ pat = p ++ q := by
  cases a <;> cases b <;> simp only [Fate.andThen, Fate.sent.injEq, reduceCtorEq] at h
  exact ⟨_, _, rfl, rfl, h.symm⟩

/-! ## Values -/

/-- what is to be shown of each attribute -/
structure Val (p : BgpSessionParams) (x : BgpAttrItem) : Prop where
  sent : ValueBack p x → ∃ w, valueFate .release p x = .octets w
  back : ∀ pat v, valueFate .release p x = .sent pat → Fits pat v → ValueBack p x →
    WrapValueRead p (attrCode x).1 (attrCode x).2 v x
  needed : ∀ pat v code flags, valueFate .release p x = .sent pat → Fits pat v → WrapValueRead p code flags v x →
    ValueBack p x ∧ pat = v.map some

theorem val_plain {p : BgpSessionParams} {x : BgpAttrItem} (hb : ValueBack p x = AttrOk p x)
    (hm : valueFate .release p x = valueFate .checked p x) (hs : Solid (valueFate .checked p x))
    (hc : AttrOk p x → (attrCode x).1 ≠ 14 ∧ (attrCode x).1 ≠ 15 ∧ (attrCode x).1 ≠ 128) (hr : attrReceived x = x)
    (h1 : ∀ u, x ≠ .MPUpdates u) (h2 : ∀ u, x ≠ .MPWithdraws u) (h3 : ∀ a l, x ≠ .AttrSet a l) : Val p x := by
  obtain ⟨room, he⟩ := ends_value .checked p x
  rw [attrEncV_checked] at he
  have hsent : AttrOk p x → valueFate .checked p x = .octets (valueWire p.hasAs32bit x) := by
    intro hw
    have hw := value_writes p x hw (List.replicate (room + (valueWire p.hasAs32bit x).length) 0) (by simp)
    cases hf : valueFate .checked p x with
    | sent pat =>
      obtain ⟨w, h⟩ := hs pat hf
      rw [h] at he
      obtain ⟨v, rest, h4, h5, -⟩ := he (List.replicate (room + (valueWire p.hasAs32bit x).length) 0) (by simp)
      obtain rfl := fits_some_eq h4
      rw [hw] at h5
      simp only [Res.ok.injEq, Prod.mk.injEq] at h5
      obtain ⟨rfl, -⟩ := List.append_inj h5.1 h5.2
      rw [← hf, h]
    | refused =>
      rw [hf] at he
      have := he (List.replicate (room + (valueWire p.hasAs32bit x).length) 0) (by simp)
      rw [hw] at this
      exact this.elim
    | crash =>
      rw [hf] at he
      have := he (List.replicate (room + (valueWire p.hasAs32bit x).length) 0) (by simp)
      rw [hw] at this
      cases this
  refine ⟨fun h => ?_, fun pat v h4 h5 h6 => ?_, fun pat v code flags h4 h5 h6 => ?_⟩
  · rw [hb] at h
    exact ⟨_, by rw [hm]; exact hsent h⟩
  · rw [hb] at h6
    rw [hm, hsent h6] at h4
    cases h4
    obtain rfl := fits_some_eq h5
    have hd := value_reads p x h6
    rw [hr] at hd
    exact .same _ _ _ _ (hc h6) (((value_exactly p _ _ _).ok _).1 hd)
  · rw [hm] at h4
    obtain ⟨w, hw⟩ := hs pat h4
    rw [hw] at h4
    cases h4
    obtain rfl := fits_some_eq h5
    rw [hw] at he
    refine ⟨?_, rfl⟩
    rw [hb]
    cases h6 with
    | same _ _ _ _ _ h6 =>
      obtain ⟨v, rest, h7, h8, -⟩ := he (List.replicate room 0) (by simp)
      obtain rfl := fits_some_eq h7
      have ht : (w ++ rest).take w.length = w := List.take_left' rfl
      rw [← ht] at h6
      exact (attr_normal h6 (value_needed h8 h6)).1
    | mpReach => exact absurd rfl (h1 _)
    | mpUnreach => exact absurd rfl (h2 _)
    | attrSet => exact absurd rfl (h3 _ _)

theorem nexthop_sent {f : Family} {nh : BgpAddr} (h : NexthopKind f nh) : (∀ x, nh ≠ .L2 x) ∧ ∀ x, nh ≠ .MVPN x := by
  constructor <;> rintro x rfl <;> cases f <;> exact h

theorem val_reach (p : BgpSessionParams) (x : BgpMPUpdates) : Val p (.MPUpdates x) := by
  obtain ⟨nh, addrs⟩ := x
  have key : (∀ y, nh ≠ .L2 y) → (∀ y, nh ≠ .MVPN y) → valueFate .release p (.MPUpdates ⟨nh, addrs⟩) =
      (Fate.octets (familyOctets addrs ++ [BitVec.ofNat 8 (nexthopWire nh).length] ++ nexthopWire nh ++ [0])).andThen
        (nlriFate .release addrs) := by
    intro h1 h2
    cases nh
    case L2 y => exact absurd rfl (h1 y)
    case MVPN y => exact absurd rfl (h2 y)
    all_goals rfl
  have fam : ∀ {f ap}, kindOf addrs = some (f, ap) → familyOctets addrs = familyWire f := by
    intro f ap h
    simp only [familyOctets, h]
  refine ⟨?_, ?_, ?_⟩
  · rintro ⟨f, hc, hk, -⟩
    obtain ⟨h1, h2⟩ := nexthop_sent hk
    obtain ⟨_, _, hi, _⟩ := hc
    obtain ⟨w, hw⟩ := (coll p f addrs).sent hi
    rw [key h1 h2, hw]
    exact ⟨familyOctets addrs ++ [BitVec.ofNat 8 (nexthopWire nh).length] ++ nexthopWire nh ++ [0] ++ w,
      by simp [Fate.octets, Fate.andThen]⟩
  · rintro pat v h3 h4 ⟨f, hc, hk, hr⟩
    obtain ⟨h1, h2⟩ := nexthop_sent hk
    rw [key h1 h2] at h3
    obtain ⟨q1, q2, e1, e2, rfl⟩ := andThen_sent h3
    cases e1
    obtain ⟨a, t, rfl, f1, f2⟩ := fits_split h4
    obtain rfl := fits_some_eq f1
    obtain ⟨n, hn⟩ := ((coll p f addrs).back q2 t e2 f2).2 hc
    obtain ⟨ap, hkind, -, -⟩ := hc
    have hsz := nexthopKind_size hk
    have hsm := nexthopWire_small nh
    have hl : (BitVec.ofNat 8 (nexthopWire nh).length : U8).toNat = (nexthopWire nh).length := by
      rw [BitVec.toNat_ofNat, Nat.mod_eq_of_lt (by omega)]
    refine .mpReach _ _ _ _ ⟨f, BitVec.ofNat 8 (nexthopWire nh).length, nexthopWire nh ++ [0] ++ t, [], t, n, hr, ?_, hk,
      by rw [List.append_assoc]; exact List.prefix_append _ _, .inr (.inr (.inr (by rw [hl, hsz]))), ?_, ?_, hn⟩
    · rw [fam hkind]; simp
    · have : (if VpnFamily f then nexthopSize f else (BitVec.ofNat 8 (nexthopWire nh).length : U8).toNat) = (nexthopWire nh).length := by
        split
        · exact hsz.symm
        · exact hl
      rw [this, List.append_assoc, List.drop_left' rfl]
      rfl
    · exact ⟨by simp, by simp⟩
  · intro pat v code flags h3 h4 h5
    cases h5 with
    | same _ _ _ _ hc h => cases h with
      | fixed _ _ _ _ _ h => cases h
      | mpReach => exact absurd rfl hc.1
    | mpReach _ _ _ _ h =>
      obtain ⟨f, l, rest, snpas, nlri, m, hrd, hv, hnk, -, -, hd, hs, ha⟩ := h
      obtain ⟨ap, hk⟩ := wrapAddrs_kind ha
      obtain ⟨h1, h2⟩ := nexthop_sent hnk
      rw [key h1 h2] at h3
      obtain ⟨q1, q2, e1, e2, rfl⟩ := andThen_sent h3
      cases e1
      obtain ⟨a, t, rfl, f1, f2⟩ := fits_split h4
      obtain rfl := fits_some_eq f1
      rw [fam hk] at hv
      simp only [List.append_assoc] at hv
      obtain ⟨-, hv⟩ := familyWire_inj hv
      simp only [List.cons_append, List.nil_append, List.cons.injEq] at hv
      obtain ⟨rfl, rfl⟩ := hv
      have hsz := nexthopKind_size hnk
      have hsm := nexthopWire_small nh
      have hl : (if VpnFamily f then nexthopSize f else (BitVec.ofNat 8 (nexthopWire nh).length).toNat) =
          (nexthopWire nh).length := by
        split
        · exact hsz.symm
        · rw [BitVec.toNat_ofNat, Nat.mod_eq_of_lt (by omega)]
      rw [hl, List.drop_left' rfl, snpasWire] at hd
      simp only [List.cons_append, List.cons.injEq] at hd
      obtain ⟨h0, hd⟩ := hd
      have : snpas = [] := by
        have h1 := congrArg BitVec.toNat h0
        rw [BitVec.toNat_ofNat, Nat.mod_eq_of_lt (by have := hs.1; omega)] at h1
        exact List.eq_nil_of_length_eq_zero h1.symm
      subst this
      simp only [List.flatMap_nil, List.nil_append] at hd
      subst hd
      refine ⟨⟨f, ((coll p f addrs).back _ _ e2 f2).1 ⟨m, ha⟩, hnk, hrd⟩, ?_⟩
      rw [(coll p f addrs).full _ _ _ e2 f2 ha, ← List.map_append]

theorem val_unreach (p : BgpSessionParams) (x : BgpMPWithdraws) : Val p (.MPWithdraws x) := by
  obtain ⟨addrs⟩ := x
  have fam : ∀ {f ap}, kindOf addrs = some (f, ap) → familyOctets addrs = familyWire f := by
    intro f ap h
    simp only [familyOctets, h]
  refine ⟨?_, ?_, ?_⟩
  · rintro ⟨f, hc⟩
    obtain ⟨_, _, hi, _⟩ := hc
    obtain ⟨w, hw⟩ := (coll p f addrs).sent hi
    simp only [valueFate, hw]
    exact ⟨familyOctets addrs ++ w, by simp [Fate.octets, Fate.andThen]⟩
  · rintro pat v h3 h4 ⟨f, hc⟩
    obtain ⟨q1, q2, e1, e2, rfl⟩ := andThen_sent h3
    cases e1
    obtain ⟨a, t, rfl, f1, f2⟩ := fits_split h4
    obtain rfl := fits_some_eq f1
    obtain ⟨n, hn⟩ := ((coll p f addrs).back q2 t e2 f2).2 hc
    obtain ⟨ap, hkind, -, -⟩ := hc
    rw [fam hkind]
    exact .mpUnreach _ _ _ _ _ hn
  · intro pat v code flags h3 h4 h5
    obtain ⟨q1, q2, e1, e2, rfl⟩ := andThen_sent h3
    cases e1
    obtain ⟨a, t, rfl, f1, f2⟩ := fits_split h4
    obtain rfl := fits_some_eq f1
    generalize hv : familyOctets addrs ++ t = v at h5
    cases h5 with
    | same _ _ _ _ hc h => cases h with
      | fixed _ _ _ _ _ h => cases h
      | mpUnreach => exact absurd rfl hc.2.1
    | mpUnreach _ f nlri _ n h =>
      obtain ⟨ap, hk⟩ := wrapAddrs_kind h
      rw [fam hk] at hv
      obtain ⟨-, rfl⟩ := familyWire_inj hv
      refine ⟨⟨f, ((coll p f addrs).back _ _ e2 f2).1 ⟨n, h⟩⟩, ?_⟩
      rw [(coll p f addrs).full _ _ _ e2 f2 h, fam hk, ← List.map_append]

theorem val_aggregator (p : BgpSessionParams) (x : BgpAggregatorAS) : Val p (.AggregatorAS x) := by
  refine ⟨False.elim, fun _ _ _ _ h => h.elim, fun pat v code flags h3 h4 h5 => ?_⟩
  exfalso
  cases h3
  have hl := fits_length h4
  rw [List.length_replicate] at hl
  cases h5 with
  | same _ _ _ _ hc h => cases h with
    | fixed _ _ w t _ hf ht =>
      cases hf with
      | aggregator4 asn a => simp [aggregatorWire] at hl; split at hl <;> omega
      | aggregator2 asn a ha => simp [aggregatorWire] at hl; split at hl <;> omega

theorem val_unsent {p : BgpSessionParams} {x : BgpAttrItem} (hb : ¬ ValueBack p x) (h : valueFate .release p x = .crash) : Val p x :=
  ⟨fun h => absurd h hb, fun _ _ h1 => (by rw [h] at h1; cases h1), fun _ _ _ _ h1 => (by rw [h] at h1; cases h1)⟩

theorem val (p : BgpSessionParams) (x : BgpAttrItem) : Val p x := by
  cases x with
  | MPUpdates x => exact val_reach p x
  | MPWithdraws x => exact val_unreach p x
  | AggregatorAS x => exact val_aggregator p x
  | PMSITunnel x => exact val_unsent id rfl
  | AttrSet a l => exact val_unsent id rfl
  | NextHop x =>
    refine val_plain rfl rfl ?_ (by simp [attrCode]) rfl (by simp) (by simp) (by simp)
    simp only [valueFate]
    split
    · exact solid_octets _
    · exact solid_refused
  | OriginatorID x =>
    refine val_plain rfl rfl ?_ (by simp [attrCode]) rfl (by simp) (by simp) (by simp)
    simp only [valueFate]
    split
    · exact solid_octets _
    · exact solid_refused
  | Unknown x =>
    refine val_plain rfl rfl (solid_octets _) (fun h => ?_) rfl (by simp) (by simp) (by simp)
    have h : x.params.typecode.toNat ∉ assignedCodes := h
    refine ⟨?_, ?_, ?_⟩ <;> (intro e; exact h (by rw [show x.params.typecode = _ from e]; decide))
  | _ => exact val_plain rfl rfl (solid_octets _) (by simp [attrCode]) rfl (by simp) (by simp) (by simp)

/-! ## Attributes -/

theorem attrFate_sent {p : BgpSessionParams} {x : BgpAttrItem} {pat : List (Option U8)} (h : attrFate .release p x = .sent pat) :
    ∃ q, valueFate .release p x = .sent q ∧ q.length ≤ maxValue (attrCode x).2 ∧
      pat = (attrHeader (attrCode x).1 (attrCode x).2 q.length).map some ++ q := by
  unfold attrFate at h
  cases hv : valueFate .release p x with
  | sent q =>
    rw [hv] at h
    by_cases hl : q.length ≤ maxValue (attrCode x).2
    · simp only [if_pos hl, Fate.sent.injEq] at h
      exact ⟨q, rfl, hl, h.symm⟩
    · simp only [if_neg hl] at h
      cases h
  | refused => rw [hv] at h; cases h
  | crash => rw [hv] at h; cases h

theorem attrsFate_sent {p : BgpSessionParams} {x : BgpAttrItem} {l : List BgpAttrItem} {n : Nat} {pat : List (Option U8)}
    (h : attrsFate .release p n (x :: l) = .sent pat) :
    ∃ q r k, attrFate .release p x = .sent q ∧ attrsFate .release p k l = .sent r ∧ pat = q ++ r := by
  unfold attrsFate at h
  by_cases hn : n > 65533
  · rw [if_pos hn] at h; cases h
  · rw [if_neg hn] at h
    cases hv : attrFate .release p x with
    | sent q =>
      rw [hv] at h
      obtain ⟨a, b, h1, h2, rfl⟩ := andThen_sent h
      cases h1
      exact ⟨_, _, _, rfl, h2, rfl⟩
    | refused => rw [hv] at h; cases h
    | crash => rw [hv] at h; cases h

theorem attrs_back {p : BgpSessionParams} {l : List BgpAttrItem} {n : Nat} {pat : List (Option U8)} {b : Bytes}
    (h : attrsFate .release p n l = .sent pat) (hf : Fits pat b) (hl : ∀ x ∈ l, ValueBack p x) :
    AttrsRead (WrapValueRead p) b l := by
  induction l generalizing n pat b with
  | nil =>
    cases h
    cases b with
    | nil => exact .nil
    | cons => exact hf.elim
  | cons x l ih =>
    obtain ⟨q, r, k, h1, h2, rfl⟩ := attrsFate_sent h
    obtain ⟨a, t, rfl, f1, f2⟩ := fits_split hf
    obtain ⟨q, h3, h4, rfl⟩ := attrFate_sent h1
    obtain ⟨hd, v, rfl, f3, f4⟩ := fits_split f1
    obtain rfl := fits_some_eq f3
    have := (val p x).back q v h3 f4 (hl x (by simp))
    rw [fits_length f4] at h4 ⊢
    exact .cons ⟨(attrCode x).1, (attrCode x).2, v⟩ x t l h4 this (ih h2 f2 fun y hy => hl y (List.mem_cons_of_mem _ hy))

theorem attrs_only {p : BgpSessionParams} {l : List BgpAttrItem} {n : Nat} {pat : List (Option U8)} {a b : Bytes}
    (h : attrsFate .release p n l = .sent pat) (hf : Fits pat b) (hr : AttrsRead (WrapValueRead p) a l) (ha : a <+: b) :
    (∀ x ∈ l, ValueBack p x) ∧ a = b ∧ pat = b.map some := by
  induction l generalizing n pat a b with
  | nil =>
    cases h
    cases hr
    cases b with
    | nil => exact ⟨by simp, rfl, rfl⟩
    | cons => exact hf.elim
  | cons x l ih =>
    obtain ⟨q, r, k, h1, h2, rfl⟩ := attrsFate_sent h
    obtain ⟨a', t', rfl, f1, f2⟩ := fits_split hf
    obtain ⟨q, h3, h4, rfl⟩ := attrFate_sent h1
    obtain ⟨hd, v, rfl, f3, f4⟩ := fits_split f1
    obtain rfl := fits_some_eq f3
    rw [fits_length f4] at h4 ha ⊢
    cases hr with
    | cons r' _ t _ hw hv hl =>
      obtain ⟨z, hz⟩ := ha
      rw [rawWire, List.append_assoc, List.append_assoc, List.append_assoc] at hz
      obtain ⟨q1, q2, q3, q4⟩ := attrHeader_inj hw h4 hz
      obtain ⟨q5, q6⟩ := List.append_inj q4 q3
      rw [q5] at hv
      obtain ⟨i1, i2⟩ := (val p x).needed q v _ _ h3 f4 hv
      obtain ⟨j1, rfl, j3⟩ := ih h2 f2 hl ⟨z, q6⟩
      refine ⟨?_, ?_, ?_⟩
      · intro y hy
        rcases List.mem_cons.1 hy with rfl | hy
        · exact i1
        · exact j1 y hy
      · rw [rawWire, q1, q2, q5]
      · rw [i2, j3]; simp

/-! ## Messages -/

theorem section_inside {p : BgpSessionParams} {x : BgpAddrs} {ap : Bool} (h : kindOf x = some (sessionFamily p, ap)) :
    sectionFate .release p x = nlriFate .release x := by
  unfold sectionFate
  rw [if_pos (by unfold InSession; rw [h]; rfl)]

theorem update_sent {p : BgpSessionParams} {m : BgpUpdateMessage} {pat : List (Option U8)} (h : updateFate .release p m = .sent pat) :
    ∃ qw qa qu, sectionFate .release p m.withdraws = .sent qw ∧ qw.length ≤ 65535 ∧ attrsFate .release p 0 m.attrs = .sent qa ∧
      sectionFate .release p m.updates = .sent qu ∧ pat = counted qw ++ (counted qa ++ qu) := by
  unfold updateFate at h
  obtain ⟨p1, p2, h1, h2, rfl⟩ := andThen_sent h
  obtain ⟨p3, qu, h3, h4, rfl⟩ := andThen_sent h2
  unfold withdrawnFate at h1
  unfold attributesFate at h3
  cases hw : sectionFate .release p m.withdraws with
  | sent qw =>
    rw [hw] at h1
    by_cases hl : qw.length ≤ 65535
    · simp only [if_pos hl, Fate.sent.injEq] at h1
      cases ha : attrsFate .release p 0 m.attrs with
      | sent qa =>
        rw [ha] at h3
        simp only [Fate.sent.injEq] at h3
        exact ⟨qw, qa, qu, rfl, hl, rfl, h4, by rw [h1, h3]⟩
      | refused => rw [ha] at h3; cases h3
      | crash => rw [ha] at h3; cases h3
    · simp only [if_neg hl] at h1
      cases h1
  | refused => rw [hw] at h1; cases h1
  | crash => rw [hw] at h1; cases h1

theorem fits_counted {q : List (Option U8)} {r : List (Option U8)} {b : Bytes} (h : Fits (counted q ++ r) b) :
    ∃ v t, b = be 2 v.length ++ v ++ t ∧ Fits q v ∧ Fits r t := by
  obtain ⟨a, t, rfl, f1, f2⟩ := fits_split h
  obtain ⟨c, v, rfl, f3, f4⟩ := fits_split f1
  obtain rfl := fits_some_eq f3
  exact ⟨v, t, by rw [fits_length f4], f4, f2⟩

theorem section_back {p : BgpSessionParams} {x : BgpAddrs} {pat : List (Option U8)} {w : Bytes}
    (h : sectionFate .release p x = .sent pat) (hf : Fits pat w) :
    (WrapNlriIs p w x ↔ CollectionBack p (sessionFamily p) x) ∧ (WrapNlriIs p w x → pat = w.map some) := by
  by_cases hk : ∃ ap, kindOf x = some (sessionFamily p, ap)
  · obtain ⟨ap, hk⟩ := hk
    rw [section_inside hk] at h
    exact ⟨(coll p _ x).back _ _ h hf, fun ⟨n, hn⟩ => (coll p _ x).full _ _ _ h hf hn⟩
  · refine ⟨⟨?_, ?_⟩, ?_⟩
    · rintro ⟨n, hn⟩; exact absurd (wrapAddrs_kind hn) hk
    · rintro ⟨ap, hn, -⟩; exact absurd ⟨ap, hn⟩ hk
    · rintro ⟨n, hn⟩; exact absurd (wrapAddrs_kind hn) hk

theorem message_back {p : BgpSessionParams} {m : BgpUpdateMessage} {pat : List (Option U8)} {b : Bytes}
    (h : updateFate .release p m = .sent pat) (hf : Fits pat b) :
    WrapUpdateRead p b m.withdraws m.attrs m.updates ↔ MessageBack p m := by
  obtain ⟨qw, qa, qu, h1, hl, h2, h3, rfl⟩ := update_sent h
  obtain ⟨w, t, rfl, f1, f2⟩ := fits_counted hf
  obtain ⟨a, u, rfl, f3, f4⟩ := fits_counted f2
  obtain ⟨s1, s2⟩ := section_back h1 f1
  obtain ⟨s3, s4⟩ := section_back h3 f4
  rw [fits_length f1] at hl
  constructor
  · rintro ⟨w', a', u', e, l1, l2, r1, r2, r3⟩
    rw [updateBytes] at e
    simp only [List.append_assoc] at e
    obtain ⟨e1, k1⟩ := List.append_inj e (by simp)
    obtain ⟨k2, k3⟩ := List.append_inj k1 (be_inj (n := 2) (by omega) (by omega) e1)
    obtain ⟨e2, k4⟩ := List.append_inj k3 (by simp)
    clear e e1 k1 k3
    subst k2
    have hla : a'.length ≤ a.length := by
      rw [← be2_mod a.length] at e2
      have := be_inj (n := 2) (Nat.mod_lt _ (by decide)) (by omega) e2
      have := Nat.mod_le a.length 65536
      omega
    have hp : a' <+: a := by
      refine List.prefix_of_prefix_length_le ⟨u', rfl⟩ ?_ hla
      rw [← k4]
      exact List.prefix_append _ _
    obtain ⟨j1, rfl, j3⟩ := attrs_only h2 f3 r2 hp
    obtain ⟨-, rfl⟩ := List.append_inj k4 rfl
    exact ⟨s1.1 r1, s3.1 r3, j1, ⟨w, by rw [h1, s2 r1]; rfl, hl⟩, ⟨_, by rw [h2, j3]; rfl, l2⟩⟩
  · rintro ⟨c1, c2, c3, -, ⟨a', e, la⟩⟩
    rw [h2] at e
    cases e
    obtain rfl := fits_some_eq f3
    exact ⟨w, a', u, by simp [updateBytes], hl, la, s1.2 c1, attrs_back h2 f3 c3, s3.2 c2⟩

theorem message_sent {p : BgpSessionParams} {m : BgpUpdateMessage} (h : MessageBack p m) :
    ∃ pat, updateFate .release p m = .sent pat := by
  obtain ⟨-, ⟨ap, hk, hi, -⟩, -, ⟨w, h1, hl⟩, ⟨a, h2, -⟩⟩ := h
  obtain ⟨u, hu⟩ := (coll p (sessionFamily p) m.updates).sent hi
  unfold updateFate withdrawnFate attributesFate
  rw [h1, h2, section_inside hk, hu]
  simp only [Fate.octets, List.length_map, if_pos hl, Fate.andThen]
  exact ⟨_, rfl⟩

theorem messages_return (p : BgpSessionParams) (m : BgpUpdateMessage) : ∃ room, ∀ buf : Bytes, room ≤ buf.length →
    ((∃ buf' k, m.encodeToIn .release p buf = .ok (buf', k) ∧
      BgpUpdateMessage.new.decodeFromIn .release p (buf'.take k) = .ok m) ↔ MessageBack p m) := by
  obtain ⟨room, h⟩ := returns_of (enc := m.encodeToIn .release p) (C := MessageBack p m) (x := m)
    (dec := fun b => (BgpUpdateMessage.new.decodeFromIn .release p b).bind fun y => .ok (y, 0))
    (ends_update .release p m) (fun pat w h1 h2 => by
      rw [← message_back h1 h2]
      constructor
      · rintro ⟨n, h⟩
        obtain ⟨y, h3, h4⟩ := Res.bind_eq_ok.1 h
        cases h4
        obtain ⟨l, h5, h6⟩ := ((Rel.update_exactly .new p _).ok m).1 h3
        rw [show m.attrs = l by rw [h6]; rfl]
        exact h5
      · intro h
        exact ⟨0, Res.bind_eq_ok.2 ⟨m, ((Rel.update_exactly .new p _).ok m).2 ⟨m.attrs, h, rfl⟩, rfl⟩⟩)
    (fun h hm => by
      obtain ⟨pat, hp⟩ := message_sent hm
      exact h _ hp)
  refine ⟨room, fun buf hb => ?_⟩
  rw [← h buf hb]
  constructor
  · rintro ⟨buf', k, h1, h2⟩
    exact ⟨buf', k, 0, h1, Res.bind_eq_ok.2 ⟨m, h2, rfl⟩⟩
  · rintro ⟨buf', k, n, h1, h2⟩
    obtain ⟨y, h3, h4⟩ := Res.bind_eq_ok.1 h2
    cases h4
    exact ⟨buf', k, h1, h3⟩

theorem values_return (p : BgpSessionParams) (x : BgpAttrItem) : ∃ room, ∀ buf : Bytes, room ≤ buf.length →
    ((∃ buf' k, x.encodeValueIn .release p buf = .ok (buf', k) ∧
      BgpAttrItem.decodeFromIn .release p (attrCode x).1 (attrCode x).2 (buf'.take k).length (buf'.take k) = .ok x) ↔
      ValueBack p x) := by
  obtain ⟨room, h⟩ := returns_of (enc := x.encodeValueIn .release p) (C := ValueBack p x) (x := x)
    (dec := fun b => (BgpAttrItem.decodeFromIn .release p (attrCode x).1 (attrCode x).2 b.length b).bind fun y => .ok (y, 0))
    (ends_value .release p x) (fun pat w h1 h2 => by
      constructor
      · rintro ⟨n, h⟩
        obtain ⟨y, h3, h4⟩ := Res.bind_eq_ok.1 h
        cases h4
        exact ((val p x).needed pat w _ _ h1 h2 (((Rel.value_exactly p _ _ _).ok x).1 h3)).1
      · intro h
        exact ⟨0, Res.bind_eq_ok.2 ⟨x, ((Rel.value_exactly p _ _ _).ok x).2 ((val p x).back pat w h1 h2 h), rfl⟩⟩)
    (fun h hm => by
      obtain ⟨w, hw⟩ := (val p x).sent hm
      exact h _ hw)
  refine ⟨room, fun buf hb => ?_⟩
  rw [← h buf hb]
  constructor
  · rintro ⟨buf', k, h1, h2⟩
    exact ⟨buf', k, 0, h1, Res.bind_eq_ok.2 ⟨x, h2, rfl⟩⟩
  · rintro ⟨buf', k, n, h1, h2⟩
    obtain ⟨y, h3, h4⟩ := Res.bind_eq_ok.1 h2
    cases h4
    exact ⟨buf', k, h1, h3⟩

end Zbgp
