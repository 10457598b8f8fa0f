import Verif.Lemmas.ReturnsUpdate
import Verif.Spec.Between

/-!
# Lemmas for C122
-/

namespace Zbgp

open Spec

/-- as `Val`, between two ends -/
structure ValBetween (p q : BgpSessionParams) (x : BgpAttrItem) : Prop where
  sent : ValueBetween p q x → ∃ w, valueFate .release p x = .octets w
  back : ∀ pat v, valueFate .release p x = .sent pat → Fits pat v → ValueBetween p q x →
    WrapValueRead q (attrCode x).1 (attrCode x).2 v x
  needed : ∀ pat v code flags, valueFate .release p x = .sent pat → Fits pat v → WrapValueRead q code flags v x →
    ValueBetween p q x ∧ pat = v.map some

theorem valBetween_same {p q : BgpSessionParams} {x : BgpAttrItem} (hb : ValueBetween p q x = ValueBack q x)
    (hf : valueFate .release p x = valueFate .release q x) : ValBetween p q x := by
  obtain ⟨h1, h2, h3⟩ := val q x
  refine ⟨?_, ?_, ?_⟩
  · rw [hb, hf]; exact h1
  · rw [hb, hf]; exact h2
  · rw [hb, hf]; exact h3

theorem path_between {p q : BgpSessionParams} {l : List BgpAS} :
    AsPathRead q.hasAs32bit (asPathWire p.hasAs32bit l) l ↔ PathBetween p q l := by
  unfold AsPathRead asPathWire PathBetween
  by_cases hl : l = []
  · subst hl
    refine ⟨fun _ => Or.inl rfl, fun _ => ⟨[], by simp, ?_, by simp⟩⟩
    show 0 < _
    split <;> omega
  rw [if_neg hl]
  have hn : 0 < l.length := List.length_pos_iff.2 hl
  have hlen : ∀ pre : Bytes, [2, BitVec.ofNat 8 l.length] ++ l.flatMap (asnWire p.hasAs32bit) = pre ++ l.flatMap (asnWire q.hasAs32bit) →
      2 + l.length * (if p.hasAs32bit then 4 else 2) = pre.length + l.length * (if q.hasAs32bit then 4 else 2) := by
    intro pre h
    have := congrArg List.length h
    simp only [List.length_append, asns_length, List.length_cons, List.length_nil] at this
    omega
  cases hp : p.hasAs32bit <;> cases hq : q.hasAs32bit <;> rw [hp, hq] at hlen
  · constructor
    · rintro ⟨pre, h, h1, -⟩
      have := hlen pre h
      simp at this h1
      omega
    · simp [hl]
  · constructor
    · rintro ⟨pre, h, h1, -⟩
      have := hlen pre h
      simp at this h1
      have h2 : l.length = 1 := by omega
      have h3 : pre = [] := List.length_eq_zero_iff.1 (by omega)
      obtain ⟨a, rfl⟩ := List.length_eq_one_iff.1 h2
      subst h3
      refine Or.inr ⟨rfl, Or.inr ⟨a, rfl, ?_⟩⟩
      simp only [List.flatMap_cons, List.flatMap_nil, List.append_nil, List.nil_append, asnWire, if_true, Bool.false_eq_true, if_false] at h
      rw [(be_split 2 2 _ : be 4 _ = _)] at h
      obtain ⟨h4, -⟩ := List.append_inj h (by simp)
      have ha := a.value.isLt
      exact (be_inj (n := 2) (a := 0x0201) (by decide) (by omega) (Eq.trans (show be 2 513 = [2, 1] by decide) h4)).symm
    · rintro (h | ⟨-, h | ⟨a, rfl, h⟩⟩)
      · exact absurd h hl
      · cases h
      · refine ⟨[], ?_, by simp, by simp⟩
        simp only [List.flatMap_cons, List.flatMap_nil, List.append_nil, List.nil_append, asnWire, if_true, Bool.false_eq_true, if_false]
        rw [(be_split 2 2 _ : be 4 _ = _), show (256 : Nat) ^ 2 = 65536 from rfl, h, show be 2 513 = [2, 1] by decide]
        rfl
  · constructor
    · rintro ⟨pre, h, h1, -⟩
      have := hlen pre h
      simp at this h1
      omega
    · simp [hl]
  · exact ⟨fun _ => Or.inr ⟨rfl, Or.inl rfl⟩, fun _ => ⟨_, rfl, by simp, by simp⟩⟩

theorem read_path {q : BgpSessionParams} {code flags : U8} {v : Bytes} {x : BgpASpath} (h : WrapValueRead q code flags v (.ASPath x)) :
    AsPathRead q.hasAs32bit v x.value := by
  cases h with
  | same _ _ _ _ _ h => cases h with
    | fixed _ _ _ _ _ h => cases h
    | asPath _ _ _ h => exact h

theorem read_nexthop {q : BgpSessionParams} {code flags : U8} {v : Bytes} {x : BgpNextHop}
    (h : WrapValueRead q code flags v (.NextHop x)) : addrFamily x.value = q.peerMode := by
  cases h with
  | same _ _ _ _ _ h => cases h with
    | fixed _ _ _ _ _ h => cases h with
      | nextHop _ h => exact h

theorem read_originator {q : BgpSessionParams} {code flags : U8} {v : Bytes} {a : IpAddr}
    (h : WrapValueRead q code flags v (.OriginatorID ⟨a⟩)) : addrFamily a = .IPv4 ∨ q.peerMode = .IPv6 := by
  cases h with
  | same _ _ _ _ _ h => cases h with
    | fixed _ _ _ _ _ h => cases h
    | originatorId _ _ _ h =>
      cases a with
      | v4 a => exact Or.inl rfl
      | v6 a => exact Or.inr (h.1 rfl).1

theorem valBetween (p q : BgpSessionParams) (x : BgpAttrItem) : ValBetween p q x := by
  cases x with
  | ASPath x =>
    refine ⟨fun _ => ⟨_, rfl⟩, fun pat v h1 h2 h3 => ?_, fun pat v code flags h1 h2 h3 => ?_⟩
    · cases h1
      obtain rfl := fits_some_eq h2
      exact .same _ _ _ _ (by simp [attrCode]) (.asPath _ _ _ (path_between.2 h3))
    · cases h1
      obtain rfl := fits_some_eq h2
      exact ⟨path_between.1 (read_path h3), rfl⟩
  | NextHop x =>
    refine ⟨fun h => ⟨ipBody x.value, ?_⟩, fun pat v h1 h2 h3 => ?_, fun pat v code flags h1 h2 h3 => ?_⟩
    · simp only [valueFate]; rw [if_pos h.1]
    · simp only [valueFate] at h1
      rw [if_pos h3.1] at h1
      cases h1
      obtain rfl := fits_some_eq h2
      rw [← List.append_nil (ipBody x.value)]
      exact .same _ _ _ _ (by simp [attrCode]) (.fixed _ _ _ [] _ (.nextHop _ h3.2) (fun _ => rfl))
    · simp only [valueFate] at h1
      by_cases hp : addrFamily x.value = p.peerMode
      · rw [if_pos hp] at h1
        cases h1
        obtain rfl := fits_some_eq h2
        exact ⟨⟨hp, read_nexthop h3⟩, rfl⟩
      · rw [if_neg hp] at h1
        cases h1
  | OriginatorID x =>
    obtain ⟨a⟩ := x
    refine ⟨fun h => ⟨ipBody a, ?_⟩, fun pat v h1 h2 h3 => ?_, fun pat v code flags h1 h2 h3 => ?_⟩
    · simp only [valueFate]; rw [if_pos h.1]
    · simp only [valueFate] at h1
      rw [if_pos h3.1] at h1
      cases h1
      obtain rfl := fits_some_eq h2
      have hr : ValueRead q 9 (attrCode (.OriginatorID ⟨a⟩)).2 (ipBody a ++ []) (.OriginatorID ⟨a⟩) := by
        refine .originatorId _ a [] ?_
        rcases h3.2 with h | h
        · have : ¬ 16 ≤ (ipBody a ++ []).length := by
            cases a with
            | v4 a => simp [ipBody]
            | v6 a => cases h
          have h : addrFamily a = .IPv4 := h
          rw [List.append_nil] at this ⊢
          simp only [h, this, reduceCtorEq, and_false]
        · cases a with
          | v4 a => simp [addrFamily, ipBody]
          | v6 a => simp [addrFamily, ipBody, h]
      rw [List.append_nil] at hr
      exact .same _ _ _ _ (by simp [attrCode]) hr
    · simp only [valueFate] at h1
      by_cases hp : addrFamily a = p.peerMode
      · rw [if_pos hp] at h1
        cases h1
        obtain rfl := fits_some_eq h2
        exact ⟨⟨hp, read_originator h3⟩, rfl⟩
      · rw [if_neg hp] at h1
        cases h1
  | AggregatorAS x =>
    refine ⟨False.elim, fun _ _ _ _ h => h.elim, fun pat v code flags h3 h4 h5 => ?_⟩
    exfalso
    cases h3
    have hl := fits_length h4
    rw [List.length_replicate] at hl
    cases h5 with
    | same _ _ _ _ hc h => cases h with
      | fixed _ _ w t _ hf ht =>
        cases hf with
        | aggregator4 asn a => simp [aggregatorWire] at hl; split at hl <;> omega
        | aggregator2 asn a ha => simp [aggregatorWire] at hl; split at hl <;> omega
  | Origin x => obtain ⟨_ | _ | _⟩ := x <;> exact valBetween_same rfl rfl
  | _ => exact valBetween_same rfl rfl

theorem attrs_between {p q : BgpSessionParams} {l : List BgpAttrItem} {n : Nat} {pat : List (Option U8)} {b : Bytes}
    (h : attrsFate .release p n l = .sent pat) (hf : Fits pat b) (hl : ∀ x ∈ l, ValueBetween p q x) :
    AttrsRead (WrapValueRead q) b l := by
  induction l generalizing n pat b with
  | nil =>
    cases h
    cases b with
    | nil => exact .nil
    | cons => exact hf.elim
  | cons x l ih =>
    obtain ⟨s, r, k, h1, h2, rfl⟩ := attrsFate_sent h
    obtain ⟨a, t, rfl, f1, f2⟩ := fits_split hf
    obtain ⟨s, h3, h4, rfl⟩ := attrFate_sent h1
    obtain ⟨hd, v, rfl, f3, f4⟩ := fits_split f1
    obtain rfl := fits_some_eq f3
    have := (valBetween p q x).back s v h3 f4 (hl x (by simp))
    rw [fits_length f4] at h4 ⊢
    exact .cons ⟨(attrCode x).1, (attrCode x).2, v⟩ x t l h4 this (ih h2 f2 fun y hy => hl y (List.mem_cons_of_mem _ hy))

theorem attrs_between_only {p q : BgpSessionParams} {l : List BgpAttrItem} {n : Nat} {pat : List (Option U8)} {a b : Bytes}
    (h : attrsFate .release p n l = .sent pat) (hf : Fits pat b) (hr : AttrsRead (WrapValueRead q) a l) (ha : a <+: b) :
    (∀ x ∈ l, ValueBetween p q x) ∧ a = b ∧ pat = b.map some := by
  induction l generalizing n pat a b with
  | nil =>
    cases h
    cases hr
    cases b with
    | nil => exact ⟨by simp, rfl, rfl⟩
    | cons => exact hf.elim
  | cons x l ih =>
    obtain ⟨s, r, k, h1, h2, rfl⟩ := attrsFate_sent h
    obtain ⟨a', t', rfl, f1, f2⟩ := fits_split hf
    obtain ⟨s, h3, h4, rfl⟩ := attrFate_sent h1
    obtain ⟨hd, v, rfl, f3, f4⟩ := fits_split f1
    obtain rfl := fits_some_eq f3
    rw [fits_length f4] at h4 ha ⊢
    cases hr with
    | cons r' _ t _ hw hv hl =>
      obtain ⟨z, hz⟩ := ha
      rw [rawWire, List.append_assoc, List.append_assoc, List.append_assoc] at hz
      obtain ⟨q1, q2, q3, q4⟩ := attrHeader_inj hw h4 hz
      obtain ⟨q5, q6⟩ := List.append_inj q4 q3
      rw [q5] at hv
      obtain ⟨i1, i2⟩ := (valBetween p q x).needed s v _ _ h3 f4 hv
      obtain ⟨j1, rfl, j3⟩ := ih h2 f2 hl ⟨z, q6⟩
      refine ⟨?_, ?_, ?_⟩
      · intro y hy
        rcases List.mem_cons.1 hy with rfl | hy
        · exact i1
        · exact j1 y hy
      · rw [rawWire, q1, q2, q5]
      · rw [i2, j3]; simp

theorem section_same {p q : BgpSessionParams} (h : p.peerMode = q.peerMode) (x : BgpAddrs) :
    sectionFate .release p x = sectionFate .release q x := by
  have hs : InSession p x ↔ InSession q x := by
    unfold InSession sessionFamily
    rw [h]
  unfold sectionFate
  simp only [hs]

theorem none_read {q : BgpSessionParams} {x : BgpAddrs} (h : WrapNlriIs q [] x) : NoPrefixes x := by
  obtain ⟨n, h⟩ := h
  have none : ∀ {α : Type} {lim : Nat} {R : Bytes → α → Nat → Prop} {v : List α}, ItemsRead lim R [] v n → v = [] := by
    intro α lim R v h
    cases h with
    | done => rfl
    | item _ _ _ _ _ hb => exact absurd hb (Nat.not_lt_zero _)
  unfold NoPrefixes
  cases hf : sessionFamily q <;> rw [hf] at h
  case ipv4Unicast =>
    simp only [WrapAddrs, WrapField] at h
    split at h
    · obtain ⟨v, rfl, h⟩ := h
      exact Or.inr (Or.inl (by rw [none h]))
    · obtain ⟨v, rfl, h⟩ := h
      exact Or.inl (by rw [none h])
  case ipv6Unicast =>
    simp only [WrapAddrs, WrapField] at h
    split at h
    · obtain ⟨v, rfl, h⟩ := h
      exact Or.inr (Or.inr (Or.inr (by rw [none h])))
    · obtain ⟨v, rfl, h⟩ := h
      exact Or.inr (Or.inr (Or.inl (by rw [none h])))
  all_goals
    unfold sessionFamily at hf
    split at hf <;> cases hf

theorem section_between {p q : BgpSessionParams} {x : BgpAddrs} {pat : List (Option U8)} {w : Bytes}
    (h : sectionFate .release p x = .sent pat) (hf : Fits pat w) :
    (WrapNlriIs q w x ↔ SectionBetween p q x) ∧ (WrapNlriIs q w x → pat = w.map some) := by
  by_cases hpq : p.peerMode = q.peerMode
  · rw [section_same hpq] at h
    obtain ⟨h1, h2⟩ := section_back h hf
    refine ⟨?_, h2⟩
    rw [h1]
    exact ⟨fun h => ⟨h, Or.inl hpq⟩, fun h => h.1⟩
  · have key : ∀ ap, kindOf x = some (sessionFamily q, ap) → pat = [] ∧ w = [] := by
      intro ap hk
      have hn : ¬ InSession p x := by
        unfold InSession
        rw [hk]
        unfold sessionFamily
        revert hpq
        cases p.peerMode <;> cases q.peerMode <;> simp
      unfold sectionFate at h
      rw [if_neg hn] at h
      cases h
      exact ⟨rfl, fits_some_eq (w := []) hf |>.symm⟩
    constructor
    · constructor
      · intro hr
        obtain ⟨n, hn⟩ := hr
        obtain ⟨ap, hk⟩ := wrapAddrs_kind hn
        obtain ⟨rfl, rfl⟩ := key ap hk
        have hnp : NoPrefixes x := none_read ⟨n, hn⟩
        refine ⟨?_, Or.inr hnp⟩
        refine ((coll q _ x).back [] [] ?_ trivial).1 ⟨n, hn⟩
        rcases hnp with rfl | rfl | rfl | rfl <;> rfl
      · rintro ⟨hc, h' | hnp⟩
        · exact absurd h' hpq
        · obtain ⟨ap, hk, -⟩ := id hc
          obtain ⟨rfl, rfl⟩ := key ap hk
          refine ((coll q _ x).back [] [] ?_ trivial).2 hc
          rcases hnp with rfl | rfl | rfl | rfl <;> rfl
    · rintro ⟨n, hn⟩
      obtain ⟨ap, hk⟩ := wrapAddrs_kind hn
      obtain ⟨rfl, rfl⟩ := key ap hk
      rfl

theorem message_between {p q : BgpSessionParams} {m : BgpUpdateMessage} {pat : List (Option U8)} {b : Bytes}
    (h : updateFate .release p m = .sent pat) (hf : Fits pat b) :
    WrapUpdateRead q b m.withdraws m.attrs m.updates ↔ MessageBetween p q m := by
  obtain ⟨qw, qa, qu, h1, hl, h2, h3, rfl⟩ := update_sent h
  obtain ⟨w, t, rfl, f1, f2⟩ := fits_counted hf
  obtain ⟨a, u, rfl, f3, f4⟩ := fits_counted f2
  obtain ⟨s1, s2⟩ := section_between (q := q) h1 f1
  obtain ⟨s3, s4⟩ := section_between (q := q) h3 f4
  rw [fits_length f1] at hl
  constructor
  · rintro ⟨w', a', u', e, l1, l2, r1, r2, r3⟩
    rw [updateBytes] at e
    simp only [List.append_assoc] at e
    obtain ⟨e1, k1⟩ := List.append_inj e (by simp)
    obtain ⟨k2, k3⟩ := List.append_inj k1 (be_inj (n := 2) (by omega) (by omega) e1)
    obtain ⟨e2, k4⟩ := List.append_inj k3 (by simp)
    clear e e1 k1 k3
    subst k2
    have hla : a'.length ≤ a.length := by
      rw [← be2_mod a.length] at e2
      have := be_inj (n := 2) (Nat.mod_lt _ (by decide)) (by omega) e2
      have := Nat.mod_le a.length 65536
      omega
    have hp : a' <+: a := by
      refine List.prefix_of_prefix_length_le ⟨u', rfl⟩ ?_ hla
      rw [← k4]
      exact List.prefix_append _ _
    obtain ⟨j1, rfl, j3⟩ := attrs_between_only h2 f3 r2 hp
    obtain ⟨-, rfl⟩ := List.append_inj k4 rfl
    exact ⟨s1.1 r1, s3.1 r3, j1, ⟨w, by rw [h1, s2 r1]; rfl, hl⟩, ⟨_, by rw [h2, j3]; rfl, l2⟩⟩
  · rintro ⟨c1, c2, c3, -, ⟨a', e, la⟩⟩
    rw [h2] at e
    cases e
    obtain rfl := fits_some_eq f3
    exact ⟨w, a', u, by simp [updateBytes], hl, la, s1.2 c1, attrs_between h2 f3 c3, s3.2 c2⟩

theorem between_sent {p q : BgpSessionParams} {m : BgpUpdateMessage} (h : MessageBetween p q m) :
    ∃ pat, updateFate .release p m = .sent pat := by
  obtain ⟨-, ⟨⟨ap, hk, hi, -⟩, hs⟩, -, ⟨w, h1, hl⟩, ⟨a, h2, -⟩⟩ := h
  have hu : ∃ u, sectionFate .release p m.updates = .octets u := by
    rcases hs with hs | hs
    · rw [section_same hs, section_inside hk]
      exact (coll q (sessionFamily q) m.updates).sent hi
    · unfold sectionFate
      split
      · rcases hs with h | h | h | h <;> rw [h] <;> exact ⟨[], rfl⟩
      · exact ⟨[], rfl⟩
  obtain ⟨u, hu⟩ := hu
  unfold updateFate withdrawnFate attributesFate
  rw [h1, h2, hu]
  simp only [Fate.octets, List.length_map, if_pos hl, Fate.andThen]
  exact ⟨_, rfl⟩

theorem messages_between (p q : BgpSessionParams) (m : BgpUpdateMessage) : ∃ room, ∀ buf : Bytes, room ≤ buf.length →
    ((∃ buf' k, m.encodeToIn .release p buf = .ok (buf', k) ∧
      BgpUpdateMessage.new.decodeFromIn .release q (buf'.take k) = .ok m) ↔ MessageBetween p q m) := by
  obtain ⟨room, h⟩ := returns_of (enc := m.encodeToIn .release p) (C := MessageBetween p q m) (x := m)
    (dec := fun b => (BgpUpdateMessage.new.decodeFromIn .release q b).bind fun y => .ok (y, 0))
    (ends_update .release p m) (fun pat w h1 h2 => by
      rw [← message_between h1 h2]
      constructor
      · rintro ⟨n, h⟩
        obtain ⟨y, h3, h4⟩ := Res.bind_eq_ok.1 h
        cases h4
        obtain ⟨l, h5, h6⟩ := ((Rel.update_exactly .new q _).ok m).1 h3
        rw [show m.attrs = l by rw [h6]; rfl]
        exact h5
      · intro h
        exact ⟨0, Res.bind_eq_ok.2 ⟨m, ((Rel.update_exactly .new q _).ok m).2 ⟨m.attrs, h, rfl⟩, rfl⟩⟩)
    (fun h hm => by
      obtain ⟨pat, hp⟩ := between_sent hm
      exact h _ hp)
  refine ⟨room, fun buf hb => ?_⟩
  rw [← h buf hb]
  constructor
  · rintro ⟨buf', k, h1, h2⟩
    exact ⟨buf', k, 0, h1, Res.bind_eq_ok.2 ⟨m, h2, rfl⟩⟩
  · rintro ⟨buf', k, n, h1, h2⟩
    obtain ⟨y, h3, h4⟩ := Res.bind_eq_ok.1 h2
    cases h4
    exact ⟨buf', k, h1, h3⟩

theorem values_between (p q : BgpSessionParams) (x : BgpAttrItem) : ∃ room, ∀ buf : Bytes, room ≤ buf.length →
    ((∃ buf' k, x.encodeValueIn .release p buf = .ok (buf', k) ∧
      BgpAttrItem.decodeFromIn .release q (attrCode x).1 (attrCode x).2 (buf'.take k).length (buf'.take k) = .ok x) ↔
      ValueBetween p q x) := by
  obtain ⟨room, h⟩ := returns_of (enc := x.encodeValueIn .release p) (C := ValueBetween p q x) (x := x)
    (dec := fun b => (BgpAttrItem.decodeFromIn .release q (attrCode x).1 (attrCode x).2 b.length b).bind fun y => .ok (y, 0))
    (ends_value .release p x) (fun pat w h1 h2 => by
      constructor
      · rintro ⟨n, h⟩
        obtain ⟨y, h3, h4⟩ := Res.bind_eq_ok.1 h
        cases h4
        exact ((valBetween p q x).needed pat w _ _ h1 h2 (((Rel.value_exactly q _ _ _).ok x).1 h3)).1
      · intro h
        exact ⟨0, Res.bind_eq_ok.2 ⟨x, ((Rel.value_exactly q _ _ _).ok x).2 ((valBetween p q x).back pat w h1 h2 h), rfl⟩⟩)
    (fun h hm => by
      obtain ⟨w, hw⟩ := (valBetween p q x).sent hm
      exact h _ hw)
  refine ⟨room, fun buf hb => ?_⟩
  rw [← h buf hb]
  constructor
  · rintro ⟨buf', k, h1, h2⟩
    exact ⟨buf', k, 0, h1, Res.bind_eq_ok.2 ⟨x, h2, rfl⟩⟩
  · rintro ⟨buf', k, n, h1, h2⟩
    obtain ⟨y, h3, h4⟩ := Res.bind_eq_ok.1 h2
    cases h4
    exact ⟨buf', k, h1, h3⟩

end Zbgp
