import Verif.Spec.Returns
import Verif.Lemmas.OutcomeRelease
import Verif.Lemmas.ReleaseReads

/-!
# Lemmas for C119: which prefixes come back without overflow checks
-/

namespace Zbgp

open Spec

/-! ## One item -/

/-- kinds of prefixes whose form without overflow checks is read as the same prefix exactly if `Back` holds -/
class ReadsBack (T : Type) [UncheckedForm T] [WrapReads T] [ReturnsUnchecked T] : Prop where
  octet : ∀ (x : T) o b, UncheckedForm.form x = some (o, b) → o = ReturnsUnchecked.bits x % 256
  sent : ∀ x : T, ReturnsUnchecked.Back x → ∃ o b, UncheckedForm.form x = some (o, b)
  back : ∀ (x : T) o b rest n, UncheckedForm.form x = some (o, b) →
    (WrapReads.Read o (b ++ rest) x n ↔ ReturnsUnchecked.Back x ∧ n = b.length)

theorem prefix_reads_back {w addr p : Nat} {rest : Bytes} {n : Nat} (hw : p ≤ 8 * w) :
    (n = octets p ∧ n ≤ (prefixBody w addr p ++ rest).length ∧ PaddedOctets w addr ((prefixBody w addr p ++ rest).take n)) ↔
      (∀ o ∈ (be w addr).drop (octets p), o = 0) ∧ n = (prefixBody w addr p).length := by
  have ho : octets p ≤ w := by unfold octets; omega
  have hl : (prefixBody w addr p).length = octets p := by simp [prefixBody, ho]
  have ht : (be w addr) = prefixBody w addr p ++ (be w addr).drop (octets p) := by
    unfold prefixBody
    exact (List.take_append_drop _ _).symm
  constructor
  · rintro ⟨rfl, h1, h2⟩
    rw [List.take_left' hl] at h2
    refine ⟨?_, hl.symm⟩
    unfold PaddedOctets at h2
    rw [ht] at h2
    have := List.append_cancel_left h2
    rw [this]
    intro o ho
    exact List.eq_of_mem_replicate ho
  · rintro ⟨h1, rfl⟩
    refine ⟨hl, by simp, ?_⟩
    rw [List.take_left' rfl]
    unfold PaddedOctets
    conv_lhs => rw [ht]
    congr 1
    rw [List.eq_replicate_iff]
    exact ⟨by simp [hl], h1⟩

instance : ReadsBack BgpAddrV4 where
  octet x o b h := by
    simp only [UncheckedForm.form, Option.map_eq_some_iff, Prod.mk.injEq] at h
    obtain ⟨b, h, rfl, rfl⟩ := h
    exact (Nat.mod_eq_of_lt x.prefixlen.isLt).symm
  sent x h := ⟨_, _, by simp only [UncheckedForm.form, uncheckedOctets]; rw [if_pos (show _ ≤ 8 * 4 from h.1)]; rfl⟩
  back x o b rest n h := by
    simp only [UncheckedForm.form, Option.map_eq_some_iff, Prod.mk.injEq] at h
    obtain ⟨b, h, rfl, rfl⟩ := h
    simp only [WrapReads.Read, PrefixReads.Read, ReturnsUnchecked.Back]
    rcases unchecked_cases h with ⟨h1, rfl⟩ | ⟨h1, h2, rfl⟩
    · have := prefix_reads_back (addr := x.addr.toNat) (rest := rest) (n := n) h1
      constructor
      · rintro ⟨a, b, c, -, d⟩
        obtain ⟨e, f⟩ := this.1 ⟨b, c, d⟩
        exact ⟨⟨a, e⟩, f⟩
      · rintro ⟨⟨a, e⟩, f⟩
        obtain ⟨b, c, d⟩ := this.2 ⟨e, f⟩
        exact ⟨a, b, c, trivial, d⟩
    · exact ⟨fun h => absurd h.1 (by omega), fun h => absurd h.1.1 (by omega)⟩

instance : ReadsBack BgpAddrV6 where
  octet x o b h := by
    simp only [UncheckedForm.form, Option.map_eq_some_iff, Prod.mk.injEq] at h
    obtain ⟨b, h, rfl, rfl⟩ := h
    exact (Nat.mod_eq_of_lt x.prefixlen.isLt).symm
  sent x h := ⟨_, _, by simp only [UncheckedForm.form, uncheckedOctets]; rw [if_pos (show _ ≤ 8 * 16 from h.1)]; rfl⟩
  back x o b rest n h := by
    simp only [UncheckedForm.form, Option.map_eq_some_iff, Prod.mk.injEq] at h
    obtain ⟨b, h, rfl, rfl⟩ := h
    simp only [WrapReads.Read, PrefixReads.Read, ReturnsUnchecked.Back]
    rcases unchecked_cases h with ⟨h1, rfl⟩ | ⟨h1, h2, rfl⟩
    · have := prefix_reads_back (addr := x.addr.toNat) (rest := rest) (n := n) h1
      constructor
      · rintro ⟨a, b, c, -, d⟩
        obtain ⟨e, f⟩ := this.1 ⟨b, c, d⟩
        exact ⟨⟨a, e⟩, f⟩
      · rintro ⟨⟨a, e⟩, f⟩
        obtain ⟨b, c, d⟩ := this.2 ⟨e, f⟩
        exact ⟨a, b, c, trivial, d⟩
    · exact ⟨fun h => absurd h.1 (by omega), fun h => absurd h.1.1 (by omega)⟩

theorem drop_group {b g rest : Bytes} {m : Nat} (hm : m = b.length) : (b ++ g ++ rest).drop m = g ++ rest := by
  rw [List.append_assoc, List.drop_left' hm.symm]

instance : ReadsBack BgpMdtV4 where
  octet x o b h := by
    simp only [UncheckedForm.form, Option.map_eq_some_iff, Prod.mk.injEq] at h
    obtain ⟨b, h, rfl, rfl⟩ := h
    rfl
  sent x h := by
    obtain ⟨o, b, h⟩ := ReadsBack.sent x.addr h
    simp only [UncheckedForm.form, Option.map_eq_some_iff, Prod.mk.injEq] at h
    obtain ⟨b, h, -, -⟩ := h
    exact ⟨_, _, by simp only [UncheckedForm.form, h]; rfl⟩
  back x o b rest n h := by
    simp only [UncheckedForm.form, Option.map_eq_some_iff, Prod.mk.injEq] at h
    obtain ⟨b, h, rfl, rfl⟩ := h
    have hr := fun r n => ReadsBack.back x.addr x.addr.prefixlen.toNat b r n (by simp [UncheckedForm.form, h])
    have hp := x.addr.prefixlen.isLt
    show (∃ m g, _ ∧ PrefixReads.Read (T := BgpAddrV4) _ _ _ _ ∧ _ ∧ _) ↔ ReturnsUnchecked.Back x.addr ∧ _
    by_cases hb : x.addr.prefixlen.toNat ≤ 32
    · have e : (x.addr.prefixlen.toNat + 32) % 256 = x.addr.prefixlen.toNat + 32 := by omega
      rw [e, Nat.add_sub_cancel]
      constructor
      · rintro ⟨m, g, -, h2, h3, rfl⟩
        rw [List.append_assoc] at h2
        obtain ⟨h4, h5⟩ := (hr _ _).1 h2
        exact ⟨h4, by simp [h5]⟩
      · rintro ⟨h1, rfl⟩
        refine ⟨b.length, rest, by omega, ?_, drop_group rfl, by simp⟩
        rw [List.append_assoc]
        exact (hr _ _).2 ⟨h1, rfl⟩
    · rcases unchecked_cases h with ⟨h1, rfl⟩ | ⟨h1, h2, rfl⟩
      · omega
      · constructor
        · rintro ⟨m, g, h3, -⟩; omega
        · rintro ⟨h3, -⟩; exact absurd h3.1 hb

instance : ReadsBack BgpMdtV6 where
  octet x o b h := by
    simp only [UncheckedForm.form, Option.map_eq_some_iff, Prod.mk.injEq] at h
    obtain ⟨b, h, rfl, rfl⟩ := h
    rfl
  sent x h := by
    obtain ⟨o, b, h⟩ := ReadsBack.sent x.addr h.2
    simp only [UncheckedForm.form, Option.map_eq_some_iff, Prod.mk.injEq] at h
    obtain ⟨b, h, -, -⟩ := h
    exact ⟨_, _, by simp only [UncheckedForm.form, h]; rfl⟩
  back x o b rest n h := by
    simp only [UncheckedForm.form, Option.map_eq_some_iff, Prod.mk.injEq] at h
    obtain ⟨b, h, rfl, rfl⟩ := h
    have hr := fun r n => ReadsBack.back x.addr x.addr.prefixlen.toNat b r n (by simp [UncheckedForm.form, h])
    have hp := x.addr.prefixlen.isLt
    show (∃ m g, _ ∧ _ ∧ PrefixReads.Read (T := BgpAddrV6) _ _ _ _ ∧ _ ∧ _) ↔ (_ ∧ ReturnsUnchecked.Back x.addr) ∧ _
    by_cases hb : x.addr.prefixlen.toNat ≤ 126
    · have e : (x.addr.prefixlen.toNat + 128) % 256 = x.addr.prefixlen.toNat + 128 := by omega
      rw [e, Nat.add_sub_cancel]
      constructor
      · rintro ⟨m, g, -, -, h2, h3, rfl⟩
        rw [List.append_assoc] at h2
        obtain ⟨h4, h5⟩ := (hr _ _).1 h2
        exact ⟨⟨hb, h4⟩, by simp [h5]⟩
      · rintro ⟨⟨-, h1⟩, rfl⟩
        refine ⟨b.length, rest, by omega, by omega, ?_, drop_group rfl, by simp⟩
        rw [List.append_assoc]
        exact (hr _ _).2 ⟨h1, rfl⟩
    · constructor
      · rintro ⟨m, g, h3, h4, -⟩
        rcases unchecked_cases h with ⟨h1, rfl⟩ | ⟨h1, h2, rfl⟩ <;> omega
      · rintro ⟨⟨h3, -⟩, -⟩; exact absurd h3 hb

theorem labelsBody_len (ls : List U32) : (labelsBody ls).length = 3 * ls.length := by
  induction ls with
  | nil => rfl
  | cons l ls ih =>
    cases ls with
    | nil => simp [labelsBody]
    | cons m ls => simp only [labelsBody, List.length_append, be_length, ih, List.length_cons]; omega

theorem be3_inj {v v' : Nat} {a a' : Bytes} (hv : v' < 2 ^ 24) (h : be 3 v ++ a = be 3 v' ++ a') :
    v % 2 ^ 24 = v' ∧ a = a' := by
  obtain ⟨h1, h2⟩ := List.append_inj h (by simp)
  refine ⟨?_, h2⟩
  have := congrArg unbe h1
  rw [unbe_be, unbe_be] at this
  simp only [Nat.reducePow] at this ⊢ hv
  omega

theorem wrapLabels_back {bits k : Nat} {rest : Bytes} (ls : List U32) (hb : bits < 256) :
    WrapLabels bits (labelsBody ls ++ rest) ls k ↔
      k = 3 * ls.length ∧ ((ls = [] ∧ bits = 0) ∨ (LabelStackWF ls ∧ ∀ i < ls.length, wrapSub bits (24 * i) ≠ 0)) := by
  induction ls generalizing bits k with
  | nil =>
    constructor
    · intro h
      cases h
      exact ⟨rfl, .inl ⟨rfl, rfl⟩⟩
    · rintro ⟨rfl, ⟨-, rfl⟩ | ⟨h, -⟩⟩
      · exact .done _
      · exact absurd rfl h.1
  | cons l ls ih =>
    have hw0 : wrapSub bits (24 * 0) = bits := by unfold wrapSub; omega
    cases ls with
    | nil =>
      simp only [labelsBody]
      constructor
      · intro h
        generalize hq : be 3 (l.toNat * 16 + 1) ++ rest = q at h
        generalize hL : [l] = L at h
        cases h with
        | done => cases hL
        | last _ v b hv hb' he =>
          obtain ⟨h1, -⟩ := be3_inj hv hq
          simp only [List.cons.injEq, and_true] at hL
          have hl : l.toNat = v / 16 := by rw [hL, BitVec.toNat_ofNat, Nat.mod_eq_of_lt (by omega)]
          refine ⟨rfl, .inr ⟨⟨by simp, ?_, by simp⟩, ?_⟩⟩
          · intro m hm
            simp only [List.mem_singleton] at hm
            rw [hm, ← hL, hl]; omega
          · intro i hi
            simp only [List.length_cons, List.length_nil, Nat.zero_add, Nat.lt_one_iff] at hi
            subst hi
            rw [hw0]; omega
        | more _ v b ls n hv hb' he hr =>
          obtain ⟨h1, -⟩ := be3_inj hv hq
          exact absurd (.inl (by omega)) he
      · rintro ⟨rfl, ⟨h, -⟩ | ⟨⟨-, h1, -⟩, h2⟩⟩
        · cases h
        · have hl := h1 l (by simp)
          have h2 := h2 0 (by simp)
          rw [hw0] at h2
          have := WrapLabels.last bits (l.toNat * 16 + 1) rest (by omega) (by omega) (.inl (by omega))
          rw [show (l.toNat * 16 + 1) / 16 = l.toNat by omega, BitVec.ofNat_toNat, BitVec.setWidth_eq] at this
          exact this
    | cons m ls =>
      have hsub : wrapSub bits 24 < 256 := by unfold wrapSub; omega
      have hss : ∀ i, wrapSub (wrapSub bits 24) (24 * i) = wrapSub bits (24 * (i + 1)) := by
        intro i; unfold wrapSub; omega
      simp only [labelsBody, List.append_assoc]
      constructor
      · intro h
        generalize hq : be 3 (l.toNat * 16) ++ (labelsBody (m :: ls) ++ rest) = q at h
        generalize hL : l :: m :: ls = L at h
        cases h with
        | done => cases hL
        | last => cases hL
        | more _ v b ls' n hv hb' he hr =>
          obtain ⟨h1, rfl⟩ := be3_inj hv hq
          simp only [List.cons.injEq] at hL
          obtain ⟨hL, rfl⟩ := hL
          have hl : l.toNat = v / 16 := by rw [hL, BitVec.toNat_ofNat, Nat.mod_eq_of_lt (by omega)]
          obtain ⟨rfl, ⟨h3, -⟩ | ⟨⟨h4, h5, h6⟩, h7⟩⟩ := (ih hsub).1 hr
          · cases h3
          · refine ⟨by simp; omega, .inr ⟨⟨by simp, ?_, ?_⟩, ?_⟩⟩
            · intro y hy
              rcases List.mem_cons.1 hy with hy | hy
              · rw [hy, ← hL, hl]; omega
              · exact h5 y hy
            · intro y hy
              simp only [List.dropLast_cons_cons, List.mem_cons] at hy
              rcases hy with hy | hy
              · rw [hy, ← hL, hl]; exact fun hm => he (.inr hm)
              · exact h6 y (by simpa using hy)
            · intro i hi
              cases i with
              | zero => rw [hw0]; omega
              | succ i => rw [← hss]; exact h7 i (by simp at hi ⊢; omega)
      · rintro ⟨rfl, ⟨h, -⟩ | ⟨⟨-, h1, h3⟩, h2⟩⟩
        · cases h
        · have hl := h1 l (by simp)
          have h20 := h2 0 (by simp)
          rw [hw0] at h20
          have hr := (ih (k := 3 * (m :: ls).length) hsub).2 ⟨rfl, .inr ⟨⟨by simp, fun y hy => h1 y (List.mem_cons_of_mem _ hy),
            fun y hy => h3 y (by rw [List.dropLast_cons_cons]; exact List.mem_cons_of_mem _ hy)⟩,
            fun i hi => by rw [hss]; exact h2 (i + 1) (by simp at hi ⊢; omega)⟩⟩
          have hn : l.toNat ∉ stackEnding := h3 l (by rw [List.dropLast_cons_cons]; exact List.mem_cons_self)
          have := WrapLabels.more bits (l.toNat * 16) _ _ _ (by omega) (by omega) (by
            rintro (he | he)
            · omega
            · rw [Nat.mul_div_cancel _ (by decide)] at he; exact hn he) hr
          rw [Nat.mul_div_cancel _ (by decide), BitVec.ofNat_toNat, BitVec.setWidth_eq] at this
          rw [show 3 * (l :: m :: ls).length = 3 + 3 * (m :: ls).length by simp; omega]
          exact this

instance {T : Type} [UncheckedForm T] [WrapReads T] [ReturnsUnchecked T] [ReadsBack T] : ReadsBack (Labeled T) where
  octet x o b h := by
    simp only [UncheckedForm.form, Option.map_eq_some_iff, Prod.mk.injEq] at h
    obtain ⟨⟨o, b⟩, h, rfl, rfl⟩ := h
    rw [ReadsBack.octet x.pfx o b h]
    simp only [ReturnsUnchecked.bits]
    omega
  sent x h := by
    obtain ⟨o, b, h⟩ := ReadsBack.sent x.pfx h.1
    exact ⟨_, _, by simp only [UncheckedForm.form, h]; rfl⟩
  back x o b rest n h := by
    simp only [UncheckedForm.form, Option.map_eq_some_iff, Prod.mk.injEq] at h
    obtain ⟨⟨o, b⟩, h, rfl, rfl⟩ := h
    have ho := ReadsBack.octet x.pfx o b h
    have hr := fun r n => ReadsBack.back x.pfx o b r n h
    have hk := labelsBody_len x.labels.labels
    have hd : ∀ r, (labelsBody x.labels.labels ++ r).drop (3 * x.labels.labels.length) = r := fun r => List.drop_left' hk
    have hs : wrapSub ((24 * x.labels.labels.length + o) % 256) (8 * (3 * x.labels.labels.length)) = o := by
      unfold wrapSub; omega
    have hi : ∀ i, i < x.labels.labels.length →
        wrapSub ((24 * x.labels.labels.length + o) % 256) (24 * i) = (24 * (x.labels.labels.length - i) + o) % 256 := by
      intro i hi; unfold wrapSub; omega
    simp only [WrapReads.Read, ReturnsUnchecked.Back, List.append_assoc]
    constructor
    · rintro ⟨k, m, h1, h2, rfl⟩
      obtain ⟨rfl, h3⟩ := (wrapLabels_back _ (by omega)).1 h1
      rw [hd, hs] at h2
      obtain ⟨h4, rfl⟩ := (hr _ _).1 h2
      refine ⟨⟨h4, ?_⟩, by simp [hk]⟩
      rcases h3 with ⟨h5, h6⟩ | ⟨h5, h6⟩
      · refine .inl ⟨h5, ?_⟩
        rw [h5] at h6
        simp at h6
        omega
      · refine .inr ⟨h5, fun j h7 h8 => ?_⟩
        have := h6 (x.labels.labels.length - j) (by omega)
        rw [hi _ (by omega)] at this
        rw [show x.labels.labels.length - (x.labels.labels.length - j) = j by omega] at this
        omega
    · rintro ⟨⟨h4, h3⟩, rfl⟩
      refine ⟨3 * x.labels.labels.length, b.length, (wrapLabels_back _ (by omega)).2 ⟨rfl, ?_⟩, ?_, by simp [hk]⟩
      · rcases h3 with ⟨h5, h6⟩ | ⟨h5, h6⟩
        · refine .inl ⟨h5, ?_⟩
          rw [h5]
          simp
          omega
        · refine .inr ⟨h5, fun i h7 => ?_⟩
          rw [hi i h7]
          have := h6 (x.labels.labels.length - i) (by omega) (by omega)
          omega
      · rw [hd, hs]
        exact (hr _ _).2 ⟨h4, rfl⟩

instance {T : Type} [UncheckedForm T] [WrapReads T] [ReturnsUnchecked T] [ReadsBack T] : ReadsBack (WithRd T) where
  octet x o b h := by
    simp only [UncheckedForm.form, Option.map_eq_some_iff, Prod.mk.injEq] at h
    obtain ⟨⟨o, b⟩, h, rfl, rfl⟩ := h
    rw [ReadsBack.octet x.pfx o b h]
    simp only [ReturnsUnchecked.bits]
    omega
  sent x h := by
    obtain ⟨o, b, h⟩ := ReadsBack.sent x.pfx h
    exact ⟨_, _, by simp only [UncheckedForm.form, h]; rfl⟩
  back x o b rest n h := by
    simp only [UncheckedForm.form, Option.map_eq_some_iff, Prod.mk.injEq] at h
    obtain ⟨⟨o, b⟩, h, rfl, rfl⟩ := h
    have ho := ReadsBack.octet x.pfx o b h
    have hr := fun r n => ReadsBack.back x.pfx o b r n h
    have hs : wrapSub ((64 + o) % 256) 64 = o := by unfold wrapSub; omega
    simp only [WrapReads.Read, ReturnsUnchecked.Back, List.append_assoc, hs]
    constructor
    · rintro ⟨t, m, h1, h2, rfl⟩
      have := List.append_cancel_left h1
      subst this
      obtain ⟨h4, rfl⟩ := (hr _ _).1 h2
      exact ⟨h4, by simp [rdBody_length]⟩
    · rintro ⟨h4, rfl⟩
      exact ⟨_, b.length, rfl, (hr _ _).2 ⟨h4, rfl⟩, by simp [rdBody_length]⟩

/-! ## Lists -/

/-- everything known of a kind of prefixes -/
theorem returnsKind_known {T : Type} [i : BgpItemIn T] [r : ReturnsUnchecked T] (h : ReturnsKind T) :
    ∃ (_ : WrapReads T) (_ : UncheckedForm T), WrapExact T ∧ SendsUnchecked T ∧ ReadsBack T := by
  induction h with
  | v4 => exact ⟨inferInstance, inferInstance, inferInstance, inferInstance, inferInstance⟩
  | v6 => exact ⟨inferInstance, inferInstance, inferInstance, inferInstance, inferInstance⟩
  | mdt4 => exact ⟨inferInstance, inferInstance, inferInstance, inferInstance, inferInstance⟩
  | mdt6 => exact ⟨inferInstance, inferInstance, inferInstance, inferInstance, inferInstance⟩
  | labeled _ ih =>
    obtain ⟨w, u, h1, h2, h3⟩ := ih
    exact ⟨inferInstance, inferInstance, inferInstance, inferInstance, inferInstance⟩
  | withRd _ ih =>
    obtain ⟨w, u, h1, h2, h3⟩ := ih
    exact ⟨inferInstance, inferInstance, inferInstance, inferInstance, inferInstance⟩

/-- a list where each item has some octets or makes the encoder panic -/
theorem items_key {α : Type} {lim : Nat} {R : Bytes → α → Nat → Prop} {B : α → Prop} {form : α → Option Bytes} {fate : α → Fate}
    {bad : Fate} (hbad : bad = .crash ∨ bad = .refused) (hf : ∀ x, fate x = match form x with | some w => .octets w | none => bad)
    (hs : ∀ x, B x → ∃ w, form x = some w) (hl : ∀ x w, form x = some w → lim < w.length)
    (hb : ∀ x w rest n, form x = some w → (R (w ++ rest) x n ↔ B x ∧ n = w.length)) (v : List α) :
    (∃ w, Fate.all fate v = .octets w ∧ ∀ n, (ItemsRead lim R w v n ↔ (∀ x ∈ v, B x) ∧ n = w.length)) ∨
      (Fate.all fate v = bad ∧ ¬ ∀ x ∈ v, B x) := by
  by_cases ha : ∀ x ∈ v, ∃ w, form x = some w
  · left
    induction v with
    | nil =>
      refine ⟨[], rfl, fun n => ⟨fun h => ?_, ?_⟩⟩
      · cases h; exact ⟨by simp, rfl⟩
      · rintro ⟨-, rfl⟩
        exact .done _ (by simp)
    | cons x v ih =>
      obtain ⟨w, hw⟩ := ha x (by simp)
      obtain ⟨u, h1, h2⟩ := ih fun y hy => ha y (List.mem_cons_of_mem _ hy)
      have hx := hl x w hw
      refine ⟨w ++ u, ?_, fun n => ?_⟩
      · rw [Fate.all, hf, hw, h1]
        simp [Fate.octets, Fate.andThen]
      · constructor
        · intro h
          cases h with
          | item _ _ n _ m h3 h4 h5 =>
            obtain ⟨h6, rfl⟩ := (hb x w u n hw).1 h4
            rw [List.drop_left' rfl] at h5
            obtain ⟨h7, rfl⟩ := (h2 m).1 h5
            exact ⟨by simpa using ⟨h6, h7⟩, by simp⟩
        · rintro ⟨h3, rfl⟩
          rw [List.length_append]
          refine .item _ _ _ _ _ (by simp; omega) ((hb x w u _ hw).2 ⟨h3 x (by simp), rfl⟩) ?_
          rw [List.drop_left' rfl]
          exact (h2 _).2 ⟨fun y hy => h3 y (List.mem_cons_of_mem _ hy), rfl⟩
  · refine .inr ⟨?_, fun h => ha fun x hx => hs x (h x hx)⟩
    induction v with
    | nil => exact absurd (by simp) ha
    | cons x v ih =>
      rw [Fate.all, hf]
      cases hx : form x with
      | none => rcases hbad with rfl | rfl <;> rfl
      | some w =>
        have : ¬ ∀ y ∈ v, ∃ w, form y = some w := fun h => ha fun y hy => by
          rcases List.mem_cons.1 hy with rfl | hy
          · exact ⟨w, hx⟩
          · exact h y hy
        rw [ih this]
        rcases hbad with rfl | rfl <;> rfl

/-- an encoder that ends this way and a decoder -/
theorem returns_of {α : Type} {enc : Enc} {dec : Bytes → Res (α × Nat)} {x : α} {fate : Fate} {C : Prop} (he : Ends enc fate)
    (hr : ∀ pat w, fate = .sent pat → Fits pat w → ((∃ n, dec w = .ok (x, n)) ↔ C)) (hc : (∀ pat, fate ≠ .sent pat) → ¬ C) :
    ∃ room, ∀ buf : Bytes, room ≤ buf.length → (Returns enc dec x buf ↔ C) := by
  obtain ⟨room, h⟩ := he
  refine ⟨room, fun buf hb => ?_⟩
  cases fate with
  | sent pat =>
    obtain ⟨w, rest, h1, h2, -⟩ := h buf hb
    rw [← hr pat w rfl h1]
    constructor
    · rintro ⟨buf', k, n, h3, h4⟩
      rw [h2] at h3
      obtain ⟨rfl, rfl⟩ := by simpa using h3
      rw [List.take_left' rfl] at h4
      exact ⟨n, h4⟩
    · rintro ⟨n, h3⟩
      exact ⟨_, _, n, h2, by rw [List.take_left' rfl]; exact h3⟩
  | refused =>
    refine ⟨?_, fun h => absurd h (hc (by simp))⟩
    rintro ⟨buf', k, n, h3, -⟩
    have := h buf hb
    rw [h3] at this
    exact this.elim
  | crash =>
    refine ⟨?_, fun h => absurd h (hc (by simp))⟩
    rintro ⟨buf', k, n, h3, -⟩
    have := h buf hb
    rw [h3] at this
    cases this

section known
variable {T : Type} [WrapReads T] [UncheckedForm T] [ReturnsUnchecked T] [ReadsBack T]

theorem nlris_key (v : List T) :
    (∃ w, Fate.all (fun x : T => formFate [] (UncheckedForm.form x)) v = .octets w ∧
      ∀ n, (ItemsRead 0 (@NlriRead T (wrapReads T)) w v n ↔ (∀ x ∈ v, ReturnsUnchecked.Back x) ∧ n = w.length)) ∨
      (Fate.all (fun x : T => formFate [] (UncheckedForm.form x)) v = .crash ∧ ¬ ∀ x ∈ v, ReturnsUnchecked.Back x) := by
  refine items_key (form := fun x => (UncheckedForm.form x).map fun f => BitVec.ofNat 8 f.1 :: f.2)
    (.inl rfl) (fun x => ?_) (fun x hx => ?_) (fun x w hw => ?_) (fun x w rest n hw => ?_) v
  · cases UncheckedForm.form x <;> rfl
  · obtain ⟨o, b, h⟩ := ReadsBack.sent x hx
    exact ⟨_, by rw [h]; rfl⟩
  · simp only [Option.map_eq_some_iff] at hw
    obtain ⟨_, -, rfl⟩ := hw
    simp
  · simp only [Option.map_eq_some_iff] at hw
    obtain ⟨⟨o, b⟩, hw, rfl⟩ := hw
    have ho : (BitVec.ofNat 8 o).toNat = o := by
      rw [BitVec.toNat_ofNat, ReadsBack.octet x o b hw]; omega
    have hr := fun n => ReadsBack.back x o b rest n hw
    constructor
    · rintro ⟨bits, t, m, h4, h5, rfl⟩
      simp only [List.cons_append, List.cons.injEq] at h4
      obtain ⟨rfl, rfl⟩ := h4
      rw [ho] at h5
      obtain ⟨h6, rfl⟩ := (hr m).1 h5
      exact ⟨h6, by simp⟩
    · rintro ⟨h4, rfl⟩
      exact ⟨_, b ++ rest, b.length, rfl, by rw [ho]; exact (hr _).2 ⟨h4, rfl⟩, by simp⟩

theorem pathIds_key (v : List (WithPathId T)) :
    (∃ w, Fate.all (fun x : WithPathId T => formFate (be 4 x.pathid.toNat) (UncheckedForm.form x.nlri)) v = .octets w ∧
      ∀ n, (ItemsRead 4 (@PathIdRead T (wrapReads T)) w v n ↔ (∀ x ∈ v, ReturnsUnchecked.Back x.nlri) ∧ n = w.length)) ∨
      (Fate.all (fun x : WithPathId T => formFate (be 4 x.pathid.toNat) (UncheckedForm.form x.nlri)) v = .crash ∧
        ¬ ∀ x ∈ v, ReturnsUnchecked.Back x.nlri) := by
  refine items_key (B := fun x => ReturnsUnchecked.Back x.nlri)
    (form := fun x => (UncheckedForm.form x.nlri).map fun f => be 4 x.pathid.toNat ++ BitVec.ofNat 8 f.1 :: f.2)
    (.inl rfl) (fun x => ?_) (fun x hx => ?_) (fun x w hw => ?_) (fun x w rest n hw => ?_) v
  · cases UncheckedForm.form x.nlri <;> rfl
  · obtain ⟨o, b, h⟩ := ReadsBack.sent x.nlri hx
    exact ⟨_, by rw [h]; rfl⟩
  · simp only [Option.map_eq_some_iff] at hw
    obtain ⟨_, -, rfl⟩ := hw
    simp
  · simp only [Option.map_eq_some_iff] at hw
    obtain ⟨⟨o, b⟩, hw, rfl⟩ := hw
    have ho : (BitVec.ofNat 8 o).toNat = o := by
      rw [BitVec.toNat_ofNat, ReadsBack.octet x.nlri o b hw]; omega
    have hr := fun n => ReadsBack.back x.nlri o b rest n hw
    constructor
    · rintro ⟨t, m, h0, ⟨bits, t', m', h4, h5, rfl⟩, rfl⟩
      rw [List.append_assoc] at h0
      have := List.append_cancel_left h0
      subst this
      simp only [List.cons_append, List.cons.injEq] at h4
      obtain ⟨rfl, rfl⟩ := h4
      rw [ho] at h5
      obtain ⟨h6, rfl⟩ := (hr m').1 h5
      exact ⟨h6, by simp⟩
    · rintro ⟨h4, rfl⟩
      refine ⟨BitVec.ofNat 8 o :: (b ++ rest), b.length + 1, by simp, ⟨_, b ++ rest, b.length, rfl, ?_, rfl⟩, by simp⟩
      rw [ho]; exact (hr _).2 ⟨h4, rfl⟩

end known

/-- a list of items and its decoder -/
theorem returns_key {α : Type} {enc : Enc} {dec : Bytes → Res (List α × Nat)} {v : List α} {lim : Nat} {R : Bytes → α → Nat → Prop}
    {B : α → Prop} {fate : Fate} (hd : ∀ b y, dec b = .ok y ↔ ItemsRead lim R b y.1 y.2) (he : Ends enc fate)
    (hk : (∃ w, fate = .octets w ∧ ∀ n, (ItemsRead lim R w v n ↔ (∀ x ∈ v, B x) ∧ n = w.length)) ∨
      (fate = .crash ∧ ¬ ∀ x ∈ v, B x)) :
    ∃ room, ∀ buf : Bytes, room ≤ buf.length → (Returns enc dec v buf ↔ ∀ x ∈ v, B x) := by
  refine returns_of he (fun pat w h1 h2 => ?_) fun h1 => ?_
  · rcases hk with ⟨u, h3, h4⟩ | ⟨h3, -⟩
    · rw [h1, Fate.octets, Fate.sent.injEq] at h3
      subst h3
      have := fits_some_eq h2
      subst this
      simp only [hd, h4]
      exact ⟨fun ⟨n, h⟩ => h.1, fun h => ⟨_, h, rfl⟩⟩
    · rw [h1] at h3; cases h3
  · rcases hk with ⟨u, h3, -⟩ | ⟨-, h3⟩
    · exact absurd h3 (h1 _)
    · exact h3

section kinds
variable {T : Type} [BgpItemIn T] [ReturnsUnchecked T]

theorem nlris_return (h : ReturnsKind T) (v : List T) :
    ∃ room, ∀ buf : Bytes, room ≤ buf.length →
      (Returns (@encodeItems T (itemIn T .release) v) (@decodeItems T (itemIn T .release)) v buf ↔
        ∀ x ∈ v, ReturnsUnchecked.Back x) := by
  obtain ⟨w, u, h1, h2, h3⟩ := returnsKind_known h
  exact returns_key (fun b y => (wrapNlris_exactly b).ok y)
    (ends_all v fun x _ => @ends_form T (itemIn T .release) _ x (SendsUnchecked.sends x) (SendsUnchecked.fails x)) (nlris_key v)

theorem pathIds_return (h : ReturnsKind T) (v : List (WithPathId T)) :
    ∃ room, ∀ buf : Bytes, room ≤ buf.length →
      (Returns (@encodePathIdItems T (itemIn T .release) v) (@decodePathIdItems T (itemIn T .release)) v buf ↔
        ∀ x ∈ v, ReturnsUnchecked.Back x.nlri) := by
  obtain ⟨w, u, h1, h2, h3⟩ := returnsKind_known h
  exact returns_key (B := fun x : WithPathId T => ReturnsUnchecked.Back x.nlri) (fun b y => (wrapPathIds_exactly b).ok y)
    (ends_all v fun x _ =>
      @ends_form_id T (itemIn T .release) _ x (SendsUnchecked.sends x.nlri) (SendsUnchecked.fails x.nlri)) (pathIds_key v)

end kinds

end Zbgp
