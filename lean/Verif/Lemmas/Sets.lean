import Verif.Spec.Attrs

/-! # Sets as ascending lists -/

namespace Zbgp

open Spec

variable {α : Type} {lt : α → α → Bool} {num : α → Nat}

/-- `lt` is the order by an injective number -/
structure OrderBy (lt : α → α → Bool) (num : α → Nat) : Prop where
  lt_iff : ∀ a b, lt a b = true ↔ num a < num b
  inj : ∀ a b, num a = num b → a = b

theorem setInsert_mem (h : OrderBy lt num) (x y : α) (l : List α) : y ∈ setInsert lt x l ↔ y = x ∨ y ∈ l := by
  induction l with
  | nil => simp [setInsert]
  | cons z zs ih =>
    simp only [setInsert]
    split
    · simp
    · rename_i h1
      split
      · simp only [List.mem_cons, ih]; grind
      · rename_i h2
        have : x = z := by
          apply h.inj
          rw [h.lt_iff] at h1 h2
          omega
        subst this
        simp

theorem setInsert_ascending (h : OrderBy lt num) (x : α) (l : List α) (hl : Ascending num l) :
    Ascending num (setInsert lt x l) := by
  induction l with
  | nil => simp [setInsert, Ascending]
  | cons z zs ih =>
    simp only [Ascending, List.pairwise_cons] at hl
    simp only [setInsert]
    split
    · rename_i h1
      rw [h.lt_iff] at h1
      simp only [Ascending, List.pairwise_cons, List.mem_cons]
      refine ⟨?_, hl⟩
      rintro a (rfl | ha)
      · exact h1
      · exact Nat.lt_trans h1 (hl.1 a ha)
    · split
      · rename_i h2
        rw [h.lt_iff] at h2
        simp only [Ascending, List.pairwise_cons]
        refine ⟨?_, ih hl.2⟩
        intro a ha
        rcases (setInsert_mem h _ _ _).1 ha with rfl | ha
        · exact h2
        · exact hl.1 a ha
      · simpa only [Ascending, List.pairwise_cons] using hl

theorem setInsert_last (h : OrderBy lt num) (x : α) (l : List α) (hl : ∀ y ∈ l, num y < num x) :
    setInsert lt x l = l ++ [x] := by
  induction l with
  | nil => rfl
  | cons z zs ih =>
    have hz := hl z (by simp)
    simp only [setInsert]
    rw [if_neg (by rw [h.lt_iff]; omega), if_pos ((h.lt_iff _ _).2 hz), ih (fun y hy => hl y (by simp [hy]))]
    rfl

theorem foldl_insert (h : OrderBy lt num) (l s : List α) (hs : Ascending num s) :
    Ascending num (l.foldl (fun s x => setInsert lt x s) s) ∧
      ∀ y, y ∈ l.foldl (fun s x => setInsert lt x s) s ↔ y ∈ s ∨ y ∈ l := by
  induction l generalizing s with
  | nil => simpa using hs
  | cons x xs ih =>
    simp only [List.foldl_cons]
    obtain ⟨h1, h2⟩ := ih (setInsert lt x s) (setInsert_ascending h x s hs)
    refine ⟨h1, fun y => ?_⟩
    rw [h2, setInsert_mem h, List.mem_cons]
    grind

theorem setOf_ascending (h : OrderBy lt num) (l : List α) : Ascending num (setOf lt l) :=
  (foldl_insert h l [] (by simp [Ascending])).1

theorem setOf_mem (h : OrderBy lt num) (l : List α) (y : α) : y ∈ setOf lt l ↔ y ∈ l := by
  have := (foldl_insert h l [] (by simp [Ascending])).2 y
  simpa [setOf] using this

theorem foldl_ascending (h : OrderBy lt num) (l s : List α) (hs : Ascending num (s ++ l)) :
    l.foldl (fun s x => setInsert lt x s) s = s ++ l := by
  induction l generalizing s with
  | nil => simp
  | cons x xs ih =>
    simp only [List.foldl_cons]
    rw [setInsert_last h x s, ih]
    · simp
    · simpa using hs
    · intro y hy
      simp only [Ascending, List.pairwise_append] at hs
      exact hs.2.2 y hy x (by simp)

theorem setOf_self (h : OrderBy lt num) (l : List α) (hl : Ascending num l) : setOf lt l = l := by
  have := foldl_ascending h l [] (by simpa using hl)
  simpa [setOf] using this

/-- an ascending list is determined by its members -/
theorem ascending_ext (h : ∀ a b : α, num a = num b → a = b) : ∀ (l₁ l₂ : List α), Ascending num l₁ →
    Ascending num l₂ → (∀ x, x ∈ l₁ ↔ x ∈ l₂) → l₁ = l₂ := by
  intro l₁
  induction l₁ with
  | nil =>
    intro l₂ _ _ h
    cases l₂ with
    | nil => rfl
    | cons a _ => exact absurd ((h a).2 (by simp)) (by simp)
  | cons a l₁ ih =>
    intro l₂ h1 h2 hm
    cases l₂ with
    | nil => exact absurd ((hm a).1 (by simp)) (by simp)
    | cons b l₂ =>
      simp only [Ascending, List.pairwise_cons] at h1 h2
      have hab : a = b := by
        apply Classical.byContradiction
        intro hne
        have h3 := (hm a).1 (by simp)
        have h4 := (hm b).2 (by simp)
        simp only [List.mem_cons] at h3 h4
        have h5 := h2.1 a (by rcases h3 with h | h; exact absurd h hne; exact h)
        have h6 := h1.1 b (by rcases h4 with h | h; exact absurd h.symm hne; exact h)
        omega
      subst hab
      congr 1
      apply ih l₂ h1.2 h2.2
      intro x
      have := hm x
      simp only [List.mem_cons] at this
      by_cases hx : x = a
      · subst hx
        constructor
        · intro h; exact absurd (h1.1 _ h) (by omega)
        · intro h; exact absurd (h2.1 _ h) (by omega)
      · simpa [hx] using this

theorem setOf_congr (h : OrderBy lt num) (l₁ l₂ : List α) (hm : ∀ x, x ∈ l₁ ↔ x ∈ l₂) :
    setOf lt l₁ = setOf lt l₂ :=
  ascending_ext h.inj _ _ (setOf_ascending h _) (setOf_ascending h _) (fun x => by
    rw [setOf_mem h, setOf_mem h, hm])

theorem community_order : OrderBy BgpCommunity.lt communityNumber where
  lt_iff a b := by simp [BgpCommunity.lt, communityNumber]
  inj a b h := by
    cases a; cases b
    simp only [communityNumber] at h
    simpa using BitVec.eq_of_toNat_eq h

theorem largeCommunity_order : OrderBy BgpLargeCommunity.lt largeCommunityNumber where
  lt_iff a b := by
    have := a.ga.isLt; have := a.ldp1.isLt; have := a.ldp2.isLt
    have := b.ga.isLt; have := b.ldp1.isLt; have := b.ldp2.isLt
    simp only [BgpLargeCommunity.lt, largeCommunityNumber, Bool.or_eq_true, Bool.and_eq_true, decide_eq_true_eq,
      beq_iff_eq, ← BitVec.toNat_inj]
    omega
  inj a b h := by
    have := a.ga.isLt; have := a.ldp1.isLt; have := a.ldp2.isLt
    have := b.ga.isLt; have := b.ldp1.isLt; have := b.ldp2.isLt
    obtain ⟨a1, a2, a3⟩ := a
    obtain ⟨b1, b2, b3⟩ := b
    simp only [largeCommunityNumber] at *
    simp only [BgpLargeCommunity.mk.injEq, ← BitVec.toNat_inj]
    omega

theorem extCommunity_order : OrderBy BgpExtCommunity.lt extCommunityNumber where
  lt_iff x y := by
    have := x.ctype.isLt; have := x.subtype.isLt; have := x.a.isLt; have := x.b.isLt
    have := y.ctype.isLt; have := y.subtype.isLt; have := y.a.isLt; have := y.b.isLt
    simp only [BgpExtCommunity.lt, extCommunityNumber, Bool.or_eq_true, Bool.and_eq_true, decide_eq_true_eq,
      beq_iff_eq, ← BitVec.toNat_inj]
    omega
  inj x y h := by
    have := x.ctype.isLt; have := x.subtype.isLt; have := x.a.isLt; have := x.b.isLt
    have := y.ctype.isLt; have := y.subtype.isLt; have := y.a.isLt; have := y.b.isLt
    obtain ⟨a1, a2, a3, a4⟩ := x
    obtain ⟨b1, b2, b3, b4⟩ := y
    simp only [extCommunityNumber] at *
    simp only [BgpExtCommunity.mk.injEq, ← BitVec.toNat_inj]
    omega

end Zbgp
