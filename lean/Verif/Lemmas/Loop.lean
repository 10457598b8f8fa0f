import Verif.Model.Nlri
import Verif.Lemmas.Bytes

/-! # Generic facts about the item loops -/

namespace Zbgp

open Spec

attribute [-simp] List.length_flatMap

variable {α β : Type}

/-! ## Encoding -/

theorem encLoop_writes {enc : α → Enc} {w : α → Bytes} (l : List α)
    (h : ∀ x ∈ l, Writes (enc x) (w x)) (p t : Bytes) (pos : Nat) (hp : pos = p.length)
    (ht : (l.flatMap w).length ≤ t.length) :
    encLoop enc l (p ++ t) pos =
      .ok (p ++ (l.flatMap w ++ t.drop (l.flatMap w).length), pos + (l.flatMap w).length) := by
  induction l generalizing p t pos with
  | nil => simp [encLoop]
  | cons x xs ih =>
    have hx := h x (by simp)
    simp only [List.flatMap_cons, List.length_append] at ht ⊢
    have h1 := hx t (by omega)
    simp only [encLoop]
    rw [onFrom_append p t pos _ hp, h1]
    simp only [Res.ok_bind]
    rw [← List.append_assoc, ih (fun y hy => h y (by simp [hy])) _ _ _ (by simp [hp]) (by simp; omega)]
    simp only [List.append_assoc, List.drop_drop, Nat.add_assoc]

theorem encLoop_writes_zero {enc : α → Enc} {w : α → Bytes} (l : List α)
    (h : ∀ x ∈ l, Writes (enc x) (w x)) : Writes (fun b => encLoop enc l b 0) (l.flatMap w) := by
  intro buf hb
  have := encLoop_writes l h [] buf 0 rfl hb
  simpa using this

/-- the loop stays in the buffer when every writer does -/
theorem encLoop_append (enc : α → Enc) (l₁ l₂ : List α) (b : Bytes) (pos : Nat) :
    encLoop enc (l₁ ++ l₂) b pos = (do
      let (b', pos') ← encLoop enc l₁ b pos
      encLoop enc l₂ b' pos') := by
  induction l₁ generalizing b pos with
  | nil => simp [encLoop]
  | cons x xs ih =>
    simp only [List.cons_append, encLoop, bind_assoc]
    congr 1; funext r; exact ih _ _

/-! ## Decoding -/

/-- every successful run advances -/
def Progress (dec : Bytes → Res (α × Nat)) : Prop := ∀ b x n, dec b = .ok (x, n) → 0 < n

theorem decLoop_fuel {lim : Nat} {dec : Bytes → Res (α × Nat)} (hp : Progress dec) :
    ∀ (f g : Nat) (b : Bytes), b.length < f → b.length < g → decLoop lim dec f b = decLoop lim dec g b := by
  intro f
  induction f with
  | zero => intro g b h; omega
  | succ f ih =>
    intro g b hf hg
    cases g with
    | zero => omega
    | succ g =>
      simp only [decLoop]
      split
      · cases hd : dec b with
        | ok r =>
          obtain ⟨x, n⟩ := r
          have := hp b x n hd
          simp only [Res.ok_bind]
          rw [ih g (b.drop n) (by simp; omega) (by simp; omega)]
        | _ => rfl
      · rfl

theorem decList_step {lim : Nat} {dec : Bytes → Res (α × Nat)} (hp : Progress dec) {b : Bytes}
    (h : lim < b.length) :
    decList lim dec b = (do
      let (x, n) ← dec b
      let (xs, m) ← decList lim dec (b.drop n)
      .ok (x :: xs, n + m)) := by
  unfold decList
  rw [decLoop, if_pos h]
  cases hd : dec b with
  | ok r =>
    obtain ⟨x, n⟩ := r
    have := hp b x n hd
    simp only [Res.ok_bind]
    rw [decLoop_fuel hp b.length ((b.drop n).length + 1) (b.drop n) (by simp; omega) (by omega)]
  | _ => rfl

theorem decList_stop {lim : Nat} {dec : Bytes → Res (α × Nat)} {b : Bytes} (h : b.length ≤ lim) :
    decList lim dec b = .ok ([], 0) := by
  unfold decList; rw [decLoop, if_neg (by omega)]

@[simp] theorem decList_nil {lim : Nat} {dec : Bytes → Res (α × Nat)} :
    decList lim dec [] = .ok ([], 0) := decList_stop (by simp)

theorem decLoop_reads {lim : Nat} {dec : Bytes → Res (β × Nat)} {w : α → Bytes} {y : α → β}
    (l : List α) (h : ∀ x ∈ l, lim < (w x).length ∧ Reads dec (w x) (y x)) (fuel : Nat)
    (hf : l.length < fuel) (t : Bytes) (ht : t.length ≤ lim) :
    decLoop lim dec fuel (l.flatMap w ++ t) = .ok (l.map y, (l.flatMap w).length) := by
  induction l generalizing fuel with
  | nil =>
    obtain ⟨f, rfl⟩ : ∃ f, fuel = f + 1 := ⟨fuel - 1, by simp at hf; omega⟩
    simp only [List.flatMap_nil, List.nil_append, decLoop]
    rw [if_neg (by omega)]; rfl
  | cons x xs ih =>
    obtain ⟨f, rfl⟩ : ∃ f, fuel = f + 1 := ⟨fuel - 1, by simp at hf; omega⟩
    obtain ⟨h1, h2⟩ := h x (by simp)
    simp only [List.flatMap_cons, decLoop, List.append_assoc]
    rw [if_pos (by simp; omega), h2]
    simp only [Res.ok_bind, List.drop_left' rfl]
    rw [ih (fun y hy => h y (by simp [hy])) f (by simpa using hf)]
    simp

theorem length_le_flatMap {w : α → Bytes} (l : List α) (h : ∀ x ∈ l, 0 < (w x).length) :
    l.length ≤ (l.flatMap w).length := by
  induction l with
  | nil => simp
  | cons x xs ih =>
    have := h x (by simp)
    have := ih (fun y hy => h y (by simp [hy]))
    simp only [List.flatMap_cons, List.length_cons, List.length_append]; omega

theorem decList_reads {lim : Nat} {dec : Bytes → Res (β × Nat)} {w : α → Bytes} {y : α → β}
    (l : List α) (h : ∀ x ∈ l, lim < (w x).length ∧ Reads dec (w x) (y x))
    (t : Bytes) (ht : t.length ≤ lim) :
    decList lim dec (l.flatMap w ++ t) = .ok (l.map y, (l.flatMap w).length) := by
  apply decLoop_reads l h _ _ t ht
  have := length_le_flatMap (w := w) l (fun x hx => by have := (h x hx).1; omega)
  simp; omega

theorem decList_reads' {lim : Nat} {dec : Bytes → Res (β × Nat)} {w : α → Bytes} {y : α → β}
    (l : List α) (h : ∀ x ∈ l, lim < (w x).length ∧ Reads dec (w x) (y x)) :
    decList lim dec (l.flatMap w) = .ok (l.map y, (l.flatMap w).length) := by
  simpa using decList_reads l h [] (by simp)

/-- A property of bytes proved along the loop. -/
theorem decList_induct {lim : Nat} {dec : Bytes → Res (α × Nat)} (hp : Progress dec)
    (P : Bytes → Res (List α × Nat) → Prop)
    (hstop : ∀ b, b.length ≤ lim → P b (.ok ([], 0)))
    (herr : ∀ b e, lim < b.length → dec b = .err e → P b (.err e))
    (hpanic : ∀ b, lim < b.length → dec b = .panic → P b .panic)
    (hhang : ∀ b, lim < b.length → dec b = .hang → P b .hang)
    (hstep : ∀ b x n, lim < b.length → dec b = .ok (x, n) → 0 < n →
      P (b.drop n) (decList lim dec (b.drop n)) →
      P b (do let (xs, m) ← decList lim dec (b.drop n); .ok (x :: xs, n + m))) (b : Bytes) :
    P b (decList lim dec b) := by
  induction hl : b.length using Nat.strongRecOn generalizing b with
  | ind k ih =>
    subst hl
    by_cases h : lim < b.length
    · rw [decList_step hp h]
      cases hd : dec b with
      | ok r =>
        obtain ⟨x, n⟩ := r
        have := hp b x n hd
        exact hstep b x n h hd this (ih (b.drop n).length (by simp; omega) _ rfl)
      | err e => exact herr b e h hd
      | panic => exact hpanic b h hd
      | hang => exact hhang b h hd
    · rw [decList_stop (by omega)]; exact hstop b (by omega)

theorem decList_returns {lim : Nat} {dec : Bytes → Res (α × Nat)} (hp : Progress dec)
    (h : ∀ b, lim < b.length → (dec b).Returns) (b : Bytes) : (decList lim dec b).Returns := by
  refine decList_induct hp (fun _ r => r.Returns) ?_ ?_ ?_ ?_ ?_ b
  · intros; trivial
  · intros; trivial
  · intro b hb hd; have := h b hb; simp [hd] at this
  · intro b hb hd; have := h b hb; simp [hd] at this
  · intro b x n _ _ _ hr
    refine Res.returns_bind hr ?_
    intros; trivial

/-- The reported total is the number of bytes, up to the `lim` bytes the loop may leave. -/
theorem decList_consumed {lim : Nat} {dec : Bytes → Res (α × Nat)} (hp : Progress dec)
    (h : ∀ b x n, dec b = .ok (x, n) → n ≤ b.length) (b : Bytes) {xs : List α} {m : Nat}
    (hd : decList lim dec b = .ok (xs, m)) : m ≤ b.length ∧ b.length ≤ m + lim := by
  have := decList_induct (lim := lim) hp (fun b r => ∀ xs m, r = .ok (xs, m) → m ≤ b.length ∧ b.length ≤ m + lim)
    ?_ ?_ ?_ ?_ ?_ b
  · exact this xs m hd
  · intro b hb xs m h; cases h; simp; omega
  · intro b e _ _ xs m h; cases h
  · intro b _ _ xs m h; cases h
  · intro b _ _ xs m h; cases h
  · intro b x n hb hdb hn ih xs m hm
    obtain ⟨⟨ys, k⟩, h1, h2⟩ := Res.bind_eq_ok.1 hm
    have h3 := ih ys k h1
    have := h b x n hdb
    simp only [Res.ok.injEq, Prod.mk.injEq] at h2
    simp only [List.length_drop] at h3
    omega

/-- A run over concatenated input: the items of the first part, then those of the second. -/
theorem decList_append {lim : Nat} {dec : Bytes → Res (α × Nat)} (hp : Progress dec) (hl : Local dec)
    (a b : Bytes) {xs : List α} (h : decList lim dec a = .ok (xs, a.length)) :
    decList lim dec (a ++ b) = (do
      let (ys, m) ← decList lim dec b
      .ok (xs ++ ys, a.length + m)) := by
  have := decList_induct (lim := lim) hp (fun a r => ∀ xs, r = .ok (xs, a.length) →
    decList lim dec (a ++ b) = (do
      let (ys, m) ← decList lim dec b
      .ok (xs ++ ys, a.length + m))) ?_ ?_ ?_ ?_ ?_ a
  · exact this xs h
  · intro a ha xs hx
    simp only [Res.ok.injEq, Prod.mk.injEq] at hx
    have : a = [] := by
      apply List.eq_nil_of_length_eq_zero; omega
    subst this
    rw [← hx.1, List.nil_append]
    cases decList lim dec b with
    | ok r => obtain ⟨_, _⟩ := r; simp
    | _ => simp
  · intro b e _ _ xs h; cases h
  · intro b _ _ xs h; cases h
  · intro b _ _ xs h; cases h
  · intro a x n ha hd hn ih xs hx
    obtain ⟨⟨ys, k⟩, h1, h2⟩ := Res.bind_eq_ok.1 hx
    simp only [Res.ok.injEq, Prod.mk.injEq] at h2
    obtain ⟨hle, hloc⟩ := hl a x n hd
    have hab : a ++ b = a.take n ++ (a.drop n ++ b) := by
      rw [← List.append_assoc, List.take_append_drop]
    rw [decList_step hp (by simp; omega), hab, hloc]
    simp only [Res.ok_bind]
    have : (a.take n ++ (a.drop n ++ b)).drop n = a.drop n ++ b :=
      List.drop_left' (by simp; omega)
    rw [this, ih ys (by rw [h1]; simp; omega)]
    rw [← h2.1]
    cases decList lim dec b with
    | ok r => simp; omega
    | _ => simp

/-- If the loop fails to return, the items before some position decode and the decoder fails to return
there. -/
theorem decList_not_returns {dec : Bytes → Res (α × Nat)} (hp : Progress dec) (hl : Local dec)
    (b : Bytes) (h : ¬ (decList 0 dec b).Returns) :
    ∃ k xs, k < b.length ∧ decList 0 dec (b.take k) = .ok (xs, k) ∧ ¬ (dec (b.drop k)).Returns := by
  have := decList_induct (lim := 0) hp (fun b r => ¬ r.Returns → 
    ∃ k xs, k < b.length ∧ decList 0 dec (b.take k) = .ok (xs, k) ∧ ¬ (dec (b.drop k)).Returns)
    ?_ ?_ ?_ ?_ ?_ b
  · exact this h
  · intro b _ hr; exact absurd trivial hr
  · intro b e _ _ hr; exact absurd trivial hr
  · intro b hb hd _; exact ⟨0, [], hb, by simp, by simp [hd]⟩
  · intro b hb hd _; exact ⟨0, [], hb, by simp, by simp [hd]⟩
  · intro b x n hb hd hn ih hr
    have hr' : ¬ (decList 0 dec (b.drop n)).Returns := by
      intro hc; exact hr (Res.returns_bind hc (fun _ _ => trivial))
    obtain ⟨k, xs, hk, h1, h2⟩ := ih hr'
    obtain ⟨hle, hloc⟩ := hl b x n hd
    simp only [List.length_drop] at hk
    refine ⟨n + k, x :: xs, by omega, ?_, ?_⟩
    · have h3 : b.take (n + k) = b.take n ++ (b.drop n).take k := by
        rw [List.take_add]
      rw [h3, decList_step hp (by simp; omega), hloc]
      simp only [Res.ok_bind]
      rw [List.drop_left' (by simp; omega), h1]
      rfl
    · rwa [← List.drop_drop] 

/-- The loop itself is local. -/
theorem decList_take {dec : Bytes → Res (α × Nat)} (hp : Progress dec)
    (hle : ∀ b x n, dec b = .ok (x, n) → n ≤ b.length) (b : Bytes) {xs : List α} {m : Nat}
    (hd : decList 0 dec b = .ok (xs, m)) : m = b.length := by
  have := decList_consumed hp hle b hd; omega

theorem Reads.local_of {dec : Bytes → Res (α × Nat)}
    (h : ∀ b x n, dec b = .ok (x, n) → n ≤ b.length ∧ Reads dec (b.take n) x) : Local dec := by
  intro b x n hd
  obtain ⟨h1, h2⟩ := h b x n hd
  refine ⟨h1, fun r => ?_⟩
  have := h2 r
  rwa [List.length_take, Nat.min_eq_left h1] at this

end Zbgp
