import Verif.Lemmas.FrameBmp

/-!
# Encoders do not look at what the buffer held

Two runs of an encoder, on buffers of the same size that agree on a set of positions, end the same way, and if they succeed
the new buffers agree on the octets the encoder reports besides. `Same S` is agreement on the positions of `S`.
-/

namespace Zbgp

open Spec

variable {α β γ δ : Type}

/-- buffers of the same size that agree on the positions of `S` -/
def Same (S : Nat → Prop) (a b : Bytes) : Prop := a.length = b.length ∧ ∀ i, S i → a[i]? = b[i]?

/-- `S` and the positions from `s` up to `e` -/
def span (S : Nat → Prop) (s e : Nat) : Nat → Prop := fun i => S i ∨ (s ≤ i ∧ i < e)

/-- two outcomes: both successful with related results, or the same failure -/
def Both (R : α → β → Prop) : Res α → Res β → Prop
  | .ok a, .ok b => R a b
  | .err e, .err e' => e = e'
  | .panic, .panic => True
  | .hang, .hang => True
  | _, _ => False

theorem both_bind {R : α → β → Prop} {T : γ → δ → Prop} {x : Res α} {y : Res β} {f : α → Res γ} {g : β → Res δ}
    (h : Both R x y) (hf : ∀ a b, R a b → Both T (f a) (g b)) : Both T (x >>= f) (y >>= g) := by
  cases x <;> cases y <;> first | exact hf _ _ h | exact h | exact h.elim

theorem both_refl (x : Res α) : Both Eq x x := by cases x <;> trivial

theorem both_ite {R : α → β → Prop} {c c' : Prop} [Decidable c] [Decidable c'] {x x' : Res α} {y y' : Res β} (hc : c ↔ c')
    (h1 : c → Both R x y) (h2 : ¬ c → Both R x' y') : Both R (if c then x else x') (if c' then y else y') := by
  by_cases h : c
  · rw [if_pos h, if_pos (hc.1 h)]; exact h1 h
  · rw [if_neg h, if_neg fun h' => h (hc.2 h')]; exact h2 h

theorem both_mono {R T : α → β → Prop} {x : Res α} {y : Res β} (h : Both R x y) (hr : ∀ a b, R a b → T a b) : Both T x y := by
  cases x <;> cases y <;> first | exact hr _ _ h | exact h

theorem Same.mono {S T : Nat → Prop} {a b : Bytes} (h : Same S a b) (hs : ∀ i, T i → S i) : Same T a b :=
  ⟨h.1, fun i hi => h.2 i (hs i hi)⟩

/-- buffers related as the results of an encoder that wrote the first `n` octets, on buffers with `a` octets -/
abbrev WroteB (S : Nat → Prop) (l n : Nat) : Bytes → Bytes → Prop := fun x y => x.length = l ∧ Same (span S 0 n) x y
/-- results of an encoder that wrote as many octets as `c` tells from its value -/
abbrev Wrote (c : α → Nat) (S : Nat → Prop) (l : Nat) : Bytes × α → Bytes × α → Prop :=
  fun x y => x.2 = y.2 ∧ x.1.length = l ∧ Same (span S 0 (c x.2)) x.1 y.1

/-- the encoder does not look at the old contents, and writes the octets it reports -/
class Fresh (f : Bytes → Res (Bytes × α)) (c : outParam (α → Nat)) : Prop where
  both : ∀ S a b, Same S a b → Both (Wrote c S a.length) (f a) (f b)

/-- the writer does not look at the old contents, and writes `n` octets -/
class FreshB (f : Bytes → Res Bytes) (n : outParam Nat) : Prop where
  both : ∀ S a b, Same S a b → Both (WroteB S a.length n) (f a) (f b)

/-- an encoder that reports how much it wrote -/
abbrev FreshE (f : Enc) : Prop := Fresh f fun n => n
/-- a prefix encoder: it reports bits and octets -/
abbrev FreshP (f : Bytes → Res (Bytes × (U8 × Nat))) : Prop := Fresh f fun n => n.2

/-! ## Slices -/

variable {S : Nat → Prop} {a b : Bytes}

theorem both_setIdx (h : Same S a b) (i : Nat) (v : U8) :
    Both (fun x y => x.length = a.length ∧ Same (span S i (i + 1)) x y) (setIdx a i v) (setIdx b i v) := by
  unfold setIdx
  refine both_ite (by rw [h.1]) (fun hi => ?_) fun _ => trivial
  refine ⟨by simp, by simpa using h.1, fun j hj => ?_⟩
  rw [List.getElem?_set, List.getElem?_set]
  by_cases hij : i = j
  · subst hij; simp [hi, ← h.1]
  · rw [if_neg hij, if_neg hij]
    rcases hj with hj | hj
    · exact h.2 _ hj
    · omega

theorem both_idx (h : Same S a b) (i : Nat) (hi : S i) : Both Eq (idx a i) (idx b i) := by
  unfold idx
  rw [h.2 i hi]
  exact both_refl _

theorem getElem?_splice (a t : Bytes) (s e i : Nat) (hs : s ≤ a.length) (ht : t.length = e - s) (he : s ≤ e) (hel : e ≤ a.length) :
    (a.take s ++ t ++ a.drop e)[i]? = if i < s then a[i]? else if i < e then t[i - s]? else a[i]? := by
  have h1 : (a.take s).length = s := by simp [hs]
  by_cases h : i < s
  · rw [if_pos h, List.append_assoc, List.getElem?_append_left (by omega), List.getElem?_take_of_lt h]
  · rw [if_neg h]
    by_cases h' : i < e
    · rw [if_pos h', List.getElem?_append_left (by simp; omega), List.getElem?_append_right (by omega), h1]
    · rw [if_neg h', List.getElem?_append_right (by simp; omega), List.getElem?_drop]
      congr 1
      simp; omega

theorem getElem?_tail (a t : Bytes) (s i : Nat) (hs : s ≤ a.length) :
    (a.take s ++ t)[i]? = if i < s then a[i]? else t[i - s]? := by
  have h1 : (a.take s).length = s := by simp [hs]
  by_cases h : i < s
  · rw [if_pos h, List.getElem?_append_left (by omega), List.getElem?_take_of_lt h]
  · rw [if_neg h, List.getElem?_append_right (by omega), h1]

theorem Same.drop (h : Same S a b) (s : Nat) : Same (fun i => S (s + i)) (a.drop s) (b.drop s) :=
  ⟨by simp [h.1], fun i hi => by rw [List.getElem?_drop, List.getElem?_drop]; exact h.2 _ hi⟩

theorem Same.slice (h : Same S a b) (s e : Nat) : Same (fun i => S (s + i)) ((a.take e).drop s) ((b.take e).drop s) := by
  refine ⟨by simp [h.1], fun i hi => ?_⟩
  rw [List.getElem?_drop, List.getElem?_drop, List.getElem?_take, List.getElem?_take]
  split
  · exact h.2 _ hi
  · rfl

theorem same_splice {t u : Bytes} (h : Same S a b) (s e n : Nat) (hs : s ≤ e) (he : e ≤ a.length) (ht : t.length = e - s)
    (hn : s + n ≤ e) (htu : Same (span (fun i => S (s + i)) 0 n) t u) :
    Same (span S s (s + n)) (a.take s ++ t ++ a.drop e) (b.take s ++ u ++ b.drop e) := by
  refine ⟨by simp [h.1, htu.1], fun i hi => ?_⟩
  rw [getElem?_splice _ _ _ _ _ (by omega) ht hs he, getElem?_splice _ _ _ _ _ (by rw [← h.1]; omega) (by rw [← htu.1, ht]) hs (by rw [← h.1]; omega)]
  by_cases h1 : i < s
  · rw [if_pos h1, if_pos h1]
    rcases hi with hi | hi
    · exact h.2 _ hi
    · omega
  · rw [if_neg h1, if_neg h1]
    by_cases h2 : i < e
    · rw [if_pos h2, if_pos h2]
      refine htu.2 _ ?_
      rcases hi with hi | hi
      · left; dsimp only; rwa [show s + (i - s) = i by omega]
      · right; omega
    · rw [if_neg h2, if_neg h2]
      rcases hi with hi | hi
      · exact h.2 _ hi
      · omega

theorem same_tail {t u : Bytes} (h : Same S a b) (s n : Nat) (hs : s ≤ a.length)
    (htu : Same (span (fun i => S (s + i)) 0 n) t u) : Same (span S s (s + n)) (a.take s ++ t) (b.take s ++ u) := by
  refine ⟨by simp [h.1, htu.1], fun i hi => ?_⟩
  rw [getElem?_tail _ _ _ _ hs, getElem?_tail _ _ _ _ (by rw [← h.1]; omega)]
  by_cases h1 : i < s
  · rw [if_pos h1, if_pos h1]
    rcases hi with hi | hi
    · exact h.2 _ hi
    · omega
  · rw [if_neg h1, if_neg h1]
    refine htu.2 _ ?_
    rcases hi with hi | hi
    · left; dsimp only; rwa [show s + (i - s) = i by omega]
    · right; omega

theorem same_all (t : Bytes) (T : Nat → Prop) : Same T t t := ⟨rfl, fun _ _ => rfl⟩

theorem both_copyAt (h : Same S a b) (s e : Nat) (src : Bytes) :
    Both (fun x y => x.length = a.length ∧ Same (span S s e) x y) (copyAt a s e src) (copyAt b s e src) := by
  unfold copyAt
  refine both_ite (by rw [h.1]) (fun hi => ?_) fun _ => trivial
  refine ⟨by simp; omega, ?_⟩
  have := same_splice h s e (e - s) hi.1 hi.2.1 hi.2.2 (by omega) (same_all src _)
  rwa [show s + (e - s) = e by omega] at this

/-- the part of a slice that a writer of `n` octets is sure to have written: all of it, if it is shorter -/
theorem Same.clip {t u : Bytes} {T : Nat → Prop} {n : Nat} (h : Same (span T 0 n) t u) :
    Same (span T 0 (min n t.length)) t u := h.mono fun i hi => by
  rcases hi with hi | hi
  · exact .inl hi
  · exact .inr (by omega)

theorem both_modRange (h : Same S a b) (s e : Nat) (f : Bytes → Res Bytes) {n : Nat} [hf : FreshB f n] :
    Both (fun x y => x.length = a.length ∧ Same (span S s (s + min n (e - s))) x y) (modRange a s e f) (modRange b s e f) := by
  unfold modRange
  refine both_ite (by rw [h.1]) (fun hi => ?_) fun _ => trivial
  refine both_bind (hf.both _ _ _ (h.slice s e)) fun x y hxy => ?_
  have hl : x.length = e - s := by rw [hxy.1]; simp; omega
  refine ⟨by simp; omega, ?_⟩
  have := hxy.2.clip
  rw [hl] at this
  exact same_splice h s e _ hi.1 hi.2 hl (by omega) this

theorem both_modFrom (h : Same S a b) (s : Nat) (f : Bytes → Res Bytes) {n : Nat} [hf : FreshB f n] :
    Both (fun x y => x.length = a.length ∧ Same (span S s (s + n)) x y) (modFrom a s f) (modFrom b s f) := by
  unfold modFrom
  refine both_ite (by rw [h.1]) (fun hi => ?_) fun _ => trivial
  refine both_bind (hf.both _ _ _ (h.drop s)) fun x y hxy => ?_
  exact ⟨by simp [hxy.1]; omega, same_tail h s n hi hxy.2⟩

theorem both_onFrom (h : Same S a b) (s : Nat) (f : Bytes → Res (Bytes × α)) {c : α → Nat} [hf : Fresh f c] :
    Both (fun x y => x.2 = y.2 ∧ x.1.length = a.length ∧ Same (span S s (s + c x.2)) x.1 y.1) (onFrom a s f) (onFrom b s f) := by
  unfold onFrom
  refine both_ite (by rw [h.1]) (fun hi => ?_) fun _ => trivial
  refine both_bind (hf.both _ _ _ (h.drop s)) ?_
  rintro ⟨x, n⟩ ⟨y, m⟩ ⟨hn, hl, hs⟩
  dsimp only at *
  exact ⟨hn, by simp [hl]; omega, same_tail h s _ hi hs⟩

theorem both_onRange (h : Same S a b) (s e : Nat) (f : Bytes → Res (Bytes × α)) {c : α → Nat} [hf : Fresh f c] :
    Both (fun x y => x.2 = y.2 ∧ x.1.length = a.length ∧ Same (span S s (s + min (c x.2) (e - s))) x.1 y.1)
      (onRange a s e f) (onRange b s e f) := by
  unfold onRange
  refine both_ite (by rw [h.1]) (fun hi => ?_) fun _ => trivial
  refine both_bind (hf.both _ _ _ (h.slice s e)) ?_
  rintro ⟨x, n⟩ ⟨y, m⟩ ⟨hn, hl, hs⟩
  dsimp only at *
  have hl' : x.length = e - s := by rw [hl]; simp; omega
  refine ⟨hn, by simp; omega, ?_⟩
  have := hs.clip
  rw [hl'] at this
  exact same_splice h s e _ hi.1 hi.2 hl' (by omega) this

theorem both_onSliceE (h : Same S a b) (s e : Nat) (f : Bytes → Res (Bytes × α)) {c : α → Nat} [hf : Fresh f c] :
    Both (fun x y => x.2 = y.2 ∧ x.1.length = a.length ∧ Same (span S s (s + min (c x.2) (e - s))) x.1 y.1)
      (onSliceE a s e f) (onSliceE b s e f) := by
  unfold onSliceE
  refine both_ite (by rw [h.1]) (fun hi => ?_) fun _ => rfl
  refine both_bind (hf.both _ _ _ (h.slice s e)) ?_
  rintro ⟨x, n⟩ ⟨y, m⟩ ⟨hn, hl, hs⟩
  dsimp only at *
  have hl' : x.length = e - s := by rw [hl]; simp; omega
  refine ⟨hn, by simp; omega, ?_⟩
  have := hs.clip
  rw [hl'] at this
  exact same_splice h s e _ hi.1 hi.2 hl' (by omega) this

theorem both_onSliceEnd (h : Same S a b) (s : Nat) (f : Bytes → Res (Bytes × α)) {c : α → Nat} [hf : Fresh f c] :
    Both (fun x y => x.2 = y.2 ∧ x.1.length = a.length ∧ Same (span S s (s + c x.2)) x.1 y.1)
      (onSliceE a s a.length f) (onSliceE b s b.length f) := by
  unfold onSliceE
  refine both_ite (by rw [h.1]) (fun hi => ?_) fun _ => rfl
  rw [List.take_length, List.take_length, List.drop_length, List.drop_length]
  refine both_bind (hf.both _ _ _ (h.drop s)) ?_
  rintro ⟨x, n⟩ ⟨y, m⟩ ⟨hn, hl, hs⟩
  dsimp only at *
  rw [List.append_nil, List.append_nil]
  exact ⟨hn, by simp [hl]; omega, same_tail h s _ hi.1 hs⟩

/-- what the relation of an encoder amounts to -/
theorem both_ok {c : α → Nat} {T : Nat → Prop} {l : Nat} {x y : Bytes} {n : α} (hl : x.length = l) (h : Same T x y)
    (hs : ∀ i, span S 0 (c n) i → T i) : Both (Wrote c S l) (.ok (x, n)) (.ok (y, n)) := ⟨rfl, hl, h.mono hs⟩

theorem both_okB {T : Nat → Prop} {l n : Nat} {x y : Bytes} (hl : x.length = l) (h : Same T x y)
    (hs : ∀ i, span S 0 n i → T i) : Both (WroteB S l n) (.ok x) (.ok y) := ⟨hl, h.mono hs⟩

/-- a position written, or one that was known before -/
macro "positions" : tactic => `(tactic| first
  | omega
  | (simp only [span]; omega)
  | (intro i hi; rcases hi with hi | hi
     · simp only [span, hi, true_or]
     · (try dsimp only at hi); (try dsimp only); (try simp only [span]); omega))

theorem both_err {R : α → β → Prop} (e : BgpError) : Both R (.err e) (.err e) := rfl
theorem both_panic {R : α → β → Prop} : Both R .panic .panic := trivial
theorem both_hang {R : α → β → Prop} : Both R .hang .hang := trivial

theorem both_lastB {T U : Nat → Prop} {l l' n : Nat} {x y : Res Bytes} (h : Both (fun x y => x.length = l' ∧ Same T x y) x y)
    (hl : l' = l) (hs : ∀ i, span U 0 n i → T i) : Both (WroteB U l n) x y :=
  both_mono h fun _ _ h => ⟨h.1.trans hl, h.2.mono hs⟩

theorem both_last {T : α → Nat → Prop} {U : Nat → Prop} {c : α → Nat} {l l' : Nat} {x y : Res (Bytes × α)}
    (h : Both (fun x y => x.2 = y.2 ∧ x.1.length = l' ∧ Same (T x.2) x.1 y.1) x y)
    (hl : l' = l) (hs : ∀ m i, span U 0 (c m) i → T m i) : Both (Wrote c U l) x y :=
  both_mono h fun _ _ h => ⟨h.1, h.2.1.trans hl, h.2.2.mono (hs _)⟩

macro "fresh_end" : tactic => `(tactic| first
  | exact both_err _
  | exact both_panic
  | exact both_hang
  | (refine both_ok ?_ (by assumption) ?_ <;> positions)
  | (refine both_okB ?_ (by assumption) ?_ <;> positions)
  | (refine both_lastB (both_setIdx (by assumption) _ _) ?_ ?_ <;> positions)
  | (refine both_lastB (both_copyAt (by assumption) _ _ _) ?_ ?_ <;> positions)
  | (refine both_lastB (both_modRange (by assumption) _ _ _) ?_ ?_ <;> positions)
  | (refine both_lastB (both_modFrom (by assumption) _ _) ?_ ?_ <;> positions)
  | (refine both_lastB (FreshB.both _ _ _ (by assumption)) ?_ ?_ <;> positions)
  | (refine both_last (both_onFrom (by assumption) _ _) (by positions) (fun m => ?_); positions)
  | (refine both_last (Fresh.both _ _ _ (by assumption)) (by positions) (fun m => ?_); positions))

/-- one step through an encoder -/
macro "fresh_step" : tactic => `(tactic| first
  | (refine both_bind (both_setIdx (by assumption) _ _) ?_; intro x y h; obtain ⟨hl, hs⟩ := h; have he := hs.1)
  | (refine both_bind (both_copyAt (by assumption) _ _ _) ?_; intro x y h; obtain ⟨hl, hs⟩ := h; have he := hs.1)
  | (refine both_bind (both_modRange (by assumption) _ _ _) ?_; intro x y h; obtain ⟨hl, hs⟩ := h; have he := hs.1)
  | (refine both_bind (both_modFrom (by assumption) _ _) ?_; intro x y h; obtain ⟨hl, hs⟩ := h; have he := hs.1)
  | (refine both_bind (both_onFrom (by assumption) _ _) ?_; rintro ⟨x, n⟩ ⟨y, m⟩ ⟨hn, hl, hs⟩; dsimp only at hn; subst hn; dsimp only at *; have he := hs.1)
  | (refine both_bind (both_onRange (by assumption) _ _ _) ?_; rintro ⟨x, n⟩ ⟨y, m⟩ ⟨hn, hl, hs⟩; dsimp only at hn; subst hn; dsimp only at *; have he := hs.1)
  | (refine both_bind (both_onSliceEnd (by assumption) _ _) ?_; rintro ⟨x, n⟩ ⟨y, m⟩ ⟨hn, hl, hs⟩; dsimp only at hn; subst hn; dsimp only at *; have he := hs.1)
  | (refine both_bind (both_onSliceE (by assumption) _ _ _) ?_; rintro ⟨x, n⟩ ⟨y, m⟩ ⟨hn, hl, hs⟩; dsimp only at hn; subst hn; dsimp only at *; have he := hs.1)
  | (refine both_bind (Fresh.both _ _ _ (by assumption)) ?_; rintro ⟨x, n⟩ ⟨y, m⟩ ⟨hn, hl, hs⟩; dsimp only at hn; subst hn; dsimp only at *; have he := hs.1)
  | (refine both_bind (FreshB.both _ _ _ (by assumption)) ?_; intro x y h; obtain ⟨hl, hs⟩ := h; have he := hs.1)
  | (refine both_bind (both_idx (by assumption) _ (by positions)) ?_; intro x y h; subst h)
  | (refine both_bind (both_refl _) ?_; intro x y h; subst h)
  | fresh_end
  | (refine both_ite (by first | exact Iff.rfl | omega) (fun _ => ?_) (fun _ => ?_)))

macro "fresh" : tactic => `(tactic| (repeat' fresh_step))

/-! ## Numbers and addresses -/

instance (v : U16) : FreshB (setn16 v) 2 where
  both S a b h := by have he := h.1; unfold setn16; fresh
instance (v : U32) : FreshB (setn32 v) 4 where
  both S a b h := by have he := h.1; unfold setn32; fresh
instance (v : U64) : FreshB (setn64 v) 8 where
  both S a b h := by have he := h.1; unfold setn64; fresh

instance (x : IPv4) : Fresh (encodeAddrV4 x) fun n => max n 4 where
  both S a b h := by have he := h.1; unfold encodeAddrV4; fresh
instance (x : IPv6) : Fresh (encodeAddrV6 x) fun n => max n 16 where
  both S a b h := by have he := h.1; unfold encodeAddrV6; fresh

theorem wrote_le {c d : α → Nat} {l : Nat} {x y : Res (Bytes × α)} (h : Both (Wrote c S l) x y) (hc : ∀ n, d n ≤ c n) :
    Both (Wrote d S l) x y := both_mono h fun _ _ h => ⟨h.1, h.2.1, h.2.2.mono fun i hi => by
  rcases hi with hi | hi
  · exact .inl hi
  · exact .inr ⟨hi.1, Nat.lt_of_lt_of_le hi.2 (hc _)⟩⟩

theorem freshV4 (x : IPv4) : FreshE (encodeAddrV4 x) := ⟨fun S a b h => wrote_le (Fresh.both S a b h) fun _ => Nat.le_max_left _ _⟩
theorem freshV6 (x : IPv6) : FreshE (encodeAddrV6 x) := ⟨fun S a b h => wrote_le (Fresh.both S a b h) fun _ => Nat.le_max_left _ _⟩

instance (x : IpAddr) : FreshE (encodeAddr x) where
  both S a b h := by
    cases x
    · exact (freshV4 _).both S a b h
    · exact (freshV6 _).both S a b h
instance (r : BgpRD) : Fresh r.encodeTo fun n => max n 8 where
  both S a b h := by have he := h.1; unfold BgpRD.encodeTo; fresh

instance (m : MacAddress) : FreshB m.writeToNetworkBytes 6 where
  both S a b h := by
    unfold MacAddress.writeToNetworkBytes copyAll
    exact both_ite (by rw [h.1]) (fun hl => ⟨hl.symm, same_all _ _⟩) fun _ => trivial

end Zbgp
