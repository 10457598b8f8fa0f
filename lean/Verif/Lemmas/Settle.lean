import Verif.Spec.Enough
import Verif.Lemmas.FrameBmp

/-!
# Encoders settle when the buffer is large enough
-/

namespace Zbgp

open Spec

variable {α β γ : Type}

/-- the result has the outcome `o` and a buffer of the same size -/
def Gives (o : Res α) (l : Nat) : Res (Bytes × α) → Prop
  | .ok (r, a) => o = .ok a ∧ r.length = l
  | .err e => o = .err e
  | .panic => o = .panic
  | .hang => False

/-- from some size on there is one outcome, which is not a complaint about the size -/
class Sets (f : Bytes → Res (Bytes × α)) : Prop where
  sets : ∃ N o, o ≠ .err .insufficientBufferSize ∧ ∀ b : Bytes, N ≤ b.length → Gives o b.length (f b)

/-- the same for writers that report nothing -/
class SetsB (f : Bytes → Res Bytes) : Prop where
  sets : ∃ N, ∃ o : Res Unit, o ≠ .err .insufficientBufferSize ∧ ∀ b : Bytes, N ≤ b.length → Gives o b.length (f b >>= fun r => .ok (r, ()))

/-- the same for slices of one size -/
class FixB (f : Bytes → Res Bytes) (k : outParam Nat) : Prop where
  fix : ∃ o : Res Unit, o ≠ .err .insufficientBufferSize ∧ ∀ b : Bytes, b.length = k → Gives o b.length (f b >>= fun r => .ok (r, ()))

class Fix (f : Bytes → Res (Bytes × α)) (k : outParam Nat) : Prop where
  fix : ∃ o : Res α, o ≠ .err .insufficientBufferSize ∧ ∀ b : Bytes, b.length = k → Gives o b.length (f b)

theorem gives_bind {o : Res α} {l : Nat} {x : Res (Bytes × α)} {f : Bytes × α → Res (Bytes × β)} {o' : Res β} (h : Gives o l x)
    (hf : ∀ r a, o = .ok a → r.length = l → Gives o' l (f (r, a))) (hn : ∀ a, o ≠ .ok a → True) (he : ∀ e, o = .err e → o' = .err e)
    (hp : o = .panic → o' = .panic) : Gives o' l (x >>= f) := by
  cases x with
  | ok r => exact hf r.1 r.2 h.1 h.2
  | err e => exact he e h
  | panic => exact hp h
  | hang => exact h

theorem sets_bind {f : Bytes → Res (Bytes × α)} {k : Bytes × α → Res (Bytes × β)} (hf : Sets f) (hk : ∀ a, Sets fun b => k (b, a)) :
    Sets fun b => f b >>= k := by
  obtain ⟨N, o, ho, h⟩ := hf.sets
  cases o with
  | ok a =>
    obtain ⟨M, o', ho', h'⟩ := (hk a).sets
    refine ⟨max N M, o', ho', fun b hb => ?_⟩
    refine gives_bind (h b (by omega)) (fun r a' e hr => ?_) (fun _ _ => trivial) (fun e h => by cases h) (fun h => by cases h)
    cases e
    rw [← hr]
    exact h' r (by omega)
  | err e =>
    exact ⟨N, .err e, fun h => ho (by cases h; rfl), fun b hb => gives_bind (h b hb) (fun _ _ h => by cases h) (fun _ _ => trivial)
      (fun _ h => by cases h; rfl) (fun h => by cases h)⟩
  | panic =>
    exact ⟨N, .panic, fun h => (by cases h), fun b hb => gives_bind (h b hb) (fun _ _ h => by cases h) (fun _ _ => trivial)
      (fun _ h => by cases h) (fun _ => rfl)⟩
  | hang =>
    refine ⟨N, .panic, fun h => (by cases h), fun b hb => ?_⟩
    have := h b hb
    cases hx : f b <;> simp [hx, Gives] at this

theorem setsB_iff {f : Bytes → Res Bytes} : SetsB f ↔ Sets fun b => f b >>= fun r => .ok (r, ()) :=
  ⟨fun h => ⟨h.sets⟩, fun h => ⟨h.sets⟩⟩

theorem bind_unit (x : Res Bytes) (k : Bytes → Res γ) : (x >>= k) = (x >>= fun r => Res.ok (r, ())) >>= fun p => k p.1 := by
  cases x <;> rfl

theorem setsB_bind {f : Bytes → Res Bytes} {k : Bytes → Res (Bytes × β)} (hf : SetsB f) (hk : Sets k) : Sets fun b => f b >>= k := by
  have : (fun b => f b >>= k) = fun b => (f b >>= fun r => Res.ok (r, ())) >>= fun p => k p.1 := funext fun b => bind_unit _ _
  rw [this]
  exact sets_bind (setsB_iff.1 hf) fun _ => hk

theorem setsB_bindB {f k : Bytes → Res Bytes} (hf : SetsB f) (hk : SetsB k) : SetsB fun b => f b >>= k := by
  rw [setsB_iff] at hk ⊢
  have : (fun b => (f b >>= k) >>= fun r => Res.ok (r, ())) = fun b => f b >>= fun r => k r >>= fun r => Res.ok (r, ()) :=
    funext fun b => bind_assoc _ _ _
  rw [this]
  exact setsB_bind hf hk

theorem sets_bindB {f : Bytes → Res (Bytes × α)} {k : Bytes × α → Res Bytes} (hf : Sets f) (hk : ∀ a, SetsB fun b => k (b, a)) :
    SetsB fun b => f b >>= k := by
  rw [setsB_iff]
  have : (fun b => (f b >>= k) >>= fun r => Res.ok (r, ())) = fun b => f b >>= fun r => k r >>= fun r => Res.ok (r, ()) :=
    funext fun b => bind_assoc _ _ _
  rw [this]
  exact sets_bind hf fun a => setsB_iff.1 (hk a)

/-- a computation without the buffer -/
theorem sets_pure {x : Res α} {k : α → Bytes → Res (Bytes × β)} (hx : x ≠ .err .insufficientBufferSize) (hh : x ≠ .hang)
    (hk : ∀ a, Sets (k a)) : Sets fun b => x >>= fun a => k a b := by
  cases x with
  | ok a => exact hk a
  | err e => exact ⟨0, .err e, fun h => hx (by cases h; rfl), fun b _ => rfl⟩
  | panic => exact ⟨0, .panic, fun h => (by cases h), fun b _ => rfl⟩
  | hang => exact absurd rfl hh

theorem sets_ok (a : α) : Sets fun b => .ok (b, a) := ⟨0, .ok a, fun h => (by cases h), fun _ _ => ⟨rfl, rfl⟩⟩
theorem setsB_ok : SetsB fun b => .ok b := ⟨0, .ok (), fun h => (by cases h), fun _ _ => ⟨rfl, rfl⟩⟩
theorem sets_err {e : BgpError} (he : e ≠ .insufficientBufferSize) : Sets fun _ => (.err e : Res (Bytes × α)) :=
  ⟨0, .err e, fun h => he (by cases h; rfl), fun _ _ => rfl⟩
theorem setsB_err {e : BgpError} (he : e ≠ .insufficientBufferSize) : SetsB fun _ => (.err e : Res Bytes) :=
  ⟨0, .err e, fun h => he (by cases h; rfl), fun _ _ => rfl⟩
theorem sets_panic : Sets fun _ => (.panic : Res (Bytes × α)) := ⟨0, .panic, fun h => (by cases h), fun _ _ => rfl⟩

theorem sets_ite {c : Prop} [Decidable c] {f g : Bytes → Res (Bytes × α)} (hf : c → Sets f) (hg : ¬ c → Sets g) :
    Sets fun b => if c then f b else g b := by
  by_cases h : c
  · simp only [if_pos h]; exact hf h
  · simp only [if_neg h]; exact hg h

/-- a test of the size that large buffers pass -/
theorem sets_large {c : Bytes → Prop} [DecidablePred c] {f g : Bytes → Res (Bytes × α)} (N : Nat) (hc : ∀ b : Bytes, N ≤ b.length → ¬ c b)
    (hg : Sets g) : Sets fun b => if c b then f b else g b := by
  obtain ⟨M, o, ho, h⟩ := hg.sets
  refine ⟨max N M, o, ho, fun b hb => ?_⟩
  rw [if_neg (hc b (by omega))]
  exact h b (by omega)

theorem sets_large' {c : Bytes → Prop} [DecidablePred c] {f g : Bytes → Res (Bytes × α)} (N : Nat) (hc : ∀ b : Bytes, N ≤ b.length → c b)
    (hf : Sets f) : Sets fun b => if c b then f b else g b := by
  obtain ⟨M, o, ho, h⟩ := hf.sets
  refine ⟨max N M, o, ho, fun b hb => ?_⟩
  rw [if_pos (hc b (by omega))]
  exact h b (by omega)

theorem setsB_large {c : Bytes → Prop} [DecidablePred c] {f g : Bytes → Res Bytes} (N : Nat) (hc : ∀ b : Bytes, N ≤ b.length → ¬ c b)
    (hg : SetsB g) : SetsB fun b => if c b then f b else g b := by
  obtain ⟨M, o, ho, h⟩ := hg.sets
  refine ⟨max N M, o, ho, fun b hb => ?_⟩
  rw [if_neg (hc b (by omega))]
  exact h b (by omega)

/-! ## Slices -/

theorem setsB_setIdx (i : Nat) (v : U8) : SetsB fun b => setIdx b i v :=
  ⟨i + 1, .ok (), fun h => (by cases h), fun b hb => by rw [setIdx, if_pos (by omega)]; exact ⟨rfl, by simp⟩⟩

theorem setsB_copyAt (s e : Nat) (src : Bytes) : SetsB fun b => copyAt b s e src := by
  by_cases h : s ≤ e ∧ src.length = e - s
  · refine ⟨e, .ok (), fun h => (by cases h), fun b hb => ?_⟩
    rw [copyAt, if_pos ⟨h.1, hb, h.2⟩]
    exact ⟨rfl, by simp [h.2]; omega⟩
  · refine ⟨e, .panic, fun h => (by cases h), fun b hb => ?_⟩
    rw [copyAt, if_neg (by omega)]
    rfl

theorem sets_onFrom (s : Nat) {f : Bytes → Res (Bytes × α)} (hf : Sets f) : Sets fun b => onFrom b s f := by
  obtain ⟨N, o, ho, h⟩ := hf.sets
  refine ⟨s + N, o, ho, fun b hb => ?_⟩
  rw [onFrom, if_pos (by omega)]
  have := h (b.drop s) (by simp; omega)
  cases hx : f (b.drop s) with
  | ok r =>
    rw [hx] at this
    exact ⟨this.1, by have := this.2; simp at this ⊢; omega⟩
  | err e => rw [hx] at this; exact this
  | panic => rw [hx] at this; exact this
  | hang => rw [hx] at this; exact this

theorem sets_onRange (s e : Nat) {f : Bytes → Res (Bytes × α)} {k : Nat} (hf : Fix f k) (hk : e - s = k) : Sets fun b => onRange b s e f := by
  by_cases hse : s ≤ e
  · obtain ⟨o, ho, h⟩ := hf.fix
    refine ⟨e, o, ho, fun b hb => ?_⟩
    rw [onRange, if_pos ⟨hse, hb⟩]
    have := h ((b.take e).drop s) (by simp; omega)
    cases hx : f ((b.take e).drop s) with
    | ok r =>
      rw [hx] at this
      exact ⟨this.1, by have := this.2; simp at this ⊢; omega⟩
    | err e => rw [hx] at this; exact this
    | panic => rw [hx] at this; exact this
    | hang => rw [hx] at this; exact this
  · exact ⟨e, .panic, fun h => (by cases h), fun b hb => by rw [onRange, if_neg (by omega)]; rfl⟩

theorem setsB_modFrom (s : Nat) {f : Bytes → Res Bytes} (hf : SetsB f) : SetsB fun b => modFrom b s f := by
  obtain ⟨N, o, ho, h⟩ := hf.sets
  refine ⟨s + N, o, ho, fun b hb => ?_⟩
  rw [modFrom, if_pos (by omega)]
  have := h (b.drop s) (by simp; omega)
  cases hx : f (b.drop s) with
  | ok r =>
    rw [hx] at this
    exact ⟨this.1, by have := this.2; simp at this ⊢; omega⟩
  | err e => rw [hx] at this; exact this
  | panic => rw [hx] at this; exact this
  | hang => rw [hx] at this; exact this

theorem setsB_modRange (s e : Nat) {f : Bytes → Res Bytes} {k : Nat} (hf : FixB f k) (hk : e - s = k) : SetsB fun b => modRange b s e f := by
  by_cases hse : s ≤ e
  · obtain ⟨o, ho, h⟩ := hf.fix
    refine ⟨e, o, ho, fun b hb => ?_⟩
    rw [modRange, if_pos ⟨hse, hb⟩]
    have := h ((b.take e).drop s) (by simp; omega)
    cases hx : f ((b.take e).drop s) with
    | ok r =>
      rw [hx] at this
      exact ⟨this.1, by have := this.2; simp at this ⊢; omega⟩
    | err e => rw [hx] at this; exact this
    | panic => rw [hx] at this; exact this
    | hang => rw [hx] at this; exact this
  · exact ⟨e, .panic, fun h => (by cases h), fun b hb => by rw [modRange, if_neg (by omega)]; rfl⟩

/-- an octet that was written is changed -/
theorem sets_idx (i : Nat) (g : U8 → U8) {k : Bytes → Res (Bytes × α)} (hk : Sets k) :
    Sets fun b => idx b i >>= fun v => setIdx b i (g v) >>= k := by
  obtain ⟨N, o, ho, h⟩ := hk.sets
  refine ⟨max N (i + 1), o, ho, fun b hb => ?_⟩
  rw [idx, List.getElem?_eq_getElem (by omega)]
  simp only [Res.ok_bind, setIdx, if_pos (show i < b.length by omega)]
  have := h (b.set i (g b[i])) (by simp; omega)
  simpa using this

theorem settles_of {f : Enc} (h : Sets f) : Settles f := by
  obtain ⟨N, o, ho, h⟩ := h.sets
  refine ⟨N, ?_⟩
  cases o with
  | ok n =>
    refine .inl ⟨n, fun b hb => ?_⟩
    have := h b hb
    cases hx : f b with
    | ok r => rw [hx] at this; obtain ⟨e, -⟩ := this; cases e; exact ⟨r.1, rfl⟩
    | err e => rw [hx] at this; cases this
    | panic => rw [hx] at this; cases this
    | hang => rw [hx] at this; exact this.elim
  | err e =>
    refine .inr (.inl ⟨e, fun h => ho (by rw [h]), fun b hb => ?_⟩)
    have := h b hb
    cases hx : f b with
    | ok r => rw [hx] at this; obtain ⟨e, -⟩ := this; cases e
    | err e => rw [hx] at this; cases this; rfl
    | panic => rw [hx] at this; cases this
    | hang => rw [hx] at this; exact this.elim
  | panic =>
    refine .inr (.inr fun b hb => ?_)
    have := h b hb
    cases hx : f b with
    | ok r => rw [hx] at this; obtain ⟨e, -⟩ := this; cases e
    | err e => rw [hx] at this; cases this
    | panic => rfl
    | hang => rw [hx] at this; exact this.elim
  | hang =>
    refine .inr (.inr fun b hb => ?_)
    have := h b hb
    cases hx : f b with
    | ok r => rw [hx] at this; obtain ⟨e, -⟩ := this; cases e
    | err e => rw [hx] at this; cases this
    | panic => rfl
    | hang => rw [hx] at this; exact this.elim

/-! ## Steps -/

theorem pure_addC {w : Nat} (a b : BitVec w) : addC a b ≠ .err .insufficientBufferSize ∧ addC a b ≠ .hang := by
  unfold addC; split <;> simp
theorem pure_subC {w : Nat} (a b : BitVec w) : subC a b ≠ .err .insufficientBufferSize ∧ subC a b ≠ .hang := by
  unfold subC; split <;> simp
theorem pure_subN (a b : Nat) : subN a b ≠ .err .insufficientBufferSize ∧ subN a b ≠ .hang := by
  unfold subN; split <;> simp

theorem pure_copyAll (a b : Bytes) : copyAll a b ≠ .err .insufficientBufferSize ∧ copyAll a b ≠ .hang := by
  unfold copyAll; split <;> simp
theorem pure_rslice (a : Bytes) (s e : Nat) : rslice a s e ≠ .err .insufficientBufferSize ∧ rslice a s e ≠ .hang := by
  unfold rslice; split <;> simp

theorem short_sub {l p n : Nat} (h : p + n ≤ l) : ¬ l - p < n := by omega

macro "settle_step" : tactic => `(tactic| first
  | exact sets_ok _
  | exact setsB_ok
  | exact sets_panic
  | exact sets_err (by simp)
  | exact setsB_err (by simp)
  | exact setsB_setIdx _ _
  | exact setsB_copyAt _ _ _
  | exact setsB_modFrom _ inferInstance
  | exact setsB_modRange _ _ inferInstance (by omega)
  | exact sets_onFrom _ inferInstance
  | infer_instance
  | assumption
  | refine setsB_bind (setsB_setIdx _ _) ?_
  | refine setsB_bind (setsB_copyAt _ _ _) ?_
  | refine setsB_bind (setsB_modFrom _ inferInstance) ?_
  | refine setsB_bind (setsB_modRange _ _ inferInstance (by omega)) ?_
  | refine setsB_bindB (setsB_setIdx _ _) ?_
  | refine setsB_bindB (setsB_copyAt _ _ _) ?_
  | refine setsB_bindB (setsB_modFrom _ inferInstance) ?_
  | refine setsB_bindB (setsB_modRange _ _ inferInstance (by omega)) ?_
  | refine setsB_bind inferInstance ?_
  | (refine sets_bind (sets_onFrom _ inferInstance) fun a => ?_; dsimp only)
  | (refine sets_bind (sets_onRange _ _ inferInstance (by omega)) fun a => ?_; dsimp only)
  | (refine sets_bindB (sets_onFrom _ inferInstance) fun a => ?_; dsimp only)
  | (refine sets_bind inferInstance fun a => ?_; dsimp only)
  | refine sets_pure (pure_addC _ _).1 (pure_addC _ _).2 fun a => ?_
  | refine sets_pure (pure_subC _ _).1 (pure_subC _ _).2 fun a => ?_
  | refine sets_pure (pure_subN _ _).1 (pure_subN _ _).2 fun a => ?_
  | refine sets_pure (pure_copyAll _ _).1 (pure_copyAll _ _).2 fun a => ?_
  | refine sets_pure (pure_rslice _ _ _).1 (pure_rslice _ _ _).2 fun a => ?_
  | refine sets_idx _ _ ?_
  | refine sets_ite (fun _ => ?_) (fun _ => ?_)
  | refine sets_large _ (fun b hb => Nat.not_lt.2 hb) ?_
  | refine sets_large _ (fun b hb => short_sub hb) ?_
  | refine sets_large' _ (fun b hb => hb) ?_
  | refine setsB_large _ (fun b hb => Nat.not_lt.2 hb) ?_
  | (refine sets_bind ?_ (fun a => ?_); rotate_left; dsimp only; rotate_right))

macro "settle" : tactic => `(tactic| repeat' settle_step)

/-! ## Numbers and addresses -/

instance (v : U16) : SetsB (setn16 v) := by unfold setn16; settle
instance (v : U32) : SetsB (setn32 v) := by unfold setn32; settle
instance (v : U64) : SetsB (setn64 v) := by unfold setn64; settle

theorem fix_of {f : Bytes → Res Bytes} {k : Nat} (h : ∀ b : Bytes, b.length = k → ∃ r, f b = .ok r ∧ r.length = k) : FixB f k :=
  ⟨.ok (), fun h => (by cases h), fun b hb => by obtain ⟨r, e, hr⟩ := h b hb; rw [e]; exact ⟨rfl, by omega⟩⟩

instance (v : U16) : FixB (setn16 v) 2 := fix_of fun b hb => by
  match b, hb with
  | [x, y], _ => exact ⟨_, rfl, rfl⟩
instance (v : U32) : FixB (setn32 v) 4 := fix_of fun b hb => by
  match b, hb with
  | [x, y, z, w], _ => exact ⟨_, rfl, rfl⟩
instance (v : U64) : FixB (setn64 v) 8 := fix_of fun b hb => by
  match b, hb with
  | [x, y, z, w, x', y', z', w'], _ => exact ⟨_, rfl, rfl⟩
instance (m : MacAddress) : FixB m.writeToNetworkBytes 6 := fix_of fun b hb => by
  unfold MacAddress.writeToNetworkBytes copyAll
  rw [if_pos (by rw [hb]; rfl)]
  exact ⟨_, rfl, rfl⟩

instance (x : IPv4) : Fix (encodeAddrV4 x) 4 := ⟨.ok 4, fun h => (by cases h), fun b hb => by
  match b, hb with
  | [x, y, z, w], _ => exact ⟨rfl, rfl⟩⟩
instance (x : IPv6) : Fix (encodeAddrV6 x) 16 := ⟨.ok 16, fun h => (by cases h), fun b hb => by
  unfold encodeAddrV6
  rw [if_neg (by omega)]
  simp only [copyAt]
  rw [if_pos (by refine ⟨by omega, by omega, rfl⟩)]
  exact ⟨rfl, by simp [hb]; rfl⟩⟩

instance (x : IPv4) : Sets (encodeAddrV4 x) := by unfold encodeAddrV4; settle
instance (x : IPv6) : Sets (encodeAddrV6 x) := by unfold encodeAddrV6; settle
instance (x : IpAddr) : Sets (encodeAddr x) := by
  cases x
  · exact inferInstanceAs (Sets (encodeAddrV4 _))
  · exact inferInstanceAs (Sets (encodeAddrV6 _))
instance (r : BgpRD) : Sets r.encodeTo := by unfold BgpRD.encodeTo; settle

/-! ## Lists -/

theorem sets_encLoop (enc : α → Enc) (l : List α) (h : ∀ x ∈ l, Sets (enc x)) (pos : Nat) : Sets fun b => encLoop enc l b pos := by
  induction l generalizing pos with
  | nil => unfold encLoop; settle
  | cons x l ih =>
    have := h x (by simp)
    unfold encLoop
    settle_step
    exact ih (fun y hy => h y (by simp [hy])) _

class ItemSets (T : Type) [BgpItem T] : Prop where
  sets : ∀ x : T, Sets (BgpItem.setBits x)

attribute [instance] ItemSets.sets

instance {T : Type} [BgpItem T] [ItemSets T] (x : T) : Sets (encodeItem x) := by unfold encodeItem; settle
instance {T : Type} [BgpItem T] [ItemSets T] (l : List T) : Sets (encodeItems l) := sets_encLoop _ l (fun _ _ => inferInstance) 0
instance {T : Type} [BgpItem T] [ItemSets T] (x : WithPathId T) : Sets (encodePathIdItem x) := by unfold encodePathIdItem; settle
instance {T : Type} [BgpItem T] [ItemSets T] (l : List (WithPathId T)) : Sets (encodePathIdItems l) :=
  sets_encLoop _ l (fun _ _ => inferInstance) 0

/-! ## NLRI -/

theorem sets_setLoop (l : List U32) (pos : Nat) : Sets fun b => MplsLabels.setLoop l b pos := by
  induction l generalizing pos with
  | nil => unfold MplsLabels.setLoop; settle
  | cons x l ih =>
    unfold MplsLabels.setLoop
    settle_step; settle_step; settle_step
    exact ih _

instance (m : MplsLabels) : Sets m.setBits := by
  unfold MplsLabels.setBits
  refine sets_ite (fun _ => ?_) fun _ => ?_
  · settle
  · refine sets_bind (sets_setLoop _ _) fun a => ?_
    dsimp only
    settle

instance : ItemSets MplsLabels := ⟨fun x => inferInstanceAs (Sets x.setBits)⟩
instance (x : BgpAddrV4) : Sets x.toBits := by unfold BgpAddrV4.toBits; settle
instance (x : BgpAddrV6) : Sets x.toBits := by unfold BgpAddrV6.toBits; settle
instance : ItemSets BgpAddrV4 := ⟨fun x => inferInstanceAs (Sets x.toBits)⟩
instance : ItemSets BgpAddrV6 := ⟨fun x => inferInstanceAs (Sets x.toBits)⟩
instance {T : Type} [BgpItem T] [ItemSets T] : ItemSets (Labeled T) := ⟨fun x => by
  simp only [BgpItem.setBits]; settle⟩
instance {T : Type} [BgpItem T] [ItemSets T] : ItemSets (WithRd T) := ⟨fun x => by
  simp only [BgpItem.setBits]; settle⟩
instance : ItemSets BgpMdtV4 := ⟨fun x => by simp only [BgpItem.setBits]; settle⟩
instance : ItemSets BgpMdtV6 := ⟨fun x => by simp only [BgpItem.setBits]; settle⟩
instance (x : BgpIPv4RD) (mode : BgpTransportMode) : Sets (BgpAddrItem.encodeTo x mode) := by simp only [BgpAddrItem.encodeTo]; settle
instance (x : BgpIPv6RD) (mode : BgpTransportMode) : Sets (BgpAddrItem.encodeTo x mode) := by simp only [BgpAddrItem.encodeTo]; settle
instance (x : BgpAddrL2) : Sets (BgpItemLong.packTo x) := by simp only [BgpItemLong.packTo]; settle
instance (x : BgpAddrL2) : Sets (encodeLongItem x) := by unfold encodeLongItem; settle

/-! ## EVPN and MVPN -/

instance {T : Type} [BgpAddrItem T] [∀ (x : T) mode, Sets (BgpAddrItem.encodeTo x mode)] (l : List T) (mode : BgpTransportMode) :
    Sets (encodeAddrItems l mode) := sets_encLoop _ l (fun _ _ => inferInstance) 0

theorem setsB_esi (t : U8) (x : EVPNESI) (pos : Nat) : SetsB fun b => x.write t b pos := by unfold EVPNESI.write; settle

theorem sets_evpnWriteIp (ip : IpAddr) (pos : Nat) : Sets fun b => evpnWriteIp ip b pos := by
  cases ip <;> simp only [evpnWriteIp] <;> settle

instance (x : BgpEVPN1) (mode : BgpTransportMode) : Sets (BgpAddrItem.encodeTo x mode) := by
  simp only [BgpAddrItem.encodeTo]
  settle_step
  refine setsB_bind (setsB_esi _ _ _) ?_
  settle
instance (x : BgpEVPN2) (mode : BgpTransportMode) : Sets (BgpAddrItem.encodeTo x mode) := by
  simp only [BgpAddrItem.encodeTo]
  settle_step
  refine setsB_bind (setsB_esi _ _ _) ?_
  settle_step; settle_step; settle_step
  refine sets_bind ?_ fun a => ?_
  · rcases x.ip with _ | _ | _ <;> settle
  · dsimp only; settle
instance (x : BgpEVPN3) (mode : BgpTransportMode) : Sets (BgpAddrItem.encodeTo x mode) := by
  simp only [BgpAddrItem.encodeTo]
  settle_step; settle_step
  exact sets_evpnWriteIp _ _
instance (x : BgpEVPN4) (mode : BgpTransportMode) : Sets (BgpAddrItem.encodeTo x mode) := by
  simp only [BgpAddrItem.encodeTo]
  settle_step
  refine setsB_bind (setsB_esi _ _ _) ?_
  exact sets_evpnWriteIp _ _
instance (x : BgpEVPN5) (mode : BgpTransportMode) : Sets (BgpAddrItem.encodeTo x mode) := by
  simp only [BgpAddrItem.encodeTo]
  settle_step
  refine setsB_bind (setsB_esi _ _ _) ?_
  settle_step; settle_step
  refine sets_bind ?_ fun a => ?_
  · rcases x.pfx with _ | _ <;> rcases x.gwIp with _ | _ <;> settle
  · dsimp only; settle

instance (x : BgpEVPN) (mode : BgpTransportMode) : Sets (BgpAddrItem.encodeTo x mode) := by
  change Sets (BgpEVPN.encodeTo x mode)
  unfold BgpEVPN.encodeTo
  refine sets_bind ?_ fun a => ?_
  · cases x <;> dsimp only <;> settle
  · dsimp only; exact sets_ite (c := a ≤ 255) (fun _ => by settle) (fun _ => by settle)

instance (x : BgpMVPN1) (mode : BgpTransportMode) : Sets (BgpAddrItem.encodeTo x mode) := by simp only [BgpAddrItem.encodeTo]; settle
instance (x : BgpMVPN2) (mode : BgpTransportMode) : Sets (BgpAddrItem.encodeTo x mode) := by simp only [BgpAddrItem.encodeTo]; settle
instance (x : BgpMVPN3) (mode : BgpTransportMode) : Sets (BgpAddrItem.encodeTo x mode) := by simp only [BgpAddrItem.encodeTo]; settle
instance (x : BgpMVPN4) (mode : BgpTransportMode) : Sets (BgpAddrItem.encodeTo x mode) := by
  have : BgpAddrItem.encodeTo x mode = fun b => (do
    let (buf, p1) ← BgpAddrItem.encodeTo x.spmsi mode b
    let (buf, n) ← onFrom buf p1 (encodeAddr x.originator)
    .ok (buf, p1 + n)) := rfl
  rw [this]
  settle
instance (x : BgpMVPN5) (mode : BgpTransportMode) : Sets (BgpAddrItem.encodeTo x mode) := by simp only [BgpAddrItem.encodeTo]; settle
instance (x : BgpMVPN67) (mode : BgpTransportMode) : Sets (BgpAddrItem.encodeTo x mode) := by simp only [BgpAddrItem.encodeTo]; settle
instance (x : BgpMVPN) (mode : BgpTransportMode) : Sets (BgpAddrItem.encodeTo x mode) := by
  change Sets (BgpMVPN.encodeTo x mode)
  unfold BgpMVPN.encodeTo
  refine sets_bind ?_ fun a => ?_
  · cases x <;> dsimp only <;> settle
  · dsimp only; settle

/-! ## FlowSpec -/

class OpSets (T : Type) [FSOperItem T] : Prop where
  sets : ∀ x : T, Sets (FSOperItem.encodeTo x)

attribute [instance] OpSets.sets

theorem sets_fsVal (op : U8) (v : U32) : Sets (fsEncodeVal op v) := by unfold fsEncodeVal; settle

instance : OpSets FSOperValItem := ⟨fun _ => sets_fsVal _ _⟩
instance : OpSets FSOperMaskItem := ⟨fun _ => sets_fsVal _ _⟩

theorem sets_fsLoop {T : Type} [FSOperItem T] [OpSets T] (l : List T) (pos lpos : Nat) : Sets fun b => FSOperVec.encodeLoop l b pos lpos := by
  induction l generalizing pos lpos with
  | nil => unfold FSOperVec.encodeLoop; settle
  | cons x l ih =>
    unfold FSOperVec.encodeLoop
    settle_step
    exact ih _ _

instance {T : Type} [FSOperItem T] [OpSets T] (v : FSOperVec T) : Sets v.encodeTo := by
  unfold FSOperVec.encodeTo
  refine sets_ite (fun _ => ?_) fun _ => ?_
  · settle
  · refine sets_bind (sets_fsLoop _ _ _) fun a => ?_
    dsimp only
    settle

class FsSets (T : Type) [FSItem T] : Prop where
  sets : ∀ x : T, SetsB (FSItem.encodeFs x)

attribute [instance] FsSets.sets

instance : FsSets BgpAddrV4 := ⟨fun x => by simp only [FSItem.encodeFs]; settle⟩
instance : FsSets FS6 := ⟨fun x => by simp only [FSItem.encodeFs]; settle⟩
instance : FsSets FSV4U := ⟨fun x => by simp only [FSItem.encodeFs]; settle⟩

end Zbgp
