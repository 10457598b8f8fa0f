import Verif.Lemmas.Order
import Verif.Model.Derived

/-!
# The derived comparisons

`Der T` says what all the derived comparisons have in common, `LabelFree T` that no part of a value is ignored by them and
`PcmpSome T` that `partial_cmp` agrees with `cmp`.
-/

namespace Zbgp

open Spec

/-- `cmp` is a total order and says `Equal` of values that agree after `unl` (which removes the label stacks); `==` says
`true` of values that agree after `same` (which also normalizes the AS numbers). -/
class Der (T : Type) [ROrd T] where
  unl : T → T
  same : T → T
  oriented : ∀ a b : T, ROrd.cmp a b = (ROrd.cmp b a).swap
  trans : ∀ a b c : T, ROrd.cmp a b ≠ .gt → ROrd.cmp b c ≠ .gt → ROrd.cmp a c ≠ .gt
  cmp_eq : ∀ a b : T, ROrd.cmp a b = .eq ↔ unl a = unl b
  eq_same : ∀ a b : T, ROrd.eq a b = true ↔ same a = same b
  hash_unl : ∀ a b : T, unl a = unl b → ROrd.hash a = ROrd.hash b

class LabelFree (T : Type) [ROrd T] [Der T] : Prop where
  unl_id : ∀ a : T, Der.unl a = a
  same_id : ∀ a : T, Der.same a = a

class PcmpSome (T : Type) [ROrd T] : Prop where
  pcmp_eq : ∀ a b : T, ROrd.pcmp a b = some (ROrd.cmp a b)

theorem cmp_refl {T : Type} [ROrd T] [Der T] (a : T) : ROrd.cmp a a = .eq := (Der.cmp_eq a a).2 rfl

/-- `cmp` answers alike for values it cannot tell apart. -/
theorem cmp_congr {T : Type} [ROrd T] [Der T] {a b : T} (h : ROrd.cmp a b = .eq) (c : T) :
    ROrd.cmp a c = ROrd.cmp b c := by
  have h' : ROrd.cmp b a = .eq := by rw [Der.oriented, h]; rfl
  have t1 := Der.trans a b c (by simp [h]); have t2 := Der.trans b a c (by simp [h'])
  have t3 := fun h0 => Der.trans c a b h0 (by simp [h]); have t4 := fun h0 => Der.trans c b a h0 (by simp [h'])
  rw [Der.oriented c a, Der.oriented c b] at t3 t4
  cases hy : ROrd.cmp a c <;> cases hz : ROrd.cmp b c <;> simp [hy, hz, Ordering.swap] at t1 t2 t3 t4 ⊢

theorem then_oriented (a b a' b' : Ordering) (h1 : a = a'.swap) (h2 : b = b'.swap) :
    a.then b = (a'.then b').swap := by
  subst h1 h2; cases a' <;> rfl

/-- The lexicographic step of transitivity. -/
theorem then_trans {T : Type} [ROrd T] [Der T] (a b c : T) {x y z : Ordering} (h : x ≠ .gt → y ≠ .gt → z ≠ .gt) :
    (ROrd.cmp a b).then x ≠ .gt → (ROrd.cmp b c).then y ≠ .gt → (ROrd.cmp a c).then z ≠ .gt := by
  have o1 := Der.oriented a b; have o2 := Der.oriented b c; have o3 := Der.oriented a c
  have t1 := Der.trans a b c; have t2 := Der.trans b c a; have t3 := Der.trans c a b
  generalize ROrd.cmp a b = p at *
  generalize ROrd.cmp b c = q at *
  generalize ROrd.cmp a c = r at *
  generalize ROrd.cmp b a = p' at *
  generalize ROrd.cmp c b = q' at *
  generalize ROrd.cmp c a = r' at *
  subst o1 o2 o3
  cases p' <;> cases q' <;> cases r' <;> simp_all [Ordering.swap, Ordering.then]

theorem then_eq_iff (a b : Ordering) : a.then b = .eq ↔ a = .eq ∧ b = .eq := by
  cases a <;> simp [Ordering.then]

/-! ## The general rules -/

instance {n : Nat} : Der (BitVec n) where
  unl a := a
  same a := a
  oriented := lawful_bitvec.oriented
  trans := lawful_bitvec.trans
  cmp_eq a b := by rw [← lawful_bitvec.eq_iff]; simp [ROrd.eq]
  eq_same a b := by simp [ROrd.eq]
  hash_unl a b h := by subst h; rfl

instance {n : Nat} : LabelFree (BitVec n) := ⟨fun _ => rfl, fun _ => rfl⟩
instance {n : Nat} : PcmpSome (BitVec n) := ⟨fun _ _ => rfl⟩

instance : Der IpAddr where
  unl a := a
  same a := a
  oriented := lawful_ip.oriented
  trans := lawful_ip.trans
  cmp_eq a b := by
    rw [← lawful_ip.eq_iff]; rcases a with a | a <;> rcases b with b | b <;> simp [ROrd.eq]
  eq_same a b := by rcases a with a | a <;> rcases b with b | b <;> simp [ROrd.eq]
  hash_unl a b h := by subst h; rfl

instance : LabelFree IpAddr := ⟨fun _ => rfl, fun _ => rfl⟩
instance : PcmpSome IpAddr := ⟨lawful_ip.pcmp_eq⟩

instance : Der Unit where
  unl a := a
  same a := a
  oriented _ _ := rfl
  trans _ _ _ := by simp [ROrd.cmp]
  cmp_eq _ _ := by simp [ROrd.cmp]
  eq_same _ _ := by simp [ROrd.eq]
  hash_unl _ _ _ := rfl

instance : LabelFree Unit := ⟨fun _ => rfl, fun _ => rfl⟩
instance : PcmpSome Unit := ⟨fun _ _ => rfl⟩

instance : Der Bool where
  unl a := a
  same a := a
  oriented := by decide
  trans := by decide
  cmp_eq := by decide
  eq_same := by decide
  hash_unl a b h := by subst h; rfl

instance : LabelFree Bool := ⟨fun _ => rfl, fun _ => rfl⟩
instance : PcmpSome Bool := ⟨fun _ _ => rfl⟩

instance : Der MplsLabels where
  unl _ := ⟨[]⟩
  same _ := ⟨[]⟩
  oriented _ _ := rfl
  trans _ _ _ := by simp [ROrd.cmp]
  cmp_eq _ _ := by simp [ROrd.cmp]
  eq_same _ _ := by simp [ROrd.eq]
  hash_unl _ _ _ := rfl

instance : Der BgpAS where
  unl a := a
  same a := ⟨a.tonumb⟩
  oriented a b := lawful_bitvec.oriented a.value b.value
  trans a b c := lawful_bitvec.trans a.value b.value c.value
  cmp_eq a b := by
    refine Iff.trans (Der.cmp_eq a.value b.value) ?_
    cases a; cases b; simp [Der.unl]
  eq_same a b := by simp [ROrd.eq]
  hash_unl a b h := by subst h; rfl

instance : PcmpSome BgpAS := ⟨fun _ _ => rfl⟩

section
variable {A B : Type} [ROrd A] [ROrd B]

instance [Der A] [Der B] : Der (A × B) where
  unl x := (Der.unl x.1, Der.unl x.2)
  same x := (Der.same x.1, Der.same x.2)
  oriented a b := then_oriented _ _ _ _ (Der.oriented _ _) (Der.oriented _ _)
  trans a b c := then_trans _ _ _ (Der.trans _ _ _)
  cmp_eq a b := by
    change (ROrd.cmp a.1 b.1).then (ROrd.cmp a.2 b.2) = .eq ↔ _
    rw [then_eq_iff, Der.cmp_eq, Der.cmp_eq, Prod.mk.injEq]
  eq_same a b := by
    change (ROrd.eq a.1 b.1 && ROrd.eq a.2 b.2) = true ↔ _
    rw [Bool.and_eq_true, Der.eq_same, Der.eq_same, Prod.mk.injEq]
  hash_unl a b h := by
    rw [Prod.mk.injEq] at h
    change ROrd.hash a.1 ++ ROrd.hash a.2 = ROrd.hash b.1 ++ ROrd.hash b.2
    rw [Der.hash_unl _ _ h.1, Der.hash_unl _ _ h.2]

instance [Der A] [Der B] [LabelFree A] [LabelFree B] : LabelFree (A × B) :=
  ⟨fun a => by simp [Der.unl, LabelFree.unl_id], fun a => by simp [Der.same, LabelFree.same_id]⟩

instance [PcmpSome A] [PcmpSome B] : PcmpSome (A × B) :=
  ⟨fun a b => by
    change lexP (ROrd.pcmp a.1 b.1) (ROrd.pcmp a.2 b.2) = _
    rw [PcmpSome.pcmp_eq, PcmpSome.pcmp_eq, lexP_some]; rfl⟩

instance [Der A] [Der B] : Der (A ⊕ B) where
  unl := Sum.map Der.unl Der.unl
  same := Sum.map Der.same Der.same
  oriented a b := by
    rcases a with a | a <;> rcases b with b | b <;> first | rfl | exact Der.oriented a b
  trans a b c := by
    rcases a with a | a <;> rcases b with b | b <;> rcases c with c | c <;>
      first
        | exact Der.trans a b c
        | simp [ROrd.cmp]
  cmp_eq a b := by
    rcases a with a | a <;> rcases b with b | b <;>
      first
        | (simp only [Sum.map_inl, Sum.map_inr, Sum.inl.injEq, Sum.inr.injEq]; exact Der.cmp_eq a b)
        | simp [ROrd.cmp]
  eq_same a b := by
    rcases a with a | a <;> rcases b with b | b <;>
      first
        | (simp only [Sum.map_inl, Sum.map_inr, Sum.inl.injEq, Sum.inr.injEq]; exact Der.eq_same a b)
        | simp [ROrd.eq]
  hash_unl a b h := by
    rcases a with a | a <;> rcases b with b | b <;>
      first
        | (simp only [Sum.map_inl, Sum.map_inr, Sum.inl.injEq, Sum.inr.injEq] at h
           exact congrArg (List.cons _) (Der.hash_unl a b h))
        | simp at h

instance [Der A] [Der B] [LabelFree A] [LabelFree B] : LabelFree (A ⊕ B) :=
  ⟨fun a => by rcases a with a | a <;> simp [Der.unl, LabelFree.unl_id],
   fun a => by rcases a with a | a <;> simp [Der.same, LabelFree.same_id]⟩

instance [PcmpSome A] [PcmpSome B] : PcmpSome (A ⊕ B) :=
  ⟨fun a b => by
    rcases a with a | a <;> rcases b with b | b <;> first | exact PcmpSome.pcmp_eq a b | rfl⟩

instance [Der A] : Der (Option A) where
  unl := Option.map Der.unl
  same := Option.map Der.same
  oriented a b := by
    rcases a with _ | a <;> rcases b with _ | b <;> first | rfl | exact Der.oriented a b
  trans a b c := by
    rcases a with _ | a <;> rcases b with _ | b <;> rcases c with _ | c <;>
      first
        | exact Der.trans a b c
        | simp [ROrd.cmp]
  cmp_eq a b := by
    rcases a with _ | a <;> rcases b with _ | b <;>
      first
        | (simp only [Option.map_some, Option.some.injEq]; exact Der.cmp_eq a b)
        | simp [ROrd.cmp]
  eq_same a b := by
    rcases a with _ | a <;> rcases b with _ | b <;>
      first
        | (simp only [Option.map_some, Option.some.injEq]; exact Der.eq_same a b)
        | simp [ROrd.eq]
  hash_unl a b h := by
    rcases a with _ | a <;> rcases b with _ | b <;>
      first
        | rfl
        | (simp only [Option.map_some, Option.some.injEq] at h
           exact congrArg (List.cons _) (Der.hash_unl a b h))
        | simp at h

instance [Der A] [LabelFree A] : LabelFree (Option A) :=
  ⟨fun a => by rcases a with _ | a <;> simp [Der.unl, LabelFree.unl_id],
   fun a => by rcases a with _ | a <;> simp [Der.same, LabelFree.same_id]⟩

instance [PcmpSome A] : PcmpSome (Option A) :=
  ⟨fun a b => by
    rcases a with _ | a <;> rcases b with _ | b <;> first | exact PcmpSome.pcmp_eq a b | rfl⟩

instance [Der A] : Der (List A) where
  unl := List.map Der.unl
  same := List.map Der.same
  oriented a b := by
    change cmpList ROrd.cmp a b = (cmpList ROrd.cmp b a).swap
    induction a generalizing b with
    | nil => cases b <;> rfl
    | cons x l ih =>
      cases b with
      | nil => rfl
      | cons y r => exact then_oriented _ _ _ _ (Der.oriented _ _) (ih r)
  trans a b c := by
    change cmpList ROrd.cmp a b ≠ _ → cmpList ROrd.cmp b c ≠ _ → cmpList ROrd.cmp a c ≠ _
    induction a generalizing b c with
    | nil => cases c <;> simp [cmpList]
    | cons x l ih =>
      cases b with
      | nil => simp [cmpList]
      | cons y r =>
        cases c with
        | nil => simp [cmpList]
        | cons z s => exact then_trans _ _ _ (ih r s)
  cmp_eq a b := by
    change cmpList ROrd.cmp a b = .eq ↔ _
    induction a generalizing b with
    | nil => cases b <;> simp [cmpList]
    | cons x l ih =>
      cases b with
      | nil => simp [cmpList]
      | cons y r =>
        rw [cmpList, then_eq_iff, Der.cmp_eq, ih, List.map_cons, List.map_cons, List.cons.injEq]
  eq_same a b := by
    change eqList ROrd.eq a b = true ↔ _
    induction a generalizing b with
    | nil => cases b <;> simp [eqList]
    | cons x l ih =>
      cases b with
      | nil => simp [eqList]
      | cons y r =>
        rw [eqList, Bool.and_eq_true, Der.eq_same, ih, List.map_cons, List.map_cons, List.cons.injEq]
  hash_unl a b h := by
    have hl : a.length = b.length := by simpa using congrArg List.length h
    change a.length :: a.flatMap ROrd.hash = b.length :: b.flatMap ROrd.hash
    rw [hl]
    congr 1
    clear hl
    induction a generalizing b with
    | nil => cases b <;> simp_all
    | cons x l ih =>
      cases b with
      | nil => simp at h
      | cons y r =>
        rw [List.map_cons, List.map_cons, List.cons.injEq] at h
        rw [List.flatMap_cons, List.flatMap_cons, Der.hash_unl _ _ h.1, ih r h.2]

instance [Der A] [LabelFree A] : LabelFree (List A) :=
  ⟨fun a => (List.map_congr_left fun x _ => LabelFree.unl_id x).trans (List.map_id a),
   fun a => (List.map_congr_left fun x _ => LabelFree.same_id x).trans (List.map_id a)⟩

instance [PcmpSome A] : PcmpSome (List A) :=
  ⟨fun a b => by
    change pcmpList ROrd.pcmp a b = some (cmpList ROrd.cmp a b)
    induction a generalizing b with
    | nil => cases b <;> rfl
    | cons x l ih =>
      cases b with
      | nil => rfl
      | cons y r => rw [pcmpList, PcmpSome.pcmp_eq, ih, lexP_some]; rfl⟩

instance [Der A] : Der (Labeled A) where
  unl x := ⟨Der.unl x.pfx, ⟨[]⟩⟩
  same x := ⟨Der.same x.pfx, ⟨[]⟩⟩
  oriented a b := Der.oriented a.pfx b.pfx
  trans a b c := Der.trans a.pfx b.pfx c.pfx
  cmp_eq a b := Iff.trans (Der.cmp_eq a.pfx b.pfx) (by simp)
  eq_same a b := Iff.trans (Der.eq_same a.pfx b.pfx) (by simp)
  hash_unl a b h := by simp at h; exact Der.hash_unl a.pfx b.pfx h

instance [PcmpSome A] : PcmpSome (Labeled A) := ⟨fun a b => PcmpSome.pcmp_eq a.pfx b.pfx⟩

end

/-- A type that is compared through the view `f` with the inverse `g`. -/
@[reducible] def Der.via {A B : Type} [ROrd B] [Der B] (f : A → B) (g : B → A) (hr : ∀ b, f (g b) = b) :
    @Der A (ROrd.via f) :=
  letI := ROrd.via f
  { unl := fun a => g (Der.unl (f a))
    same := fun a => g (Der.same (f a))
    oriented := fun a b => Der.oriented (f a) (f b)
    trans := fun a b c => Der.trans (f a) (f b) (f c)
    cmp_eq := fun a b => by
      refine Iff.trans (Der.cmp_eq (f a) (f b)) ⟨fun h => congrArg g h, fun h => ?_⟩
      have := congrArg f h; rwa [hr, hr] at this
    eq_same := fun a b => by
      refine Iff.trans (Der.eq_same (f a) (f b)) ⟨fun h => congrArg g h, fun h => ?_⟩
      have := congrArg f h; rwa [hr, hr] at this
    hash_unl := fun a b h => by
      have := congrArg f h; rw [hr, hr] at this
      exact Der.hash_unl (f a) (f b) this }

theorem LabelFree.via {A B : Type} [ROrd B] [Der B] [LabelFree B] (f : A → B) (g : B → A) (hl : ∀ a, g (f a) = a)
    (hr : ∀ b, f (g b) = b) : @LabelFree A (ROrd.via f) (Der.via f g hr) :=
  letI := ROrd.via f
  letI := Der.via f g hr
  ⟨fun a => (congrArg g (LabelFree.unl_id (f a))).trans (hl a),
   fun a => (congrArg g (LabelFree.same_id (f a))).trans (hl a)⟩

theorem PcmpSome.via {A B : Type} [ROrd B] [PcmpSome B] (f : A → B) : @PcmpSome A (ROrd.via f) :=
  letI := ROrd.via f
  ⟨fun a b => PcmpSome.pcmp_eq (f a) (f b)⟩

/-- A type whose order was proved lawful and whose values are compared completely. -/
@[reducible] def Der.ofLawful {A : Type} [ROrd A] (h : LawfulOrd A) (he : ∀ a b : A, ROrd.eq a b = true ↔ a = b) :
    Der A where
  unl a := a
  same a := a
  oriented := h.oriented
  trans := h.trans
  cmp_eq a b := by rw [← h.eq_iff, he]
  eq_same := he
  hash_unl a b h := by subst h; rfl

section
variable {A : Type} [ROrd A]

instance [Der A] : Der (WithRd A) where
  unl x := ⟨Der.unl x.pfx, x.rd⟩
  same x := ⟨Der.same x.pfx, x.rd⟩
  oriented a b := by
    have h := Der.oriented (a.pfx, a.rd.rdh, a.rd.rdl) (b.pfx, b.rd.rdh, b.rd.rdl)
    have e (a b : WithRd A) : ROrd.cmp a b = ROrd.cmp (a.pfx, a.rd.rdh, a.rd.rdl) (b.pfx, b.rd.rdh, b.rd.rdl) := by
      simp only [ROrd.cmp]; cases ROrd.cmp a.pfx b.pfx <;> rfl
    rw [e, e, h]
  trans a b c := by
    have h := Der.trans (a.pfx, a.rd.rdh, a.rd.rdl) (b.pfx, b.rd.rdh, b.rd.rdl) (c.pfx, c.rd.rdh, c.rd.rdl)
    have e (a b : WithRd A) : ROrd.cmp a b = ROrd.cmp (a.pfx, a.rd.rdh, a.rd.rdl) (b.pfx, b.rd.rdh, b.rd.rdl) := by
      simp only [ROrd.cmp]; cases ROrd.cmp a.pfx b.pfx <;> rfl
    rw [e, e, e]; exact h
  cmp_eq a b := by
    have h := Der.cmp_eq (a.pfx, a.rd.rdh, a.rd.rdl) (b.pfx, b.rd.rdh, b.rd.rdl)
    have e (a b : WithRd A) : ROrd.cmp a b = ROrd.cmp (a.pfx, a.rd.rdh, a.rd.rdl) (b.pfx, b.rd.rdh, b.rd.rdl) := by
      simp only [ROrd.cmp]; cases ROrd.cmp a.pfx b.pfx <;> rfl
    rw [e, h]
    rcases a with ⟨a, ra, rb⟩; rcases b with ⟨b, rc, rd⟩; simp [Der.unl]
  eq_same a b := by
    refine Iff.trans (Der.eq_same (a.pfx, a.rd.rdh, a.rd.rdl) (b.pfx, b.rd.rdh, b.rd.rdl)) ?_
    rcases a with ⟨a, ra, rb⟩; rcases b with ⟨b, rc, rd⟩; simp [Der.same]
  hash_unl a b h := by
    refine Der.hash_unl (a.pfx, a.rd.rdh, a.rd.rdl) (b.pfx, b.rd.rdh, b.rd.rdl) ?_
    rcases a with ⟨a, ra, rb⟩; rcases b with ⟨b, rc, rd⟩; simpa [Der.unl] using h

instance [Der A] [LabelFree A] : LabelFree (WithRd A) :=
  ⟨fun a => by simp [Der.unl, LabelFree.unl_id], fun a => by simp [Der.same, LabelFree.same_id]⟩

instance [PcmpSome A] : PcmpSome (WithRd A) :=
  ⟨fun a b => by
    have h1 := PcmpSome.pcmp_eq a.pfx b.pfx
    have h2 := lawful_rd.pcmp_eq a.rd b.rd
    simp only [ROrd.pcmp, ROrd.cmp] at *
    rw [h1]
    cases ROrd.cmp a.pfx b.pfx <;> simp only [h2]⟩

instance [Der A] : Der (WithPathId A) where
  unl x := ⟨x.pathid, Der.unl x.nlri⟩
  same x := ⟨x.pathid, Der.same x.nlri⟩
  oriented a b := by
    have h := Der.oriented (a.nlri, a.pathid) (b.nlri, b.pathid)
    have e (a b : WithPathId A) : ROrd.cmp a b = ROrd.cmp (a.nlri, a.pathid) (b.nlri, b.pathid) := by
      simp only [ROrd.cmp]; cases ROrd.cmp a.nlri b.nlri <;> rfl
    rw [e, e, h]
  trans a b c := by
    have h := Der.trans (a.nlri, a.pathid) (b.nlri, b.pathid) (c.nlri, c.pathid)
    have e (a b : WithPathId A) : ROrd.cmp a b = ROrd.cmp (a.nlri, a.pathid) (b.nlri, b.pathid) := by
      simp only [ROrd.cmp]; cases ROrd.cmp a.nlri b.nlri <;> rfl
    rw [e, e, e]; exact h
  cmp_eq a b := by
    have h := Der.cmp_eq (a.nlri, a.pathid) (b.nlri, b.pathid)
    have e (a b : WithPathId A) : ROrd.cmp a b = ROrd.cmp (a.nlri, a.pathid) (b.nlri, b.pathid) := by
      simp only [ROrd.cmp]; cases ROrd.cmp a.nlri b.nlri <;> rfl
    rw [e, h]
    rcases a with ⟨a, ra⟩; rcases b with ⟨b, rc⟩; simp [Der.unl, and_comm]
  eq_same a b := by
    refine Iff.trans (Der.eq_same (a.pathid, a.nlri) (b.pathid, b.nlri)) ?_
    rcases a with ⟨a, ra⟩; rcases b with ⟨b, rc⟩; simp [Der.same]
  hash_unl a b h := by
    refine Der.hash_unl (a.pathid, a.nlri) (b.pathid, b.nlri) ?_
    rcases a with ⟨a, ra⟩; rcases b with ⟨b, rc⟩; simpa [Der.unl] using h

instance [Der A] [LabelFree A] : LabelFree (WithPathId A) :=
  ⟨fun a => by simp [Der.unl, LabelFree.unl_id], fun a => by simp [Der.same, LabelFree.same_id]⟩

instance [PcmpSome A] : PcmpSome (WithPathId A) :=
  ⟨fun a b => by
    have h1 := PcmpSome.pcmp_eq a.nlri b.nlri
    simp only [ROrd.pcmp, ROrd.cmp] at *
    rw [h1]
    cases ROrd.cmp a.nlri b.nlri <;> rfl⟩

end

end Zbgp
