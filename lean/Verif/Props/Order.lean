import Verif.Lemmas.Order

/-! # C27, C28: identity and ordering of NLRI, AS numbers and peer headers -/

namespace Zbgp.Props

open Zbgp Spec

/-- **C27.** Equality, both comparisons and hashing of labeled NLRI are those of the underlying NLRI, whatever the labels;
the ordering is lawful whenever the underlying one is. -/
theorem C27_labels_not_in_identity {T : Type} [ROrd T] (a b : T) (la lb : MplsLabels) :
    ROrd.eq (⟨a, la⟩ : Labeled T) ⟨b, lb⟩ = ROrd.eq a b ∧
    ROrd.cmp (⟨a, la⟩ : Labeled T) ⟨b, lb⟩ = ROrd.cmp a b ∧
    ROrd.pcmp (⟨a, la⟩ : Labeled T) ⟨b, lb⟩ = ROrd.pcmp a b ∧
    ROrd.hash (⟨a, la⟩ : Labeled T) = ROrd.hash a ∧
    (LawfulOrd T → LawfulOrd (Labeled T)) :=
  ⟨rfl, rfl, rfl, rfl, lawful_labeled⟩

/-- **C27**, for the label stacks themselves as keys: all stacks are equal, but they do not compare
(`partial_cmp` is `None`). A derived comparison of a type with a label stack field inherits this: two VPLS NLRI that
differ in labels only are equal, `cmp` says Equal and `partial_cmp` says None. -/
theorem C27_vpls_partial_cmp_disagrees (a : BgpAddrL2) (l : MplsLabels) :
    ROrd.eq a { a with labels := l } = true ∧ ROrd.cmp a { a with labels := l } = .eq ∧
    ROrd.pcmp a { a with labels := l } = none ∧ ROrd.pcmp a a = none := by
  have h : ∀ n (x : BitVec n), compare x.toNat x.toNat = .eq := fun n x => Nat.compare_eq_eq.2 rfl
  refine ⟨?_, ?_, ?_, ?_⟩ <;> simp [ROrd.eq, ROrd.cmp, ROrd.pcmp, lexP, h]

/-- non-vacuity of C27: two labeled prefixes that differ in the label only -/
example : ROrd.eq (⟨⟨0x0a000000, 8⟩, ⟨[16]⟩⟩ : Labeled BgpAddrV4) ⟨⟨0x0a000000, 8⟩, ⟨[17]⟩⟩ = true ∧
    ROrd.cmp (⟨⟨0x0a000000, 8⟩, ⟨[16]⟩⟩ : Labeled BgpAddrV4) ⟨⟨0x0a000000, 9⟩, ⟨[16]⟩⟩ = .lt := by decide

/-- **C28 (partial).** The orderings of VPN NLRI, AddPath NLRI (over every kind that is itself lawfully ordered) and BMP
peer headers are total orders that agree with `==`, `partial_cmp` and hashing. What is missing: AS numbers, whose `==`
disagrees with their order and hash (`C28_as_number_inconsistent`). -/
theorem C28_lawful_orderings_partial :
    (∀ (T : Type) [ROrd T], LawfulOrd T → LawfulOrd (WithRd T)) ∧
    (∀ (T : Type) [ROrd T], LawfulOrd T → LawfulOrd (WithPathId T)) ∧
    LawfulOrd (Labeled (WithRd BgpAddrV4)) ∧ LawfulOrd (Labeled (WithRd BgpAddrV6)) ∧
    LawfulOrd (WithPathId (Labeled (WithRd BgpAddrV4))) ∧ LawfulOrd (WithPathId BgpAddrV6) ∧
    LawfulOrd BmpMessagePeerHeader :=
  ⟨fun _ _ h => lawful_withRd h, fun _ _ h => lawful_pathId h,
   lawful_labeled (lawful_withRd lawful_v4), lawful_labeled (lawful_withRd lawful_v6),
   lawful_pathId (lawful_labeled (lawful_withRd lawful_v4)), lawful_pathId lawful_v6, lawful_peerHeader⟩

/-- **C28**, AS numbers: `cmp` on its own is a total order that agrees with `partial_cmp`, and values whose low 16 bits are
not zero are compared consistently. -/
theorem C28_as_number_order_partial (a b c : BgpAS) :
    ROrd.cmp a b = (ROrd.cmp b a).swap ∧
    (ROrd.cmp a b ≠ .gt → ROrd.cmp b c ≠ .gt → ROrd.cmp a c ≠ .gt) ∧
    ROrd.pcmp a b = some (ROrd.cmp a b) ∧
    (ROrd.cmp a b = .eq → ROrd.eq a b = true) ∧
    (a.value &&& 0xffff ≠ 0 → b.value &&& 0xffff ≠ 0 → (ROrd.eq a b = true ↔ ROrd.cmp a b = .eq)) := by
  refine ⟨lawful_bitvec.oriented a.value b.value, lawful_bitvec.trans a.value b.value c.value, rfl, ?_, ?_⟩
  · intro h
    have : a.value = b.value := by
      have := (lawful_bitvec.eq_iff a.value b.value).2 h
      simpa [ROrd.eq] using this
    simp only [ROrd.eq, BgpAS.tonumb, this, beq_self_eq_true]
  · intro ha hb
    have := lawful_bitvec.eq_iff a.value b.value
    simp only [ROrd.eq, BgpAS.tonumb, ha, hb, if_false] at this ⊢
    exact this

/-- The gap in C28: AS number 1 and the value 65536 are `==` but neither compare as equal nor hash equally, so that
`BgpAS` is not a lawful key type. -/
theorem C28_as_number_inconsistent :
    ∃ a b : BgpAS, ROrd.eq a b = true ∧ ROrd.cmp a b ≠ .eq ∧ ROrd.hash a ≠ ROrd.hash b :=
  ⟨⟨1⟩, ⟨65536⟩, by decide, by decide, by decide⟩

theorem C28_as_number_not_lawful : ¬ LawfulOrd BgpAS := fun h =>
  absurd ((h.eq_iff ⟨1⟩ ⟨65536⟩).1 (by decide)) (by decide)

/-- non-vacuity of C28: distinct VPN routes with equal prefix, and peer headers that differ in the timestamp only -/
example : ROrd.cmp (⟨⟨0x0a000000, 8⟩, ⟨0, 1⟩⟩ : WithRd BgpAddrV4) ⟨⟨0x0a000000, 8⟩, ⟨0, 2⟩⟩ = .lt ∧
    ROrd.eq (⟨0, 0, ⟨0, 0⟩, .v4 1, 2, 3, 4⟩ : BmpMessagePeerHeader) ⟨0, 0, ⟨0, 0⟩, .v4 1, 2, 3, 5⟩ = true ∧
    ROrd.cmp (⟨0, 0, ⟨0, 0⟩, .v4 1, 2, 3, 4⟩ : BmpMessagePeerHeader) ⟨0, 0, ⟨0, 0⟩, .v6 1, 2, 3, 5⟩ = .lt := by
  decide

end Zbgp.Props
