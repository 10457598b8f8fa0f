import Verif.Model.Order

/-! # What `BTreeMap`, `BTreeSet` and `HashMap` require of their keys -/

namespace Zbgp.Spec

open Zbgp

/-- `cmp` is a total order, `==` and `partial_cmp` agree with it, and equal values hash equally
(documentation of `std::cmp::Ord`, `PartialOrd`, `Eq` and `std::hash::Hash`). -/
structure LawfulOrd (T : Type) [ROrd T] : Prop where
  oriented : ∀ a b : T, ROrd.cmp a b = (ROrd.cmp b a).swap
  trans : ∀ a b c : T, ROrd.cmp a b ≠ .gt → ROrd.cmp b c ≠ .gt → ROrd.cmp a c ≠ .gt
  eq_iff : ∀ a b : T, ROrd.eq a b = true ↔ ROrd.cmp a b = .eq
  pcmp_eq : ∀ a b : T, ROrd.pcmp a b = some (ROrd.cmp a b)
  hash_eq : ∀ a b : T, ROrd.eq a b = true → ROrd.hash a = ROrd.hash b

end Zbgp.Spec
