import Verif.Lemmas.HashInj
import Verif.Props.Derived

/-!
# C105: what a key feeds to a hasher
-/

namespace Zbgp.Props

open Zbgp Spec

theorem hashesBy_of {T : Type} [ROrd T] [Der T] [HashInj T] {ident : T → T} (h : ∀ a : T, Der.unl a = ident a) :
    HashesBy ident := by
  intro a b p s t
  rw [List.append_assoc, List.append_assoc, List.append_cancel_left_eq, ← h, ← h]
  constructor
  · intro he
    obtain ⟨h1, h2⟩ := HashInj.inj a b s t he
    exact ⟨(Der.cmp_eq a b).1 h1, h2⟩
  · rintro ⟨h1, rfl⟩
    rw [Der.hash_unl a b h1]

theorem hashesFully {T : Type} [ROrd T] [Der T] [LabelFree T] [HashInj T] : HashesFully T :=
  hashesBy_of LabelFree.unl_id

/-- **C105**, kinds without label stack: two values feed the same data to a hasher only if they are the same value. -/
theorem C105_full_keys :
    HashesFully BgpAddrV4 ∧ HashesFully BgpAddrV6 ∧ HashesFully BgpAddrMac ∧ HashesFully BgpNet ∧ HashesFully BgpRD ∧
    HashesFully BgpMdtV4 ∧ HashesFully BgpMdtV6 ∧ HashesFully BgpMVPN ∧ HashesFully BgpEVPN3 ∧ HashesFully BgpEVPN4 ∧
    HashesFully (BgpFlowSpec BgpAddrV4) ∧ HashesFully (BgpFlowSpec FS6) ∧ HashesFully (BgpFlowSpec FSV4U) ∧
    HashesFully BgpAddr ∧ HashesFully BgpL2 ∧ HashesFully BgpIPv4RD ∧ HashesFully BgpIPv6RD ∧ HashesFully EVPNESI ∧
    HashesFully BgpCapability ∧ HashesFully BgpOpenMessage :=
  ⟨hashesFully, hashesFully, hashesFully, hashesFully, hashesFully, hashesFully, hashesFully, hashesFully, hashesFully,
    hashesFully, hashesFully, hashesFully, hashesFully, hashesFully, hashesFully, hashesFully, hashesFully, hashesFully,
    hashesFully, hashesFully⟩

/-- **C105**, wrappers: the route distinguisher and the path identifier go into the hash, the label stack does not. -/
theorem C105_wrapped_keys {T : Type} [ROrd T] [Der T] [LabelFree T] [HashInj T] :
    HashesFully T ∧ HashesFully (WithRd T) ∧ HashesFully (WithPathId T) ∧ HashesFully (WithPathId (WithRd T)) ∧
    HashesBy (bare (T := T)) ∧ HashesBy (bareP (T := T)) ∧ HashesBy (bare (T := WithRd T)) ∧
    HashesBy (bareP (T := WithRd T)) :=
  ⟨hashesFully, hashesFully, hashesFully, hashesFully, hashesBy_of labeled_unl, hashesBy_of labeledP_unl,
    hashesBy_of labeled_unl, hashesBy_of labeledP_unl⟩

/-- **C105**, VPLS and EVPN routes, lists of routes of any family, and path attributes however deep attribute sets are
nested: two values feed the same data to a hasher exactly if they differ in label stacks at most. -/
theorem C105_labeled_keys :
    HashesBy bareL2 ∧ HashesBy bareEvpn ∧ HashesBy bareAddrs ∧ HashesBy (bareAttr fun x => x) :=
  ⟨hashesBy_of (fun _ => rfl), hashesBy_of evpn_unl, hashesBy_of addrs_unl, hashesBy_of fun _ => rfl⟩

/-- What `std` feeds to a hasher for a `String` (`str::hash`): the bytes and an end mark. -/
def strHash (s : Bytes) : List Nat := s.map (·.toNat) ++ [255]

/-- **C105**, strings: the end mark, which is no byte of a string, keeps strings apart as the length of a `Vec` does, so
that the host and domain name of a capability hash differently from every other split of the same letters. -/
theorem C105_strings (a b : Bytes) (s t : List Nat) (ha : (255 : U8) ∉ a) (hb : (255 : U8) ∉ b)
    (h : strHash a ++ s = strHash b ++ t) : a = b ∧ s = t := by
  induction a generalizing b with
  | nil =>
    cases b with
    | nil => exact ⟨rfl, by simpa [strHash] using h⟩
    | cons y b =>
      simp only [strHash, List.map_nil, List.nil_append, List.map_cons, List.cons_append, List.cons.injEq] at h
      exact absurd (BitVec.eq_of_toNat_eq (x := (255 : U8)) (y := y) h.1) (by simp at hb; exact hb.1)
  | cons x a ih =>
    cases b with
    | nil =>
      simp only [strHash, List.map_nil, List.nil_append, List.map_cons, List.cons_append, List.cons.injEq] at h
      exact absurd (BitVec.eq_of_toNat_eq (x := (255 : U8)) (y := x) h.1.symm) (by simp at ha; exact ha.1)
    | cons y b =>
      simp only [strHash, List.map_cons, List.cons_append, List.cons.injEq] at h
      simp only [List.mem_cons, not_or] at ha hb
      obtain ⟨e1, e2⟩ := ih b ha.2 hb.2 h.2
      rw [BitVec.eq_of_toNat_eq h.1, e1]
      exact ⟨rfl, e2⟩

/-- non-vacuity of C105: the routes 10.0.0.0/8 and 10.0.0.0/9, a route with and without path identifier data moved, and an
attribute set that holds an attribute against the attribute beside it -/
example : ROrd.hash (⟨0x0a000000, 8⟩ : BgpAddrV4) ≠ ROrd.hash (⟨0x0a000000, 9⟩ : BgpAddrV4) ∧
    ROrd.hash [BgpAttrItem.AttrSet 1 [.MED ⟨5⟩], .AttrSet 1 []] ≠
      ROrd.hash [BgpAttrItem.AttrSet 1 [], .AttrSet 1 [.MED ⟨5⟩]] ∧
    ROrd.hash (⟨⟨0x0a000000, 8⟩, ⟨[16]⟩⟩ : Labeled BgpAddrV4) = ROrd.hash (⟨⟨0x0a000000, 8⟩, ⟨[17]⟩⟩ : Labeled BgpAddrV4) ∧
    strHash [104, 105] ++ strHash [] ≠ strHash [104] ++ strHash [105] :=
  ⟨by decide,
   fun h => absurd (show (ROrd.hash _ : List Nat) = _ from h) (by simp [ROrd.hash, BgpAttrItem.hash, BgpAttrItem.hashes, BgpAttrItem.flat]),
   rfl, by decide⟩

end Zbgp.Props
