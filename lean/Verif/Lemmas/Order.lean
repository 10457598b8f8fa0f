import Verif.Spec.Order

namespace Zbgp

open Spec

theorem lawful_bitvec {n : Nat} : LawfulOrd (BitVec n) where
  oriented a b := (Nat.compare_swap _ _).symm
  trans a b c := by
    simp only [ROrd.cmp, ne_eq, Nat.compare_eq_gt]; omega
  eq_iff a b := by simp [ROrd.cmp, ROrd.eq, Nat.compare_eq_eq, BitVec.toNat_inj]
  pcmp_eq _ _ := rfl
  hash_eq a b h := by simp [ROrd.eq] at h; rw [h]

/-- The lexicographic combination of two lawful orders. -/
theorem lawful_lex {T A B : Type} [ROrd T] [ROrd A] [ROrd B] (f : T → A) (g : T → B)
    (hA : LawfulOrd A) (hB : LawfulOrd B)
    (hc : ∀ x y : T, ROrd.cmp x y = (ROrd.cmp (f x) (f y)).then (ROrd.cmp (g x) (g y)))
    (he : ∀ x y : T, ROrd.eq x y = (ROrd.eq (f x) (f y) && ROrd.eq (g x) (g y)))
    (hp : ∀ x y : T, ROrd.pcmp x y = some (ROrd.cmp x y))
    (hh : ∀ x y : T, ROrd.hash (f x) = ROrd.hash (f y) → ROrd.hash (g x) = ROrd.hash (g y) →
      ROrd.hash x = ROrd.hash y) : LawfulOrd T where
  oriented x y := by
    rw [hc, hc, hA.oriented, hB.oriented]
    cases ROrd.cmp (f y) (f x) <;> rfl
  trans x y z := by
    rw [hc, hc, hc]
    have o1 := hA.oriented (f x) (f y); have o2 := hA.oriented (f y) (f z)
    have o3 := hA.oriented (f x) (f z)
    have t1 := hA.trans (f x) (f y) (f z); have t2 := hA.trans (f y) (f z) (f x)
    have t3 := hA.trans (f z) (f x) (f y)
    have t4 := hB.trans (g x) (g y) (g z)
    generalize ROrd.cmp (f x) (f y) = a at *
    generalize ROrd.cmp (f y) (f z) = b at *
    generalize ROrd.cmp (f x) (f z) = c at *
    generalize ROrd.cmp (f y) (f x) = a' at *
    generalize ROrd.cmp (f z) (f y) = b' at *
    generalize ROrd.cmp (f z) (f x) = c' at *
    subst o1 o2 o3
    cases a' <;> cases b' <;> cases c' <;> simp_all [Ordering.swap, Ordering.then]
  eq_iff x y := by
    rw [hc, he, Bool.and_eq_true, hA.eq_iff, hB.eq_iff]
    cases ROrd.cmp (f x) (f y) <;> simp [Ordering.then]
  pcmp_eq := hp
  hash_eq x y h := by
    rw [he, Bool.and_eq_true] at h
    exact hh x y (hA.hash_eq _ _ h.1) (hB.hash_eq _ _ h.2)

theorem lexP_some (a b : Ordering) : lexP (some a) (some b) = some (a.then b) := by
  cases a <;> rfl

theorem lawful_v4 : LawfulOrd BgpAddrV4 :=
  lawful_lex (·.addr) (·.prefixlen) lawful_bitvec lawful_bitvec (fun _ _ => rfl) (fun _ _ => rfl)
    (fun _ _ => lexP_some _ _) (fun x y h1 h2 => by simp only [ROrd.hash] at *; rw [h1, h2])

theorem lawful_v6 : LawfulOrd BgpAddrV6 :=
  lawful_lex (·.addr) (·.prefixlen) lawful_bitvec lawful_bitvec (fun _ _ => rfl) (fun _ _ => rfl)
    (fun _ _ => lexP_some _ _) (fun x y h1 h2 => by simp only [ROrd.hash] at *; rw [h1, h2])

theorem lawful_rd : LawfulOrd BgpRD :=
  lawful_lex (·.rdh) (·.rdl) lawful_bitvec lawful_bitvec (fun _ _ => rfl) (fun _ _ => rfl)
    (fun _ _ => lexP_some _ _) (fun x y h1 h2 => by simp only [ROrd.hash] at *; rw [h1, h2])

theorem lawful_labeled {T : Type} [ROrd T] (h : LawfulOrd T) : LawfulOrd (Labeled T) where
  oriented a b := h.oriented _ _
  trans a b c := h.trans _ _ _
  eq_iff a b := h.eq_iff _ _
  pcmp_eq a b := h.pcmp_eq _ _
  hash_eq a b := h.hash_eq _ _

theorem lawful_withRd {T : Type} [ROrd T] (h : LawfulOrd T) : LawfulOrd (WithRd T) :=
  lawful_lex (·.pfx) (·.rd) h lawful_rd
    (fun x y => by simp only [ROrd.cmp]; cases ROrd.cmp x.pfx y.pfx <;> rfl)
    (fun _ _ => rfl)
    (fun x y => by
      have h1 := h.pcmp_eq x.pfx y.pfx
      have h2 := lawful_rd.pcmp_eq x.rd y.rd
      simp only [ROrd.pcmp, ROrd.cmp] at *
      rw [h1]
      cases ROrd.cmp x.pfx y.pfx <;> simp only [h2])
    (fun x y h1 h2 => by
      change ROrd.hash x.pfx ++ ROrd.hash x.rd = ROrd.hash y.pfx ++ ROrd.hash y.rd
      rw [h1, h2])

theorem lawful_pathId {T : Type} [ROrd T] (h : LawfulOrd T) : LawfulOrd (WithPathId T) :=
  lawful_lex (·.nlri) (·.pathid) h lawful_bitvec
    (fun x y => by simp only [ROrd.cmp]; cases ROrd.cmp x.nlri y.nlri <;> rfl)
    (fun x y => by
      change (ROrd.eq x.pathid y.pathid && ROrd.eq x.nlri y.nlri) = _
      rw [Bool.and_comm])
    (fun x y => by
      have h1 := h.pcmp_eq x.nlri y.nlri
      simp only [ROrd.pcmp, ROrd.cmp] at *
      rw [h1]
      cases ROrd.cmp x.nlri y.nlri <;> rfl)
    (fun x y h1 h2 => by
      change ROrd.hash x.pathid ++ ROrd.hash x.nlri = ROrd.hash y.pathid ++ ROrd.hash y.nlri
      rw [h1, h2])

theorem lawful_ip : LawfulOrd IpAddr where
  oriented a b := by
    rcases a with a | a <;> rcases b with b | b <;> first | rfl | exact lawful_bitvec.oriented a b
  trans a b c := by
    rcases a with a | a <;> rcases b with b | b <;> rcases c with c | c <;>
      simp only [ROrd.cmp, ne_eq, Nat.compare_eq_gt] <;> first | (simp; done) | omega
  eq_iff a b := by
    rcases a with a | a <;> rcases b with b | b <;>
      first | exact lawful_bitvec.eq_iff a b | simp [ROrd.eq, ROrd.cmp]
  pcmp_eq a b := by
    rcases a with a | a <;> rcases b with b | b <;> rfl
  hash_eq a b h := by
    rcases a with a | a <;> rcases b with b | b <;> simp [ROrd.eq] at h <;> rw [h]

/-- The fields behind the first ones of a peer header, as a helper for the lexicographic argument. -/
structure PairOf (A B : Type) where
  fst : A
  snd : B

instance {A B : Type} [ROrd A] [ROrd B] : ROrd (PairOf A B) where
  eq a b := ROrd.eq a.fst b.fst && ROrd.eq a.snd b.snd
  pcmp a b := some ((ROrd.cmp a.fst b.fst).then (ROrd.cmp a.snd b.snd))
  cmp a b := (ROrd.cmp a.fst b.fst).then (ROrd.cmp a.snd b.snd)
  hash a := ROrd.hash a.fst ++ ROrd.hash a.snd

theorem lawful_pair {A B : Type} [ROrd A] [ROrd B] (hA : LawfulOrd A) (hB : LawfulOrd B) :
    LawfulOrd (PairOf A B) :=
  lawful_lex (·.fst) (·.snd) hA hB (fun _ _ => rfl) (fun _ _ => rfl) (fun _ _ => rfl)
    (fun x y h1 h2 => by
      change ROrd.hash x.fst ++ ROrd.hash x.snd = ROrd.hash y.fst ++ ROrd.hash y.snd
      rw [h1, h2])

theorem lawful_peerHeader : LawfulOrd BmpMessagePeerHeader :=
  lawful_lex (B := PairOf U8 (PairOf BgpRD (PairOf IpAddr (PairOf U32 IPv4))))
    (·.peertype) (fun h => ⟨h.flags, h.peerdistinguisher, h.peeraddress, h.asnum, h.routerid⟩)
    lawful_bitvec
    (lawful_pair lawful_bitvec (lawful_pair lawful_rd (lawful_pair lawful_ip
      (lawful_pair lawful_bitvec lawful_bitvec))))
    (fun _ _ => rfl) (fun _ _ => rfl)
    (fun (x y : BmpMessagePeerHeader) => by
      have h1 := lawful_rd.pcmp_eq x.peerdistinguisher y.peerdistinguisher
      have h2 := lawful_ip.pcmp_eq x.peeraddress y.peeraddress
      have b8 := (lawful_bitvec (n := 8)).pcmp_eq
      have b32 := (lawful_bitvec (n := 32)).pcmp_eq
      change stepP (ROrd.pcmp x.peertype y.peertype) (stepP (ROrd.pcmp x.flags y.flags)
        (stepP (ROrd.pcmp x.peerdistinguisher y.peerdistinguisher)
        (stepP (ROrd.pcmp x.peeraddress y.peeraddress) (stepP (ROrd.pcmp x.asnum y.asnum)
        (ROrd.pcmp x.routerid y.routerid))))) = some ((ROrd.cmp x.peertype y.peertype).then <|
        (ROrd.cmp x.flags y.flags).then <| (ROrd.cmp x.peerdistinguisher y.peerdistinguisher).then <|
        (ROrd.cmp x.peeraddress y.peeraddress).then <| (ROrd.cmp x.asnum y.asnum).then <|
        ROrd.cmp x.routerid y.routerid)
      rw [h1, h2, b8, b8, b32, b32]
      cases ROrd.cmp x.peertype y.peertype <;> try rfl
      cases ROrd.cmp x.flags y.flags <;> try rfl
      cases ROrd.cmp x.peerdistinguisher y.peerdistinguisher <;> try rfl
      cases ROrd.cmp x.peeraddress y.peeraddress <;> try rfl
      cases ROrd.cmp x.asnum y.asnum <;> rfl)
    (fun x y h1 h2 => by
      change ROrd.hash x.peertype ++ ROrd.hash (PairOf.mk x.flags (PairOf.mk x.peerdistinguisher
        (PairOf.mk x.peeraddress (PairOf.mk x.asnum x.routerid)))) = _
      rw [h1, h2]; rfl)

end Zbgp
