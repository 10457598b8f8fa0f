import Verif.Lemmas.DerivedAttrs
import Verif.Props.Prefix
import Verif.Model.Bmp

/-!
# C88 – C90: routes and attributes as keys
-/

namespace Zbgp.Props

open Zbgp Spec

/-! ## C88 -/

/-- **C88**, kinds without label stack: `cmp`, `partial_cmp`, `==` and hashing agree, and tell any two different values
apart. -/
theorem C88_full_keys :
    FullKey BgpAddrV4 ∧ FullKey BgpAddrV6 ∧ FullKey BgpAddrMac ∧ FullKey BgpNet ∧ FullKey BgpRD ∧
    FullKey BgpMdtV4 ∧ FullKey BgpMdtV6 ∧ FullKey BgpMVPN ∧ FullKey BgpEVPN3 ∧ FullKey BgpEVPN4 ∧
    FullKey (BgpFlowSpec BgpAddrV4) ∧ FullKey (BgpFlowSpec FS6) ∧ FullKey (BgpFlowSpec FSV4U) ∧
    FullKey BgpAddr ∧ FullKey BgpL2 ∧ FullKey BgpIPv4RD ∧ FullKey BgpIPv6RD ∧ FullKey EVPNESI ∧
    FullKey BgpCapability ∧ FullKey BgpOpenMessage :=
  ⟨fullKey, fullKey, fullKey, fullKey, fullKey, fullKey, fullKey, fullKey, fullKey, fullKey, fullKey, fullKey, fullKey,
    fullKey, fullKey, fullKey, fullKey, fullKey, fullKey, fullKey⟩

/-- **C88**, wrappers: a route distinguisher and a path identifier count, a label stack does not. -/
theorem C88_wrapped_keys {T : Type} [ROrd T] [Der T] [LabelFree T] [PcmpSome T] :
    FullKey T ∧ FullKey (WithRd T) ∧ FullKey (WithPathId T) ∧ FullKey (WithPathId (WithRd T)) ∧
    KeyBy (bare (T := T)) ∧ KeyBy (bareP (T := T)) ∧ KeyBy (bare (T := WithRd T)) ∧ KeyBy (bareP (T := WithRd T)) ∧
    (∀ a b : Labeled (WithRd T), ROrd.pcmp a b = some (ROrd.cmp a b)) ∧
    (∀ a b : WithPathId (Labeled (WithRd T)), ROrd.pcmp a b = some (ROrd.cmp a b)) :=
  ⟨fullKey, fullKey, fullKey, fullKey, keyBy_of labeled_unl labeled_same, keyBy_of labeledP_unl labeledP_same,
    keyBy_of labeled_unl labeled_same, keyBy_of labeledP_unl labeledP_same, PcmpSome.pcmp_eq, PcmpSome.pcmp_eq⟩

/-- **C88**, kinds with a label stack, partial: VPLS and EVPN routes and lists of routes of any family are lawful keys for
maps and sets, with the label stacks not taken into account. Missing: `partial_cmp` (`C88_vpls_partial_cmp`,
`C88_evpn_partial_cmp`, `C88_lists_partial_cmp`). -/
theorem C88_labeled_keys_partial : KeyBy bareL2 ∧ KeyBy bareEvpn ∧ KeyBy bareAddrs :=
  ⟨keyBy_of (fun _ => rfl) (fun _ => rfl), keyBy_of evpn_unl evpn_same, keyBy_of addrs_unl addrs_same⟩

theorem lexP_none_last (o : Ordering) : lexP (some o) none = if o = .eq then none else some o := by
  cases o <;> rfl

theorem lexP_ite (o p : Ordering) :
    lexP (some o) (if p = .eq then none else some p) = if o.then p = .eq then none else some (o.then p) := by
  cases o <;> cases p <;> rfl

/-- `partial_cmp` of a value whose last field is a label stack. -/
theorem pcmp_labels_last {A : Type} [ROrd A] [Der A] (a b : A) (la lb : MplsLabels)
    (h : ROrd.pcmp a b = some (ROrd.cmp a b)) :
    ROrd.pcmp (a, la) (b, lb) = if ROrd.cmp (a, la) (b, lb) = .eq then none else some (ROrd.cmp (a, la) (b, lb)) := by
  change lexP (ROrd.pcmp a b) none = _
  rw [h, lexP_none_last]
  change _ = if (ROrd.cmp a b).then .eq = .eq then none else some ((ROrd.cmp a b).then .eq)
  cases ROrd.cmp a b <;> rfl

/-- The same with one more field in front. -/
theorem pcmp_labels_step {A B : Type} [ROrd A] [ROrd B] (a a' : A) (b b' : B)
    (h : ROrd.pcmp a a' = some (ROrd.cmp a a'))
    (hb : ROrd.pcmp b b' = if ROrd.cmp b b' = .eq then none else some (ROrd.cmp b b')) :
    ROrd.pcmp (a, b) (a', b') =
      if ROrd.cmp (a, b) (a', b') = .eq then none else some (ROrd.cmp (a, b) (a', b')) := by
  change lexP (ROrd.pcmp a a') (ROrd.pcmp b b') = _
  rw [h, hb, lexP_ite]
  rfl

theorem cmp_eq_iff_eq {T : Type} [ROrd T] {f : T → T} (h : KeyBy f) (a b : T) :
    ROrd.cmp a b = .eq ↔ ROrd.eq a b = true := by rw [h.equal_iff, h.eq_iff]

/-- **C88**, where `partial_cmp` does not agree: of VPLS routes that are `==` it says nothing (`None`), of all others what
`cmp` says. So `a <= a` is false for every VPLS route. -/
theorem C88_vpls_partial_cmp (a b : BgpAddrL2) :
    ROrd.pcmp a b = if ROrd.eq a b = true then none else some (ROrd.cmp a b) := by
  have h : ROrd.pcmp a b = if ROrd.cmp a b = .eq then none else some (ROrd.cmp a b) :=
    pcmp_labels_step a.rd b.rd _ _ (PcmpSome.pcmp_eq _ _) <|
    pcmp_labels_step a.site b.site _ _ (PcmpSome.pcmp_eq _ _) <|
    pcmp_labels_step a.offset b.offset _ _ (PcmpSome.pcmp_eq _ _) <|
    pcmp_labels_last a.range b.range _ _ (PcmpSome.pcmp_eq _ _)
  simp only [cmp_eq_iff_eq C88_labeled_keys_partial.1] at h
  exact h

/-- **C88**, the same for EVPN routes: `partial_cmp` says nothing of routes of the types 1, 2 and 5 that are `==`. -/
theorem C88_evpn_partial_cmp (a b : BgpEVPN) :
    ROrd.pcmp a b = if ROrd.eq a b = true ∧ hasLabels a = true then none else some (ROrd.cmp a b) := by
  have key : ROrd.cmp a b = .eq ↔ ROrd.eq a b = true := cmp_eq_iff_eq C88_labeled_keys_partial.2.1 a b
  have h : ROrd.pcmp a b = if ROrd.cmp a b = .eq ∧ hasLabels a = true then none else some (ROrd.cmp a b) := by
    cases a <;> cases b <;>
      first
        | rfl
        | (rename_i a b
           first
             | (have e : ROrd.pcmp a b = some (ROrd.cmp a b) := PcmpSome.pcmp_eq a b
                rw [if_neg (by simp [hasLabels])]; exact e)
             | (simp only [hasLabels, and_true]
                refine pcmp_labels_step a.rd b.rd _ _ (PcmpSome.pcmp_eq _ _) <|
                  pcmp_labels_step a.esiType b.esiType _ _ (PcmpSome.pcmp_eq _ _) <|
                  pcmp_labels_step a.esi b.esi _ _ (PcmpSome.pcmp_eq _ _) <| ?_
                first
                  | exact pcmp_labels_last a.etherTag b.etherTag _ _ (PcmpSome.pcmp_eq _ _)
                  | exact pcmp_labels_step a.etherTag b.etherTag _ _ (PcmpSome.pcmp_eq _ _) <|
                      pcmp_labels_step a.mac b.mac _ _ (PcmpSome.pcmp_eq _ _) <|
                      pcmp_labels_last a.ip b.ip _ _ (PcmpSome.pcmp_eq _ _)
                  | exact pcmp_labels_step a.etherTag b.etherTag _ _ (PcmpSome.pcmp_eq _ _) <|
                      pcmp_labels_step a.len b.len _ _ (PcmpSome.pcmp_eq _ _) <|
                      pcmp_labels_step a.pfx b.pfx _ _ (PcmpSome.pcmp_eq _ _) <|
                      pcmp_labels_last a.gwIp b.gwIp _ _ (PcmpSome.pcmp_eq _ _)))
  simp only [key] at h
  exact h

/-- Whether a list holds VPLS or EVPN routes. -/
def ofLabeledKind : BgpAddrs → Bool
  | .L2VPLS _ => true
  | .EVPN _ => true
  | _ => false

theorem ps_inl {A B : Type} [ROrd A] [ROrd B] {x : A} (h : ∀ y, ROrd.pcmp x y = some (ROrd.cmp x y)) :
    ∀ y : A ⊕ B, ROrd.pcmp (Sum.inl x : A ⊕ B) y = some (ROrd.cmp (Sum.inl x : A ⊕ B) y)
  | .inl y => h y
  | .inr _ => rfl

theorem ps_inr {A B : Type} [ROrd A] [ROrd B] {x : B} (h : ∀ y, ROrd.pcmp x y = some (ROrd.cmp x y)) :
    ∀ y : A ⊕ B, ROrd.pcmp (Sum.inr x : A ⊕ B) y = some (ROrd.cmp (Sum.inr x : A ⊕ B) y)
  | .inl _ => rfl
  | .inr y => h y

set_option synthInstance.maxSize 1024 in
/-- **C88**, lists of routes: `partial_cmp` agrees with `cmp` except for two lists of VPLS routes or two lists of EVPN
routes. Of those it says what it says of the first routes that do not compare as `Equal`, so that two lists that begin
with the same VPLS route do not compare. -/
theorem C88_lists_partial_cmp :
    (∀ a b : BgpAddrs, ofLabeledKind a = false ∨ ofLabeledKind b = false → ROrd.pcmp a b = some (ROrd.cmp a b)) ∧
    (∀ v w : List BgpAddrL2,
      ROrd.pcmp (BgpAddrs.L2VPLS v) (.L2VPLS w) =
        match v, w with
        | [], [] => some .eq
        | [], _ :: _ => some .lt
        | _ :: _, [] => some .gt
        | x :: _, y :: _ => if ROrd.eq x y = true then none else some (ROrd.cmp x y)) ∧
    (∀ (x y : BgpEVPN) (v w : List BgpEVPN), ROrd.pcmp (BgpAddrs.EVPN []) (.EVPN []) = some .eq ∧
      ROrd.pcmp (BgpAddrs.EVPN []) (.EVPN (y :: w)) = some .lt ∧ ROrd.pcmp (BgpAddrs.EVPN (x :: v)) (.EVPN []) = some .gt ∧
      ROrd.pcmp (BgpAddrs.EVPN (x :: v)) (.EVPN (y :: w)) =
        if ROrd.eq x y = true then (if hasLabels x = true then none else ROrd.pcmp (BgpAddrs.EVPN v) (.EVPN w))
        else some (ROrd.cmp x y)) := by
  refine ⟨?_, ?_, ?_⟩
  · have h1 : ∀ a b : BgpAddrs, ofLabeledKind a = false → ROrd.pcmp a b = some (ROrd.cmp a b) := by
      intro a b h
      change ROrd.pcmp a.variant b.variant = some (ROrd.cmp a.variant b.variant)
      generalize b.variant = y
      revert y
      cases a <;> first | (simp [ofLabeledKind] at h; done) | skip
      all_goals
        simp only [BgpAddrs.variant]
        repeat (first | apply ps_inl | apply ps_inr)
        exact PcmpSome.pcmp_eq _
    intro a b h
    rcases h with h | h
    · exact h1 a b h
    · by_cases ha : ofLabeledKind a = false
      · exact h1 a b ha
      · cases a <;> simp [ofLabeledKind] at ha <;> cases b <;> first | rfl | simp [ofLabeledKind] at h
  · intro v w
    cases v with
    | nil => cases w <;> rfl
    | cons x v =>
      cases w with
      | nil => rfl
      | cons y w =>
        change lexP (ROrd.pcmp x y) (pcmpList ROrd.pcmp v w) = _
        rw [C88_vpls_partial_cmp]
        by_cases h : ROrd.eq x y = true
        · simp only [if_pos h]; rfl
        · simp only [if_neg h]
          rw [← cmp_eq_iff_eq C88_labeled_keys_partial.1] at h
          cases hc : ROrd.cmp x y <;> first | rfl | exact absurd hc h
  · intro x y v w
    refine ⟨rfl, rfl, rfl, ?_⟩
    change lexP (ROrd.pcmp x y) (pcmpList ROrd.pcmp v w) = _
    rw [C88_evpn_partial_cmp]
    by_cases h : ROrd.eq x y = true
    · simp only [h, true_and, if_true]
      by_cases hl : hasLabels x = true
      · simp only [if_pos hl]; rfl
      · rw [if_neg hl, if_neg hl, (cmp_eq_iff_eq C88_labeled_keys_partial.2.1 x y).2 h]; rfl
    · simp only [h, false_and, if_false]
      rw [← cmp_eq_iff_eq C88_labeled_keys_partial.2.1] at h
      cases hc : ROrd.cmp x y <;> first | rfl | exact absurd hc h

/-- non-vacuity of C88: EVPN MAC routes that differ in the label only are the same key, and do not compare -/
example : let r : BgpEVPN2 := ⟨⟨0, 1⟩, 0, ⟨⟨#[0, 0, 0, 0, 0, 0, 0, 0, 0], rfl⟩⟩, 0, ⟨0, 0, 0, 0, 0, 1⟩, none, ⟨[16]⟩⟩
    ROrd.eq (BgpEVPN.evpn2 r) (.evpn2 { r with labels := ⟨[17]⟩ }) = true ∧
    ROrd.pcmp (BgpEVPN.evpn2 r) (.evpn2 { r with labels := ⟨[17]⟩ }) = none ∧
    ROrd.cmp (BgpEVPN.evpn2 r) (.evpn2 { r with etherTag := 1 }) = .lt := by decide

/-! ## C89 -/

/-- **C89**, partial: path attributes, however deep attribute sets are nested, are totally ordered by `cmp`; `cmp` says
`Equal` of exactly those that differ in label stacks only, and these hash alike; `==` says `true` of exactly those that
differ in label stacks and in the way an AS number of an AS path is written only. Missing: that `==` and `cmp` agree
(`C89_eq_and_cmp_disagree`). -/
theorem C89_attributes_partial :
    TotalOrder BgpAttrItem ∧
    (∀ a b : BgpAttrItem, ROrd.cmp a b = .eq ↔ bareAttr (fun x => x) a = bareAttr (fun x => x) b) ∧
    (∀ a b : BgpAttrItem, ROrd.eq a b = true ↔ bareAttr asNumber a = bareAttr asNumber b) ∧
    (∀ a b : BgpAttrItem, ROrd.cmp a b = .eq → ROrd.hash a = ROrd.hash b) :=
  ⟨⟨Der.oriented, Der.trans⟩, Der.cmp_eq, Der.eq_same, fun a b h => Der.hash_unl a b ((Der.cmp_eq a b).1 h)⟩

mutual

/-- No AS number of an AS path in the attribute has zero in the lower half (other than 0 itself). -/
def plainNumbers : BgpAttrItem → Prop
  | .ASPath x => ∀ a ∈ x.value, a.value = 0 ∨ a.value.toNat % 65536 ≠ 0
  | .AttrSet _ l => plainNumbersL l
  | _ => True

/-- The same for a list of attributes. -/
def plainNumbersL : List BgpAttrItem → Prop
  | [] => True
  | a :: l => plainNumbers a ∧ plainNumbersL l

end

theorem asNumber_id {a : BgpAS} (h : a.value = 0 ∨ a.value.toNat % 65536 ≠ 0) : asNumber a = a := by
  unfold asNumber
  rcases h with h | h
  · rw [h, if_pos (by decide)]; cases a; simp_all
  · rw [if_neg h]

theorem bareAttr_plain (N : Nat) : ∀ a : BgpAttrItem, sizeOf a < N → plainNumbers a →
    bareAttr asNumber a = bareAttr (fun x => x) a := by
  induction N with
  | zero => exact fun _ h => absurd h (by omega)
  | succ N ih =>
    intro a ha hp
    cases a with
    | ASPath x =>
      rw [bareAttr, bareAttr]
      rw [plainNumbers] at hp
      congr 2
      exact List.map_congr_left fun a h => asNumber_id (hp a h)
    | AttrSet n l =>
      rw [bareAttr, bareAttr, BgpAttrItem.bareAttrs_eq, BgpAttrItem.bareAttrs_eq]
      congr 1
      rw [plainNumbers] at hp
      refine List.map_congr_left fun a h => ih a (by have := BgpAttrItem.size_mem (n := n) h; omega) ?_
      clear ha
      induction l with
      | nil => cases h
      | cons b l ih2 =>
        rw [plainNumbersL] at hp
        rcases List.mem_cons.1 h with rfl | h
        · exact hp.1
        · exact ih2 hp.2 h
    | _ => rfl

/-- **C89**, partial: attributes without AS numbers that are a multiple of 65536 (other than 0) are lawful keys: `==`, `cmp`
and hashing agree. -/
theorem C89_plain_keys_partial (a b : BgpAttrItem) (ha : plainNumbers a) (hb : plainNumbers b) :
    (ROrd.eq a b = true ↔ ROrd.cmp a b = .eq) ∧ (ROrd.eq a b = true → ROrd.hash a = ROrd.hash b) := by
  have h : ROrd.eq a b = true ↔ ROrd.cmp a b = .eq := by
    rw [C89_attributes_partial.2.1, C89_attributes_partial.2.2.1, bareAttr_plain _ a (Nat.lt_succ_self _) ha,
      bareAttr_plain _ b (Nat.lt_succ_self _) hb]
  exact ⟨h, fun h0 => C89_attributes_partial.2.2.2 a b (h.1 h0)⟩

/-- The gap in C89: for every AS number below 65536 other than 0 the AS path with the number and the AS path with the same
number in the upper half are `==`, but `cmp` tells them apart and they hash differently. -/
theorem C89_eq_and_cmp_disagree (n : Nat) (h0 : 0 < n) (h1 : n < 65536) :
    let a : BgpAttrItem := .ASPath ⟨[⟨BitVec.ofNat 32 n⟩]⟩
    let b : BgpAttrItem := .ASPath ⟨[⟨BitVec.ofNat 32 (n * 65536)⟩]⟩
    ROrd.eq a b = true ∧ ROrd.cmp a b = .lt ∧ ROrd.hash a ≠ ROrd.hash b := by
  have e1 : (BitVec.ofNat 32 n).toNat = n := by rw [BitVec.toNat_ofNat]; exact Nat.mod_eq_of_lt (by omega)
  have e2 : (BitVec.ofNat 32 (n * 65536)).toNat = n * 65536 := by
    rw [BitVec.toNat_ofNat]; exact Nat.mod_eq_of_lt (by omega)
  refine ⟨?_, ?_, ?_⟩
  · rw [C89_attributes_partial.2.2.1, bareAttr, bareAttr]
    simp only [List.map_cons, List.map_nil, asNumber, e1, e2]
    rw [if_neg (by omega), if_pos (by omega), Nat.mul_div_cancel _ (by omega)]
  · change (compare (BitVec.ofNat 32 n).toNat (BitVec.ofNat 32 (n * 65536)).toNat).then .eq = .lt
    rw [e1, e2, Nat.compare_eq_lt.2 (by omega)]; rfl
  · change ROrd.hash (BgpAttrItem.flat (.ASPath ⟨[⟨BitVec.ofNat 32 n⟩]⟩)) ≠
      ROrd.hash (BgpAttrItem.flat (.ASPath ⟨[⟨BitVec.ofNat 32 (n * 65536)⟩]⟩))
    intro h
    have : (BitVec.ofNat 32 n).toNat = (BitVec.ofNat 32 (n * 65536)).toNat := by
      simpa [BgpAttrItem.flat, ROrd.hash] using h
    rw [e1, e2] at this; omega

/-- **C89**, PMSI tunnels: the label sits before the tunnel attribute, so that `partial_cmp` says nothing of any two
tunnels with the same flags and type, whatever the tunnel attributes; else it says what `cmp` says. -/
theorem C89_pmsi_partial_cmp (a b : BgpPMSITunnel) :
    ROrd.pcmp a b = (if a.flags = b.flags ∧ a.tunnelType = b.tunnelType then none else some (ROrd.cmp a b)) ∧
    KeyBy (fun x : BgpPMSITunnel => { x with label := noLabels }) := by
  constructor
  · have hp : ROrd.pcmp a b = lexP (some (ROrd.cmp a.flags b.flags))
        (lexP (some (ROrd.cmp a.tunnelType b.tunnelType)) none) := rfl
    have hc : ROrd.cmp a b = (ROrd.cmp a.flags b.flags).then ((ROrd.cmp a.tunnelType b.tunnelType).then
        (ROrd.cmp a.tunnelAttribute b.tunnelAttribute)) := rfl
    have h1 : a.flags = b.flags ↔ ROrd.cmp a.flags b.flags = .eq := (Der.cmp_eq a.flags b.flags).symm
    have h2 : a.tunnelType = b.tunnelType ↔ ROrd.cmp a.tunnelType b.tunnelType = .eq :=
      (Der.cmp_eq a.tunnelType b.tunnelType).symm
    rw [hp, hc]
    simp only [h1, h2]
    cases ROrd.cmp a.flags b.flags <;> cases ROrd.cmp a.tunnelType b.tunnelType <;> rfl
  · refine keyBy_of (fun a => ?_) (fun a => ?_)
    · exact congrArg (fun y => ({ a with label := noLabels, tunnelAttribute := y } : BgpPMSITunnel))
        (LabelFree.unl_id a.tunnelAttribute)
    · exact congrArg (fun y => ({ a with label := noLabels, tunnelAttribute := y } : BgpPMSITunnel))
        (LabelFree.same_id a.tunnelAttribute)

/-- Whether an attribute can hold label stacks. -/
def mayHoldLabels : BgpAttrItem → Bool
  | .MPUpdates _ => true
  | .MPWithdraws _ => true
  | .PMSITunnel _ => true
  | .AttrSet _ _ => true
  | _ => false

/-- **C89**, `partial_cmp`: it agrees with `cmp` when one of the attributes is of a kind without label stacks. -/
theorem C89_partial_cmp (a b : BgpAttrItem) (h : mayHoldLabels a = false ∨ mayHoldLabels b = false) :
    ROrd.pcmp a b = some (ROrd.cmp a b) := by
  have hf {a b : BgpAttrItem} (h : a.isSet = false ∨ b.isSet = false) :
      ROrd.pcmp a b = ROrd.pcmp a.flat b.flat ∧ ROrd.cmp a b = ROrd.cmp a.flat b.flat := by
    refine ⟨?_, BgpAttrItem.cmp_flat h⟩
    change BgpAttrItem.pcmp a b = _
    rw [BgpAttrItem.pcmp]
    rintro n l m k rfl rfl
    simp [BgpAttrItem.isSet] at h
  have h1 : ∀ a b : BgpAttrItem, mayHoldLabels a = false → ROrd.pcmp a b = some (ROrd.cmp a b) := by
    intro a b h
    have hs : a.isSet = false := by cases a <;> first | rfl | simp [mayHoldLabels] at h
    rw [(hf (.inl hs)).1, (hf (.inl hs)).2]
    generalize b.flat = y
    revert y
    cases a <;> first | (simp [mayHoldLabels] at h; done) | skip
    all_goals
      simp only [BgpAttrItem.flat]
      repeat (first | apply ps_inl | apply ps_inr)
      exact PcmpSome.pcmp_eq _
  rcases h with h | h
  · exact h1 a b h
  · by_cases ha : mayHoldLabels a = false
    · exact h1 a b ha
    · have hs : b.isSet = false := by cases b <;> first | rfl | simp [mayHoldLabels] at h
      rw [(hf (.inr hs)).1, (hf (.inr hs)).2]
      cases a <;> simp [mayHoldLabels] at ha <;> cases b <;> first | rfl | simp [mayHoldLabels] at h

/-- non-vacuity of C89: the AS numbers 1 and 65536, and a nested attribute set -/
example : plainNumbers (.AttrSet 1 [.ASPath ⟨[⟨1⟩, ⟨65537⟩]⟩, .MED ⟨5⟩]) ∧
    ROrd.cmp (BgpAttrItem.AttrSet 1 [.MED ⟨5⟩]) (.AttrSet 1 [.MED ⟨6⟩]) = .lt := by
  constructor
  · simp [plainNumbers, plainNumbersL]
  · decide +kernel

/-! ## C90 -/

/-- **C90**, kinds: routes of different types are ordered by the type number, networks in the order IPv4, IPv6, MAC, flow
specification components by the component type, the origins by their code, and attributes by kind. -/
theorem C90_kinds {T : Type} [ROrd T] :
    (∀ a b : BgpEVPN, evpnPos a < evpnPos b → ROrd.cmp a b = .lt) ∧
    (∀ a b : BgpMVPN, mvpnPos a < mvpnPos b → ROrd.cmp a b = .lt) ∧
    (∀ a b : BgpNet, netPos a < netPos b → ROrd.cmp a b = .lt) ∧
    (∀ a b : BgpFlowSpec T, flowPos a < flowPos b → ROrd.cmp a b = .lt) ∧
    (∀ a b : BgpAttrOrigin, originPos a < originPos b → ROrd.cmp a b = .lt) ∧
    (∀ a b : BgpAttrItem, attrPos a < attrPos b → ROrd.cmp a b = .lt) := by
  refine ⟨?_, ?_, ?_, ?_, ?_, ?_⟩ <;> intro a b h <;> cases a <;> cases b <;>
    first | rfl | (simp [evpnPos, mvpnPos, netPos, flowPos, originPos, attrPos] at h; done)

theorem interval {w s ps x px y py : Nat} (hs : ps ≤ w) (hx : px ≤ w) (hy : py ≤ w) (hxl : x < 2 ^ w) (hyl : y < 2 ^ w)
    (ns : NetworkForm w s ps) (nx : NetworkForm w x px)
    (h1 : s < x ∨ s = x ∧ ps ≤ px) (h2 : x ≤ y) (hi : Included w s ps y py) : Included w s ps x px := by
  rw [included_iff hs hy hyl] at hi
  rw [included_iff hs hx hxl]
  unfold Covers at *
  unfold NetworkForm at *
  have hq : x / 2 ^ (w - ps) = s / 2 ^ (w - ps) := by
    apply Nat.le_antisymm
    · rw [← hi.2]; exact Nat.div_le_div_right h2
    · exact Nat.div_le_div_right (by omega)
  refine ⟨?_, hq⟩
  rcases h1 with h1 | h1
  · by_contra hlt
    have hd : 2 ^ (w - ps) ∣ x :=
      (Nat.pow_dvd_pow 2 (by omega : w - ps ≤ w - px)).trans (Nat.dvd_of_mod_eq_zero nx)
    have e1 := Nat.div_mul_cancel hd
    have e2 := Nat.div_mul_cancel (Nat.dvd_of_mod_eq_zero ns)
    rw [hq, e2] at e1; omega
  · exact h1.2

theorem included_le {w s ps y py : Nat} (hs : ps ≤ w) (hy : py ≤ w) (hyl : y < 2 ^ w)
    (ns : NetworkForm w s ps) (hi : Included w s ps y py) : s < y ∨ s = y ∧ ps ≤ py := by
  rw [included_iff hs hy hyl] at hi
  unfold Covers at hi
  unfold NetworkForm at ns
  have e2 := Nat.div_mul_cancel (Nat.dvd_of_mod_eq_zero ns)
  have := Nat.div_mul_le_self y (2 ^ (w - ps))
  rw [hi.2, e2] at this
  omega

theorem prefix_le {n : Nat} (a b : BitVec n) (p q : U8) :
    (compare a.toNat b.toNat).then (compare p.toNat q.toNat) ≠ .gt ↔
      a.toNat < b.toNat ∨ a.toNat = b.toNat ∧ p.toNat ≤ q.toNat := by
  rcases Nat.lt_trichotomy a.toNat b.toNat with h | h | h
  · rw [Nat.compare_eq_lt.2 h]; simp [Ordering.then, h]
  · rw [Nat.compare_eq_eq.2 h]; simp [Ordering.then, h, Nat.compare_ne_gt]
  · rw [Nat.compare_eq_gt.2 h]; simp [Ordering.then]; omega

/-- **C90**, IPv4 (missing: MAC prefixes, `C90_mac_not_contiguous`): in a sorted table of prefixes in network form, a prefix comes before the prefixes it contains, and
nothing else lies between it and any of them. -/
theorem C90_ipv4_subnets_contiguous_partial (s x y : BgpAddrV4) (hs : s.prefixlen.toNat ≤ 32) (hx : x.prefixlen.toNat ≤ 32)
    (hy : y.prefixlen.toNat ≤ 32) (ns : NetworkForm 32 s.addr.toNat s.prefixlen.toNat)
    (nx : NetworkForm 32 x.addr.toNat x.prefixlen.toNat) (ny : NetworkForm 32 y.addr.toNat y.prefixlen.toNat)
    (h : s.contains y = .ok true) :
    ROrd.cmp s y ≠ .gt ∧ (ROrd.cmp s x ≠ .gt → ROrd.cmp x y ≠ .gt → s.contains x = .ok true) := by
  classical
  have hc (y : BgpAddrV4) (hy : y.prefixlen.toNat ≤ 32) (ny : NetworkForm 32 y.addr.toNat y.prefixlen.toNat) :
      s.contains y = .ok true ↔ Included 32 s.addr.toNat s.prefixlen.toNat y.addr.toNat y.prefixlen.toNat := by
    rw [C17_contains_is_inclusion_partial s y hs hy (.inr (.inr ⟨ns, ny⟩)), Res.ok.injEq, decide_eq_true_iff]
  have hle (a b : BgpAddrV4) : ROrd.cmp a b ≠ .gt ↔ a.addr.toNat < b.addr.toNat ∨
      a.addr.toNat = b.addr.toNat ∧ a.prefixlen.toNat ≤ b.prefixlen.toNat := prefix_le _ _ _ _
  rw [hc y hy ny] at h
  refine ⟨(hle _ _).2 (included_le hs hy y.addr.isLt ns h), fun h1 h2 => ?_⟩
  rw [hc x hx nx]
  rw [hle] at h1 h2
  exact interval hs hx hy x.addr.isLt y.addr.isLt ns nx h1 (by omega) h

/-- **C90**, IPv6, the same (missing: MAC prefixes). -/
theorem C90_ipv6_subnets_contiguous_partial (s x y : BgpAddrV6) (hs : s.prefixlen.toNat ≤ 128) (hx : x.prefixlen.toNat ≤ 128)
    (hy : y.prefixlen.toNat ≤ 128) (ns : NetworkForm 128 s.addr.toNat s.prefixlen.toNat)
    (nx : NetworkForm 128 x.addr.toNat x.prefixlen.toNat) (ny : NetworkForm 128 y.addr.toNat y.prefixlen.toNat)
    (h : s.contains y = .ok true) :
    ROrd.cmp s y ≠ .gt ∧ (ROrd.cmp s x ≠ .gt → ROrd.cmp x y ≠ .gt → s.contains x = .ok true) := by
  classical
  have hc (y : BgpAddrV6) (hy : y.prefixlen.toNat ≤ 128) (ny : NetworkForm 128 y.addr.toNat y.prefixlen.toNat) :
      s.contains y = .ok true ↔ Included 128 s.addr.toNat s.prefixlen.toNat y.addr.toNat y.prefixlen.toNat := by
    rw [C18_contains_is_inclusion_partial s y hs hy (.inr (.inr ⟨ns, ny⟩)), Res.ok.injEq, decide_eq_true_iff]
  have hle (a b : BgpAddrV6) : ROrd.cmp a b ≠ .gt ↔ a.addr.toNat < b.addr.toNat ∨
      a.addr.toNat = b.addr.toNat ∧ a.prefixlen.toNat ≤ b.prefixlen.toNat := prefix_le _ _ _ _
  rw [hc y hy ny] at h
  refine ⟨(hle _ _).2 (included_le hs hy y.addr.isLt ns h), fun h1 h2 => ?_⟩
  rw [hc x hx nx]
  rw [hle] at h1 h2
  exact interval hs hx hy x.addr.isLt y.addr.isLt ns nx h1 (by omega) h

/-- The gap in C90: MAC prefixes are sorted by the last byte of the address first, so that 01:00:00:00:00:00/8 and the
address 01:00:00:00:00:01 that it contains have 02:00:00:00:00:00 between them, which it does not contain. -/
theorem C90_mac_not_contiguous :
    ∃ s x y : BgpAddrMac, s.contains y = .ok true ∧ ROrd.cmp s x = .lt ∧ ROrd.cmp x y = .lt ∧
      s.contains x = .ok false :=
  ⟨⟨⟨0, 0, 0, 0, 0, 1⟩, 8⟩, ⟨⟨0, 0, 0, 0, 0, 2⟩, 48⟩, ⟨⟨1, 0, 0, 0, 0, 1⟩, 48⟩, by decide, by decide, by decide,
    by decide⟩

/-- non-vacuity of C90: 10.0.0.0/8, 10.1.0.0/16 and 10.1.2.0/24 -/
example : (⟨0x0a000000, 8⟩ : BgpAddrV4).contains ⟨0x0a010200, 24⟩ = .ok true ∧
    NetworkForm 32 (0x0a000000 : IPv4).toNat 8 ∧ NetworkForm 32 (0x0a010200 : IPv4).toNat 24 ∧
    ROrd.cmp (⟨0x0a000000, 8⟩ : BgpAddrV4) ⟨0x0a010000, 16⟩ = .lt ∧
    ROrd.cmp (⟨0x0a010000, 16⟩ : BgpAddrV4) ⟨0x0a010200, 24⟩ = .lt := by decide

end Zbgp.Props
