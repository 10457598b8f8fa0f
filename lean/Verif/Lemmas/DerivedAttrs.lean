import Verif.Lemmas.DerivedTypes
import Verif.Spec.Derived

/-! # The derived comparisons of route lists and path attributes -/

namespace Zbgp

open Spec

theorem keyBy_of {T : Type} [ROrd T] [Der T] {ident : T → T} (h1 : ∀ a : T, Der.unl a = ident a)
    (h2 : ∀ a : T, Der.same a = ident a) : KeyBy ident where
  oriented := Der.oriented
  trans := Der.trans
  equal_iff a b := by rw [Der.cmp_eq, h1, h1]
  eq_iff a b := by rw [Der.eq_same, h2, h2]
  hash_eq a b h := Der.hash_unl a b (by rw [h1, h1, h])

theorem fullKey {T : Type} [ROrd T] [Der T] [LabelFree T] [PcmpSome T] : FullKey T where
  toKeyBy := keyBy_of LabelFree.unl_id LabelFree.same_id
  pcmp_eq := PcmpSome.pcmp_eq

theorem evpn_unl (a : BgpEVPN) : Der.unl a = bareEvpn a := by
  rcases a with ⟨rd, et, esi, tg, l⟩ | ⟨rd, et, esi, tg, m, _ | ip, l⟩ | ⟨rd, tg, ip⟩ | ⟨rd, et, esi, ip⟩ | a <;> rfl

theorem evpn_same (a : BgpEVPN) : Der.same a = bareEvpn a := by
  rcases a with ⟨rd, et, esi, tg, l⟩ | ⟨rd, et, esi, tg, m, _ | ip, l⟩ | ⟨rd, tg, ip⟩ | ⟨rd, et, esi, ip⟩ | a <;> rfl

theorem map_unl {T : Type} [ROrd T] [Der T] (g : T → T) (h : ∀ a : T, Der.unl a = g a) (v : List T) :
    Der.unl v = v.map g := List.map_congr_left fun a _ => h a

theorem map_same {T : Type} [ROrd T] [Der T] (g : T → T) (h : ∀ a : T, Der.same a = g a) (v : List T) :
    Der.same v = v.map g := List.map_congr_left fun a _ => h a

theorem labeled_unl {T : Type} [ROrd T] [Der T] [LabelFree T] (x : Labeled T) : Der.unl x = bare x := by
  cases x; exact congrArg (Labeled.mk · _) (LabelFree.unl_id _)

theorem labeled_same {T : Type} [ROrd T] [Der T] [LabelFree T] (x : Labeled T) : Der.same x = bare x := by
  cases x; exact congrArg (Labeled.mk · _) (LabelFree.same_id _)

theorem labeledP_unl {T : Type} [ROrd T] [Der T] [LabelFree T] (x : WithPathId (Labeled T)) : Der.unl x = bareP x := by
  cases x; exact congrArg (WithPathId.mk _) (labeled_unl _)

theorem labeledP_same {T : Type} [ROrd T] [Der T] [LabelFree T] (x : WithPathId (Labeled T)) :
    Der.same x = bareP x := by
  cases x; exact congrArg (WithPathId.mk _) (labeled_same _)

theorem addrs_unl (a : BgpAddrs) : Der.unl a = bareAddrs a := by
  cases a with
  | None => rfl
  | IPV4LU v => exact congrArg BgpAddrs.IPV4LU (map_unl _ labeled_unl v)
  | VPNV4U v => exact congrArg BgpAddrs.VPNV4U (map_unl _ labeled_unl v)
  | VPNV4M v => exact congrArg BgpAddrs.VPNV4M (map_unl _ labeled_unl v)
  | IPV6LU v => exact congrArg BgpAddrs.IPV6LU (map_unl _ labeled_unl v)
  | VPNV6U v => exact congrArg BgpAddrs.VPNV6U (map_unl _ labeled_unl v)
  | VPNV6M v => exact congrArg BgpAddrs.VPNV6M (map_unl _ labeled_unl v)
  | IPV4LUP v => exact congrArg BgpAddrs.IPV4LUP (map_unl _ labeledP_unl v)
  | VPNV4UP v => exact congrArg BgpAddrs.VPNV4UP (map_unl _ labeledP_unl v)
  | VPNV4MP v => exact congrArg BgpAddrs.VPNV4MP (map_unl _ labeledP_unl v)
  | IPV6LUP v => exact congrArg BgpAddrs.IPV6LUP (map_unl _ labeledP_unl v)
  | VPNV6UP v => exact congrArg BgpAddrs.VPNV6UP (map_unl _ labeledP_unl v)
  | VPNV6MP v => exact congrArg BgpAddrs.VPNV6MP (map_unl _ labeledP_unl v)
  | L2VPLS v => exact congrArg BgpAddrs.L2VPLS (map_unl _ (fun _ => rfl) v)
  | EVPN v => exact congrArg BgpAddrs.EVPN (map_unl _ evpn_unl v)
  | IPV4U v => exact congrArg BgpAddrs.IPV4U (LabelFree.unl_id v)
  | IPV4M v => exact congrArg BgpAddrs.IPV4M (LabelFree.unl_id v)
  | IPV4MDT v => exact congrArg BgpAddrs.IPV4MDT (LabelFree.unl_id v)
  | IPV4MDTP v => exact congrArg BgpAddrs.IPV4MDTP (LabelFree.unl_id v)
  | IPV6U v => exact congrArg BgpAddrs.IPV6U (LabelFree.unl_id v)
  | IPV6M v => exact congrArg BgpAddrs.IPV6M (LabelFree.unl_id v)
  | IPV6MDT v => exact congrArg BgpAddrs.IPV6MDT (LabelFree.unl_id v)
  | IPV6MDTP v => exact congrArg BgpAddrs.IPV6MDTP (LabelFree.unl_id v)
  | MVPN v => exact congrArg BgpAddrs.MVPN (LabelFree.unl_id v)
  | FS4U v => exact congrArg BgpAddrs.FS4U (LabelFree.unl_id v)
  | FS6U v => exact congrArg BgpAddrs.FS6U (LabelFree.unl_id v)
  | FSV4U v => exact congrArg BgpAddrs.FSV4U (LabelFree.unl_id v)
  | IPV4UP v => exact congrArg BgpAddrs.IPV4UP (LabelFree.unl_id v)
  | IPV4MP v => exact congrArg BgpAddrs.IPV4MP (LabelFree.unl_id v)
  | IPV6UP v => exact congrArg BgpAddrs.IPV6UP (LabelFree.unl_id v)
  | IPV6MP v => exact congrArg BgpAddrs.IPV6MP (LabelFree.unl_id v)

theorem addrs_same (a : BgpAddrs) : Der.same a = bareAddrs a := by
  cases a with
  | None => rfl
  | IPV4LU v => exact congrArg BgpAddrs.IPV4LU (map_same _ labeled_same v)
  | VPNV4U v => exact congrArg BgpAddrs.VPNV4U (map_same _ labeled_same v)
  | VPNV4M v => exact congrArg BgpAddrs.VPNV4M (map_same _ labeled_same v)
  | IPV6LU v => exact congrArg BgpAddrs.IPV6LU (map_same _ labeled_same v)
  | VPNV6U v => exact congrArg BgpAddrs.VPNV6U (map_same _ labeled_same v)
  | VPNV6M v => exact congrArg BgpAddrs.VPNV6M (map_same _ labeled_same v)
  | IPV4LUP v => exact congrArg BgpAddrs.IPV4LUP (map_same _ labeledP_same v)
  | VPNV4UP v => exact congrArg BgpAddrs.VPNV4UP (map_same _ labeledP_same v)
  | VPNV4MP v => exact congrArg BgpAddrs.VPNV4MP (map_same _ labeledP_same v)
  | IPV6LUP v => exact congrArg BgpAddrs.IPV6LUP (map_same _ labeledP_same v)
  | VPNV6UP v => exact congrArg BgpAddrs.VPNV6UP (map_same _ labeledP_same v)
  | VPNV6MP v => exact congrArg BgpAddrs.VPNV6MP (map_same _ labeledP_same v)
  | L2VPLS v => exact congrArg BgpAddrs.L2VPLS (map_same _ (fun _ => rfl) v)
  | EVPN v => exact congrArg BgpAddrs.EVPN (map_same _ evpn_same v)
  | IPV4U v => exact congrArg BgpAddrs.IPV4U (LabelFree.same_id v)
  | IPV4M v => exact congrArg BgpAddrs.IPV4M (LabelFree.same_id v)
  | IPV4MDT v => exact congrArg BgpAddrs.IPV4MDT (LabelFree.same_id v)
  | IPV4MDTP v => exact congrArg BgpAddrs.IPV4MDTP (LabelFree.same_id v)
  | IPV6U v => exact congrArg BgpAddrs.IPV6U (LabelFree.same_id v)
  | IPV6M v => exact congrArg BgpAddrs.IPV6M (LabelFree.same_id v)
  | IPV6MDT v => exact congrArg BgpAddrs.IPV6MDT (LabelFree.same_id v)
  | IPV6MDTP v => exact congrArg BgpAddrs.IPV6MDTP (LabelFree.same_id v)
  | MVPN v => exact congrArg BgpAddrs.MVPN (LabelFree.same_id v)
  | FS4U v => exact congrArg BgpAddrs.FS4U (LabelFree.same_id v)
  | FS6U v => exact congrArg BgpAddrs.FS6U (LabelFree.same_id v)
  | FSV4U v => exact congrArg BgpAddrs.FSV4U (LabelFree.same_id v)
  | IPV4UP v => exact congrArg BgpAddrs.IPV4UP (LabelFree.same_id v)
  | IPV4MP v => exact congrArg BgpAddrs.IPV4MP (LabelFree.same_id v)
  | IPV6UP v => exact congrArg BgpAddrs.IPV6UP (LabelFree.same_id v)
  | IPV6MP v => exact congrArg BgpAddrs.IPV6MP (LabelFree.same_id v)

/-! ## Path attributes -/

namespace BgpAttrItem

/-- The attribute of a variant; an attribute set is left empty. -/
def ofFlat :
    ((((BgpOrigin ⊕ BgpASpath) ⊕ BgpNextHop) ⊕ (BgpMED ⊕ BgpLocalpref)) ⊕ ((BgpAtomicAggregate ⊕ BgpAggregatorAS) ⊕
    (BgpCommunityList ⊕ BgpOriginatorID))) ⊕ ((((BgpClusterList ⊕ BgpMPUpdates) ⊕ BgpMPWithdraws) ⊕
    (BgpExtCommunityList ⊕ BgpLargeCommunityList)) ⊕ ((BgpPMSITunnel ⊕ Unit) ⊕ (BgpConnector ⊕ BgpAttrUnknown))) → BgpAttrItem
  | .inl (.inl (.inl (.inl (.inl x)))) => .Origin x
  | .inl (.inl (.inl (.inl (.inr x)))) => .ASPath x
  | .inl (.inl (.inl (.inr x))) => .NextHop x
  | .inl (.inl (.inr (.inl x))) => .MED x
  | .inl (.inl (.inr (.inr x))) => .LocalPref x
  | .inl (.inr (.inl (.inl x))) => .AtomicAggregate x
  | .inl (.inr (.inl (.inr x))) => .AggregatorAS x
  | .inl (.inr (.inr (.inl x))) => .CommunityList x
  | .inl (.inr (.inr (.inr x))) => .OriginatorID x
  | .inr (.inl (.inl (.inl (.inl x)))) => .ClusterList x
  | .inr (.inl (.inl (.inl (.inr x)))) => .MPUpdates x
  | .inr (.inl (.inl (.inr x))) => .MPWithdraws x
  | .inr (.inl (.inr (.inl x))) => .ExtCommunityList x
  | .inr (.inl (.inr (.inr x))) => .LargeCommunityList x
  | .inr (.inr (.inl (.inl x))) => .PMSITunnel x
  | .inr (.inr (.inl (.inr ()))) => .AttrSet 0 []
  | .inr (.inr (.inr (.inl x))) => .Connector x
  | .inr (.inr (.inr (.inr x))) => .Unknown x

/-- Whether an attribute is an attribute set. -/
def isSet : BgpAttrItem → Bool
  | .AttrSet _ _ => true
  | _ => false

theorem ofFlat_flat {a : BgpAttrItem} (h : a.isSet = false) : ofFlat a.flat = a := by
  cases a <;> first | rfl | simp [isSet] at h

theorem flat_inj {a b : BgpAttrItem} (ha : a.isSet = false) (h : a.flat = b.flat) : a = b := by
  have e := congrArg ofFlat h
  rw [ofFlat_flat ha] at e
  cases hb : b.isSet with
  | false => rw [e, ofFlat_flat hb]
  | true =>
    cases b <;> simp [isSet] at hb
    rw [e] at ha; simp [isSet, flat, ofFlat] at ha

theorem isSet_bare (f : BgpAS → BgpAS) (a : BgpAttrItem) : (bareAttr f a).isSet = a.isSet := by
  cases a <;> simp [bareAttr, isSet]

theorem asNumber_eq (a : BgpAS) : Der.same a = asNumber a := by
  change (⟨a.tonumb⟩ : BgpAS) = asNumber a
  unfold asNumber BgpAS.tonumb
  have h : (a.value &&& 0xffff = 0) ↔ a.value.toNat % 65536 = 0 := by
    rw [← BitVec.toNat_inj, BitVec.toNat_and]
    change a.value.toNat &&& (2 ^ 16 - 1) = 0 ↔ _
    rw [Nat.and_two_pow_sub_one_eq_mod]
  by_cases h1 : a.value.toNat % 65536 = 0
  · rw [if_pos h1, if_pos (h.2 h1)]
    congr 1
    apply BitVec.eq_of_toNat_eq
    rw [BitVec.toNat_ushiftRight, Nat.shiftRight_eq_div_pow, BitVec.toNat_ofNat,
      Nat.mod_eq_of_lt (by have := a.value.isLt; omega)]
  · rw [if_neg h1, if_neg (fun h0 => h1 (h.1 h0))]

theorem flat_unl (a : BgpAttrItem) : (bareAttr (fun x => x) a).flat = Der.unl a.flat := by
  cases a with
  | AttrSet n l => rfl
  | ASPath x => rfl
  | MPUpdates x =>
    exact congrArg (fun y => flat (.MPUpdates y)) (congr (congrArg BgpMPUpdates.mk (LabelFree.unl_id x.nexthop).symm)
      (addrs_unl x.addrs).symm)
  | MPWithdraws x => exact congrArg (fun y => flat (.MPWithdraws ⟨y⟩)) (addrs_unl x.addrs).symm
  | PMSITunnel x =>
    exact congrArg (fun y => flat (.PMSITunnel { x with label := noLabels, tunnelAttribute := y }))
      (LabelFree.unl_id x.tunnelAttribute).symm
  | Origin x => exact congrArg (fun y => flat (.Origin y)) (LabelFree.unl_id x).symm
  | NextHop x => exact congrArg (fun y => flat (.NextHop y)) (LabelFree.unl_id x).symm
  | MED x => exact congrArg (fun y => flat (.MED y)) (LabelFree.unl_id x).symm
  | LocalPref x => exact congrArg (fun y => flat (.LocalPref y)) (LabelFree.unl_id x).symm
  | AtomicAggregate x => exact congrArg (fun y => flat (.AtomicAggregate y)) (LabelFree.unl_id x).symm
  | AggregatorAS x => exact congrArg (fun y => flat (.AggregatorAS y)) (LabelFree.unl_id x).symm
  | CommunityList x => exact congrArg (fun y => flat (.CommunityList y)) (LabelFree.unl_id x).symm
  | OriginatorID x => exact congrArg (fun y => flat (.OriginatorID y)) (LabelFree.unl_id x).symm
  | ClusterList x => exact congrArg (fun y => flat (.ClusterList y)) (LabelFree.unl_id x).symm
  | ExtCommunityList x => exact congrArg (fun y => flat (.ExtCommunityList y)) (LabelFree.unl_id x).symm
  | LargeCommunityList x => exact congrArg (fun y => flat (.LargeCommunityList y)) (LabelFree.unl_id x).symm
  | Connector x => exact congrArg (fun y => flat (.Connector y)) (LabelFree.unl_id x).symm
  | Unknown x => exact congrArg (fun y => flat (.Unknown y)) (LabelFree.unl_id x).symm

theorem flat_same (a : BgpAttrItem) : (bareAttr asNumber a).flat = Der.same a.flat := by
  cases a with
  | AttrSet n l => rfl
  | ASPath x => exact congrArg (fun y => flat (.ASPath y)) (congrArg BgpASpath.mk (map_same _ asNumber_eq x.value).symm)
  | MPUpdates x =>
    exact congrArg (fun y => flat (.MPUpdates y)) (congr (congrArg BgpMPUpdates.mk (LabelFree.same_id x.nexthop).symm)
      (addrs_same x.addrs).symm)
  | MPWithdraws x => exact congrArg (fun y => flat (.MPWithdraws ⟨y⟩)) (addrs_same x.addrs).symm
  | PMSITunnel x =>
    exact congrArg (fun y => flat (.PMSITunnel { x with label := noLabels, tunnelAttribute := y }))
      (LabelFree.same_id x.tunnelAttribute).symm
  | Origin x => exact congrArg (fun y => flat (.Origin y)) (LabelFree.same_id x).symm
  | NextHop x => exact congrArg (fun y => flat (.NextHop y)) (LabelFree.same_id x).symm
  | MED x => exact congrArg (fun y => flat (.MED y)) (LabelFree.same_id x).symm
  | LocalPref x => exact congrArg (fun y => flat (.LocalPref y)) (LabelFree.same_id x).symm
  | AtomicAggregate x => exact congrArg (fun y => flat (.AtomicAggregate y)) (LabelFree.same_id x).symm
  | AggregatorAS x => exact congrArg (fun y => flat (.AggregatorAS y)) (LabelFree.same_id x).symm
  | CommunityList x => exact congrArg (fun y => flat (.CommunityList y)) (LabelFree.same_id x).symm
  | OriginatorID x => exact congrArg (fun y => flat (.OriginatorID y)) (LabelFree.same_id x).symm
  | ClusterList x => exact congrArg (fun y => flat (.ClusterList y)) (LabelFree.same_id x).symm
  | ExtCommunityList x => exact congrArg (fun y => flat (.ExtCommunityList y)) (LabelFree.same_id x).symm
  | LargeCommunityList x => exact congrArg (fun y => flat (.LargeCommunityList y)) (LabelFree.same_id x).symm
  | Connector x => exact congrArg (fun y => flat (.Connector y)) (LabelFree.same_id x).symm
  | Unknown x => exact congrArg (fun y => flat (.Unknown y)) (LabelFree.same_id x).symm


theorem cmp_set (n m : U32) (l k : List BgpAttrItem) :
    cmp (.AttrSet n l) (.AttrSet m k) = (ROrd.cmp n m).then (cmps l k) := by rw [cmp]

theorem cmp_flat {a b : BgpAttrItem} (h : a.isSet = false ∨ b.isSet = false) : cmp a b = ROrd.cmp a.flat b.flat := by
  rw [cmp]
  rintro n l m k rfl rfl
  simp [isSet] at h

theorem eq_set (n m : U32) (l k : List BgpAttrItem) :
    eq (.AttrSet n l) (.AttrSet m k) = (ROrd.eq n m && eqs l k) := by rw [eq]

theorem eq_flat {a b : BgpAttrItem} (h : a.isSet = false ∨ b.isSet = false) : eq a b = ROrd.eq a.flat b.flat := by
  rw [eq]
  rintro n l m k rfl rfl
  simp [isSet] at h

theorem cmps_eq (l k : List BgpAttrItem) : cmps l k = cmpList cmp l k := by
  induction l generalizing k with
  | nil => cases k <;> rw [cmps, cmpList]
  | cons x l ih => cases k <;> rw [cmps, cmpList]; rw [ih]

theorem eqs_eq (l k : List BgpAttrItem) : eqs l k = eqList eq l k := by
  induction l generalizing k with
  | nil => cases k <;> rw [eqs, eqList] <;> simp
  | cons x l ih =>
    cases k with
    | nil => rw [eqs, eqList] <;> simp
    | cons y k => rw [eqs, eqList, ih]

theorem hashes_eq (l : List BgpAttrItem) : hashes l = l.flatMap hash := by
  induction l with
  | nil => rw [hashes]; rfl
  | cons x l ih => rw [hashes, ih]; rfl

theorem bareAttrs_eq (f : BgpAS → BgpAS) (l : List BgpAttrItem) : bareAttrs f l = l.map (bareAttr f) := by
  induction l with
  | nil => rw [bareAttrs]; rfl
  | cons x l ih => rw [bareAttrs, ih]; rfl

/-- A set and something else never compare as equal. -/
theorem cmp_set_ne {a b : BgpAttrItem} (ha : a.isSet = true) (hb : b.isSet = false) : ROrd.cmp a.flat b.flat ≠ .eq := by
  rw [ne_eq, Der.cmp_eq, ← flat_unl, ← flat_unl]
  intro h
  have := flat_inj (by rw [isSet_bare]; exact hb) h.symm
  have h2 := congrArg isSet this
  rw [isSet_bare, isSet_bare, ha, hb] at h2
  cases h2

theorem flat_of_set {a b : BgpAttrItem} (ha : a.isSet = true) (hb : b.isSet = true) : a.flat = b.flat := by
  cases a <;> simp [isSet] at ha
  cases b <;> simp [isSet] at hb
  rfl

end BgpAttrItem

/-! Slices of values of which a property is known for the members only. -/

theorem cmpList_oriented {A : Type} {cmp : A → A → Ordering} (l r : List A)
    (h : ∀ a ∈ l, ∀ b ∈ r, cmp a b = (cmp b a).swap) : cmpList cmp l r = (cmpList cmp r l).swap := by
  induction l generalizing r with
  | nil => cases r <;> rfl
  | cons x l ih =>
    cases r with
    | nil => rfl
    | cons y r =>
      exact then_oriented _ _ _ _ (h x (by simp) y (by simp))
        (ih r fun a ha b hb => h a (by simp [ha]) b (by simp [hb]))

theorem then_trans' {p q r p' q' r' x y z : Ordering} (o1 : p = p'.swap) (o2 : q = q'.swap) (o3 : r = r'.swap)
    (t1 : p ≠ .gt → q ≠ .gt → r ≠ .gt) (t2 : q ≠ .gt → r' ≠ .gt → p' ≠ .gt) (t3 : r' ≠ .gt → p ≠ .gt → q' ≠ .gt)
    (h : x ≠ .gt → y ≠ .gt → z ≠ .gt) : p.then x ≠ .gt → q.then y ≠ .gt → r.then z ≠ .gt := by
  subst o1 o2 o3
  cases p' <;> cases q' <;> cases r' <;> simp_all [Ordering.swap, Ordering.then]

theorem cmpList_trans {A : Type} {cmp : A → A → Ordering} {P : A → Prop}
    (ho : ∀ a b, P a → P b → cmp a b = (cmp b a).swap)
    (ht : ∀ a b c, P a → P b → P c → cmp a b ≠ .gt → cmp b c ≠ .gt → cmp a c ≠ .gt) (l r s : List A)
    (hl : ∀ a ∈ l, P a) (hr : ∀ a ∈ r, P a) (hs : ∀ a ∈ s, P a) :
    cmpList cmp l r ≠ .gt → cmpList cmp r s ≠ .gt → cmpList cmp l s ≠ .gt := by
  induction l generalizing r s with
  | nil => cases s <;> simp [cmpList]
  | cons x l ih =>
    cases r with
    | nil => simp [cmpList]
    | cons y r =>
      cases s with
      | nil => simp [cmpList]
      | cons z s =>
        have px := hl x (by simp); have py := hr y (by simp); have pz := hs z (by simp)
        exact then_trans' (ho x y px py) (ho y z py pz) (ho x z px pz) (ht x y z px py pz) (ht y z x py pz px)
          (ht z x y pz px py)
          (ih r s (fun a h => hl a (by simp [h])) (fun a h => hr a (by simp [h])) fun a h => hs a (by simp [h]))

theorem cmpList_eq {A B : Type} {cmp : A → A → Ordering} {u : A → B} (l r : List A)
    (h : ∀ a ∈ l, ∀ b, cmp a b = .eq ↔ u a = u b) : cmpList cmp l r = .eq ↔ l.map u = r.map u := by
  induction l generalizing r with
  | nil => cases r <;> simp [cmpList]
  | cons x l ih =>
    cases r with
    | nil => simp [cmpList]
    | cons y r =>
      rw [cmpList, then_eq_iff, h x (by simp), ih r fun a ha => h a (by simp [ha]), List.map_cons, List.map_cons,
        List.cons.injEq]

theorem eqList_eq {A B : Type} {eq : A → A → Bool} {u : A → B} (l r : List A)
    (h : ∀ a ∈ l, ∀ b, eq a b = true ↔ u a = u b) : eqList eq l r = true ↔ l.map u = r.map u := by
  induction l generalizing r with
  | nil => cases r <;> simp [eqList]
  | cons x l ih =>
    cases r with
    | nil => simp [eqList]
    | cons y r =>
      rw [eqList, Bool.and_eq_true, h x (by simp), ih r fun a ha => h a (by simp [ha]), List.map_cons,
        List.map_cons, List.cons.injEq]

theorem flatMap_eq {A B : Type} {hash : A → List Nat} {u : A → B} (l r : List A)
    (h : ∀ a ∈ l, ∀ b, u a = u b → hash a = hash b) (he : l.map u = r.map u) :
    l.length :: l.flatMap hash = r.length :: r.flatMap hash := by
  have hl : l.length = r.length := by simpa using congrArg List.length he
  rw [hl]
  congr 1
  clear hl
  induction l generalizing r with
  | nil => cases r <;> simp_all
  | cons x l ih =>
    cases r with
    | nil => simp at he
    | cons y r =>
      rw [List.map_cons, List.map_cons, List.cons.injEq] at he
      rw [List.flatMap_cons, List.flatMap_cons, h x (by simp) y he.1, ih r (fun a ha => h a (by simp [ha])) he.2]

namespace BgpAttrItem

theorem size_mem {n : U32} {l : List BgpAttrItem} {x : BgpAttrItem} (h : x ∈ l) :
    sizeOf x < sizeOf (BgpAttrItem.AttrSet n l) := by
  have := List.sizeOf_lt_of_mem h
  simp only [AttrSet.sizeOf_spec]; omega

theorem isSet_cases (a : BgpAttrItem) : a.isSet = false ∨ ∃ n l, a = .AttrSet n l := by
  cases a <;> simp [isSet]

theorem total (N : Nat) :
    (∀ a b : BgpAttrItem, sizeOf a < N → sizeOf b < N → cmp a b = (cmp b a).swap) ∧
    (∀ a b c : BgpAttrItem, sizeOf a < N → sizeOf b < N → sizeOf c < N →
      cmp a b ≠ .gt → cmp b c ≠ .gt → cmp a c ≠ .gt) := by
  induction N with
  | zero => exact ⟨fun _ _ h => absurd h (by omega), fun _ _ _ h => absurd h (by omega)⟩
  | succ N ih =>
    obtain ⟨ho, ht⟩ := ih
    constructor
    · intro a b ha hb
      rcases isSet_cases a with h | ⟨n, l, rfl⟩
      · rw [cmp_flat (.inl h), cmp_flat (.inr h)]; exact Der.oriented _ _
      · rcases isSet_cases b with h | ⟨m, k, rfl⟩
        · rw [cmp_flat (.inr h), cmp_flat (.inl h)]; exact Der.oriented _ _
        · rw [cmp_set, cmp_set, cmps_eq, cmps_eq]
          exact then_oriented _ _ _ _ (Der.oriented _ _) (cmpList_oriented _ _ fun x hx y hy =>
            ho x y (by have := size_mem (n := n) hx; omega) (by have := size_mem (n := m) hy; omega))
    · intro a b c ha hb hc
      rcases isSet_cases a with h1 | ⟨n, l, rfl⟩ <;> rcases isSet_cases b with h2 | ⟨m, k, rfl⟩ <;>
        rcases isSet_cases c with h3 | ⟨o, j, rfl⟩
      · rw [cmp_flat (.inl h1), cmp_flat (.inl h2), cmp_flat (.inl h1)]; exact Der.trans _ _ _
      · rw [cmp_flat (.inl h1), cmp_flat (.inl h2), cmp_flat (.inl h1)]; exact Der.trans _ _ _
      · rw [cmp_flat (.inl h1), cmp_flat (.inr h3), cmp_flat (.inl h1)]; exact Der.trans _ _ _
      · rw [cmp_flat (.inl h1), cmp_flat (.inl h1)]
        intro h4 _
        rw [flat_of_set (a := .AttrSet o j) (b := .AttrSet m k) rfl rfl]; exact h4
      · rw [cmp_flat (.inr h2), cmp_flat (.inl h2), cmp_flat (.inr h3)]; exact Der.trans _ _ _
      · rw [cmp_flat (.inr h2), cmp_flat (.inl h2), flat_of_set (a := .AttrSet o j) (b := .AttrSet n l) rfl rfl]
        intro h4 h5
        rw [Der.oriented] at h5
        have := cmp_set_ne (a := .AttrSet n l) rfl h2
        cases hx : ROrd.cmp (flat (.AttrSet n l)) b.flat <;> rw [hx] at h4 h5 this <;>
          first | exact absurd rfl this | exact absurd rfl h4 | exact absurd rfl h5
      · rw [cmp_flat (.inr h3), cmp_flat (.inr h3)]
        intro _ h4
        rw [flat_of_set (a := .AttrSet n l) (b := .AttrSet m k) rfl rfl]; exact h4
      · rw [cmp_set, cmp_set, cmp_set, cmps_eq, cmps_eq, cmps_eq]
        exact then_trans _ _ _ (cmpList_trans (P := fun x => sizeOf x < N) ho ht _ _ _
          (fun x hx => by have := size_mem (n := n) hx; omega) (fun x hx => by have := size_mem (n := m) hx; omega)
          fun x hx => by have := size_mem (n := o) hx; omega)

theorem cmp_eq_iff (N : Nat) : ∀ a b : BgpAttrItem, sizeOf a < N →
    (cmp a b = .eq ↔ bareAttr (fun x => x) a = bareAttr (fun x => x) b) := by
  induction N with
  | zero => exact fun _ _ h => absurd h (by omega)
  | succ N ih =>
    intro a b ha
    by_cases h : a.isSet = false ∨ b.isSet = false
    · rw [cmp_flat h, Der.cmp_eq, ← flat_unl, ← flat_unl]
      refine ⟨fun h0 => ?_, fun h0 => congrArg flat h0⟩
      rcases h with h | h
      · exact flat_inj (by rw [isSet_bare]; exact h) h0
      · exact (flat_inj (by rw [isSet_bare]; exact h) h0.symm).symm
    · rcases isSet_cases a with h1 | ⟨n, l, rfl⟩
      · exact absurd (.inl h1) h
      rcases isSet_cases b with h2 | ⟨m, k, rfl⟩
      · exact absurd (.inr h2) h
      rw [cmp_set, cmps_eq, then_eq_iff, bareAttr, bareAttr, AttrSet.injEq, bareAttrs_eq, bareAttrs_eq, Der.cmp_eq,
        cmpList_eq l k fun x hx y => ih x y (by have := size_mem (n := n) hx; omega)]
      exact Iff.rfl

theorem eq_iff (N : Nat) : ∀ a b : BgpAttrItem, sizeOf a < N →
    (eq a b = true ↔ bareAttr asNumber a = bareAttr asNumber b) := by
  induction N with
  | zero => exact fun _ _ h => absurd h (by omega)
  | succ N ih =>
    intro a b ha
    by_cases h : a.isSet = false ∨ b.isSet = false
    · rw [eq_flat h, Der.eq_same, ← flat_same, ← flat_same]
      refine ⟨fun h0 => ?_, fun h0 => congrArg flat h0⟩
      rcases h with h | h
      · exact flat_inj (by rw [isSet_bare]; exact h) h0
      · exact (flat_inj (by rw [isSet_bare]; exact h) h0.symm).symm
    · rcases isSet_cases a with h1 | ⟨n, l, rfl⟩
      · exact absurd (.inl h1) h
      rcases isSet_cases b with h2 | ⟨m, k, rfl⟩
      · exact absurd (.inr h2) h
      rw [eq_set, eqs_eq, Bool.and_eq_true, bareAttr, bareAttr, AttrSet.injEq, bareAttrs_eq, bareAttrs_eq,
        Der.eq_same, eqList_eq l k fun x hx y => ih x y (by have := size_mem (n := n) hx; omega)]
      exact Iff.rfl

theorem hash_flat {a : BgpAttrItem} (h : a.isSet = false) : hash a = ROrd.hash a.flat := by
  rw [hash]
  rintro n l rfl
  simp [isSet] at h

theorem hash_set (n : U32) (l : List BgpAttrItem) : hash (.AttrSet n l) =
    ROrd.hash (BgpAttrItem.AttrSet n l).flat ++ (ROrd.hash n ++ (l.length :: l.flatMap hash)) := by
  rw [hash, hashes_eq]

theorem hash_unl (N : Nat) : ∀ a b : BgpAttrItem, sizeOf a < N →
    bareAttr (fun x => x) a = bareAttr (fun x => x) b → hash a = hash b := by
  induction N with
  | zero => exact fun _ _ h => absurd h (by omega)
  | succ N ih =>
    intro a b ha he
    have hs : a.isSet = b.isSet := by
      have := congrArg isSet he; rwa [isSet_bare, isSet_bare] at this
    rcases isSet_cases a with h1 | ⟨n, l, rfl⟩
    · rw [hash_flat h1, hash_flat (hs ▸ h1)]
      exact Der.hash_unl _ _ (by rw [← flat_unl, ← flat_unl, he])
    · rcases isSet_cases b with h2 | ⟨m, k, rfl⟩
      · rw [h2] at hs; cases hs
      rw [bareAttr, bareAttr, AttrSet.injEq, bareAttrs_eq, bareAttrs_eq] at he
      rw [hash_set, hash_set, he.1,
        flatMap_eq l k (fun x hx y => ih x y (by have := size_mem (n := n) hx; omega)) he.2]
      rfl

end BgpAttrItem

instance : Der BgpAttrItem where
  unl := bareAttr fun x => x
  same := bareAttr asNumber
  oriented a b := (BgpAttrItem.total (sizeOf a + sizeOf b + 1)).1 a b (by omega) (by omega)
  trans a b c := (BgpAttrItem.total (sizeOf a + sizeOf b + sizeOf c + 1)).2 a b c (by omega) (by omega) (by omega)
  cmp_eq a b := BgpAttrItem.cmp_eq_iff (sizeOf a + 1) a b (by omega)
  eq_same a b := BgpAttrItem.eq_iff (sizeOf a + 1) a b (by omega)
  hash_unl a b := BgpAttrItem.hash_unl (sizeOf a + 1) a b (by omega)

end Zbgp
