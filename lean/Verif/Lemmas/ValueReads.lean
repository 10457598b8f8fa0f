import Verif.Lemmas.ReadsAll
import Verif.Lemmas.ValueForms

/-! # Attribute values are read exactly as `ValueRead` and `ValueCrash` say -/

namespace Zbgp

open Spec

attribute [-simp] List.length_flatMap List.length_flatten

/-! ## Lists of elements of a fixed size -/

/-- any octets are whole elements and a rest -/
theorem elements_exist {α : Type} (k : Nat) (hk : 0 < k) (wire : α → Bytes) (P : α → Prop)
    (h : ∀ v : Bytes, k ≤ v.length → ∃ a, P a ∧ v = wire a ++ v.drop k) (v : Bytes) :
    ∃ (l : List α) (t : Bytes), v = l.flatMap wire ++ t ∧ t.length < k ∧ ∀ a ∈ l, P a := by
  induction hn : v.length using Nat.strongRecOn generalizing v with
  | ind n ih =>
    by_cases hlt : v.length < k
    · exact ⟨[], v, rfl, hlt, by simp⟩
    · obtain ⟨l, t, e, ht, hl⟩ := ih (v.drop k).length (by simp; omega) (v.drop k) rfl
      obtain ⟨a, ha, ea⟩ := h v (by omega)
      refine ⟨a :: l, t, ?_, ht, ?_⟩
      · rw [List.flatMap_cons, List.append_assoc, ← e]; exact ea
      · intro b hb
        rcases List.mem_cons.1 hb with rfl | hb
        · exact ha
        · exact hl b hb

theorem elements_length {α : Type} (k : Nat) (wire : α → Bytes) (hw : ∀ a, (wire a).length = k) (l : List α) :
    (l.flatMap wire).length = l.length * k := by
  induction l with
  | nil => simp
  | cons a l ih => rw [List.flatMap_cons, List.length_append, hw, ih, List.length_cons, Nat.add_mul]; omega

/-! ## AS_PATH -/

theorem asPath_reads (p : BgpSessionParams) (v : Bytes) (l : List BgpAS) (h : AsPathRead p.hasAs32bit v l) :
    BgpASpath.decodeFrom p v = .ok ⟨l⟩ := by
  obtain ⟨pre, rfl, hp, hl⟩ := h
  have hlen := asns_length p.hasAs32bit l
  unfold BgpASpath.decodeFrom
  by_cases h2 : (pre ++ l.flatMap (asnWire p.hasAs32bit)).length < 2
  · rw [if_pos h2]
    have : l = [] := by
      rw [List.length_append, hlen] at h2
      rw [← List.length_eq_zero_iff]
      split at h2 <;> omega
    rw [this]
  · rw [if_neg h2]
    have : (if p.hasAs32bit = true then (pre ++ l.flatMap (asnWire p.hasAs32bit)).length % 4
        else (pre ++ l.flatMap (asnWire p.hasAs32bit)).length % 2) = pre.length := by
      rw [List.length_append, hlen]
      split
      · rename_i hp32; rw [if_pos hp32] at hp; omega
      · rename_i hp32; rw [if_neg hp32] at hp; omega
    rw [this]
    simp only [List.drop_left]
    rw [asns_reads _ _ hl]
    rfl

theorem asPath_ok_iff (p : BgpSessionParams) (v : Bytes) (y : BgpASpath) :
    BgpASpath.decodeFrom p v = .ok y ↔ AsPathRead p.hasAs32bit v y.value := by
  constructor
  · intro h
    have hex : ∃ l, AsPathRead p.hasAs32bit v l := by
      have step : ∀ as32 : Bool, ∀ v : Bytes, (if as32 then 4 else 2) ≤ v.length →
          ∃ a : BgpAS, (as32 = false → a.value.toNat < 65536) ∧ v = asnWire as32 a ++ v.drop (if as32 then 4 else 2) := by
        intro as32 v hv
        cases as32 with
        | true =>
          obtain ⟨a, e⟩ := split4 (v := v) hv
          exact ⟨⟨a⟩, by simp, e⟩
        | false =>
          obtain ⟨a, e⟩ := split2 (v := v) hv
          have ha : (a.setWidth 32).toNat = a.toNat := by
            have := a.isLt
            rw [BitVec.toNat_setWidth]
            exact Nat.mod_eq_of_lt (by omega)
          refine ⟨⟨a.setWidth 32⟩, fun _ => ?_, ?_⟩
          · show (a.setWidth 32).toNat < 65536
            rw [ha]; exact a.isLt
          · simp only [asnWire, Bool.false_eq_true, if_false]
            rw [ha]; exact e
      generalize p.hasAs32bit = as32
      have hk : 0 < (if as32 then 4 else 2 : Nat) := by split <;> omega
      obtain ⟨l, t, e, ht, hl⟩ := elements_exist _ hk (asnWire as32) _ (step as32)
        (v.drop (v.length % (if as32 then 4 else 2)))
      have hlen := asns_length as32 l
      have h1 := congrArg List.length e
      rw [List.length_append, hlen, List.length_drop] at h1
      have ht0 : t = [] := by
        rw [← List.length_eq_zero_iff]
        cases as32
        · simp only [Bool.false_eq_true, if_false] at h1 ht
          omega
        · simp only [if_true] at h1 ht
          omega
      subst ht0
      refine ⟨l, v.take (v.length % (if as32 then 4 else 2)), ?_, ?_, fun h a ha => hl a ha h⟩
      · rw [List.append_nil] at e
        rw [← e, List.take_append_drop]
      · rw [List.length_take]
        have := Nat.mod_lt v.length hk
        omega
    obtain ⟨l, hl⟩ := hex
    rw [asPath_reads p v l hl] at h
    cases h
    exact hl
  · exact asPath_reads p v y.value

/-! ## Communities -/

theorem ascending_unique {α : Type} {lt : α → α → Bool} {num : α → Nat} (h : OrderBy lt num) {s l : List α}
    (hs : Ascending num s) (hm : ∀ c, c ∈ s ↔ c ∈ l) : setOf lt l = s := by
  rw [← setOf_congr h s l hm, setOf_self h s hs]

theorem split_community {v : Bytes} (h : 4 ≤ v.length) : ∃ c, True ∧ v = communityWire c ++ v.drop 4 := by
  obtain ⟨a, e⟩ := split4 h
  exact ⟨⟨a⟩, trivial, e⟩

theorem split_largeCommunity {v : Bytes} (h : 12 ≤ v.length) : ∃ c, True ∧ v = largeCommunityWire c ++ v.drop 12 := by
  obtain ⟨a, e⟩ := split4 (v := v) (by omega)
  obtain ⟨b, e1⟩ := split4 (v := v.drop 4) (by simp; omega)
  obtain ⟨c, e2⟩ := split4 (v := (v.drop 4).drop 4) (by simp; omega)
  refine ⟨⟨a, b, c⟩, trivial, ?_⟩
  simp only [largeCommunityWire, List.append_assoc]
  rw [List.drop_drop, List.drop_drop] at e2
  rw [List.drop_drop] at e1
  rw [← e2, ← e1]
  exact e

theorem split_extCommunity {v : Bytes} (h : 8 ≤ v.length) : ∃ c, True ∧ v = extCommunityWire c ++ v.drop 8 := by
  match v, h with
  | t :: s :: v, h =>
    obtain ⟨a, e⟩ := split2 (v := v) (by simp at h; omega)
    obtain ⟨b, e1⟩ := split4 (v := v.drop 2) (by simp at h ⊢; omega)
    refine ⟨⟨t, s, a, b⟩, trivial, ?_⟩
    rw [List.drop_drop] at e1
    simp only [extCommunityWire, List.append_assoc, List.cons_append, List.nil_append, List.drop_succ_cons]
    rw [← e1, ← e]

theorem communities_ok_iff (v : Bytes) (y : BgpCommunityList) :
    BgpCommunityList.decodeFrom v = .ok y ↔ MembersRead communityWire communityNumber 0 v y.value := by
  constructor
  · intro h
    by_cases hd : 4 ∣ v.length
    · obtain ⟨l, t, rfl, ht, -⟩ := elements_exist 4 (by omega) communityWire (fun _ => True)
        (fun v h => split_community h) v
      have ht0 : t = [] := by
        rw [List.length_append, communities_length] at hd
        rw [← List.length_eq_zero_iff]
        omega
      subst ht0
      rw [List.append_nil, communities_decode] at h
      cases h
      exact ⟨l, [], rfl, by simp, setOf_ascending community_order l, setOf_mem community_order l⟩
    · unfold BgpCommunityList.decodeFrom at h
      rw [chunks_panic 4 (by omega) _ (fun b hb => by
        unfold BgpCommunity.decodeFrom
        rw [if_pos hb, getn32_ok (by omega)]
        exact ⟨_, rfl⟩) v hd] at h
      cases h
  · rintro ⟨l, t, rfl, ht, hs, hm⟩
    have ht0 : t = [] := by rw [← List.length_eq_zero_iff]; omega
    subst ht0
    rw [List.append_nil, communities_decode, ascending_unique community_order hs hm]

theorem largeCommunity_len (c : BgpLargeCommunity) : (largeCommunityWire c).length = 12 := by simp [largeCommunityWire]

theorem largeCommunities_ok_iff (v : Bytes) (y : BgpLargeCommunityList) :
    BgpLargeCommunityList.decodeFrom v = .ok y ↔ MembersRead largeCommunityWire largeCommunityNumber 0 v y.value := by
  constructor
  · intro h
    by_cases hd : 12 ∣ v.length
    · obtain ⟨l, t, rfl, ht, -⟩ := elements_exist 12 (by omega) largeCommunityWire (fun _ => True)
        (fun v h => split_largeCommunity h) v
      have ht0 : t = [] := by
        rw [List.length_append, elements_length 12 _ largeCommunity_len] at hd
        rw [← List.length_eq_zero_iff]
        omega
      subst ht0
      rw [List.append_nil, largeCommunities_decode] at h
      cases h
      exact ⟨l, [], rfl, by simp, setOf_ascending largeCommunity_order l, setOf_mem largeCommunity_order l⟩
    · unfold BgpLargeCommunityList.decodeFrom at h
      rw [chunks_panic 12 (by omega) _ (fun b hb => by
        unfold BgpLargeCommunity.decodeFrom
        rw [if_pos hb, rslice_ok (by omega) (by omega), rslice_ok (by omega) (by omega), rslice_ok (by omega) (by omega)]
        simp only [Res.ok_bind]
        rw [getn32_ok (by simp; omega), getn32_ok (by simp; omega), getn32_ok (by simp; omega)]
        exact ⟨_, rfl⟩) v hd] at h
      cases h
  · rintro ⟨l, t, rfl, ht, hs, hm⟩
    have ht0 : t = [] := by rw [← List.length_eq_zero_iff]; omega
    subst ht0
    rw [List.append_nil, largeCommunities_decode, ascending_unique largeCommunity_order hs hm]

theorem extCommunities_ok_iff (v : Bytes) (y : BgpExtCommunityList) :
    BgpExtCommunityList.decodeFrom v = .ok y ↔ MembersRead extCommunityWire extCommunityNumber 7 v y.value := by
  constructor
  · intro h
    obtain ⟨l, t, rfl, ht, -⟩ := elements_exist 8 (by omega) extCommunityWire (fun _ => True)
      (fun v h => split_extCommunity h) v
    rw [extCommunities_decode l t (by omega)] at h
    cases h
    exact ⟨l, t, rfl, by omega, setOf_ascending extCommunity_order l, setOf_mem extCommunity_order l⟩
  · rintro ⟨l, t, rfl, ht, hs, hm⟩
    rw [extCommunities_decode l t ht, ascending_unique extCommunity_order hs hm]

/-! ## Multiprotocol NLRI -/

theorem nexthop_length {f : Family} {nh : BgpAddr} (h : NexthopKind f nh) : (nexthopWire nh).length = nexthopSize f := by
  cases f <;> cases nh <;> first | exact h.elim | simp [nexthopWire, nexthopSize, rdBody]

theorem be_inj_bv {w n : Nat} (hw : w = 8 * n) {a b : BitVec w} (h : be n a.toNat = be n b.toNat) : a = b := by
  have := congrArg unbe h
  rw [unbe_be, unbe_be] at this
  have ha := a.isLt
  have hb := b.isLt
  have h2 : 256 ^ n = 2 ^ w := by rw [hw, Nat.pow_mul]
  apply BitVec.eq_of_toNat_eq
  rwa [h2, Nat.mod_eq_of_lt ha, Nat.mod_eq_of_lt hb] at this

theorem nexthop_unique {f : Family} {a b : BgpAddr} {r : Bytes} (ha : NexthopKind f a) (hb : NexthopKind f b)
    (h1 : nexthopWire a <+: r) (h2 : nexthopWire b <+: r) : a = b := by
  have he : nexthopWire a = nexthopWire b := by
    obtain ⟨t, rfl⟩ := h1
    obtain ⟨t', e⟩ := h2
    have hl := (nexthop_length ha).trans (nexthop_length hb).symm
    exact ((List.append_inj e hl.symm).1).symm
  cases f <;> cases a <;> first
    | exact ha.elim
    | (cases b <;> first
        | exact hb.elim
        | (simp only [nexthopWire] at he
           first
             | (rw [be_inj_bv rfl he]; done)
             | (rename_i x y
                obtain ⟨⟨rh, rl⟩, ad⟩ := x
                obtain ⟨⟨rh', rl'⟩, ad'⟩ := y
                simp only [rdBody, List.append_assoc] at he
                obtain ⟨e1, he⟩ := List.append_inj he (by simp)
                obtain ⟨e2, e3⟩ := List.append_inj he (by simp)
                rw [be_inj_bv rfl e1, be_inj_bv rfl e2, be_inj_bv rfl e3])))

theorem reachTail_ok_iff (p : BgpSessionParams) (f : Family) (pre t : Bytes) (nh : BgpAddr) (c : Nat)
    (hc : pre.length ≤ c) (ht : pre.length < c → t = []) (y : BgpMPUpdates) :
    reachTail p (familyCode f).1 (familyCode f).2 (pre ++ t) nh c = .ok y ↔
      y.nexthop = nh ∧ ∃ snpas nlri n, SnpasWF snpas ∧ t = snpasWire snpas ++ nlri ∧ AddrsRead p f nlri y.addrs n := by
  have tail : ∀ (snpas : List Bytes) (nlri : Bytes), SnpasWF snpas → t = snpasWire snpas ++ nlri →
      reachTail p (familyCode f).1 (familyCode f).2 (pre ++ t) nh c =
        (do let (ap, _) ← BgpAddrs.decodeFrom p (familyCode f).1 (familyCode f).2 nlri
            .ok ⟨nh, ap⟩) := by
    rintro snpas nlri hs rfl
    refine reachTail_wire p _ _ pre snpas hs nlri nh c ?_
    by_contra hne
    have := ht (by omega)
    simp [snpasWire] at this
  by_cases h : ∃ snpas nlri, SnpasWF snpas ∧ t = snpasWire snpas ++ nlri
  · obtain ⟨snpas, nlri, hs, e⟩ := h
    constructor
    · intro hok
      rw [tail snpas nlri hs e] at hok
      obtain ⟨⟨ap, n⟩, h1, h2⟩ := Res.bind_eq_ok.1 hok
      cases h2
      exact ⟨rfl, snpas, nlri, n, hs, e, ((addrs_exactly p f nlri).ok (ap, n)).1 h1⟩
    · rintro ⟨rfl, snpas', nlri', n, hs', e', hr⟩
      rw [tail snpas' nlri' hs' e', ((addrs_exactly p f nlri').ok (y.addrs, n)).2 hr]
      rfl
  · constructor
    · intro hok
      rw [reachTail_cut p _ _ pre t nh c hc ht fun s n hs e => h ⟨s, n, hs, e⟩] at hok
      cases hok
    · rintro ⟨-, snpas, nlri, -, hs, e, -⟩
      exact absurd ⟨snpas, nlri, hs, e⟩ h

/-- where the octets behind the next hop begin, and when the next hop is read -/
theorem nexthop_ok (p : BgpSessionParams) (f : Family) (hr : NexthopReadable f) (l : U8) (rest : Bytes) :
    (∃ nh, NexthopKind f nh ∧ nexthopWire nh <+: rest ∧
      (VpnFamily f ∨ f = .l2Vpls ∨ f = .l2Evpn ∨ nexthopSize f ≤ l.toNat) ∧
      BgpMPUpdates.decodeNexthop p (familyCode f).1 (familyCode f).2 l.toNat (familyWire f ++ l :: rest) =
        .ok (nh, 4 + if VpnFamily f then nexthopSize f else l.toNat)) ∨
    ((∀ x, BgpMPUpdates.decodeNexthop p (familyCode f).1 (familyCode f).2 l.toNat (familyWire f ++ l :: rest) ≠ .ok x) ∧
      ¬ (nexthopSize f ≤ rest.length ∧ (VpnFamily f ∨ f = .l2Vpls ∨ f = .l2Evpn ∨
        (nexthopSize f ≤ l.toNat ∧ l.toNat ≤ rest.length)))) := by
  obtain ⟨a, b, -, hfw⟩ := familyWire_cons f
  have hv : familyWire f ++ l :: rest = a :: b :: (familyCode f).2 :: l :: rest := by rw [hfw]; rfl
  rw [hv]
  by_cases hvpn : VpnFamily f
  · rw [if_pos hvpn]
    obtain ⟨h1, h2⟩ := nexthop_vpn p f hvpn a b (familyCode f).2 rest
    by_cases hlen : rest.length < nexthopSize f
    · refine .inr ⟨fun x hx => ?_, fun h => by omega⟩
      have := h1 hlen l.toNat l
      rw [hx] at this
      exact this
    · obtain ⟨nh, extra, hk, e, -, h3⟩ := h2 (by omega)
      exact .inl ⟨nh, hk, ⟨extra, e.symm⟩, .inl hvpn, h3 l.toNat l⟩
  rw [if_neg hvpn]
  by_cases hl2 : f = .l2Vpls ∨ f = .l2Evpn
  · obtain ⟨h1, h2⟩ := nexthop_l2 p f hl2 l.toNat a b (familyCode f).2 l rest
    have h4 : nexthopSize f = 4 := by rcases hl2 with rfl | rfl <;> rfl
    by_cases hlen : rest.length < 4
    · refine .inr ⟨fun x hx => ?_, fun h => by omega⟩
      have := h1 hlen
      rw [hx] at this
      exact this
    · obtain ⟨nh, extra, hk, e, h3⟩ := h2 (by omega)
      exact .inl ⟨nh, hk, ⟨extra, e.symm⟩, .inr (hl2.elim .inl fun h => .inr (.inl h)), h3⟩
  obtain ⟨h1, h2, h3⟩ := nexthop_plain p f ⟨hr, hvpn, fun h => hl2 (.inl h), fun h => hl2 (.inr h)⟩ l.toNat a b
    (familyCode f).2 l rest
  have hno : ¬ (nexthopSize f ≤ l.toNat ∧ l.toNat ≤ rest.length) → ¬ (nexthopSize f ≤ rest.length ∧
      (VpnFamily f ∨ f = .l2Vpls ∨ f = .l2Evpn ∨ (nexthopSize f ≤ l.toNat ∧ l.toNat ≤ rest.length))) := by
    rintro hn ⟨-, h | h | h | h⟩
    · exact hvpn h
    · exact hl2 (.inl h)
    · exact hl2 (.inr h)
    · exact hn h
  by_cases hlen : rest.length < l.toNat
  · refine .inr ⟨fun x hx => ?_, hno (by omega)⟩
    rw [h1 hlen] at hx
    cases hx
  · by_cases hsz : l.toNat < nexthopSize f
    · refine .inr ⟨fun x hx => ?_, hno (by omega)⟩
      have := h2 (by omega) hsz
      rw [hx] at this
      exact this
    · obtain ⟨nh, extra, hk, e, h4⟩ := h3 (by omega) (by omega)
      refine .inl ⟨nh, hk, ?_, .inr (.inr (.inr (by omega))), h4⟩
      rw [← List.take_append_drop l.toNat rest, e, List.append_assoc]
      exact List.prefix_append _ _

theorem reach_ok_iff (p : BgpSessionParams) (v : Bytes) (y : BgpMPUpdates) :
    BgpMPUpdates.decodeFrom p v = .ok y ↔ ReachRead p v y.nexthop y.addrs := by
  have tail : ∀ (f : Family) (l : U8) (rest : Bytes) (nh : BgpAddr) (k : Nat),
      reachTail p (familyCode f).1 (familyCode f).2 (familyWire f ++ l :: rest) nh (4 + k) = .ok y ↔
        y.nexthop = nh ∧ ∃ snpas nlri n, SnpasWF snpas ∧ rest.drop k = snpasWire snpas ++ nlri ∧
          AddrsRead p f nlri y.addrs n := by
    intro f l rest nh k
    obtain ⟨a, b, -, hfw⟩ := familyWire_cons f
    have e : familyWire f ++ l :: rest = (familyWire f ++ l :: rest.take k) ++ rest.drop k := by simp
    rw [e]
    refine reachTail_ok_iff p f _ _ nh _ ?_ ?_ y
    · rw [hfw]; simp; omega
    · intro h
      rw [hfw] at h
      simp at h ⊢
      omega
  constructor
  · intro h
    match v, h with
    | a :: b :: c :: l :: rest, h =>
      rcases nexthop_families p (BitVec.ofNat 16 (unbe [a, b])) c with ⟨f, hr, hf⟩ | hn
      · have e : a :: b :: c :: l :: rest = familyWire f ++ l :: rest := by
          have := be_unbe [a, b]
          simp only [List.length_cons, List.length_nil, Nat.zero_add, Nat.reduceAdd] at this
          have hlt := unbe_lt [a, b]
          simp only [List.length_cons, List.length_nil, Nat.zero_add, Nat.reduceAdd] at hlt
          unfold familyWire
          rw [hf]
          simp only [BitVec.toNat_ofNat]
          rw [Nat.mod_eq_of_lt (by omega), this]
          rfl
        rw [e, reach_eq] at h
        rw [e]
        rcases nexthop_ok p f hr l rest with ⟨nh, hk, hpre, hcond, hd⟩ | ⟨hno, -⟩
        · rw [hd, Res.ok_bind] at h
          obtain ⟨rfl, snpas, nlri, n, hs, et, ha⟩ := (tail f l rest nh _).1 h
          exact ⟨f, l, rest, snpas, nlri, n, hr, rfl, hk, hpre, hcond, et, hs, ha⟩
        · obtain ⟨x, hx, -⟩ := Res.bind_eq_ok.1 h
          exact absurd hx (hno x)
      · exfalso
        unfold BgpMPUpdates.decodeFrom at h
        rw [getn16_ok (by simp)] at h
        simp only [List.take_succ_cons, List.take_zero, Res.ok_bind, idx_cons_zero, idx_cons_succ] at h
        have := hn l.toNat (a :: b :: c :: l :: rest)
        obtain ⟨x, hx, -⟩ := Res.bind_eq_ok.1 h
        rw [hx] at this
        exact this
  · rintro ⟨f, l, rest, snpas, nlri, n, hr, rfl, hk, hpre, hcond, et, hs, ha⟩
    rw [reach_eq]
    rcases nexthop_ok p f hr l rest with ⟨nh, hk', hpre', hcond', hd⟩ | ⟨-, hno⟩
    · rw [hd, Res.ok_bind]
      exact (tail f l rest nh _).2 ⟨nexthop_unique hk hk' hpre hpre', snpas, nlri, n, hs, et, ha⟩
    · exfalso
      apply hno
      have h1 := hpre.length_le
      rw [nexthop_length hk] at h1
      refine ⟨h1, ?_⟩
      rcases hcond with h | h | h | h
      · exact .inl h
      · exact .inr (.inl h)
      · exact .inr (.inr (.inl h))
      · by_cases hvpn : VpnFamily f
        · exact .inl hvpn
        · refine .inr (.inr (.inr ⟨h, ?_⟩))
          rw [if_neg hvpn] at et
          by_contra hlt
          rw [List.drop_of_length_le (by omega)] at et
          simp [snpasWire] at et

theorem family_of_octets (a b c : U8) : (∃ f, familyWire f = [a, b, c] ∧ familyCode f = (a ++ b, c)) ∨
    ∀ f, familyCode f ≠ (a ++ b, c) := by
  by_cases h : ∃ f, familyCode f = (a ++ b, c)
  · obtain ⟨f, hf⟩ := h
    refine .inl ⟨f, ?_, hf⟩
    unfold familyWire
    rw [hf]
    have h16 := getn16_pair a b []
    rw [getn16_ok (by simp)] at h16
    simp only [List.take_succ_cons, List.take_zero, Res.ok.injEq] at h16
    rw [← h16]
    have hu := be_unbe [a, b]
    have hlt := unbe_lt [a, b]
    simp only [List.length_cons, List.length_nil, Nat.zero_add, Nat.reduceAdd] at hu hlt
    simp only [BitVec.toNat_ofNat]
    rw [Nat.mod_eq_of_lt (by omega), hu]
    rfl
  · exact .inr fun f hf => h ⟨f, hf⟩

theorem unreach_eq (p : BgpSessionParams) (f : Family) (nlri : Bytes) :
    BgpMPWithdraws.decodeFrom p (familyWire f ++ nlri) =
      (BgpAddrs.decodeFrom p (familyCode f).1 (familyCode f).2 nlri >>= fun r => .ok ⟨r.1⟩) := by
  obtain ⟨a, b, h2, hfw⟩ := familyWire_cons f
  have h16 := getn16_be (familyCode f).1.toNat ((familyCode f).2 :: nlri)
  rw [h2] at h16
  simp only [List.cons_append, List.nil_append, ofNat_toNat16] at h16
  rw [hfw]
  unfold BgpMPWithdraws.decodeFrom
  simp only [List.cons_append, List.nil_append, h16, Res.ok_bind, idx_cons_succ, idx_cons_zero, rfrom_cons_succ,
    rfrom_zero]

theorem unreach_unknown (p : BgpSessionParams) (a b c : U8) (nlri : Bytes) (h : ∀ f, familyCode f ≠ (a ++ b, c)) :
    BgpMPWithdraws.decodeFrom p (a :: b :: c :: nlri) = .err .dynStr := by
  unfold BgpMPWithdraws.decodeFrom
  rw [getn16_pair]
  simp only [Res.ok_bind, idx_cons_succ, idx_cons_zero, rfrom_cons_succ, rfrom_zero]
  rw [addrs_unknown h]
  rfl

theorem unreach_exactly (p : BgpSessionParams) (v : Bytes) :
    (∀ y, BgpMPWithdraws.decodeFrom p v = .ok y ↔ ∃ f nlri n, v = familyWire f ++ nlri ∧ AddrsRead p f nlri y.addrs n) ∧
    (BgpMPWithdraws.decodeFrom p v = .panic ↔
      v.length < 3 ∨ ∃ f nlri, v = familyWire f ++ nlri ∧ AddrsCrash p f nlri) := by
  have hfl : ∀ f, (familyWire f).length = 3 := fun f => by
    obtain ⟨a, b, -, hfw⟩ := familyWire_cons f
    rw [hfw]; rfl
  by_cases h3 : v.length < 3
  · have hp : BgpMPWithdraws.decodeFrom p v = .panic := by
      match v, h3 with
      | [], _ => rfl
      | [_], _ => rfl
      | [_, _], _ => rfl
      | _ :: _ :: _ :: _, h => simp at h; omega
    refine ⟨fun y => ?_, ?_⟩
    · rw [hp]
      refine ⟨fun h => (by cases h), ?_⟩
      rintro ⟨f, nlri, n, rfl, -⟩
      rw [List.length_append, hfl] at h3
      omega
    · exact ⟨fun _ => .inl h3, fun _ => hp⟩
  match v, h3 with
  | [], h3 => simp at h3
  | [_], h3 => simp at h3
  | [_, _], h3 => simp at h3
  | a :: b :: c :: nlri, _ =>
    have inj : ∀ f nlri', a :: b :: c :: nlri = familyWire f ++ nlri' → familyWire f = [a, b, c] ∧ nlri' = nlri := by
      intro f nlri' e
      have : [a, b, c] ++ nlri = familyWire f ++ nlri' := e
      obtain ⟨h1, h2⟩ := List.append_inj this (by rw [hfl]; rfl)
      exact ⟨h1.symm, h2.symm⟩
    rcases family_of_octets a b c with ⟨f, hw, hf⟩ | hno
    · have e : a :: b :: c :: nlri = familyWire f ++ nlri := by rw [hw]; rfl
      have hx := addrs_exactly p f nlri
      refine ⟨fun y => ?_, ?_⟩
      · rw [e, unreach_eq, Res.bind_eq_ok]
        constructor
        · rintro ⟨⟨x, n⟩, h1, h2⟩
          cases h2
          exact ⟨f, nlri, n, rfl, (hx.ok (x, n)).1 h1⟩
        · rintro ⟨f', nlri', n, e', h⟩
          rw [← e] at e'
          obtain ⟨hw', rfl⟩ := inj f' nlri' e'
          have : familyCode f' = familyCode f := by
            rw [← hw] at hw'
            unfold familyWire at hw'
            obtain ⟨h1, h2⟩ := List.append_inj hw' (by simp)
            exact Prod.ext (be_inj_bv rfl h1) (by simpa using h2)
          have hff := (addrs_exactly p f' nlri').ok (y.addrs, n)
          rw [this] at hff
          exact ⟨_, hff.2 h, rfl⟩
      · rw [e, unreach_eq, panic_bind, hx.crash]
        constructor
        · intro h; exact .inr ⟨f, nlri, rfl, h⟩
        · rintro (h | ⟨f', nlri', e', h⟩)
          · rw [List.length_append, hfl] at h; omega
          · rw [← e] at e'
            obtain ⟨hw', rfl⟩ := inj f' nlri' e'
            have : familyCode f' = familyCode f := by
              rw [← hw] at hw'
              unfold familyWire at hw'
              obtain ⟨h1, h2⟩ := List.append_inj hw' (by simp)
              exact Prod.ext (be_inj_bv rfl h1) (by simpa using h2)
            have hff := (addrs_exactly p f' nlri').crash
            rw [this, hx.crash] at hff
            exact hff.2 h
    · have hcode : ∀ f, familyWire f ≠ [a, b, c] := by
        intro f hw
        apply hno f
        unfold familyWire at hw
        have hw : be 2 (familyCode f).1.toNat ++ [(familyCode f).2] = [a, b] ++ [c] := hw
        obtain ⟨h1, h2⟩ := List.append_inj hw (by simp)
        have h16 := getn16_be (familyCode f).1.toNat []
        rw [h1, List.append_nil, getn16_pair, ofNat_toNat16] at h16
        refine Prod.ext ?_ (by simpa using h2)
        simpa using h16.symm
      refine ⟨fun y => ?_, ?_⟩
      · rw [unreach_unknown p a b c nlri hno]
        refine ⟨fun h => (by cases h), ?_⟩
        rintro ⟨f, nlri', n, e, -⟩
        exact absurd (inj f nlri' e).1 (hcode f)
      · rw [unreach_unknown p a b c nlri hno]
        refine ⟨fun h => (by cases h), ?_⟩
        rintro (h | ⟨f, nlri', e, -⟩)
        · simp at h; omega
        · exact absurd (inj f nlri' e).1 (hcode f)

theorem tailPanics_iff (p : BgpSessionParams) (f : Family) (t : Bytes) : TailPanics p f t ↔ TailCrash p f t :=
  forall₄_congr fun _ nlri _ _ => (addrs_exactly p f nlri).crash

theorem reachPanics_iff (p : BgpSessionParams) (v : Bytes) : ReachPanics p v ↔ ReachCrash p v := by
  unfold ReachPanics ReachCrash
  simp only [tailPanics_iff]

/-! ## Every attribute -/

/-- the attributes of a section, read by the decoder and as `AttrsRead` says -/
theorem attrsDec_iff (p : BgpSessionParams) (b : Bytes) (l : List BgpAttrItem)
    (hv : ∀ (code flags : U8) (v : Bytes) (x : BgpAttrItem), v.length < b.length →
      (BgpAttrItem.decodeFrom p code flags v.length v = .ok x ↔ ValueRead p code flags v x)) :
    (∃ raws : List RawAttr, b = raws.flatMap rawWire ∧ (∀ r ∈ raws, RawWF r) ∧ AttrsDec p raws l) ↔
      AttrsRead (ValueRead p) b l := by
  constructor
  · rintro ⟨raws, rfl, hr, ha⟩
    induction raws generalizing l with
    | nil =>
      have : l = [] := by simpa [AttrsDec] using ha
      subst this
      exact .nil
    | cons r raws ih =>
      unfold AttrsDec at ha
      match l, ha with
      | x :: l, ha =>
        simp only [List.map_cons, List.cons.injEq] at ha
        have hlr := rawWire_length r
        rw [List.flatMap_cons] at hv ⊢
        refine .cons r x _ l (hr r (by simp)) ?_ ?_
        · refine (hv _ _ _ _ ?_).1 ha.1
          simp only [List.length_append]
          split at hlr <;> omega
        · refine ih l (fun code flags v x hlt => hv code flags v x ?_) (fun r h => hr r (by simp [h])) ha.2
          simp only [List.length_append]
          omega
  · intro h
    induction h with
    | nil => exact ⟨[], rfl, by simp, rfl⟩
    | cons r x t l hr hx hl ih =>
      have hlr := rawWire_length r
      obtain ⟨raws, rfl, h1, h2⟩ := ih (fun code flags v x hlt => hv code flags v x (by
        simp only [List.length_append]; omega))
      refine ⟨r :: raws, by rw [List.flatMap_cons], ?_, ?_⟩
      · intro q hq
        rcases List.mem_cons.1 hq with rfl | hq
        · exact hr
        · exact h1 q hq
      · unfold AttrsDec at h2 ⊢
        rw [List.map_cons, List.map_cons, h2, (hv _ _ _ _ (by
          simp only [List.length_append]; split at hlr <;> omega)).2 hx]

/-- values of every type code but 128 -/
theorem value_ok_flat (p : BgpSessionParams) (code flags : U8) (v : Bytes) (x : BgpAttrItem) (h128 : code ≠ 128) :
    BgpAttrItem.decodeFrom p code flags v.length v = .ok x ↔ ValueRead p code flags v x := by
  by_cases hfx : code ∈ [1, 3, 4, 5, 7, 20]
  · rw [fixed_iff p code flags _ v x hfx]
    constructor
    · rintro ⟨w, t, rfl, h, ht⟩
      exact .fixed code flags w t x h ht
    · intro h
      cases h with
      | fixed _ _ w t _ h ht => exact ⟨w, t, rfl, h, ht⟩
      | unknown _ _ _ h =>
        exfalso
        simp only [List.mem_cons, List.not_mem_nil, or_false] at hfx
        rcases hfx with rfl | rfl | rfl | rfl | rfl | rfl <;> exact h (by decide)
      | attrSet => exact absurd rfl h128
      | _ => exact absurd hfx (by decide)
  have nofix : ∀ w, ¬ FixedValue p code w x := by
    intro w h
    apply hfx
    cases h <;> decide
  by_cases h2 : code = 2
  · subst h2
    change (BgpASpath.decodeFrom p v >>= fun x => .ok (BgpAttrItem.ASPath x)) = .ok x ↔ _
    rw [bind_ok_iff]
    constructor
    · rintro ⟨y, hy, rfl⟩
      exact .asPath flags v y.value ((asPath_ok_iff p v y).1 hy)
    · intro h
      cases h with
      | asPath _ _ l h => exact ⟨⟨l⟩, (asPath_ok_iff p v ⟨l⟩).2 h, rfl⟩
      | fixed _ _ w t _ h => exact absurd h (nofix w)
      | unknown _ _ _ h => exact absurd h (by decide)
  by_cases h6 : code = 6
  · subst h6
    rw [atomicAggregate_iff]
    constructor
    · rintro (⟨rfl, rfl⟩ | ⟨a, rfl, rfl⟩)
      · exact .atomicAggregate flags
      · exact .atomicAggregateAddr flags a
    · intro h
      cases h with
      | atomicAggregate => exact .inl ⟨rfl, rfl⟩
      | atomicAggregateAddr _ a => exact .inr ⟨a, rfl, rfl⟩
      | fixed _ _ w t _ h => exact absurd h (nofix w)
      | unknown _ _ _ h => exact absurd h (by decide)
  by_cases h8 : code = 8
  · subst h8
    change (BgpCommunityList.decodeFrom v >>= fun x => .ok (BgpAttrItem.CommunityList x)) = .ok x ↔ _
    rw [bind_ok_iff]
    constructor
    · rintro ⟨y, hy, rfl⟩
      exact .communities flags v y.value ((communities_ok_iff v y).1 hy)
    · intro h
      cases h with
      | communities _ _ l h => exact ⟨⟨l⟩, (communities_ok_iff v ⟨l⟩).2 h, rfl⟩
      | fixed _ _ w t _ h => exact absurd h (nofix w)
      | unknown _ _ _ h => exact absurd h (by decide)
  by_cases h9 : code = 9
  · subst h9
    rw [originatorId_iff]
    constructor
    · rintro ⟨a, t, rfl, rfl, h⟩
      exact .originatorId flags a t h
    · intro h
      cases h with
      | originatorId _ a t h => exact ⟨a, t, rfl, rfl, h⟩
      | fixed _ _ w t _ h => exact absurd h (nofix w)
      | unknown _ _ _ h => exact absurd h (by decide)
  by_cases h10 : code = 10
  · subst h10
    rw [clusterList_iff]
    constructor
    · rintro ⟨l, t, rfl, hl, ht, rfl⟩
      exact .clusterList flags l t hl ht
    · intro h
      cases h with
      | clusterList _ l t hl ht => exact ⟨l, t, rfl, hl, ht, rfl⟩
      | fixed _ _ w t _ h => exact absurd h (nofix w)
      | unknown _ _ _ h => exact absurd h (by decide)
  by_cases h14 : code = 14
  · subst h14
    change (BgpMPUpdates.decodeFrom p v >>= fun x => .ok (BgpAttrItem.MPUpdates x)) = .ok x ↔ _
    rw [bind_ok_iff]
    constructor
    · rintro ⟨y, hy, rfl⟩
      exact .mpReach flags v y.nexthop y.addrs ((reach_ok_iff p v y).1 hy)
    · intro h
      cases h with
      | mpReach _ _ nh a h => exact ⟨⟨nh, a⟩, (reach_ok_iff p v ⟨nh, a⟩).2 h, rfl⟩
      | fixed _ _ w t _ h => exact absurd h (nofix w)
      | unknown _ _ _ h => exact absurd h (by decide)
  by_cases h15 : code = 15
  · subst h15
    change (BgpMPWithdraws.decodeFrom p v >>= fun x => .ok (BgpAttrItem.MPWithdraws x)) = .ok x ↔ _
    rw [bind_ok_iff]
    constructor
    · rintro ⟨y, hy, rfl⟩
      obtain ⟨f, nlri, n, rfl, h⟩ := ((unreach_exactly p v).1 y).1 hy
      exact .mpUnreach flags f nlri y.addrs n h
    · intro h
      cases h with
      | mpUnreach _ f nlri a n h => exact ⟨⟨a⟩, ((unreach_exactly p _).1 ⟨a⟩).2 ⟨f, nlri, n, rfl, h⟩, rfl⟩
      | fixed _ _ w t _ h => exact absurd h (nofix w)
      | unknown _ _ _ h => exact absurd h (by decide)
  by_cases h16 : code = 16
  · subst h16
    change (BgpExtCommunityList.decodeFrom v >>= fun x => .ok (BgpAttrItem.ExtCommunityList x)) = .ok x ↔ _
    rw [bind_ok_iff]
    constructor
    · rintro ⟨y, hy, rfl⟩
      exact .extCommunities flags v y.value ((extCommunities_ok_iff v y).1 hy)
    · intro h
      cases h with
      | extCommunities _ _ l h => exact ⟨⟨l⟩, (extCommunities_ok_iff v ⟨l⟩).2 h, rfl⟩
      | fixed _ _ w t _ h => exact absurd h (nofix w)
      | unknown _ _ _ h => exact absurd h (by decide)
  by_cases h22 : code = 22
  · subst h22
    rw [pmsiTunnel_iff]
    constructor
    · rintro ⟨fl, kind, a, b, c, id, t, rfl, h, rfl⟩
      exact .pmsi flags fl kind a b c id t h
    · intro h
      cases h with
      | pmsi _ fl kind a b c id t h => exact ⟨fl, kind, a, b, c, id, t, rfl, h, rfl⟩
      | fixed _ _ w t _ h => exact absurd h (nofix w)
      | unknown _ _ _ h => exact absurd h (by decide)
  by_cases h32 : code = 32
  · subst h32
    change (BgpLargeCommunityList.decodeFrom v >>= fun x => .ok (BgpAttrItem.LargeCommunityList x)) = .ok x ↔ _
    rw [bind_ok_iff]
    constructor
    · rintro ⟨y, hy, rfl⟩
      exact .largeCommunities flags v y.value ((largeCommunities_ok_iff v y).1 hy)
    · intro h
      cases h with
      | largeCommunities _ _ l h => exact ⟨⟨l⟩, (largeCommunities_ok_iff v ⟨l⟩).2 h, rfl⟩
      | fixed _ _ w t _ h => exact absurd h (nofix w)
      | unknown _ _ _ h => exact absurd h (by decide)
  have hun : code.toNat ∉ assignedCodes := by
    intro h
    have : ∀ c : U8, c.toNat ∈ assignedCodes → c ∈ [1, 3, 4, 5, 7, 20] ∨ c = 2 ∨ c = 6 ∨ c = 8 ∨ c = 9 ∨ c = 10 ∨ c = 14 ∨
        c = 15 ∨ c = 16 ∨ c = 22 ∨ c = 32 ∨ c = 128 := by decide
    rcases this code h with h | h | h | h | h | h | h | h | h | h | h | h <;> contradiction
  unfold BgpAttrItem.decodeFrom
  rw [decodeN_unknown _ _ _ _ _ _ hun]
  simp only [rslice_all, Res.ok_bind, unknown_reads]
  constructor
  · intro h
    cases h
    exact .unknown code flags v hun
  · intro h
    cases h with
    | fixed _ _ w t _ h => exact absurd h (nofix w)
    | unknown _ _ _ h => rfl
    | _ => contradiction

/-- every value is read as `ValueRead` says -/
theorem value_ok_iff (p : BgpSessionParams) (code flags : U8) (v : Bytes) (x : BgpAttrItem) :
    BgpAttrItem.decodeFrom p code flags v.length v = .ok x ↔ ValueRead p code flags v x := by
  induction hn : v.length using Nat.strongRecOn generalizing flags code v x with
  | ind n ih =>
  subst hn
  by_cases h128 : code = 128
  · subst h128
    rw [attrSet_ok_iff]
    have inner : ∀ (asn : U32) (b : Bytes) (l : List BgpAttrItem), v = be 4 asn.toNat ++ b →
        ((∃ raws : List RawAttr, b = raws.flatMap rawWire ∧ (∀ r ∈ raws, RawWF r) ∧ AttrsDec p raws l) ↔
          AttrsRead (ValueRead p) b l) := by
      intro asn b l e
      refine attrsDec_iff p b l fun code flags w y hw => ih _ ?_ code flags w y rfl
      have := congrArg List.length e
      rw [List.length_append, be_length] at this
      omega
    constructor
    · rintro ⟨h32, asn, raws, l, e, hr, ha, rfl⟩
      rw [e]
      exact .attrSet flags asn _ l h32 ((inner asn _ l e).1 ⟨raws, rfl, hr, ha⟩)
    · intro h
      generalize hg : (128 : U8) = g at h
      cases h with
      | attrSet _ asn b l h32 h =>
        obtain ⟨raws, rfl, hr, ha⟩ := (inner asn b l rfl).2 h
        exact ⟨h32, asn, raws, l, rfl, hr, ha, rfl⟩
      | fixed _ _ w t _ h =>
        subst hg
        generalize hg : (128 : U8) = g at h
        cases h <;> exact absurd hg (by decide)
      | unknown _ _ _ h => subst hg; exact absurd h (by decide)
      | _ => exact absurd hg (by decide)
  · exact value_ok_flat p code flags v x h128

theorem attrs_read_iff (p : BgpSessionParams) (b : Bytes) (l : List BgpAttrItem) :
    (∃ raws : List RawAttr, b = raws.flatMap rawWire ∧ (∀ r ∈ raws, RawWF r) ∧ AttrsDec p raws l) ↔
      AttrsRead (ValueRead p) b l :=
  attrsDec_iff p b l fun code flags v x _ => value_ok_iff p code flags v x

theorem valuePanics_iff (p : BgpSessionParams) (code : U8) (v : Bytes) : ValuePanics p code v ↔ ValueCrash p code v := by
  constructor
  · intro h
    induction h with
    | communities v h => exact .communities v h
    | originatorId v h => exact .originatorId v h
    | mpReach v h => exact .mpReach v ((reachPanics_iff p v).1 h)
    | mpUnreachHead v h => exact .mpUnreachHead v h
    | mpUnreachNlri a b c nlri h =>
      rcases family_of_octets a b c with ⟨f, hw, hf⟩ | hno
      · have e : a :: b :: c :: nlri = familyWire f ++ nlri := by rw [hw]; rfl
        rw [e]
        refine .mpUnreachNlri f nlri ((addrs_exactly p f nlri).crash.1 ?_)
        rw [hf]; exact h
      · rw [addrs_unknown hno] at h
        cases h
    | pmsi v h => exact .pmsi v h
    | largeCommunities v h => exact .largeCommunities v h
    | setCut o raws l t h32 ho hr ha ht =>
      exact .setCut o _ l t h32 ho ((attrs_read_iff p _ l).1 ⟨raws, rfl, hr, ha⟩) ht
    | setInner o raws l r t h32 ho hr ha hw _ ih =>
      exact .setInner o _ l r t h32 ho ((attrs_read_iff p _ l).1 ⟨raws, rfl, hr, ha⟩) hw ih
  · intro h
    induction h with
    | communities v h => exact .communities v h
    | originatorId v h => exact .originatorId v h
    | mpReach v h => exact .mpReach v ((reachPanics_iff p v).2 h)
    | mpUnreachHead v h => exact .mpUnreachHead v h
    | mpUnreachNlri f nlri h =>
      have h1 : BgpMPWithdraws.decodeFrom p (familyWire f ++ nlri) = .panic :=
        (unreach_exactly p _).2.2 (.inr ⟨f, nlri, rfl, h⟩)
      rw [unreach_panic_iff] at h1
      rcases h1 with h1 | ⟨a, b, c, nlri', e, h1⟩
      · exact .mpUnreachHead _ h1
      · rw [e]; exact .mpUnreachNlri a b c nlri' h1
    | pmsi v h => exact .pmsi v h
    | largeCommunities v h => exact .largeCommunities v h
    | setCut o b l t h32 ho ha ht =>
      obtain ⟨raws, rfl, hr, ha⟩ := (attrs_read_iff p b l).2 ha
      exact .setCut o raws l t h32 ho hr ha ht
    | setInner o b l r t h32 ho ha hw _ ih =>
      obtain ⟨raws, rfl, hr, ha⟩ := (attrs_read_iff p b l).2 ha
      exact .setInner o raws l r t h32 ho hr ha hw ih

/-- **values are read exactly as specified** -/
theorem value_exactly (p : BgpSessionParams) (code flags : U8) (v : Bytes) :
    Exactly (BgpAttrItem.decodeFrom p code flags v.length v) (ValueRead p code flags v) (ValueCrash p code v) where
  ok x := value_ok_iff p code flags v x
  crash := (value_panic_iff p flags code v).trans (valuePanics_iff p code v)
  noHang := nh_attr p code flags v.length v

end Zbgp
