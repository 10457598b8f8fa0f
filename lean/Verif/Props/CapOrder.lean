import Verif.Props.Session

/-!
# C112: the order of capabilities

Matching the capabilities again changes nothing; the order in which the peer lists its capabilities does not matter as long as
its AddPath offer is clear; the order of the own capabilities matters to nothing but the order of what is kept.
-/

namespace Zbgp.Props

open Zbgp Spec BgpSessionParams

/-- The number `check_caps` takes over: the one of the last AS4 capability. -/
theorem checkFold_eq (l : List BgpCapability) (p : BgpSessionParams) :
    l.foldl checkStep p = { p with
      hasAs32bit := p.hasAs32bit || l.any isASN32
      asNum := (l.filterMap fun c => match c with | .CapASN32 n => some n | _ => none).getLast?.getD p.asNum } := by
  induction l generalizing p with
  | nil => simp
  | cons c cs ih =>
    rw [List.foldl_cons, ih]
    cases c <;> simp [checkStep, isASN32]
    rename_i n
    rw [List.getLast?_cons]
    simp

/-- The AS number among the capabilities that `check_caps` takes over, if there is one. -/
def as4Number (l : List BgpCapability) : Option U32 :=
  (l.filterMap fun c => match c with | .CapASN32 n => some n | _ => none).getLast?

theorem matchCaps_eq (p : BgpSessionParams) (r : List BgpCapability) :
    p.matchCaps r = { p with
      caps := p.caps.filterMap (matchCap r)
      hasAs32bit := (p.caps.filterMap (matchCap r)).any isASN32
      asNum := (as4Number (p.caps.filterMap (matchCap r))).getD p.asNum } := by
  unfold matchCaps
  rw [checkCaps_eq, checkFold_eq]
  simp [as4Number]

theorem matchAddpath_again (v r : List BgpCapAddPath) :
    matchAddpathCaps (matchAddpathCaps v r) r = matchAddpathCaps v r := by
  unfold matchAddpathCaps
  rw [List.filterMap_map]
  congr 1
  induction v with
  | nil => rfl
  | cons o v ih =>
    rw [List.filterMap_cons]
    cases hq : r.find? fun rq => o.afi == rq.afi && o.safi == rq.safi with
    | none => exact ih
    | some q =>
      have h := List.find?_some hq
      simp only [Bool.and_eq_true, beq_iff_eq] at h
      have e : (r.find? fun rq => q.response.afi == rq.afi && q.response.safi == rq.safi) = some q := by
        rw [← hq]; simp [BgpCapAddPath.response, h.1, h.2]
      rw [List.filterMap_cons]
      simp only [Function.comp] at ih ⊢
      rw [e]
      simp only [ih]

theorem matchCap_again (r : List BgpCapability) (x y : BgpCapability) (h : matchCap r x = some y) : matchCap r y = some y := by
  cases x <;> simp only [matchCap] at h
  case CapAddPath v =>
    split at h
    · rename_i ic hf
      cases h
      simp only [matchCap, hf, matchAddpath_again]
    · cases h
  all_goals
    split at h
    · rename_i hh
      cases h
      simp only [matchCap, hh, if_true]
    · cases h

/-- **C112, again.** Matching a session with the capabilities it was matched with already changes nothing at all. -/
theorem C112_again (p : BgpSessionParams) (peer : List BgpCapability) :
    (p.matchCaps peer).matchCaps peer = p.matchCaps peer := by
  have e : (p.caps.filterMap (matchCap peer)).filterMap (matchCap peer) = p.caps.filterMap (matchCap peer) := by
    rw [List.filterMap_filterMap]
    congr 1
    funext x
    cases h : matchCap peer x with
    | none => rfl
    | some y => exact matchCap_again _ _ _ h
  rw [matchCaps_eq (p.matchCaps peer), matchCaps_eq p]
  simp only [e]
  cases as4Number (p.caps.filterMap (matchCap peer)) <;> simp

example : (BgpSessionParams.new 65000 180 .IPv4 1 [.CapASN32 70000, .CapAddPath [⟨1, 1, true, false⟩, ⟨2, 1, true, true⟩], .CapRR]).matchCaps
      [.CapRR, .CapASN32 5, .CapAddPath [⟨1, 1, true, false⟩]] ≠
    BgpSessionParams.new 65000 180 .IPv4 1 [.CapASN32 70000, .CapAddPath [⟨1, 1, true, false⟩, ⟨2, 1, true, true⟩], .CapRR] := by decide

/-! ## The order of the peer's capabilities -/

theorem find_addPath (r : List BgpCapability) : r.find? isAddPath = (addPathLists r).head?.map .CapAddPath := by
  induction r with
  | nil => rfl
  | cons c cs ih => cases c <;> simp_all [addPathLists, isAddPath]

theorem find_family {a b : List BgpCapAddPath} (ha : (a.map family).Nodup) (hb : (b.map family).Nodup)
    (h : ∀ x, x ∈ a ↔ x ∈ b) (o : BgpCapAddPath) :
    (a.find? fun q => o.afi == q.afi && o.safi == q.safi) = b.find? fun q => o.afi == q.afi && o.safi == q.safi := by
  have uniq : ∀ {l : List BgpCapAddPath}, (l.map family).Nodup → ∀ x ∈ l, ∀ y ∈ l, family x = family y → x = y := by
    intro l hl x hx y hy e
    exact List.inj_on_of_nodup_map hl hx hy e
  cases hx : a.find? fun q => o.afi == q.afi && o.safi == q.safi with
  | none =>
    symm
    rw [List.find?_eq_none] at hx ⊢
    exact fun q hq => hx q ((h q).2 hq)
  | some x =>
    cases hy : b.find? fun q => o.afi == q.afi && o.safi == q.safi with
    | none => rw [List.find?_eq_none] at hy; exact absurd (List.find?_some hx) (hy x ((h x).1 (List.mem_of_find?_eq_some hx)))
    | some y =>
      have h1 := List.find?_some hx
      have h2 := List.find?_some hy
      simp only [Bool.and_eq_true, beq_iff_eq] at h1 h2
      rw [uniq hb x ((h x).1 (List.mem_of_find?_eq_some hx)) y (List.mem_of_find?_eq_some hy)
        (by simp [family, ← h1.1, ← h1.2, ← h2.1, ← h2.2])]

theorem mem_addPathLists {r : List BgpCapability} {v : List BgpCapAddPath} : v ∈ addPathLists r ↔ BgpCapability.CapAddPath v ∈ r := by
  unfold addPathLists
  rw [List.mem_filterMap]
  constructor
  · rintro ⟨c, hc, e⟩; cases c <;> simp at e; subst e; exact hc
  · intro h; exact ⟨_, h, rfl⟩

theorem one_list {l : List (List BgpCapAddPath)} (h : l.length ≤ 1) : l = [] ∨ ∃ v, l = [v] := by
  match l, h with
  | [], _ => exact .inl rfl
  | [v], _ => exact .inr ⟨v, rfl⟩

/-- **C112, the peer's order, what holds.** Two peers whose capability lists say the same — the same capabilities in any order
and number, the same AddPath entries in any order — are matched alike, if their AddPath offers are clear: one AddPath capability
at most, every family once. Missing for the full property: several AddPath capabilities and families listed twice, see
`C112_order_matters`. -/
theorem C112_peer_order_partial (p : BgpSessionParams) (a b : List BgpCapability) (ha : ClearOffer a) (hb : ClearOffer b)
    (h : SameOffer a b) : p.matchCaps a = p.matchCaps b := by
  obtain ⟨h1, h2, h3⟩ := h
  have hany : a.any isASN32 = b.any isASN32 := by
    rw [Bool.eq_iff_iff, List.any_eq_true, List.any_eq_true]
    constructor
    · rintro ⟨c, hc, e⟩
      exact ⟨c, (h1 c (by rw [sameKind_addPath]; cases c <;> simp_all [isASN32, isAddPath])).1 hc, e⟩
    · rintro ⟨c, hc, e⟩
      exact ⟨c, (h1 c (by rw [sameKind_addPath]; cases c <;> simp_all [isASN32, isAddPath])).2 hc, e⟩
  have hmem : ∀ x, isAddPath x = false → a.any (fun q => q == x) = b.any (fun q => q == x) := by
    intro x hx
    rw [Bool.eq_iff_iff, List.any_beq', List.any_beq']
    simpa using h1 x (by rw [sameKind_addPath]; simp [hx])
  have key : matchCap a = matchCap b := by
    funext x
    cases x
    case CapASN32 n => simp only [matchCap, hany]
    case CapAddPath v =>
      simp only [matchCap, find_addPath]
      rcases one_list ha.1 with ea | ⟨va, ea⟩
      · rw [ea, h2.1 ea]
      · rcases one_list hb.1 with eb | ⟨vb, eb⟩
        · rw [h2.2 eb] at ea; cases ea
        · rw [ea, eb]
          have hm : ∀ x, x ∈ va ↔ x ∈ vb := by
            intro x
            have := h3 x
            unfold Advertises at this
            simp only [← mem_addPathLists, ea, eb, List.mem_singleton, exists_eq_left] at this
            exact this
          simp only [List.head?_cons, Option.map_some]
          congr 2
          unfold matchAddpathCaps
          congr 1
          congr 1
          funext o
          exact find_family (ha.2 va (by rw [ea]; simp)) (hb.2 vb (by rw [eb]; simp)) hm o
    all_goals simp only [matchCap]; rw [hmem _ rfl]
  rw [matchCaps_eq, matchCaps_eq, key]

/-- The hypotheses are met by two lists in opposite order, the second with a capability twice. -/
example : ClearOffer [.CapRR, .CapAddPath [⟨1, 1, true, false⟩, ⟨2, 1, true, true⟩]] ∧
    ClearOffer [.CapAddPath [⟨2, 1, true, true⟩, ⟨1, 1, true, false⟩], .CapRR, .CapRR] ∧
    SameOffer [.CapRR, .CapAddPath [⟨1, 1, true, false⟩, ⟨2, 1, true, true⟩]]
      [.CapAddPath [⟨2, 1, true, true⟩, ⟨1, 1, true, false⟩], .CapRR, .CapRR] := by
  refine ⟨⟨by decide, by decide⟩, ⟨by decide, by decide⟩, ?_, by decide, ?_⟩
  · intro c hc
    rw [sameKind_addPath] at hc
    cases c <;> simp_all [isAddPath]
  · intro ap
    simp [Advertises, or_comm]

/-- **C112, where the order matters.** A peer with two AddPath capabilities, and a peer that lists a family twice in one, are
matched by what comes first: the same capabilities in another order give another session. -/
theorem C112_order_matters :
    (∃ (p : BgpSessionParams) (a b : List BgpCapability), a.Perm b ∧ SameOffer a b ∧
      (p.matchCaps a).checkAddpathSend 1 1 ≠ (p.matchCaps b).checkAddpathSend 1 1) ∧
    ∃ (p : BgpSessionParams) (a b : List BgpCapability), SameOffer a b ∧ (addPathLists a).length = 1 ∧ (addPathLists b).length = 1 ∧
      (p.matchCaps a).checkAddpathSend 1 1 ≠ (p.matchCaps b).checkAddpathSend 1 1 := by
  refine ⟨⟨.new 1 180 .IPv4 1 [.CapAddPath [⟨1, 1, true, true⟩]],
      [.CapAddPath [⟨2, 1, true, true⟩], .CapAddPath [⟨1, 1, true, true⟩]],
      [.CapAddPath [⟨1, 1, true, true⟩], .CapAddPath [⟨2, 1, true, true⟩]], .swap _ _ _, ⟨?_, by decide, ?_⟩, by decide⟩,
    ⟨.new 1 180 .IPv4 1 [.CapAddPath [⟨1, 1, true, true⟩]],
      [.CapAddPath [⟨1, 1, true, false⟩, ⟨1, 1, false, true⟩]], [.CapAddPath [⟨1, 1, false, true⟩, ⟨1, 1, true, false⟩]],
      ⟨?_, by decide, ?_⟩, rfl, rfl, by decide⟩⟩
  · intro c _; simp [or_comm]
  · intro ap; simp [Advertises, or_comm]
  · intro c hc
    rw [sameKind_addPath] at hc
    cases c <;> simp_all [isAddPath]
  · intro ap; simp [Advertises, or_comm]

/-! ## The order of the own capabilities -/

theorem findAddpath_matched (own r : List BgpCapability) (afi : U16) (safi : U8) :
    findAddpathIn afi safi (own.filterMap (matchCap r)) =
      match (addPathLists r).head? with
      | none => none
      | some ic =>
        if (addPathLists own).any (fun v => v.any fun o => o.afi == afi && o.safi == safi) then
          (ic.find? fun q => afi == q.afi && safi == q.safi).map BgpCapAddPath.response
        else none := by
  cases hr : (addPathLists r).head? with
  | none =>
    have hn : ∀ v, matchCap r (.CapAddPath v) = none := by intro v; simp only [matchCap, find_addPath, hr]; rfl
    induction own with
    | nil => rfl
    | cons c cs ih =>
      rw [List.filterMap_cons]
      cases hc : matchCap r c with
      | none => exact ih
      | some y =>
        cases c
        case CapAddPath v => rw [hn] at hc; cases hc
        all_goals
          simp only [matchCap] at hc
          split at hc
          · cases hc; exact ih
          · cases hc
  | some ic =>
    have hs : ∀ v, matchCap r (.CapAddPath v) = some (.CapAddPath (matchAddpathCaps v ic)) := by
      intro v; simp only [matchCap, find_addPath, hr]; rfl
    have hf : ∀ v : List BgpCapAddPath, ((matchAddpathCaps v ic).find? fun ap => ap.afi == afi && ap.safi == safi) =
        if v.any (fun o => o.afi == afi && o.safi == safi) then
          (ic.find? fun q => afi == q.afi && safi == q.safi).map BgpCapAddPath.response else none := by
      intro v
      unfold matchAddpathCaps
      induction v with
      | nil => rfl
      | cons o v ih =>
        rw [List.filterMap_cons]
        cases hq : ic.find? fun rq => o.afi == rq.afi && o.safi == rq.safi with
        | none =>
          rw [ih]
          by_cases ho : (o.afi == afi && o.safi == safi) = true
          · have ho' := ho
            simp only [Bool.and_eq_true, beq_iff_eq] at ho'
            rw [ho'.1, ho'.2] at hq
            rw [hq]; simp
          · simp [ho]
        | some q =>
          have h := List.find?_some hq
          simp only [Bool.and_eq_true, beq_iff_eq] at h
          rw [List.map_cons, List.find?_cons]
          by_cases ho : (o.afi == afi && o.safi == safi) = true
          · have ho' := ho
            simp only [Bool.and_eq_true, beq_iff_eq] at ho'
            rw [ho'.1, ho'.2] at hq h
            simp [hq, ho, BgpCapAddPath.response, ← h.1, ← h.2]
          · have hq' : (q.response.afi == afi && q.response.safi == safi) = false := by
              simpa [BgpCapAddPath.response, ← h.1, ← h.2] using ho
            rw [hq']
            simp only [ih, List.any_cons, ho, Bool.false_or]
    induction own with
    | nil => rfl
    | cons c cs ih =>
      rw [List.filterMap_cons]
      cases c
      case CapAddPath v =>
        rw [hs]
        simp only [findAddpathIn, hf, ih]
        have e : addPathLists (.CapAddPath v :: cs) = v :: addPathLists cs := rfl
        rw [e, List.any_cons]
        by_cases hv : v.any (fun o => o.afi == afi && o.safi == safi) = true
        · rw [if_pos hv, hv]
          cases ic.find? fun q => afi == q.afi && safi == q.safi <;> simp
        · rw [if_neg hv]
          simp [hv]
      all_goals
        split
        · exact ih
        · rename_i y hy
          simp only [matchCap] at hy
          split at hy
          · cases hy; exact ih
          · cases hy

/-- **C112, the own order.** Two sessions that differ in the order of their own capabilities keep the same ones, agree on 32-bit
AS numbers and on path identifiers for every family, and on all the rest; on the AS number too, if there is one AS4 number only. -/
theorem C112_own_order (p : BgpSessionParams) (caps : List BgpCapability) (h : p.caps.Perm caps) (peer : List BgpCapability) :
    let q : BgpSessionParams := { p with caps := caps }
    (p.matchCaps peer).caps.Perm (q.matchCaps peer).caps ∧
    (p.matchCaps peer).hasAs32bit = (q.matchCaps peer).hasAs32bit ∧
    (∀ afi safi, (p.matchCaps peer).checkAddpathSend afi safi = (q.matchCaps peer).checkAddpathSend afi safi ∧
      (p.matchCaps peer).checkAddpathReceive afi safi = (q.matchCaps peer).checkAddpathReceive afi safi) ∧
    (∀ c, (p.matchCaps peer).checkCapability c = (q.matchCaps peer).checkCapability c) ∧
    (p.matchCaps peer).holdTime = (q.matchCaps peer).holdTime ∧ (p.matchCaps peer).peerMode = (q.matchCaps peer).peerMode ∧
    (p.matchCaps peer).routerId = (q.matchCaps peer).routerId ∧
    (p.matchCaps peer).fuzzyPathid = (q.matchCaps peer).fuzzyPathid ∧
    ((∀ m n, BgpCapability.CapASN32 m ∈ caps → BgpCapability.CapASN32 n ∈ caps → m = n) →
      (p.matchCaps peer).asNum = (q.matchCaps peer).asNum) := by
  intro q
  have hp := h.filterMap (matchCap peer)
  have hfind : ∀ afi safi, (p.matchCaps peer).findAddpath afi safi = (q.matchCaps peer).findAddpath afi safi := by
    intro afi safi
    unfold findAddpath
    rw [matchCaps_caps, matchCaps_caps, findAddpath_matched, findAddpath_matched]
    have e : (addPathLists p.caps).any (fun v => v.any fun o => o.afi == afi && o.safi == safi) =
        (addPathLists q.caps).any (fun v => v.any fun o => o.afi == afi && o.safi == safi) :=
      (h.filterMap _).any_eq
    rw [e]
  refine ⟨by rw [matchCaps_caps, matchCaps_caps]; exact hp, ?_, ?_, ?_, ?_, ?_, ?_, ?_, ?_⟩
  · rw [matchCaps_eq, matchCaps_eq]; exact hp.any_eq
  · intro afi safi
    unfold checkAddpathSend checkAddpathReceive
    rw [hfind]
    exact ⟨rfl, rfl⟩
  · intro c
    unfold checkCapability
    rw [matchCaps_caps, matchCaps_caps]
    exact hp.any_eq
  · rw [matchCaps_eq, matchCaps_eq]
  · rw [matchCaps_eq, matchCaps_eq]
  · rw [matchCaps_eq, matchCaps_eq]
  · rw [matchCaps_eq, matchCaps_eq]
  · intro hu
    rw [matchCaps_eq, matchCaps_eq]
    show (as4Number _).getD _ = (as4Number _).getD _
    congr 1
    have mem : ∀ n, n ∈ (caps.filterMap (matchCap peer)).filterMap (fun c => match c with | .CapASN32 n => some n | _ => none) →
        BgpCapability.CapASN32 n ∈ caps := by
      intro n hn
      obtain ⟨c, hc, e⟩ := List.mem_filterMap.1 hn
      cases c <;> simp at e
      subst e
      obtain ⟨x, hx, e⟩ := List.mem_filterMap.1 hc
      cases x <;> simp only [matchCap] at e
      case CapAddPath v => split at e <;> cases e
      all_goals
        split at e
        · cases e; try exact hx
        · cases e
    have hq := hp.filterMap (fun c => match c with | .CapASN32 n => some n | _ => none)
    unfold as4Number
    show (List.filterMap _ (List.filterMap (matchCap peer) p.caps)).getLast? =
      (List.filterMap _ (List.filterMap (matchCap peer) caps)).getLast?
    generalize hA : List.filterMap _ (List.filterMap (matchCap peer) p.caps) = A at hq ⊢
    generalize hB : List.filterMap _ (List.filterMap (matchCap peer) caps) = B at hq mem ⊢
    cases hx : A.getLast? with
    | none => rw [List.getLast?_eq_none_iff] at hx; subst hx; rw [List.nil_perm.1 hq]; rfl
    | some x =>
      cases hy : B.getLast? with
      | none => rw [List.getLast?_eq_none_iff] at hy; subst hy; rw [List.perm_nil.1 hq] at hx; cases hx
      | some y =>
        rw [hu x y (mem x (hq.mem_iff.1 (List.mem_of_getLast? hx))) (mem y (List.mem_of_getLast? hy))]

/-- A session with AddPath, AS4 and route refresh in two orders. -/
example : ([.CapASN32 70000, .CapAddPath [⟨1, 1, true, true⟩], .CapRR] : List BgpCapability).Perm
      [.CapRR, .CapASN32 70000, .CapAddPath [⟨1, 1, true, true⟩]] ∧
    ((BgpSessionParams.new 1 180 .IPv4 1 [.CapASN32 70000, .CapAddPath [⟨1, 1, true, true⟩], .CapRR]).matchCaps
      [.CapAddPath [⟨1, 1, true, true⟩], .CapASN32 3]).checkAddpathSend 1 1 = true := by decide

/-- **C112, two AS4 numbers.** A session configured with two different AS4 numbers takes the last one over: here the own order
decides. -/
theorem C112_two_as_numbers (p : BgpSessionParams) (m n : U32) (peer : List BgpCapability) (k : U32)
    (hk : BgpCapability.CapASN32 k ∈ peer) :
    (({ p with caps := [.CapASN32 m, .CapASN32 n] } : BgpSessionParams).matchCaps peer).asNum = n ∧
    (({ p with caps := [.CapASN32 n, .CapASN32 m] } : BgpSessionParams).matchCaps peer).asNum = m := by
  have h : peer.any isASN32 = true := List.any_eq_true.2 ⟨_, hk, rfl⟩
  rw [matchCaps_eq, matchCaps_eq]
  simp [matchCap, h, as4Number]

end Zbgp.Props
