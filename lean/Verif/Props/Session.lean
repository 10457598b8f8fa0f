import Verif.Spec.Session
import Verif.Lemmas.Bytes

/-! # C46-C48: capability negotiation -/

namespace Zbgp.Props

open Zbgp Spec BgpSessionParams

theorem isAddPath_iff (c : BgpCapability) : isAddPath c = true ↔ ∃ v, c = .CapAddPath v := by
  cases c <;> simp [isAddPath]

theorem isASN32_iff (c : BgpCapability) : isASN32 c = true ↔ ∃ v, c = .CapASN32 v := by
  cases c <;> simp [isASN32]

theorem sameKind_addPath (c : BgpCapability) (v) : SameKind c (.CapAddPath v) ↔ isAddPath c = true := by
  cases c <;> simp [SameKind, isAddPath, BgpCapability.ctorIdx]

theorem sameKind_asn32 (c : BgpCapability) (v) : SameKind c (.CapASN32 v) ↔ isASN32 c = true := by
  cases c <;> simp [SameKind, isASN32, BgpCapability.ctorIdx]

/-- the loop of `check_caps` -/
def checkStep (p : BgpSessionParams) (cap : BgpCapability) : BgpSessionParams :=
  match cap with
  | .CapASN32 n => { p with hasAs32bit := true, asNum := n }
  | _ => p

theorem checkFold (l : List BgpCapability) (p : BgpSessionParams) :
    (l.foldl checkStep p).caps = p.caps ∧
    ((l.foldl checkStep p).hasAs32bit = true ↔ p.hasAs32bit = true ∨ ∃ n, BgpCapability.CapASN32 n ∈ l) := by
  induction l generalizing p with
  | nil => simp
  | cons c cs ih =>
    obtain ⟨h1, h2⟩ := ih (checkStep p c)
    simp only [List.foldl_cons]
    refine ⟨?_, ?_⟩
    · rw [h1]; cases c <;> rfl
    · rw [h2]
      cases c <;> simp [checkStep]

theorem checkCaps_eq (p : BgpSessionParams) :
    p.checkCaps = p.caps.foldl checkStep { p with hasAs32bit := false } := by
  unfold checkCaps
  congr 1

theorem checkCaps_caps (p : BgpSessionParams) : p.checkCaps.caps = p.caps := by
  rw [checkCaps_eq, (checkFold _ _).1]

theorem matchCaps_caps (p : BgpSessionParams) (r : List BgpCapability) :
    (p.matchCaps r).caps = p.caps.filterMap (matchCap r) := by
  unfold matchCaps; rw [checkCaps_caps]

theorem findAddpathIn_some {afi : U16} {safi : U8} {caps : List BgpCapability} {x : BgpCapAddPath}
    (h : findAddpathIn afi safi caps = some x) :
    ∃ v, BgpCapability.CapAddPath v ∈ caps ∧ x ∈ v ∧ x.afi = afi ∧ x.safi = safi := by
  induction caps with
  | nil => simp [findAddpathIn] at h
  | cons c cs ih =>
    have hrec : findAddpathIn afi safi cs = some x →
        ∃ v, BgpCapability.CapAddPath v ∈ c :: cs ∧ x ∈ v ∧ x.afi = afi ∧ x.safi = safi := by
      intro h
      obtain ⟨v, hv, hr⟩ := ih h
      exact ⟨v, by simp [hv], hr⟩
    cases c
    case CapAddPath v =>
      simp only [findAddpathIn] at h
      split at h
      · rename_i r hr
        simp only [Option.some.injEq] at h
        subst h
        have h1 := List.find?_some hr
        simp only [Bool.and_eq_true, beq_iff_eq] at h1
        exact ⟨v, by simp, List.mem_of_find?_eq_some hr, h1.1, h1.2⟩
      · exact hrec h
    all_goals exact hrec (by simpa [findAddpathIn] using h)

theorem mem_matched_addpath {p : BgpSessionParams} {r : List BgpCapability} {v : List BgpCapAddPath}
    (h : BgpCapability.CapAddPath v ∈ (p.matchCaps r).caps) :
    ∃ own peer, BgpCapability.CapAddPath own ∈ p.caps ∧ BgpCapability.CapAddPath peer ∈ r ∧
      v = matchAddpathCaps own peer := by
  rw [matchCaps_caps, List.mem_filterMap] at h
  obtain ⟨c, hc, hm⟩ := h
  cases c <;> simp only [matchCap] at hm
  case CapAddPath own =>
    split at hm
    · rename_i peer hp
      simp only [Option.some.injEq, BgpCapability.CapAddPath.injEq] at hm
      exact ⟨own, peer, hc, List.mem_of_find?_eq_some hp, hm.symm⟩
    · simp at hm
  all_goals split at hm <;> simp at hm

theorem mem_matchAddpathCaps {own peer : List BgpCapAddPath} {x : BgpCapAddPath}
    (h : x ∈ matchAddpathCaps own peer) :
    ∃ o ∈ own, ∃ q ∈ peer, family o = family q ∧ x = q.response := by
  unfold matchAddpathCaps at h
  simp only [List.mem_map, List.mem_filterMap] at h
  obtain ⟨q, ⟨o, ho, hq⟩, rfl⟩ := h
  have h1 := List.find?_some hq
  simp only [Bool.and_eq_true, beq_iff_eq] at h1
  exact ⟨o, ho, q, List.mem_of_find?_eq_some hq, by simp [family, h1.1, h1.2], rfl⟩

/-- **C46, what holds.** After `match_caps`, path ids are sent (received) for a family only if both sides advertised
AddPath for the family and the peer offered to receive (send). Missing for the full property: that the own side
offered that direction, see `C46_own_direction_ignored`. -/
theorem C46_addpath_directions_partial (p : BgpSessionParams) (peer : List BgpCapability) (afi : U16) (safi : U8) :
    ((p.matchCaps peer).checkAddpathSend afi safi = true →
      (∃ o, Advertises p.caps o ∧ family o = (afi, safi)) ∧
      ∃ q, Advertises peer q ∧ family q = (afi, safi) ∧ q.receive = true) ∧
    ((p.matchCaps peer).checkAddpathReceive afi safi = true →
      (∃ o, Advertises p.caps o ∧ family o = (afi, safi)) ∧
      ∃ q, Advertises peer q ∧ family q = (afi, safi) ∧ q.send = true) := by
  have key : ∀ x, (p.matchCaps peer).findAddpath afi safi = some x →
      (∃ o, Advertises p.caps o ∧ family o = (afi, safi)) ∧
      ∃ q, Advertises peer q ∧ family q = (afi, safi) ∧ x = q.response := by
    intro x hx
    obtain ⟨v, hv, hxv, h1, h2⟩ := findAddpathIn_some hx
    obtain ⟨own, pr, ho, hp, rfl⟩ := mem_matched_addpath hv
    obtain ⟨o, ho', q, hq', hf, rfl⟩ := mem_matchAddpathCaps hxv
    have e : family q = (afi, safi) := by
      simp only [BgpCapAddPath.response] at h1 h2
      simp [family, h1, h2]
    exact ⟨⟨o, ⟨own, ho, ho'⟩, by rw [hf, e]⟩, q, ⟨pr, hp, hq'⟩, e, rfl⟩
  constructor
  · intro h
    unfold checkAddpathSend at h
    split at h
    · simp at h
    · rename_i x hx
      obtain ⟨ho, q, hq, hf, rfl⟩ := key x hx
      exact ⟨ho, q, hq, hf, h⟩
  · intro h
    unfold checkAddpathReceive at h
    split at h
    · simp at h
    · rename_i x hx
      obtain ⟨ho, q, hq, hf, rfl⟩ := key x hx
      exact ⟨ho, q, hq, hf, h⟩

/-- **C46** holds in full for sessions that offer both directions for every family they offer. -/
theorem C46_addpath_directions_bidirectional_partial (p : BgpSessionParams) (peer : List BgpCapability)
    (hown : ∀ o, Advertises p.caps o → o.send = true ∧ o.receive = true) (afi : U16) (safi : U8) :
    ((p.matchCaps peer).checkAddpathSend afi safi = true →
      (∃ o, Advertises p.caps o ∧ family o = (afi, safi) ∧ o.send = true) ∧
      ∃ q, Advertises peer q ∧ family q = (afi, safi) ∧ q.receive = true) ∧
    ((p.matchCaps peer).checkAddpathReceive afi safi = true →
      (∃ o, Advertises p.caps o ∧ family o = (afi, safi) ∧ o.receive = true) ∧
      ∃ q, Advertises peer q ∧ family q = (afi, safi) ∧ q.send = true) := by
  obtain ⟨h1, h2⟩ := C46_addpath_directions_partial p peer afi safi
  constructor
  · intro h
    obtain ⟨⟨o, ho, hf⟩, hq⟩ := h1 h
    exact ⟨⟨o, ho, hf, (hown o ho).1⟩, hq⟩
  · intro h
    obtain ⟨⟨o, ho, hf⟩, hq⟩ := h2 h
    exact ⟨⟨o, ho, hf, (hown o ho).2⟩, hq⟩

/-- non-vacuity of C46: a negotiation after which path ids are sent and not received -/
example : let p := BgpSessionParams.new 1 180 .IPv4 1 [.SafiIPv4u, .CapAddPath [⟨1, 1, true, true⟩]]
    let q := p.matchCaps [.SafiIPv4u, .CapAddPath [⟨1, 1, false, true⟩]]
    q.checkAddpathSend 1 1 = true ∧ q.checkAddpathReceive 1 1 = false := by decide

/-- **C46 is violated.** A side that offered only to receive ends up sending path ids. -/
theorem C46_own_direction_ignored :
    ¬ ∀ (p : BgpSessionParams) (peer : List BgpCapability) (afi : U16) (safi : U8),
        (p.matchCaps peer).checkAddpathSend afi safi = true →
        ∃ o, Advertises p.caps o ∧ family o = (afi, safi) ∧ o.send = true := by
  intro h
  obtain ⟨o, ⟨v, hv, ho⟩, -, hs⟩ := h (BgpSessionParams.new 1 180 .IPv4 1 [.CapAddPath [⟨1, 1, false, true⟩]])
    [.CapAddPath [⟨1, 1, true, true⟩]] 1 1 (by decide)
  simp only [BgpSessionParams.new, List.mem_singleton, BgpCapability.CapAddPath.injEq] at hv
  subst hv
  simp only [List.mem_singleton] at ho
  subst ho
  simp at hs

/-! ## C47 -/

theorem matchCap_nonAddPath (r : List BgpCapability) (c : BgpCapability) (hc : isAddPath c = false) :
    (PeerHas r c → matchCap r c = some c) ∧ (¬ PeerHas r c → matchCap r c = none) := by
  have gen : ∀ c : BgpCapability, matchCap r c = (if r.any (fun q => q == c) then some c else none) →
      PeerHas r c = (c ∈ r) →
      (PeerHas r c → matchCap r c = some c) ∧ (¬ PeerHas r c → matchCap r c = none) := by
    intro c h1 h2
    rw [h1, h2]
    have : (r.any fun q => q == c) = true ↔ c ∈ r := by simp
    by_cases h : c ∈ r
    · rw [if_pos (this.mpr h)]; exact ⟨fun _ => rfl, fun hn => absurd h hn⟩
    · rw [if_neg (fun hh => h (this.mp hh))]; exact ⟨fun hh => absurd hh h, fun _ => rfl⟩
  cases c
  case CapASN32 n =>
    simp only [matchCap, PeerHas]
    have : r.any isASN32 = true ↔ ∃ n, BgpCapability.CapASN32 n ∈ r := by
      simp only [List.any_eq_true, isASN32_iff]
      constructor
      · rintro ⟨x, hx, n, rfl⟩; exact ⟨n, hx⟩
      · rintro ⟨n, hn⟩; exact ⟨_, hn, n, rfl⟩
    rw [← this]
    by_cases h : r.any isASN32 = true
    · simp [h]
    · rw [if_neg h]; exact ⟨fun hh => absurd hh h, fun _ => rfl⟩
  case CapAddPath v => simp [isAddPath] at hc
  all_goals exact gen _ rfl rfl

open Classical in
theorem filterMap_common (own r : List BgpCapability) :
    withoutAddPath (own.filterMap (matchCap r)) = common own r := by
  unfold withoutAddPath common
  induction own with
  | nil => rfl
  | cons c cs ih =>
    by_cases hc : isAddPath c = true
    · have hk : SameKind c (.CapAddPath []) := (sameKind_addPath c []).mpr hc
      rw [List.filter_cons_of_neg (by simp [hk]), ← ih]
      obtain ⟨v, rfl⟩ := (isAddPath_iff c).mp hc
      simp only [List.filterMap_cons, matchCap]
      split
      · rfl
      · rename_i b hb
        split at hb <;> simp at hb
        subst hb
        rw [List.filter_cons_of_neg]
        have := (sameKind_addPath (.CapAddPath (matchAddpathCaps v ‹_›)) []).mpr rfl
        simp [this]
    · have hk : ¬ SameKind c (.CapAddPath []) := fun h => hc ((sameKind_addPath c []).mp h)
      have hm := matchCap_nonAddPath r c (by simpa using hc)
      by_cases hp : PeerHas r c
      · rw [List.filterMap_cons, hm.1 hp, List.filter_cons_of_pos (by simp [hk]),
          List.filter_cons_of_pos (by simpa using ⟨hk, hp⟩), ih]
      · rw [List.filterMap_cons, hm.2 hp, List.filter_cons_of_neg (by simp [hp])]
        exact ih

/-- **C47.** `match_caps` keeps, in order, exactly the own non-AddPath capabilities that the peer also advertised
(AS4 by kind), turns on 32-bit AS numbers exactly when both sides advertised AS4, and a second application changes
nothing in the non-AddPath part. -/
theorem C47_match_caps (p : BgpSessionParams) (peer : List BgpCapability) :
    withoutAddPath (p.matchCaps peer).caps = common p.caps peer ∧
    ((p.matchCaps peer).hasAs32bit = true ↔
      (∃ n, BgpCapability.CapASN32 n ∈ p.caps) ∧ ∃ n, BgpCapability.CapASN32 n ∈ peer) ∧
    withoutAddPath ((p.matchCaps peer).matchCaps peer).caps = withoutAddPath (p.matchCaps peer).caps := by
  have h1 : ∀ p : BgpSessionParams, withoutAddPath (p.matchCaps peer).caps = common p.caps peer := by
    intro p; rw [matchCaps_caps, filterMap_common]
  have hmem : ∀ n, BgpCapability.CapASN32 n ∈ (p.matchCaps peer).caps ↔
      BgpCapability.CapASN32 n ∈ p.caps ∧ ∃ n, BgpCapability.CapASN32 n ∈ peer := by
    intro n
    have hk : ¬ SameKind (.CapASN32 n) (.CapAddPath []) := by
      rw [sameKind_addPath]; simp [isAddPath]
    have e1 : BgpCapability.CapASN32 n ∈ (p.matchCaps peer).caps ↔
        BgpCapability.CapASN32 n ∈ withoutAddPath (p.matchCaps peer).caps := by
      unfold withoutAddPath; rw [List.mem_filter]; simp [hk]
    rw [e1, h1]
    unfold common
    rw [List.mem_filter]
    simp [hk, PeerHas]
  refine ⟨h1 p, ?_, ?_⟩
  · have e : (p.matchCaps peer).hasAs32bit = true ↔
        ∃ n, BgpCapability.CapASN32 n ∈ (p.matchCaps peer).caps := by
      rw [matchCaps_caps]
      unfold matchCaps
      rw [checkCaps_eq, (checkFold _ _).2]
      simp
    rw [e]
    constructor
    · rintro ⟨n, hn⟩
      exact ⟨⟨n, ((hmem n).mp hn).1⟩, ((hmem n).mp hn).2⟩
    · rintro ⟨⟨n, hn⟩, hp⟩
      exact ⟨n, (hmem n).mpr ⟨hn, hp⟩⟩
  · rw [h1]
    -- filtering twice
    have : common (p.matchCaps peer).caps peer = common (withoutAddPath (p.matchCaps peer).caps) peer := by
      unfold common withoutAddPath
      rw [List.filter_filter]
      congr 1
      funext c
      by_cases hk : SameKind c (.CapAddPath []) <;> simp [hk]
    rw [this, h1 p]
    unfold common
    rw [List.filter_filter]
    congr 1
    funext c
    rw [Bool.and_self]

/-- **C47, AddPath part.** If the peer advertised exactly one AddPath capability, every own AddPath capability is
kept with exactly the families (in own order) that the peer's capability also lists. Missing for the full property: peers that
spread AddPath families over several capabilities, see `C47_second_addpath_ignored`. -/
theorem C47_match_addpath_partial (p : BgpSessionParams) (peer : List BgpCapability) (pv : List BgpCapAddPath)
    (hpeer : addPathLists peer = [pv]) :
    (addPathLists (p.matchCaps peer).caps).map (fun v => v.map family) =
      (addPathLists p.caps).map (fun v => (v.map family).filter (fun f => f ∈ pv.map family)) := by
  have hfind : ∀ r : List BgpCapability, ∀ pv, addPathLists r = [pv] →
      r.find? isAddPath = some (.CapAddPath pv) := by
    intro r pv
    induction r with
    | nil => simp [addPathLists]
    | cons c cs ih =>
      intro h
      by_cases hc : isAddPath c = true
      · obtain ⟨v, rfl⟩ := (isAddPath_iff c).mp hc
        simp [addPathLists] at h
        simp [isAddPath, h.1]
      · rw [List.find?_cons_of_neg (by simpa using hc)]
        apply ih
        have : addPathLists (c :: cs) = addPathLists cs := by
          cases c <;> simp_all [addPathLists, isAddPath]
        rw [← this]; exact h
  have hf := hfind peer pv hpeer
  have hmap : ∀ own : List BgpCapAddPath, (matchAddpathCaps own pv).map family =
      (own.map family).filter (fun f => f ∈ pv.map family) := by
    intro own
    induction own with
    | nil => rfl
    | cons o os ih =>
      unfold matchAddpathCaps at ih ⊢
      rw [List.filterMap_cons]
      have iff1 : family o ∈ pv.map family ↔
          ∃ q ∈ pv, (o.afi == q.afi && o.safi == q.safi) = true := by
        simp only [List.mem_map, family, Prod.mk.injEq, Bool.and_eq_true, beq_iff_eq]
        constructor
        · rintro ⟨q, hq, h1, h2⟩; exact ⟨q, hq, h1.symm, h2.symm⟩
        · rintro ⟨q, hq, h1, h2⟩; exact ⟨q, hq, h1.symm, h2.symm⟩
      cases hq : pv.find? (fun rq => o.afi == rq.afi && o.safi == rq.safi) with
      | none =>
        simp only
        rw [ih, List.map_cons, List.filter_cons_of_neg]
        rw [decide_eq_true_iff, iff1]
        rintro ⟨q, hq1, hq2⟩
        have := List.find?_eq_none.mp hq q hq1
        exact this hq2
      | some q =>
        have h1 := List.find?_some hq
        have hmem := List.mem_of_find?_eq_some hq
        simp only [List.map_cons]
        rw [ih, List.filter_cons_of_pos]
        · congr 1
          simp only [Bool.and_eq_true, beq_iff_eq] at h1
          simp [family, BgpCapAddPath.response, h1.1, h1.2]
        · rw [decide_eq_true_iff, iff1]
          exact ⟨q, hmem, h1⟩
  rw [matchCaps_caps]
  generalize p.caps = caps
  induction caps with
  | nil => rfl
  | cons c cs ih =>
    rw [List.filterMap_cons]
    cases c
    case CapAddPath v =>
      simp only [matchCap, hf]
      simp only [addPathLists, List.filterMap_cons, List.map_cons] at ih ⊢
      rw [ih, hmap]
    all_goals
      simp only [matchCap]
      split <;> first
        | (simp only [addPathLists, List.filterMap_cons] at ih ⊢; exact ih)
        | (rename_i h; split at h <;> simp at h; subst h;
           simp only [addPathLists, List.filterMap_cons] at ih ⊢; exact ih)

/-- non-vacuity of C47 -/
example : addPathLists [.CapRR, .CapAddPath [⟨1, 1, true, true⟩, ⟨2, 1, true, false⟩]] =
    [[⟨1, 1, true, true⟩, ⟨2, 1, true, false⟩]] := by decide

/-- **C47 is violated** for AddPath: a family that the peer lists in its second AddPath capability is not
recognised. -/
theorem C47_second_addpath_ignored :
    ¬ ∀ (p : BgpSessionParams) (peer : List BgpCapability) (o q : BgpCapAddPath),
        Advertises p.caps o → Advertises peer q → family o = family q →
        ∃ m, Advertises (p.matchCaps peer).caps m ∧ family m = family o := by
  intro h
  obtain ⟨m, ⟨v, hv, hm⟩, -⟩ := h (BgpSessionParams.new 1 180 .IPv4 1 [.CapAddPath [⟨1, 1, true, true⟩]])
    [.CapAddPath [⟨2, 1, true, true⟩], .CapAddPath [⟨1, 1, true, true⟩]] ⟨1, 1, true, true⟩ ⟨1, 1, true, true⟩
    ⟨_, by simp [BgpSessionParams.new]; rfl, by simp⟩
    ⟨[⟨1, 1, true, true⟩], by simp, by simp⟩ rfl
  have e : ((BgpSessionParams.new 1 180 .IPv4 1 [.CapAddPath [⟨1, 1, true, true⟩]]).matchCaps
    [.CapAddPath [⟨2, 1, true, true⟩], .CapAddPath [⟨1, 1, true, true⟩]]).caps = [.CapAddPath []] := by decide
  rw [e] at hv
  simp only [List.mem_singleton, BgpCapability.CapAddPath.injEq] at hv
  subst hv
  simp at hm

/-! ## C48 -/

theorem editFirst_other (f : List BgpCapAddPath → List BgpCapAddPath) (caps : List BgpCapability)
    (q : BgpCapability → Bool) (hq : ∀ v, q (.CapAddPath v) = false) :
    (editFirstAddPath f caps).filter q = caps.filter q := by
  induction caps with
  | nil => rfl
  | cons c cs ih =>
    cases c
    case CapAddPath v =>
      simp [editFirstAddPath, hq]
    all_goals
      simp only [editFirstAddPath, List.filter_cons]
      rw [ih]

/-- **C48 (others survive).** `remove_capability` keeps every capability of another kind, in order. -/
theorem C48_remove_keeps_others (p : BgpSessionParams) (c : BgpCapability) :
    (p.removeCapability c).caps.filter (fun x => !decide (SameKind x c)) =
      p.caps.filter (fun x => !decide (SameKind x c)) := by
  have gen : ∀ c : BgpCapability, (p.caps.filter fun x => x != c).filter (fun x => !decide (SameKind x c)) =
      p.caps.filter (fun x => !decide (SameKind x c)) := by
    intro c
    rw [List.filter_filter]
    congr 1
    funext x
    by_cases h : x = c
    · subst h; simp [SameKind]
    · simp [h]
  cases c
  case CapASN32 n =>
    simp only [removeCapability]
    rw [List.filter_filter]
    congr 1
    funext x
    simp only [sameKind_asn32]
    cases isASN32 x <;> rfl
  case CapAddPath v =>
    simp only [removeCapability]
    split
    · simp only
      rw [List.filter_filter]
      have : (fun x : BgpCapability => (!decide (SameKind x (.CapAddPath v)) && match x with
          | .CapAddPath vc => !vc.isEmpty
          | _ => true)) = fun x => !decide (SameKind x (.CapAddPath v)) := by
        funext x
        simp only [sameKind_addPath]
        cases x <;> simp [isAddPath]
      refine Eq.trans (congrArg (fun f => List.filter f _) this) ?_
      exact editFirst_other _ _ _ (by simp [sameKind_addPath, isAddPath])
    · rfl
  all_goals exact gen _

theorem mem_foldl_filter (vc cvc : List BgpCapAddPath) (x : BgpCapAddPath)
    (h : x ∈ vc.foldl (fun cvc cp => cvc.filter fun x => x != cp) cvc) : x ∈ cvc ∧ x ∉ vc := by
  induction vc generalizing cvc with
  | nil => simpa using h
  | cons a as ih =>
    have := ih _ (by simpa using h)
    simp only [List.mem_filter, bne_iff_ne, ne_eq] at this
    simp [this.1.1, this.1.2, this.2]

theorem foldl_filter_disjoint (vc cvc : List BgpCapAddPath) (h : ∀ x ∈ cvc, x ∉ vc) :
    vc.foldl (fun cvc cp => cvc.filter fun x => x != cp) cvc = cvc := by
  induction vc with
  | nil => rfl
  | cons a as ih =>
    rw [List.foldl_cons]
    have : cvc.filter (fun x => x != a) = cvc := by
      rw [List.filter_eq_self]
      intro x hx
      simp only [bne_iff_ne, ne_eq]
      rintro rfl
      exact h _ hx (by simp)
    rw [this]
    exact ih (fun x hx hm => h x hx (by simp [hm]))

theorem mem_editFirst (f : List BgpCapAddPath → List BgpCapAddPath) (caps : List BgpCapability)
    (h1 : (addPathLists caps).length ≤ 1) (v : List BgpCapAddPath)
    (h : BgpCapability.CapAddPath v ∈ editFirstAddPath f caps) :
    ∃ w, v = f w ∧ addPathLists caps = [w] := by
  induction caps with
  | nil => simp [editFirstAddPath] at h
  | cons c cs ih =>
    cases c
    case CapAddPath w =>
      simp only [editFirstAddPath, List.mem_cons, BgpCapability.CapAddPath.injEq] at h
      have e : addPathLists (.CapAddPath w :: cs) = w :: addPathLists cs := rfl
      have hnil : addPathLists cs = [] := by
        rw [e] at h1
        simp only [List.length_cons] at h1
        exact List.eq_nil_of_length_eq_zero (by omega)
      rcases h with rfl | h
      · exact ⟨w, rfl, by rw [e, hnil]⟩
      · exfalso
        have : v ∈ addPathLists cs := List.mem_filterMap.mpr ⟨_, h, rfl⟩
        rw [hnil] at this
        simp at this
    all_goals
      simp only [editFirstAddPath, List.mem_cons] at h
      rcases h with h | h
      · simp at h
      · exact ih h1 h

/-- dropping empty AddPath lists, as `remove_capability` does at the end -/
def dropEmptyAddPath (x : BgpCapability) : Bool :=
  match x with
  | .CapAddPath vc => !vc.isEmpty
  | _ => true

theorem remove_addpath_eq (p : BgpSessionParams) (vc : List BgpCapAddPath) :
    (p.removeCapability (.CapAddPath vc)).caps =
      if p.caps.any isAddPath then
        (editFirstAddPath (fun cvc => vc.foldl (fun cvc cp => cvc.filter fun x => x != cp) cvc) p.caps).filter
          dropEmptyAddPath
      else p.caps := by
  simp only [removeCapability]
  split <;> rfl

theorem editFirst_filter_id (f : List BgpCapAddPath → List BgpCapAddPath) (l : List BgpCapability)
    (h : ∀ v, BgpCapability.CapAddPath v ∈ l → v ≠ [] ∧ f v = v) :
    (editFirstAddPath f l).filter dropEmptyAddPath = l := by
  induction l with
  | nil => rfl
  | cons c cs ih =>
    have ih' := ih (fun v hv => h v (by simp [hv]))
    cases c
    case CapAddPath w =>
      have hw := h w (by simp)
      simp only [editFirstAddPath, hw.2]
      rw [List.filter_eq_self]
      intro x hx
      cases x <;> try rfl
      rename_i v
      have := (h v hx).1
      cases v <;> simp_all [dropEmptyAddPath]
    all_goals
      simp only [editFirstAddPath]
      rw [List.filter_cons_of_pos (by rfl), ih']

/-- **C48, what holds.** For capability lists with at most one AddPath capability (and for the removal of
anything but AddPath without that condition), `check_capability(c)` is false after `remove_capability(c)`, and
removing again changes nothing. Missing for the full property: several AddPath capabilities, see `C48_second_addpath_survives`. -/
theorem C48_remove_capability_partial (p : BgpSessionParams) (c : BgpCapability)
    (h : SameKind c (.CapAddPath []) → (addPathLists p.caps).length ≤ 1) :
    (p.removeCapability c).checkCapability c = false ∧
    ((p.removeCapability c).removeCapability c).caps = (p.removeCapability c).caps := by
  have gen : ∀ c : BgpCapability, (∀ q : BgpSessionParams, (q.removeCapability c).caps = q.caps.filter fun x => x != c) →
      (p.removeCapability c).checkCapability c = false ∧
      ((p.removeCapability c).removeCapability c).caps = (p.removeCapability c).caps := by
    intro c hc
    unfold checkCapability
    rw [hc (p.removeCapability c), hc p, List.filter_filter]
    simp
  cases c
  case CapASN32 n =>
    unfold checkCapability
    simp only [removeCapability]
    rw [List.filter_filter]
    refine ⟨?_, by simp⟩
    rw [Bool.eq_false_iff]
    intro hc
    simp only [List.any_eq_true, List.mem_filter, beq_iff_eq] at hc
    obtain ⟨x, ⟨-, hx⟩, rfl⟩ := hc
    simp [isASN32] at hx
  case CapAddPath vc =>
    have h1 := h (by simp [sameKind_addPath, isAddPath])
    -- every AddPath list left after the removal is non-empty and free of `vc`
    have hleft : ∀ v, BgpCapability.CapAddPath v ∈ (p.removeCapability (.CapAddPath vc)).caps →
        v ≠ [] ∧ ∀ x ∈ v, x ∉ vc := by
      intro v hv
      rw [remove_addpath_eq] at hv
      split at hv
      · rw [List.mem_filter] at hv
        obtain ⟨w, rfl, -⟩ := mem_editFirst _ _ h1 _ hv.1
        refine ⟨?_, fun x hx => (mem_foldl_filter _ _ _ hx).2⟩
        intro e
        have := hv.2
        rw [e] at this
        simp [dropEmptyAddPath] at this
      · rename_i hn
        exfalso
        apply hn
        simp only [List.any_eq_true, isAddPath_iff]
        exact ⟨_, hv, _, rfl⟩
    constructor
    · unfold checkCapability
      rw [Bool.eq_false_iff]
      intro hc
      simp only [List.any_eq_true, beq_iff_eq, exists_eq_right] at hc
      obtain ⟨hne, hd⟩ := hleft _ hc
      cases vc with
      | nil => exact hne rfl
      | cons a as => exact hd a (by simp) (by simp)
    · rw [remove_addpath_eq (p.removeCapability _)]
      split
      · apply editFirst_filter_id
        intro v hv
        have := hleft v hv
        exact ⟨this.1, foldl_filter_disjoint _ _ this.2⟩
      · rfl
  all_goals exact gen _ (fun q => rfl)

/-- non-vacuity of C48 -/
example : let p := BgpSessionParams.new 1 180 .IPv4 1 [.SafiIPv4u,
      .CapAddPath [⟨1, 1, true, true⟩, ⟨2, 1, true, true⟩], .CapRR]
    (addPathLists p.caps).length ≤ 1 ∧
    (p.removeCapability (.CapAddPath [⟨1, 1, true, true⟩])).caps =
      [.SafiIPv4u, .CapAddPath [⟨2, 1, true, true⟩], .CapRR] := by decide

/-- **C48 is violated** when a capability list holds two AddPath capabilities: the second survives its removal. -/
theorem C48_second_addpath_survives :
    ¬ ∀ (p : BgpSessionParams) (c : BgpCapability), (p.removeCapability c).checkCapability c = false := by
  intro h
  have := h (BgpSessionParams.new 1 180 .IPv4 1
    [.CapAddPath [⟨1, 1, true, true⟩], .CapAddPath [⟨1, 1, true, true⟩]]) (.CapAddPath [⟨1, 1, true, true⟩])
  revert this
  decide

/-- `remove_capability_addpath` leaves no AddPath capability and everything else in order. -/
theorem C48_remove_addpath_all (p : BgpSessionParams) :
    p.removeCapabilityAddpath.caps = withoutAddPath p.caps := by
  unfold removeCapabilityAddpath withoutAddPath
  simp only
  congr 1
  funext c
  simp only [sameKind_addPath]
  cases isAddPath c <;> rfl

end Zbgp.Props
