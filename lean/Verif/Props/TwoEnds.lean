import Verif.Spec.TwoEnds
import Verif.Lemmas.TwoEnds
import Verif.Props.Session
import Verif.Props.Open
import Verif.Props.Update

/-! # C94: the two ends of a session -/

namespace Zbgp.Props

open Zbgp Spec BgpSessionParams

theorem send_eq (p : BgpSessionParams) (afi : U16) (safi : U8) :
    p.checkAddpathSend afi safi = SendsAddPath p.caps (afi, safi) := by
  unfold BgpSessionParams.checkAddpathSend BgpSessionParams.findAddpath SendsAddPath
  rw [findAddpathIn_eq]
  generalize List.find? _ _ = o
  cases o <;> rfl

theorem matchCaps_mode (p : BgpSessionParams) (r) : (p.matchCaps r).peerMode = p.peerMode ∧
    (p.matchCaps r).fuzzyPathid = p.fuzzyPathid := by
  unfold matchCaps
  rw [checkCaps_eq]
  have : ∀ (l : List BgpCapability) (q : BgpSessionParams), (l.foldl checkStep q).peerMode = q.peerMode ∧
      (l.foldl checkStep q).fuzzyPathid = q.fuzzyPathid := by
    intro l
    induction l with
    | nil => intro q; exact ⟨rfl, rfl⟩
    | cons c cs ih =>
      intro q
      rw [List.foldl_cons, (ih _).1, (ih _).2]
      cases c <;> exact ⟨rfl, rfl⟩
  rw [(this _ _).1, (this _ _).2]
  exact ⟨rfl, rfl⟩

theorem find_addpath_first (r : List BgpCapability) :
    r.find? isAddPath = (addPathLists r).head?.map .CapAddPath := by
  induction r with
  | nil => rfl
  | cons c cs ih => cases c <;> simp_all [addPathLists, isAddPath]

theorem addPathLists_matched (own r : List BgpCapability) :
    addPathLists (own.filterMap (matchCap r)) =
      match (addPathLists r).head? with
      | none => []
      | some pv => (addPathLists own).map fun v => matchAddpathCaps v pv := by
  have hf := find_addpath_first r
  induction own with
  | nil => cases (addPathLists r).head? <;> rfl
  | cons c cs ih =>
    have hn : ∀ c : BgpCapability, isAddPath c = false →
        addPathLists ((c :: cs).filterMap (matchCap r)) = addPathLists (cs.filterMap (matchCap r)) := by
      intro c hc
      rw [List.filterMap_cons]
      obtain ⟨h1, h2⟩ := matchCap_nonAddPath r c hc
      by_cases h : PeerHas r c
      · rw [h1 h]; cases c <;> first | rfl | cases hc
      · rw [h2 h]
    cases c
    case CapAddPath v =>
      rw [List.filterMap_cons, matchCap, hf]
      cases hh : (addPathLists r).head? with
      | none => rw [hh] at ih; simpa using ih
      | some pv =>
        rw [hh] at ih
        simp only [Option.map_some]
        show matchAddpathCaps v pv :: addPathLists (cs.filterMap (matchCap r)) = _
        rw [ih]
        rfl
    all_goals (rw [hn _ rfl, ih]; rfl)

theorem find_matched (v pv : List BgpCapAddPath) (fam : U16 × U8) :
    (matchAddpathCaps v pv).find? (fun a => decide (family a = fam)) =
      if ∃ o ∈ v, family o = fam then (pv.find? fun a => decide (family a = fam)).map BgpCapAddPath.response else none := by
  induction v with
  | nil => simp [matchAddpathCaps]
  | cons o os ih =>
    have e : (fun q : BgpCapAddPath => o.afi == q.afi && o.safi == q.safi) = fun q => decide (family q = family o) := by
      funext q
      rw [Bool.eq_iff_iff]
      simp only [family, Bool.and_eq_true, beq_iff_eq, decide_eq_true_iff, Prod.mk.injEq]
      exact ⟨fun ⟨a, b⟩ => ⟨a.symm, b.symm⟩, fun ⟨a, b⟩ => ⟨a.symm, b.symm⟩⟩
    have step : matchAddpathCaps (o :: os) pv =
        ((pv.find? fun q => decide (family q = family o)).map BgpCapAddPath.response).toList ++ matchAddpathCaps os pv := by
      unfold matchAddpathCaps
      rw [List.filterMap_cons, e]
      cases pv.find? fun q => decide (family q = family o) <;> rfl
    rw [step, List.find?_append, ih]
    by_cases ho : family o = fam
    · subst ho
      rw [if_pos (show ∃ x ∈ o :: os, family x = family o from ⟨o, by simp, rfl⟩)]
      cases hq : pv.find? fun q => decide (family q = family o) with
      | none => simp only [Option.map_none, Option.toList_none, List.find?_nil, Option.none_or, ite_self]
      | some q =>
        have hqf : family q = family o := by simpa using List.find?_some hq
        have : family q.response = family o := hqf
        simp [this]
    · have hsame : (∃ x ∈ o :: os, family x = fam) ↔ ∃ x ∈ os, family x = fam := by
        simp [ho]
      have hno : ((pv.find? fun q => decide (family q = family o)).map BgpCapAddPath.response).toList.find?
          (fun a => decide (family a = fam)) = none := by
        cases hq : pv.find? fun q => decide (family q = family o) with
        | none => rfl
        | some q =>
          have hqf : family q = family o := by simpa using List.find?_some hq
          have : family q.response = family o := hqf
          simp [this, ho]
      rw [hno, Option.none_or]
      by_cases hx : ∃ x ∈ os, family x = fam
      · rw [if_pos hx, if_pos (hsame.2 hx)]
      · rw [if_neg hx, if_neg (fun h => hx (hsame.1 h))]

theorem mem_advertises (caps : List BgpCapability) (a : BgpCapAddPath) :
    (∃ v ∈ addPathLists caps, a ∈ v) ↔ Advertises caps a := by
  simp only [addPathLists, List.mem_filterMap, Advertises]
  constructor
  · rintro ⟨l, ⟨c, hc, hl⟩, ha⟩
    cases c <;> simp at hl
    exact ⟨_, hc, by rw [hl]; exact ha⟩
  · rintro ⟨v, hv, ha⟩
    exact ⟨v, ⟨_, hv, rfl⟩, ha⟩

open Classical in
/-- what `find_addpath` finds after `match_caps` -/
theorem find_negotiated (p : BgpSessionParams) (peer : List BgpCapability) (fam : U16 × U8) :
    (addPathLists (p.matchCaps peer).caps).flatten.find? (fun a => decide (family a = fam)) =
      if ∃ o, Advertises p.caps o ∧ family o = fam then (firstOffer peer fam).map BgpCapAddPath.response else none := by
  rw [matchCaps_caps, addPathLists_matched, firstOffer]
  have key : ∀ (L : List (List BgpCapAddPath)) (pv : List BgpCapAddPath),
      (L.map fun v => matchAddpathCaps v pv).flatten.find? (fun a => decide (family a = fam)) =
        if ∃ v ∈ L, ∃ o ∈ v, family o = fam then
          (pv.find? fun a => decide (family a = fam)).map BgpCapAddPath.response else none := by
    intro L pv
    induction L with
    | nil => simp
    | cons v L ih =>
      rw [List.map_cons, List.flatten_cons, List.find?_append, ih, find_matched]
      by_cases h1 : ∃ o ∈ v, family o = fam
      · rw [if_pos h1, if_pos (show ∃ w ∈ v :: L, ∃ o ∈ w, family o = fam from ⟨v, by simp, h1⟩)]
        cases pv.find? fun a => decide (family a = fam) with
        | none => simp only [Option.map_none, Option.none_or, ite_self]
        | some q => rfl
      · rw [if_neg h1, Option.none_or]
        have : (∃ w ∈ v :: L, ∃ o ∈ w, family o = fam) ↔ ∃ w ∈ L, ∃ o ∈ w, family o = fam := by
          constructor
          · rintro ⟨w, hw, ho⟩
            rcases List.mem_cons.1 hw with rfl | hw
            · exact absurd ho h1
            · exact ⟨w, hw, ho⟩
          · rintro ⟨w, hw, ho⟩; exact ⟨w, by simp [hw], ho⟩
        by_cases h2 : ∃ w ∈ L, ∃ o ∈ w, family o = fam
        · rw [if_pos h2, if_pos (this.2 h2)]
        · rw [if_neg h2, if_neg (fun h => h2 (this.1 h))]
  have hadv : (∃ v ∈ addPathLists p.caps, ∃ o ∈ v, family o = fam) ↔ ∃ o, Advertises p.caps o ∧ family o = fam := by
    constructor
    · rintro ⟨v, hv, o, ho, hf⟩; exact ⟨o, (mem_advertises _ _).1 ⟨v, hv, ho⟩, hf⟩
    · rintro ⟨o, ho, hf⟩
      obtain ⟨v, hv, hm⟩ := (mem_advertises _ _).2 ho
      exact ⟨v, hv, o, hm, hf⟩
  cases hh : (addPathLists peer).head? with
  | none =>
    have : addPathLists peer = [] := by simpa using hh
    simp [this]
  | some pv =>
    have : (addPathLists peer).headD [] = pv := by
      rw [List.headD_eq_head?_getD, hh]; rfl
    rw [this]
    simp only
    rw [key]
    by_cases h : ∃ o, Advertises p.caps o ∧ family o = fam
    · rw [if_pos h, if_pos (hadv.2 h)]
    · rw [if_neg h, if_neg (fun x => h (hadv.1 x))]

/-- **C94** (and the exact form of C46). After `match_caps`, path identifiers are sent for a family exactly if the own side has an
AddPath entry for it, whatever its bits, and the first entry for it in the first AddPath capability of the peer offers to receive;
and they are received exactly if that entry offers to send. -/
theorem C94_negotiated (p : BgpSessionParams) (peer : List BgpCapability) (afi : U16) (safi : U8) :
    ((p.matchCaps peer).checkAddpathSend afi safi = true ↔
      (∃ o, Advertises p.caps o ∧ family o = (afi, safi)) ∧
      ∃ q, firstOffer peer (afi, safi) = some q ∧ q.receive = true) ∧
    ((p.matchCaps peer).checkAddpathReceive afi safi = true ↔
      (∃ o, Advertises p.caps o ∧ family o = (afi, safi)) ∧
      ∃ q, firstOffer peer (afi, safi) = some q ∧ q.send = true) := by
  rw [send_eq, receive_eq]
  unfold SendsAddPath ReceivesAddPath
  rw [find_negotiated]
  by_cases h : ∃ o, Advertises p.caps o ∧ family o = (afi, safi)
  · rw [if_pos h]
    cases firstOffer peer (afi, safi) with
    | none => simp
    | some q => simp [h, BgpCapAddPath.response]
  · rw [if_neg h]
    simp [h]

/-- non-vacuity of `C94_negotiated`: of a family the peer lists twice the first entry counts -/
example : let p := BgpSessionParams.new 1 180 .IPv4 1 [.CapAddPath [⟨1, 1, false, false⟩, ⟨2, 1, true, true⟩]]
    let q := p.matchCaps [.CapAddPath [⟨2, 1, false, true⟩, ⟨2, 1, true, false⟩]]
    q.checkAddpathSend 2 1 = true ∧ q.checkAddpathReceive 2 1 = false ∧ q.checkAddpathSend 1 1 = false := by decide

/-- **C94.** Two sides that negotiate with each other's capabilities agree on the width of AS numbers. -/
theorem C94_as_width (A B : BgpSessionParams) :
    (A.matchCaps B.caps).hasAs32bit = (B.matchCaps A.caps).hasAs32bit := by
  rw [Bool.eq_iff_iff, (C47_match_caps A B.caps).2.1, (C47_match_caps B A.caps).2.1, and_comm]

/-- non-vacuity of `C94_as_width`: both have it, and one does not -/
example : let A := BgpSessionParams.new 1 180 .IPv4 1 [.CapASN32 70000]
    let B := BgpSessionParams.new 2 180 .IPv4 2 [.SafiIPv4u, .CapASN32 2]
    let C := BgpSessionParams.new 3 180 .IPv4 3 [.SafiIPv4u]
    (A.matchCaps B.caps).hasAs32bit = true ∧ (A.matchCaps C.caps).hasAs32bit = false := by decide

theorem offered (caps : List BgpCapability) (h : (addPathLists caps).length ≤ 1) (fam : U16 × U8) :
    (∃ o, Advertises caps o ∧ family o = fam) ↔ ∃ o, firstOffer caps fam = some o := by
  constructor
  · rintro ⟨o, ho, hf⟩
    obtain ⟨v, hv, hm⟩ := (mem_advertises _ _).2 ho
    match hl : addPathLists caps, h with
    | [], _ => rw [hl] at hv; simp at hv
    | [w], _ =>
      rw [hl] at hv
      simp only [List.mem_singleton] at hv
      subst hv
      unfold firstOffer
      rw [hl]
      simp only [List.headD_cons]
      cases hq : v.find? fun a => decide (family a = fam) with
      | none => rw [List.find?_eq_none] at hq; exact absurd hf (by simpa using hq o hm)
      | some q => exact ⟨q, rfl⟩
    | _ :: _ :: _, h => simp at h
  · rintro ⟨o, ho⟩
    unfold firstOffer at ho
    refine ⟨o, (mem_advertises _ _).1 ⟨_, ?_, List.mem_of_find?_eq_some ho⟩, by simpa using List.find?_some ho⟩
    cases hl : addPathLists caps with
    | nil => rw [hl] at ho; simp at ho
    | cons w ws => simp

/-- **C94, agreement on path identifiers, exactly.** Of two sides with at most one AddPath capability each, the receiver expects
path identifiers in the families the sender sends them in, no more and no less, exactly if for each family of both the sender
offers to send just if the receiver offers to receive. -/
theorem C94_addpath_agreement (A B : BgpSessionParams) (hA : (addPathLists A.caps).length ≤ 1)
    (hB : (addPathLists B.caps).length ≤ 1) :
    (∀ fam, Agree (A.matchCaps B.caps) (B.matchCaps A.caps) fam) ↔
      ∀ fam o q, firstOffer A.caps fam = some o → firstOffer B.caps fam = some q → o.send = q.receive := by
  have h : ∀ fam : U16 × U8, Agree (A.matchCaps B.caps) (B.matchCaps A.caps) fam ↔
      ∀ o q, firstOffer A.caps fam = some o → firstOffer B.caps fam = some q → o.send = q.receive := by
    intro fam
    have e1 := (C94_negotiated A B.caps fam.1 fam.2).1
    have e2 := (C94_negotiated B A.caps fam.1 fam.2).2
    rw [send_eq, offered _ hA] at e1
    rw [receive_eq, offered _ hB] at e2
    unfold Agree
    rw [Bool.eq_iff_iff, e1, e2]
    cases hx : firstOffer A.caps (fam.1, fam.2) with
    | none => simp
    | some o =>
      cases hy : firstOffer B.caps (fam.1, fam.2) with
      | none => simp
      | some q =>
        simp only [Option.some.injEq, exists_eq', true_and, exists_eq_left']
        constructor
        · rintro h _ _ rfl rfl; rw [Bool.eq_iff_iff]; exact h.symm
        · intro h; rw [h o q rfl rfl]
  exact ⟨fun H fam => (h fam).1 (H fam), fun H fam => (h fam).2 (H fam)⟩

/-- **C94 holds of path identifiers** between sides with one AddPath capability each that offer both directions. -/
theorem C94_both_directions_partial (A B : BgpSessionParams) (hA : (addPathLists A.caps).length ≤ 1)
    (hB : (addPathLists B.caps).length ≤ 1) (hs : ∀ o, Advertises A.caps o → o.send = true)
    (hr : ∀ q, Advertises B.caps q → q.receive = true) (fam : U16 × U8) :
    Agree (A.matchCaps B.caps) (B.matchCaps A.caps) fam := by
  refine (C94_addpath_agreement A B hA hB).2 (fun fam o q ho hq => ?_) fam
  have mem : ∀ {caps : List BgpCapability} {o}, firstOffer caps fam = some o → Advertises caps o := by
    intro caps o ho
    unfold firstOffer at ho
    refine (mem_advertises _ _).1 ⟨_, ?_, List.mem_of_find?_eq_some ho⟩
    cases hl : addPathLists caps with
    | nil => rw [hl] at ho; simp at ho
    | cons w ws => simp
  rw [hs o (mem ho), hr q (mem hq)]

/-! ## messages -/

theorem mirror_receives (caps : List BgpCapability) (fam : U16 × U8) :
    ReceivesAddPath (caps.map mirrorCap) fam = SendsAddPath caps fam := by
  have hl : (addPathLists (caps.map mirrorCap)).flatten =
      (addPathLists caps).flatten.map fun a => { a with send := a.receive, receive := a.send } := by
    induction caps with
    | nil => rfl
    | cons c cs ih =>
      cases c
      case CapAddPath v =>
        show (v.map _) ++ (addPathLists (cs.map mirrorCap)).flatten = _
        rw [ih]
        show _ = List.map _ (v ++ (addPathLists cs).flatten)
        rw [List.map_append]
      all_goals exact ih
  unfold ReceivesAddPath SendsAddPath
  rw [hl, List.find?_map]
  have e : ((fun a => decide (family a = fam)) ∘ fun a : BgpCapAddPath => { a with send := a.receive, receive := a.send }) =
      fun a => decide (family a = fam) := rfl
  rw [e]
  cases List.find? _ _ <;> rfl

theorem partsOk_congr {p q : BgpSessionParams} (hm : p.peerMode = q.peerMode) (ha : p.hasAs32bit = q.hasAs32bit)
    (he : ∀ fam buf, AddPathExpected p fam buf = AddPathExpected q fam buf) {m : BgpUpdateMessage}
    (h : PartsOk p m) : PartsOk q m := by
  have hf : ∀ {x}, FormExpected p x → FormExpected q x := by
    intro x hx f ap hk hp
    rw [← he]; exact hx f ap hk hp
  have hs : ∀ {x}, SectionOk p x → SectionOk q x := by
    intro x hx
    have e : sessionFamily p = sessionFamily q := by unfold sessionFamily; rw [hm]
    rcases hx with rfl | ⟨⟨ap, h1⟩, h2, h3⟩
    · exact .inl rfl
    · exact .inr ⟨⟨ap, e ▸ h1⟩, h2, hf h3⟩
  refine ⟨hs h.1, hs h.2.1, fun a hx => ?_⟩
  obtain ⟨h1, h2⟩ := h.2.2 a hx
  refine ⟨?_, ha ▸ h2⟩
  cases a <;> simp only [AttrOk, hm, ha] at h1 ⊢ <;>
    first | exact h1 | exact ⟨h1.1, hf h1.2.1, h1.2.2⟩ | exact ⟨h1.1, hf h1.2⟩

theorem updateWire_congr {p q : BgpSessionParams} (ha : p.hasAs32bit = q.hasAs32bit) (m : BgpUpdateMessage) :
    updateWire p m = updateWire q m := by
  unfold updateWire attrsWire; rw [ha]

theorem arrives_of (A B : BgpSessionParams) (hm : A.peerMode = B.peerMode) (ha : A.hasAs32bit = B.hasAs32bit)
    (hz : B.fuzzyPathid = false) (hg : ∀ fam, Agree A B fam) (m : BgpUpdateMessage) (h : SendOk A m)
    (hw : (addrsWire m.withdraws).length ≤ 65535) (hl : (attrsWire A m.attrs).length ≤ 65535) : Arrives A B m := by
  intro buf hb
  have hp : PartsOk B m := by
    refine partsOk_congr (p := mirror A) hm ha (fun fam b => ?_) h
    have e1 : ReceivesAddPath (mirror A).caps fam = SendsAddPath A.caps fam := mirror_receives _ _
    have e2 := hg fam
    unfold Agree at e2
    have e3 : (mirror A).fuzzyPathid = false := rfl
    simp only [AddPathExpected, e1, e2, e3, hz, Bool.false_and, Bool.or_false]
  have hl' : (attrsWire B m.attrs).length ≤ 65535 := by
    unfold attrsWire at hl ⊢; rw [← ha]; exact hl
  rw [updateWire_congr ha] at hb
  obtain ⟨buf', n, h1, -, -, h2⟩ := C39_update_round_trip_partial B m hp hw hl' buf hb
  exact ⟨buf', n, by rw [update_congr hm ha]; exact h1, h2⟩

/-- **C94, what holds.** Two sides on the same transport exchange OPENs (capabilities that can be encoded, and that fit the buffer),
each negotiating with the capabilities it has read from the other one's OPEN. If the two then agree on path identifiers and the receiver
does not guess, every UPDATE one side can send, in the form its own session calls for, arrives at the other side. Missing for
the full property: agreement on path identifiers, which does not always come about (`C94_one_way_offers_misread`), and guessing receivers
(`C94_guess_misreads`). -/
theorem C94_conversation_partial (A B : BgpSessionParams) (hm : A.peerMode = B.peerMode) (hz : B.fuzzyPathid = false)
    (hA : ∀ c ∈ A.caps, CapEncodable c) (hB : ∀ c ∈ B.caps, CapEncodable c) (buf : Bytes)
    (hbA : 10 + (capsParams A.caps).length ≤ buf.length) (hbB : 10 + (capsParams B.caps).length ≤ buf.length) :
    ∃ bufA n bufB k fromA fromB,
      A.openMessage.encodeTo buf = .ok (bufA, n) ∧ BgpOpenMessage.new.decodeFrom (bufA.take n) = .ok fromA ∧
      B.openMessage.encodeTo buf = .ok (bufB, k) ∧ BgpOpenMessage.new.decodeFrom (bufB.take k) = .ok fromB ∧
      ∀ A' B', A' = A.matchCaps fromB.caps → B' = B.matchCaps fromA.caps →
        A'.hasAs32bit = B'.hasAs32bit ∧
        ((∀ fam, Agree A' B' fam) → ∀ m : BgpUpdateMessage, SendOk A' m →
          (addrsWire m.withdraws).length ≤ 65535 → (attrsWire A' m.attrs).length ≤ 65535 → Arrives A' B' m) := by
  obtain ⟨bufA, n, a1, -, -, -, a2⟩ := C05_open_round_trip A.openMessage hA buf hbA .new
  obtain ⟨bufB, k, b1, -, -, -, b2⟩ := C05_open_round_trip B.openMessage hB buf hbB .new
  refine ⟨bufA, n, bufB, k, _, _, a1, a2, b1, b2, ?_⟩
  rintro _ _ rfl rfl
  have hw := C94_as_width A B
  refine ⟨hw, fun hg m h h1 h2 => arrives_of _ _ ?_ hw ?_ hg m h h1 h2⟩
  · rw [(matchCaps_mode _ _).1, (matchCaps_mode _ _).1]; exact hm
  · rw [(matchCaps_mode _ _).2]; exact hz

/-! ## what goes wrong -/

/-- A side that offers for IPv4 unicast the directions given. -/
def speaker (send receive : Bool) : BgpSessionParams :=
  { BgpSessionParams.new 65001 180 .IPv4 1 [.SafiIPv4u, .CapASN32 65001, .CapAddPath [⟨1, 1, send, receive⟩]] with
    fuzzyPathid := false }

theorem speaker_encodable (s r : Bool) : ∀ c ∈ (speaker s r).caps, CapEncodable c := by
  cases s <;> cases r <;> (intro c hc; simp only [speaker, BgpSessionParams.new, List.mem_cons, List.not_mem_nil, or_false] at hc) <;>
    rcases hc with rfl | rfl | rfl <;> exact ⟨trivial, by decide⟩

theorem sendOk_updates (p : BgpSessionParams) (x : BgpAddrs) (h : SectionOk (mirror p) x) : SendOk p ⟨x, .None, []⟩ :=
  ⟨.inl rfl, h, by intro a ha; simp at ha⟩

/-- **C94 is violated.** One side offers only to receive path identifiers, the other one both directions. The first side then
sends 10.0.0.0/8 with a path identifier, as its session says, and the other side reads four default routes and 10.0.0.0/8. -/
theorem C94_one_way_offers_misread :
    let A' := (speaker false true).matchCaps (speaker true true).caps
    let B' := (speaker true true).matchCaps (speaker false true).caps
    let m : BgpUpdateMessage := ⟨.IPV4UP [⟨0, ⟨0x0a000000, 8⟩⟩], .None, []⟩
    SendOk A' m ∧ ¬ Arrives A' B' m ∧
      ∃ buf' n, m.encodeTo A' (List.replicate 100 0) = .ok (buf', n) ∧
        BgpUpdateMessage.new.decodeFrom B' (buf'.take n) =
          .ok ⟨.IPV4U [⟨0, 0⟩, ⟨0, 0⟩, ⟨0, 0⟩, ⟨0, 0⟩, ⟨0x0a000000, 8⟩], .IPV4U [], []⟩ := by
  refine ⟨?_, ?_, ?_⟩
  · apply sendOk_updates
    refine .inr ⟨⟨true, rfl⟩, ?_, ?_⟩
    · simp [AddrsWF, NlriKind.WF, NlriKind.bits]
    · rintro f ap hk -
      simp only [kindOf, Option.some.injEq, Prod.mk.injEq] at hk
      obtain ⟨rfl, rfl⟩ := hk
      decide
  · intro h
    obtain ⟨buf', n, h1, h2⟩ := h (List.replicate 10 0) (by decide)
    have e : BgpUpdateMessage.encodeTo ⟨.IPV4UP [⟨0, ⟨0x0a000000, 8⟩⟩], .None, []⟩
        ((speaker false true).matchCaps (speaker true true).caps) (List.replicate 10 0) =
        .ok ([0, 0, 0, 0, 0, 0, 0, 0, 8, 10], 10) := by decide
    rw [e] at h1
    simp only [Res.ok.injEq, Prod.mk.injEq] at h1
    obtain ⟨rfl, rfl⟩ := h1
    cases h2
  · exact ⟨_, _, rfl, rfl⟩

/-- **C94 is violated** the other way round, too: of two sides that only offer to send path identifiers, neither sends any, and each
expects them. The prefixes 10.1.2.0/24 and 10.0.0.0/8 arrive as 10.0.0.0/8 with a path
identifier. -/
theorem C94_send_only_misread :
    let A' := (speaker true false).matchCaps (speaker true false).caps
    let m : BgpUpdateMessage := ⟨.IPV4U [⟨0x0a010200, 24⟩, ⟨0x0a000000, 8⟩], .None, []⟩
    SendOk A' m ∧ ¬ Arrives A' A' m ∧
      ∃ buf' n, m.encodeTo A' (List.replicate 100 0) = .ok (buf', n) ∧
        BgpUpdateMessage.new.decodeFrom A' (buf'.take n) =
          .ok ⟨.IPV4UP [⟨0x180a0102, ⟨0x0a000000, 8⟩⟩], .IPV4UP [], []⟩ := by
  refine ⟨?_, ?_, ?_⟩
  · apply sendOk_updates
    refine .inr ⟨⟨false, rfl⟩, ?_, ?_⟩
    · simp [AddrsWF, NlriKind.WF, NlriKind.bits]
    · rintro f ap hk -
      simp only [kindOf, Option.some.injEq, Prod.mk.injEq] at hk
      obtain ⟨rfl, rfl⟩ := hk
      decide
  · intro h
    obtain ⟨buf', n, h1, h2⟩ := h (List.replicate 10 0) (by decide)
    have e : BgpUpdateMessage.encodeTo ⟨.IPV4U [⟨0x0a010200, 24⟩, ⟨0x0a000000, 8⟩], .None, []⟩
        ((speaker true false).matchCaps (speaker true false).caps) (List.replicate 10 0) =
        .ok ([0, 0, 0, 0, 24, 10, 1, 2, 8, 10], 10) := by decide
    rw [e] at h1
    simp only [Res.ok.injEq, Prod.mk.injEq] at h1
    obtain ⟨rfl, rfl⟩ := h1
    cases h2
  · exact ⟨_, _, rfl, rfl⟩

/-- **C94 is violated** for receivers that guess, as all sessions do by default: without AddPath on either side, two default routes,
10.0.0.0/8 and 11.0.0.0/8 are read as 11.0.0.0/8 with a path identifier. -/
theorem C94_guess_misreads :
    let A := BgpSessionParams.new 65001 180 .IPv4 1 [.SafiIPv4u]
    let A' := A.matchCaps A.caps
    let m : BgpUpdateMessage := ⟨.IPV4U [⟨0, 0⟩, ⟨0, 0⟩, ⟨0x0a000000, 8⟩, ⟨0x0b000000, 8⟩], .None, []⟩
    SendOk A' m ∧ (∀ fam, Agree A' A' fam) ∧
      ∃ buf' n, m.encodeTo A' (List.replicate 100 0) = .ok (buf', n) ∧
        BgpUpdateMessage.new.decodeFrom A' (buf'.take n) = .ok ⟨.IPV4UP [⟨0x80a, ⟨0x0b000000, 8⟩⟩], .IPV4U [], []⟩ := by
  refine ⟨?_, ?_, ?_⟩
  · apply sendOk_updates
    refine .inr ⟨⟨false, rfl⟩, ?_, ?_⟩
    · simp [AddrsWF, NlriKind.WF, NlriKind.bits]
    · rintro f ap hk -
      simp only [kindOf, Option.some.injEq, Prod.mk.injEq] at hk
      obtain ⟨rfl, rfl⟩ := hk
      decide
  · intro fam; rfl
  · exact ⟨_, _, rfl, rfl⟩

/-- non-vacuity of `C94_addpath_agreement`, `C94_both_directions_partial` and `C94_conversation_partial`: two sides that offer both
directions, and a message with path identifiers -/
example :
    let A' := (speaker true true).matchCaps (speaker true true).caps
    let m : BgpUpdateMessage := ⟨.IPV4UP [⟨7, ⟨0x0a000000, 8⟩⟩], .None, [.Origin ⟨.Igp⟩]⟩
    (∀ fam, Agree A' A' fam) ∧ SendsAddPath A'.caps (1, 1) = true ∧ Arrives A' A' m := by
  have hag := C94_both_directions_partial (speaker true true) (speaker true true) (by decide) (by decide)
    (by rintro o ⟨v, hv, ho⟩; simp [speaker, BgpSessionParams.new] at hv; subst hv; simp at ho; subst ho; rfl)
    (by rintro o ⟨v, hv, ho⟩; simp [speaker, BgpSessionParams.new] at hv; subst hv; simp at ho; subst ho; rfl)
  refine ⟨hag, by decide, ?_⟩
  refine arrives_of _ _ rfl rfl rfl hag _ ⟨.inl rfl, .inr ⟨⟨true, rfl⟩, ?_, ?_⟩, ?_⟩ (by decide) (by decide)
  · simp [AddrsWF, NlriKind.WF, NlriKind.bits]
  · rintro f ap hk -
    simp only [kindOf, Option.some.injEq, Prod.mk.injEq] at hk
    obtain ⟨rfl, rfl⟩ := hk
    decide
  · intro a ha
    simp only [List.mem_singleton] at ha
    subst ha
    exact ⟨trivial, by decide⟩

example := speaker_encodable true true

end Zbgp.Props
