import Verif.Lemmas.Between
import Verif.Lemmas.RelayNeeded

/-!
# Lemmas for C122 with overflow checks
-/

namespace Zbgp

open Spec

theorem sent_both {f g : Enc} {fc fr : Fate} (hc : Ends f fc) (hr : Ends g fr) (hs : ∀ b, BSim (f b) (g b)) (hn : fc ≠ .crash)
    {w : Bytes} (hw : fr = .octets w) : ∃ room, ∀ buf : Bytes, room ≤ buf.length → ∃ rest, f buf = .ok (w ++ rest, w.length) := by
  subst hw
  obtain ⟨r1, h1⟩ := hc
  obtain ⟨r2, h2⟩ := hr
  refine ⟨max r1 r2, fun buf hb => ?_⟩
  obtain ⟨w', rest, h3, h4, -⟩ := h2 buf (by omega)
  obtain rfl := fits_some_eq h3
  refine ⟨rest, ?_⟩
  rcases hs buf with h | h
  · exfalso
    cases fc with
    | sent pat =>
      obtain ⟨_, _, _, h5, _⟩ := h1 buf (by omega)
      rw [h] at h5
      cases h5
    | refused =>
      have := h1 buf (by omega)
      rw [h] at this
      exact this
    | crash => exact hn rfl
  · rw [← h, h4]

theorem writes_not_crash {f : Enc} {w : Bytes} {fate : Fate} (hw : Writes f w) (he : Ends f fate) : fate ≠ .crash := by
  rintro rfl
  obtain ⟨room, h⟩ := he
  have h1 := hw (List.replicate (room + w.length) 0) (by simp)
  rw [h _ (by simp)] at h1
  cases h1

theorem writes_octets {f g : Enc} {w v : Bytes} (hw : Writes f w) (hr : Ends g (.octets v)) (hs : ∀ b, BSim (f b) (g b)) :
    v = w := by
  obtain ⟨room, h⟩ := hr
  have h1 := hw (List.replicate (room + w.length) 0) (by simp)
  obtain ⟨v', rest, h2, h3, -⟩ := h (List.replicate (room + w.length) 0) (by simp)
  obtain rfl := fits_some_eq h2
  rcases hs (List.replicate (room + w.length) 0) with h4 | h4
  · rw [h1] at h4
    cases h4
  · rw [h1, h3] at h4
    simp only [Res.ok.injEq, Prod.mk.injEq] at h4
    exact (List.append_inj h4.1 h4.2).1

/-- collections of routes that come back without the checks -/
theorem coll_checked {q : BgpSessionParams} {f : Family} {x : BgpAddrs} {w : Bytes} (hw : nlriFate .release x = .octets w)
    (hc : CollectionBack q f x) :
    ((∃ n, AddrsRead q f w x n) ∧ nlriFate .checked x ≠ .crash) ↔ AddrsWF x := by
  have hec := ends_nlri .checked x q
  rw [addrsEncFn_checked] at hec
  have her := ends_nlri .release x q
  rw [hw] at her
  constructor
  · rintro ⟨⟨n, hr⟩, hn⟩
    obtain ⟨room, h⟩ := sent_both hec her (bsim_addrsEnc x q) hn rfl
    obtain ⟨rest, h1⟩ := h (List.replicate room 0) (by simp)
    have ht : (w ++ rest).take w.length = w := List.take_left' rfl
    rw [← ht] at hr
    exact (addrs_normal hr (relay_needed h1 hr)).1
  · intro hx
    have hwr := addrs_writes x q hx
    obtain rfl := writes_octets hwr her (bsim_addrsEnc x q)
    refine ⟨?_, writes_not_crash hwr hec⟩
    obtain ⟨ap, hk, -, hap⟩ := id hc
    have hf : FormExpected q x := by
      intro g ap' hk' ha
      rw [hk] at hk'
      cases hk'
      exact (hap ha _ hw).symm
    have hd := addrs_reads x q hx hf
    rw [addrs_code x hk] at hd
    obtain ⟨n, hn⟩ := ((coll q f x).back _ _ hw (fits_some _)).2 hc
    have hd' : BgpAddrs.decodeFromIn .release q (familyCode f).1 (familyCode f).2 (addrsWire x) = .ok (x, n) :=
      ((w_addrs_exactly q f _).ok (x, n)).2 hn
    rcases bsim_addrsDec q (familyCode f).1 (familyCode f).2 (addrsWire x) with h | h
    · rw [hd] at h
      cases h
    · rw [hd'] at h
      exact ⟨n, ((addrs_exactly q f _).ok (x, n)).1 h.symm⟩

theorem same_length {f g : Enc} {fc fr : Fate} (hc : Ends f fc) (hr : Ends g fr) (hs : ∀ b, BSim (f b) (g b)) (hn : fc ≠ .crash)
    {w : Bytes} (hw : fr = .octets w) : ∃ pat, fc = .sent pat ∧ pat.length = w.length := by
  obtain ⟨room, h⟩ := sent_both hc hr hs hn hw
  obtain ⟨r1, h1⟩ := hc
  obtain ⟨rest, h2⟩ := h (List.replicate (max room r1) 0) (by simp)
  cases fc with
  | sent pat =>
    obtain ⟨w', rest', h3, h4, -⟩ := h1 (List.replicate (max room r1) 0) (by simp)
    rw [h2] at h4
    simp only [Res.ok.injEq, Prod.mk.injEq] at h4
    exact ⟨pat, rfl, by rw [fits_length h3, ← h4.2]⟩
  | refused =>
    have h3 := h1 (List.replicate (max room r1) 0) (by simp)
    rw [h2] at h3
    exact h3.elim
  | crash => exact absurd rfl hn

theorem value_length {p : BgpSessionParams} {x : BgpAttrItem} {v : Bytes} (hf : valueFate .release p x = .octets v)
    (hn : valueFate .checked p x ≠ .crash) : ∃ pat, valueFate .checked p x = .sent pat ∧ pat.length = v.length := by
  have hec := ends_value .checked p x
  rw [attrEncV_checked] at hec
  exact same_length hec (ends_value .release p x) (bsim_attrEncV x p) hn hf

theorem section_length {p : BgpSessionParams} {x : BgpAddrs} {w : Bytes} (hf : sectionFate .release p x = .octets w)
    (hn : sectionFate .checked p x ≠ .crash) : ∃ pat, sectionFate .checked p x = .sent pat ∧ pat.length = w.length := by
  unfold sectionFate at hf hn ⊢
  by_cases h : InSession p x
  · rw [if_pos h] at hf hn ⊢
    have hec := ends_nlri .checked x p
    rw [addrsEncFn_checked] at hec
    exact same_length hec (ends_nlri .release x p) (bsim_addrsEnc x p) hn hf
  · rw [if_neg h] at hf hn ⊢
    exact ⟨w.map some, hf, by simp⟩

/-- sections that come back without the checks -/
theorem section_checked {p q : BgpSessionParams} {x : BgpAddrs} {w : Bytes} (hf : sectionFate .release p x = .octets w)
    (hb : SectionBetween p q x) : (NlriIs q w x ∧ sectionFate .checked p x ≠ .crash) ↔ AddrsWF x := by
  by_cases hm : p.peerMode = q.peerMode
  · obtain ⟨ap, hk, -⟩ := id hb.1
    have hi : InSession p x := by
      unfold InSession sessionFamily
      rw [hm, hk]
      rfl
    unfold sectionFate at hf ⊢
    rw [if_pos hi] at hf ⊢
    exact coll_checked hf hb.1
  · have hnp : NoPrefixes x := hb.2.resolve_left hm
    have hx : AddrsWF x := by rcases hnp with rfl | rfl | rfl | rfl <;> (intro y hy; cases hy)
    have hw : w = [] := by
      have h0 : sectionFate .release p x = .octets [] := by
        unfold sectionFate
        split
        · rcases hnp with rfl | rfl | rfl | rfl <;> rfl
        · rfl
      rw [h0] at hf
      simp only [Fate.octets, Fate.sent.injEq, List.map_nil] at hf
      exact List.map_eq_nil_iff.1 hf.symm
    subst hw
    refine ⟨fun _ => hx, fun _ => ⟨?_, ?_⟩⟩
    · refine ((coll_checked ?_ hb.1).2 hx).1
      rcases hnp with rfl | rfl | rfl | rfl <;> rfl
    · unfold sectionFate
      split
      · rcases hnp with rfl | rfl | rfl | rfl <;> exact fun h => nomatch h
      · exact fun h => nomatch h

theorem back_form {q : BgpSessionParams} {f : Family} {x : BgpAddrs} (hc : CollectionBack q f x) (hx : AddrsWF x) :
    FormExpected q x := by
  obtain ⟨ap, hk, hi, hap⟩ := hc
  obtain ⟨w, hw⟩ := (coll q f x).sent hi
  have her := ends_nlri .release x q
  rw [hw] at her
  obtain rfl := writes_octets (addrs_writes x q hx) her (bsim_addrsEnc x q)
  intro g ap' hk' ha
  rw [hk] at hk'
  cases hk'
  exact (hap ha _ hw).symm

/-- attributes with routes that come back without the checks -/
theorem routes_checked {q : BgpSessionParams} {x : BgpAttrItem} {v : Bytes} {W : Prop} (hf : valueFate .release q x = .octets v)
    (hb : ValueBack q x) (h1 : W → AttrOk q x) (h2 : AttrOk q x → W) :
    (ValueRead q (attrCode x).1 (attrCode x).2 v x ∧ valueFate .checked q x ≠ .crash) ↔ W := by
  have hec := ends_value .checked q x
  rw [attrEncV_checked] at hec
  have her := ends_value .release q x
  rw [hf] at her
  constructor
  · rintro ⟨hr, hn⟩
    obtain ⟨room, h⟩ := sent_both hec her (bsim_attrEncV x q) hn rfl
    obtain ⟨rest, h3⟩ := h (List.replicate room 0) (by simp)
    have ht : (v ++ rest).take v.length = v := List.take_left' rfl
    rw [← ht] at hr
    exact h2 (attr_normal hr (value_needed h3 hr)).1
  · intro hw
    have hwr := value_writes q x (h1 hw)
    obtain rfl := writes_octets hwr her (bsim_attrEncV x q)
    refine ⟨?_, writes_not_crash hwr hec⟩
    have hd := value_reads q x (h1 hw)
    have hd' := ((Rel.value_exactly q _ _ _).ok x).2 ((val q x).back _ _ hf (fits_some _) hb)
    rcases bsim_attrDec q (attrCode x).1 (attrCode x).2 (valueWire q.hasAs32bit x).length (valueWire q.hasAs32bit x) with h | h
    · rw [hd] at h
      cases h
    · rw [hd'] at h
      exact ((value_exactly q _ _ _).ok x).1 h.symm

theorem value_checked {p q : BgpSessionParams} {x : BgpAttrItem} {v : Bytes} {code flags : U8}
    (hf : valueFate .release p x = .octets v) (hr : WrapValueRead q code flags v x) :
    (ValueRead q code flags v x ∧ valueFate .checked p x ≠ .crash) ↔ AttrRoutesOk x := by
  have hb := ((valBetween p q x).needed _ _ _ _ hf (fits_some _) hr).1
  have plain : (∀ u, x ≠ .MPUpdates u) → (∀ u, x ≠ .MPWithdraws u) → (∀ a l, x ≠ .AttrSet a l) → ValueRead q code flags v x := by
    intro h1 h2 h3
    cases hr with
    | same _ _ _ _ _ h => exact h
    | mpReach => exact absurd rfl (h1 _)
    | mpUnreach => exact absurd rfl (h2 _)
    | attrSet => exact absurd rfl (h3 _ _)
  cases x with
  | MPUpdates u =>
    have hf' : valueFate .release q (.MPUpdates u) = .octets v := hf
    have hb' : ValueBack q (.MPUpdates u) := hb
    obtain ⟨f, hc, hn, hrd⟩ := id hb'
    have key := routes_checked (W := AddrsWF u.addrs) hf' hb' (fun hw => ⟨hw, back_form hc hw, by
      obtain ⟨ap, hk, -⟩ := id hc
      exact ⟨f, ap, hk, hn, hrd⟩⟩) (fun h => h.1)
    constructor
    · rintro ⟨h1, h2⟩
      refine key.1 ⟨?_, h2⟩
      cases h1 with
      | fixed _ _ _ _ _ h => cases h
      | mpReach _ _ _ _ h => exact .mpReach _ _ _ _ h
    · intro hw
      obtain ⟨h1, h2⟩ := key.2 hw
      refine ⟨?_, h2⟩
      have hcode : code = 14 := by
        cases hr with
        | same _ _ _ _ hc h => cases h with
          | fixed _ _ _ _ _ h => cases h
          | mpReach => rfl
        | mpReach => rfl
      subst hcode
      cases h1 with
      | fixed _ _ _ _ _ h => cases h
      | mpReach _ _ _ _ h => exact .mpReach _ _ _ _ h
  | MPWithdraws u =>
    have hf' : valueFate .release q (.MPWithdraws u) = .octets v := hf
    have hb' : ValueBack q (.MPWithdraws u) := hb
    obtain ⟨f, hc⟩ := id hb'
    have key := routes_checked (W := AddrsWF u.addrs) hf' hb' (fun hw => ⟨hw, back_form hc hw⟩) (fun h => h.1)
    constructor
    · rintro ⟨h1, h2⟩
      refine key.1 ⟨?_, h2⟩
      cases h1 with
      | fixed _ _ _ _ _ h => cases h
      | mpUnreach _ _ _ _ _ h => exact .mpUnreach _ _ _ _ _ h
    · intro hw
      obtain ⟨h1, h2⟩ := key.2 hw
      refine ⟨?_, h2⟩
      have hcode : code = 15 := by
        cases hr with
        | same _ _ _ _ hc h => cases h with
          | fixed _ _ _ _ _ h => cases h
          | mpUnreach => rfl
        | mpUnreach => rfl
      subst hcode
      cases h1 with
      | fixed _ _ _ _ _ h => cases h
      | mpUnreach _ _ _ _ _ h => exact .mpUnreach _ _ _ _ _ h
  | AttrSet a l => cases hf
  | PMSITunnel x => cases hf
  | _ =>
    refine ⟨fun _ => trivial, fun _ => ⟨plain (by simp) (by simp) (by simp), fun h => ?_⟩⟩
    exact nomatch (hf.symm.trans h)

theorem attrsFate_checked_sent {p : BgpSessionParams} {x : BgpAttrItem} {l : List BgpAttrItem} {n : Nat} {pat : List (Option U8)}
    (h : attrsFate .checked p n (x :: l) = .sent pat) :
    valueFate .checked p x ≠ .crash ∧ ∃ r k, attrsFate .checked p k l = .sent r := by
  unfold attrsFate at h
  by_cases hn : n > 65533
  · rw [if_pos hn] at h; cases h
  · rw [if_neg hn] at h
    cases hv : attrFate .checked p x with
    | sent q =>
      rw [hv] at h
      obtain ⟨p1, p2, e1, e2, e3⟩ := andThen_sent h
      refine ⟨fun hc => ?_, _, _, e2⟩
      unfold attrFate at hv
      rw [hc] at hv
      cases hv
    | refused => rw [hv] at h; cases h
    | crash => rw [hv] at h; cases h

theorem attrs_checked_only {p q : BgpSessionParams} {l : List BgpAttrItem} {n n' : Nat} {a a' a'' : Bytes} {pat : List (Option U8)}
    (h : attrsFate .release p n l = .octets a) (hr : AttrsRead (WrapValueRead q) a' l) (ha : a' = a)
    (hc : AttrsRead (ValueRead q) a'' l) (ha' : a'' = a) (hs : attrsFate .checked p n' l = .sent pat) : ∀ x ∈ l, AttrRoutesOk x := by
  induction l generalizing n n' a a' a'' pat with
  | nil => simp
  | cons x l ih =>
    obtain ⟨s, r, k, h1, h2, h3⟩ := attrsFate_sent h
    obtain ⟨y, t, rfl, f1, f2⟩ := fits_split (h3 ▸ fits_some a)
    obtain ⟨s, h4, h5, rfl⟩ := attrFate_sent h1
    obtain ⟨hd, v, rfl, f3, f4⟩ := fits_split f1
    obtain rfl := fits_some_eq f3
    rw [fits_length f4] at h5
    obtain ⟨g1, r2, k2, g2⟩ := attrsFate_checked_sent hs
    cases hr with
    | cons r1 _ t1 _ hw1 hv1 hl1 => cases hc with
      | cons r2 _ t2 _ hw2 hv2 hl2 =>
        rw [fits_length f4, rawWire, List.append_assoc, List.append_assoc] at ha ha'
        obtain ⟨a1, a2, a3, a4⟩ := attrHeader_inj hw1 h5 ha
        obtain ⟨a5, a6⟩ := List.append_inj a4 a3
        obtain ⟨b1, b2, b3, b4⟩ := attrHeader_inj hw2 h5 ha'
        obtain ⟨b5, b6⟩ := List.append_inj b4 b3
        rw [a1, a2, a5] at hv1
        rw [b1, b2, b5] at hv2
        have i1 := ((valBetween p q x).needed s v _ _ h4 f4 hv1).2
        have i2 := (attrs_between_only h2 f2 hl1 ⟨[], by rw [a6]; simp⟩).2.2
        intro y hy
        rcases List.mem_cons.1 hy with rfl | hy
        · exact (value_checked (by rw [h4, i1]; rfl) hv1).1 ⟨hv2, g1⟩
        · exact ih (by rw [h2, i2]; rfl) hl1 a6 hl2 b6 g2 y hy

theorem attrs_checked_back {p q : BgpSessionParams} {l : List BgpAttrItem} {n : Nat} {a a' : Bytes}
    (h : attrsFate .release p n l = .octets a) (hr : AttrsRead (WrapValueRead q) a' l) (ha : a' = a)
    (hx : ∀ x ∈ l, AttrRoutesOk x) : AttrsRead (ValueRead q) a' l ∧ ∀ n', attrsFate .checked p n' l ≠ .crash := by
  induction l generalizing n a a' with
  | nil =>
    cases hr
    exact ⟨.nil, fun _ h => nomatch h⟩
  | cons x l ih =>
    obtain ⟨s, r, k, h1, h2, h3⟩ := attrsFate_sent h
    obtain ⟨y, t, rfl, f1, f2⟩ := fits_split (h3 ▸ fits_some a)
    obtain ⟨s, h4, h5, rfl⟩ := attrFate_sent h1
    obtain ⟨hd, v, rfl, f3, f4⟩ := fits_split f1
    obtain rfl := fits_some_eq f3
    rw [fits_length f4] at h5
    cases hr with
    | cons r1 _ t1 _ hw1 hv1 hl1 =>
      rw [fits_length f4, rawWire, List.append_assoc, List.append_assoc] at ha
      obtain ⟨a1, a2, a3, a4⟩ := attrHeader_inj hw1 h5 ha
      obtain ⟨a5, a6⟩ := List.append_inj a4 a3
      rw [a1, a2, a5] at hv1
      have i1 := ((valBetween p q x).needed s v _ _ h4 f4 hv1).2
      have i2 := (attrs_between_only h2 f2 hl1 ⟨[], by rw [a6]; simp⟩).2.2
      obtain ⟨j1, j2⟩ := (value_checked (by rw [h4, i1]; rfl) hv1).2 (hx x List.mem_cons_self)
      obtain ⟨j3, j4⟩ := ih (by rw [h2, i2]; rfl) hl1 a6 fun y hy => hx y (List.mem_cons_of_mem _ hy)
      refine ⟨.cons r1 x t1 l hw1 (by rw [a1, a2, a5]; exact j1) j3, fun n' => ?_⟩
      unfold attrsFate
      split
      · exact fun h => nomatch h
      · have hxc : attrFate .checked p x ≠ .crash := by
          unfold attrFate
          split
          · split <;> exact fun h => nomatch h
          · exact j2
        cases hc : attrFate .checked p x with
        | sent w =>
          simp only
          have := j4 (n' + w.length)
          cases hd : attrsFate .checked p (n' + w.length) l with
          | crash => exact absurd hd this
          | sent _ => exact fun h => nomatch h
          | refused => exact fun h => nomatch h
        | refused => exact fun h => nomatch h
        | crash => exact absurd hc hxc

theorem update_checked_sent {p : BgpSessionParams} {m : BgpUpdateMessage} {pat : List (Option U8)}
    (h : updateFate .checked p m = .sent pat) :
    sectionFate .checked p m.withdraws ≠ .crash ∧ (∃ r, attrsFate .checked p 0 m.attrs = .sent r) ∧
      sectionFate .checked p m.updates ≠ .crash := by
  unfold updateFate at h
  obtain ⟨p1, p2, h1, h2, rfl⟩ := andThen_sent h
  obtain ⟨p3, qu, h3, h4, rfl⟩ := andThen_sent h2
  unfold withdrawnFate at h1
  unfold attributesFate at h3
  refine ⟨fun hc => ?_, ?_, fun hc => ?_⟩
  · rw [hc] at h1
    cases h1
  · cases ha : attrsFate .checked p 0 m.attrs with
    | sent r => exact ⟨r, rfl⟩
    | refused => rw [ha] at h3; cases h3
    | crash => rw [ha] at h3; cases h3
  · rw [hc] at h4
    cases h4

theorem andThen_not_crash {a b : Fate} (h1 : a ≠ .crash) (h2 : b ≠ .crash) : a.andThen b ≠ .crash := by
  cases a <;> cases b <;> first
    | exact absurd rfl h1
    | exact absurd rfl h2
    | exact fun h => nomatch h

theorem update_not_crash {p : BgpSessionParams} {m : BgpUpdateMessage} (h1 : sectionFate .checked p m.withdraws ≠ .crash)
    (h2 : attrsFate .checked p 0 m.attrs ≠ .crash) (h3 : sectionFate .checked p m.updates ≠ .crash) :
    updateFate .checked p m ≠ .crash := by
  unfold updateFate
  refine andThen_not_crash ?_ (andThen_not_crash ?_ h3)
  · unfold withdrawnFate
    split
    · split <;> exact fun h => nomatch h
    · exact h1
  · unfold attributesFate
    split
    · exact fun h => nomatch h
    · exact h2

theorem between_octets {p q : BgpSessionParams} {m : BgpUpdateMessage} (h : MessageBetween p q m) :
    ∃ w a u, sectionFate .release p m.withdraws = .octets w ∧ w.length ≤ 65535 ∧ attrsFate .release p 0 m.attrs = .octets a ∧
      a.length ≤ 65535 ∧ sectionFate .release p m.updates = .octets u ∧
      updateFate .release p m = .octets (updateBytes w a u) := by
  obtain ⟨-, ⟨⟨ap, hk, hi, -⟩, hs⟩, -, ⟨w, h1, hl⟩, ⟨a, h2, ha⟩⟩ := h
  have hu : ∃ u, sectionFate .release p m.updates = .octets u := by
    rcases hs with hs | hs
    · rw [section_same hs, section_inside hk]
      exact (coll q (sessionFamily q) m.updates).sent hi
    · unfold sectionFate
      split
      · rcases hs with h | h | h | h <;> rw [h] <;> exact ⟨[], rfl⟩
      · exact ⟨[], rfl⟩
  obtain ⟨u, hu⟩ := hu
  refine ⟨w, a, u, h1, hl, h2, ha, hu, ?_⟩
  unfold updateFate withdrawnFate attributesFate
  rw [h1, h2, hu]
  simp only [Fate.octets, List.length_map, if_pos hl, Fate.andThen, updateBytes, counted]
  simp

theorem messages_checked (p q : BgpSessionParams) (m : BgpUpdateMessage) : ∃ room, ∀ buf : Bytes, room ≤ buf.length →
    ((∃ buf' k, m.encodeTo p buf = .ok (buf', k) ∧ BgpUpdateMessage.new.decodeFrom q (buf'.take k) = .ok m) ↔
      MessageBetween p q m ∧ RoutesOk m) := by
  have hec := ends_update .checked p m
  rw [show m.encodeToIn .checked p = m.encodeTo p from funext (updEnc_checked m p)] at hec
  have her := ends_update .release p m
  obtain ⟨r1, hb⟩ := messages_between p q m
  by_cases hm : MessageBetween p q m
  · obtain ⟨w, a, u, h1, l1, h2, l2, h3, h4⟩ := between_octets hm
    obtain ⟨s1, s2, s3, -⟩ := id hm
    have hr := attrs_between h2 (fits_some _) s3
    obtain ⟨r2, hs⟩ := id hec
    obtain ⟨r3, hs'⟩ := id her
    rw [h4] at hs'
    have back : RoutesOk m → ∃ room, ∀ buf : Bytes, room ≤ buf.length → ∃ buf' k, m.encodeTo p buf = .ok (buf', k) ∧
        BgpUpdateMessage.new.decodeFrom q (buf'.take k) = .ok m := by
      rintro ⟨k1, k2, k3⟩
      obtain ⟨e1, e2⟩ := (section_checked h1 s1).2 k1
      obtain ⟨e3, e4⟩ := (section_checked h3 s2).2 k2
      obtain ⟨e5, e6⟩ := attrs_checked_back h2 hr rfl k3
      obtain ⟨room, h⟩ := sent_both hec her (bsim_updEnc m p) (update_not_crash e2 (e6 0) e4) h4
      refine ⟨room, fun buf hb => ?_⟩
      obtain ⟨rest, h5⟩ := h buf hb
      refine ⟨_, _, h5, ?_⟩
      rw [List.take_left' rfl]
      exact ((update_exactly .new q _).ok m).2 ⟨m.attrs, ⟨w, a, u, rfl, l1, l2, e1, e5, e3⟩, rfl⟩
    have only : ∀ buf : Bytes, max r2 r3 ≤ buf.length → (∃ buf' k, m.encodeTo p buf = .ok (buf', k) ∧
        BgpUpdateMessage.new.decodeFrom q (buf'.take k) = .ok m) → RoutesOk m := by
      rintro buf hbuf ⟨buf', k, g1, g2⟩
      obtain ⟨w', rest, g3, g4, -⟩ := hs' buf (by omega)
      obtain rfl := fits_some_eq g3
      have g5 : buf' = updateBytes w a u ++ rest ∧ k = (updateBytes w a u).length := by
        rcases bsim_updEnc m p buf with h | h
        · rw [g1] at h
          cases h
        · rw [g1, g4] at h
          cases h
          exact ⟨rfl, rfl⟩
      obtain ⟨rfl, rfl⟩ := g5
      rw [List.take_left' rfl] at g2
      obtain ⟨l, ⟨w', a', u', y1, y2, y3, y4, y5, y6⟩, y7⟩ := ((update_exactly .new q _).ok m).1 g2
      obtain ⟨rfl, rfl, rfl⟩ := updateBytes_inj l1 l2 y2 y3 y1
      obtain rfl : m.attrs = l := y7
      cases hfc : updateFate .checked p m with
      | sent pat =>
        obtain ⟨z1, ⟨r, z2⟩, z3⟩ := update_checked_sent hfc
        exact ⟨(section_checked h1 s1).1 ⟨y4, z1⟩, (section_checked h3 s2).1 ⟨y6, z3⟩, attrs_checked_only h2 hr rfl y5 rfl z2⟩
      | refused =>
        rw [hfc] at hs
        have := hs buf (by omega)
        rw [g1] at this
        exact this.elim
      | crash =>
        rw [hfc] at hs
        have := hs buf (by omega)
        rw [g1] at this
        cases this
    by_cases hrt : RoutesOk m
    · obtain ⟨room, h⟩ := back hrt
      exact ⟨room, fun buf hb => ⟨fun _ => ⟨hm, hrt⟩, fun _ => h buf hb⟩⟩
    · exact ⟨max r2 r3, fun buf hb => ⟨fun h => absurd (only buf hb h) hrt, fun h => absurd h.2 hrt⟩⟩
  · refine ⟨r1, fun buf hbuf => ⟨fun h => absurd ((hb buf hbuf).1 ?_) hm, fun h => absurd h.1 hm⟩⟩
    obtain ⟨buf', k, g1, g2⟩ := h
    refine ⟨buf', k, ?_, ?_⟩
    · rcases bsim_updEnc m p buf with h | h
      · rw [g1] at h
        cases h
      · rw [h, g1]
    · rcases bsim_updDec .new q (buf'.take k) with h | h
      · rw [g2] at h
        cases h
      · rw [h, g2]

end Zbgp
