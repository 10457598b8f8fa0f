import Verif.Lemmas.ReleaseRoutes
import Verif.Lemmas.ReleaseNoHang
import Verif.Lemmas.UpdateReads
import Verif.Spec.ReleaseUpdate

/-! # UPDATE messages in a build without overflow checks

The lemmas of `Lemmas/Values.lean`, `Lemmas/Update.lean`, `Lemmas/UpdateTotal.lean`, `Lemmas/ValueReads.lean` and
`Lemmas/UpdateReads.lean` again, in a namespace of their own, for the decoders without overflow checks. -/

namespace Zbgp.Rel

open Spec

attribute [-simp] List.length_flatMap List.length_flatten

theorem addrs_unknown {p : BgpSessionParams} {afi : U16} {safi : U8} {buf : Bytes}
    (h : ∀ f, familyCode f ≠ (afi, safi)) : BgpAddrs.decodeFromIn .release p afi safi buf = .err .dynStr := by
  have h1 : BgpAddrs.decodeFrom p afi safi buf = .err .dynStr := Zbgp.addrs_unknown h
  rw [(bsim_addrsDec p afi safi buf).resolve_left (by rw [h1]; simp), h1]

def NlriDec (p : BgpSessionParams) (section_ : Bytes) (x : BgpAddrs) : Prop :=
  ∃ n, BgpAddrs.decodeFromIn .release p (familyCode (sessionFamily p)).1 (familyCode (sessionFamily p)).2 section_ = .ok (x, n)

def AttrsDec (p : BgpSessionParams) (raws : List RawAttr) (l : List BgpAttrItem) : Prop :=
  raws.map (fun r => BgpAttrItem.decodeFromIn .release p r.code r.flags r.value.length r.value) = l.map .ok

def UpdatePanics (p : BgpSessionParams) (buf : Bytes) : Prop :=
  let nlri := BgpAddrs.decodeFromIn .release p (familyCode (sessionFamily p)).1 (familyCode (sessionFamily p)).2
  ∃ w rest, buf = be 2 w.length ++ w ++ rest ∧ w.length ≤ 65535 ∧ rest ≠ [] ∧
    (¬ (nlri w).Returns ∨
      ∃ wd n rest', NlriDec p w wd ∧ rest = be 2 n ++ rest' ∧ n ≤ 65535 ∧ n ≤ rest'.length ∧
        ∃ raws l t, rest' = raws.flatMap rawWire ++ t ∧ (∀ r ∈ raws, RawWF r) ∧ AttrsDec p raws l ∧
          (((raws.flatMap rawWire).length = n ∧ ¬ (nlri t).Returns) ∨
           ((raws.flatMap rawWire).length < n ∧ CutHeader t) ∨
           ∃ r t', t = rawWire r ++ t' ∧ RawWF r ∧ (raws.flatMap rawWire).length + (rawWire r).length ≤ n ∧
            ¬ (BgpAttrItem.decodeFromIn .release p r.code r.flags r.value.length r.value).Returns))

def TailPanics (p : BgpSessionParams) (f : Family) (t : Bytes) : Prop :=
  ∀ snpas nlri, SnpasWF snpas → t = snpasWire snpas ++ nlri →
    BgpAddrs.decodeFromIn .release p (familyCode f).1 (familyCode f).2 nlri = .panic

def ReachPanics (p : BgpSessionParams) (v : Bytes) : Prop :=
  v.length < 4 ∨ ∃ (f : Family) (l : U8) (rest : Bytes), NexthopReadable f ∧ v = familyWire f ++ l :: rest ∧
    (if VpnFamily f then nexthopSize f ≤ rest.length ∧ TailPanics p f (rest.drop (nexthopSize f))
     else if f = .l2Vpls ∨ f = .l2Evpn then 4 ≤ rest.length ∧ TailPanics p f (rest.drop l.toNat)
     else rest.length < l.toNat ∨ (nexthopSize f ≤ l.toNat ∧ TailPanics p f (rest.drop l.toNat)))

theorem same_value (p : BgpSessionParams) (fuel : Nat) (tc fl : U8) (n : Nat) (buf : Bytes)
    (h : tc ≠ 14 ∧ tc ≠ 15 ∧ tc ≠ 128) :
    BgpAttrItem.decodeNIn .release p fuel tc fl n buf = BgpAttrItem.decodeN p fuel tc fl n buf := by
  unfold BgpAttrItem.decodeNIn
  split
  · rename_i e; exact absurd (eq_of_toNat8 e) h.1
  · rename_i e; exact absurd (eq_of_toNat8 e) h.2.1
  · rename_i e; exact absurd (eq_of_toNat8 e) h.2.2
  · rfl

theorem decodeN_fuel (p : BgpSessionParams) (k : Nat) : ∀ (tc fl : U8) (n : Nat) (buf : Bytes) (f f' : Nat),
    buf.length ≤ k → buf.length < f → buf.length < f' →
    BgpAttrItem.decodeNIn .release p f tc fl n buf = BgpAttrItem.decodeNIn .release p f' tc fl n buf := by
  induction k with
  | zero =>
    intro tc fl n buf f f' hk hf hf'
    obtain ⟨f, rfl⟩ : ∃ g, f = g + 1 := ⟨f - 1, by omega⟩
    obtain ⟨f', rfl⟩ : ∃ g, f' = g + 1 := ⟨f' - 1, by omega⟩
    rw [BgpAttrItem.decodeNIn, BgpAttrItem.decodeNIn]
    have : buf.length < 4 := by omega
    unfold BgpAttrSet.decodeFrom
    simp only [if_pos this]
    rw [Zbgp.decodeN_fuel p 0 tc fl n buf (f + 1) (f' + 1) hk hf hf']
  | succ k ih =>
    intro tc fl n buf f f' hk hf hf'
    obtain ⟨f, rfl⟩ : ∃ g, f = g + 1 := ⟨f - 1, by omega⟩
    obtain ⟨f', rfl⟩ : ∃ g, f' = g + 1 := ⟨f' - 1, by omega⟩
    rw [BgpAttrItem.decodeNIn, BgpAttrItem.decodeNIn]
    unfold BgpAttrSet.decodeFrom
    rw [setLoop_congr (BgpAttrItem.decodeNIn .release p f) (BgpAttrItem.decodeNIn .release p f') buf buf.length 4
      (by omega) fun tc fl n b hb => ih tc fl n b f f' (by omega) (by omega) (by omega)]
    rw [Zbgp.decodeN_fuel p (k + 1) tc fl n buf (f + 1) (f' + 1) hk hf hf']

theorem attrSet_eq (p : BgpSessionParams) (fl : U8) (n : Nat) (buf : Bytes) :
    BgpAttrItem.decodeFromIn .release p 128 fl n buf = BgpAttrSet.decodeFrom (BgpAttrItem.decodeFromIn .release p) p buf := by
  change BgpAttrSet.decodeFrom (BgpAttrItem.decodeNIn .release p buf.length) p buf = _
  unfold BgpAttrSet.decodeFrom
  rw [setLoop_congr (BgpAttrItem.decodeNIn .release p buf.length) (BgpAttrItem.decodeFromIn .release p) buf buf.length 4 (by omega)
    fun tc fl n b hb => decodeN_fuel p b.length tc fl n b _ _ (by omega) (by omega) (by omega)]

theorem setLoop_raws (p : BgpSessionParams) (raws : List RawAttr) (hr : ∀ r ∈ raws, RawWF r) (l : List BgpAttrItem)
    (h : AttrsDec p raws l) (pre t : Bytes) (fuel : Nat) (hf : raws.length ≤ fuel) :
    BgpAttrSet.loop (BgpAttrItem.decodeFromIn .release p) (pre ++ (raws.flatMap rawWire ++ t)) fuel pre.length =
      (do
        let l' ← BgpAttrSet.loop (BgpAttrItem.decodeFromIn .release p) ((pre ++ raws.flatMap rawWire) ++ t) (fuel - raws.length)
          (pre ++ raws.flatMap rawWire).length
        .ok (l ++ l')) := by
  induction raws generalizing pre fuel l with
  | nil =>
    have : l = [] := by simpa [AttrsDec] using h
    subst this
    simp only [List.flatMap_nil, List.nil_append, List.append_nil, List.length_nil, Nat.sub_zero]
    cases BgpAttrSet.loop (BgpAttrItem.decodeFromIn .release p) (pre ++ t) fuel pre.length <;> rfl
  | cons r raws ih =>
    unfold AttrsDec at h
    cases l with
    | nil => simp at h
    | cons x l =>
      simp only [List.map_cons, List.cons.injEq] at h
      simp only [List.length_cons] at hf
      obtain ⟨fuel, rfl⟩ : ∃ k, fuel = k + 1 := ⟨fuel - 1, by omega⟩
      simp only [List.flatMap_cons, List.append_assoc]
      rw [setLoop_raw _ pre _ r (hr r (by simp)) fuel _ rfl, h.1]
      simp only [Res.ok_bind]
      have := ih (fun r hr' => hr r (by simp [hr'])) l h.2 (pre ++ rawWire r) fuel (by omega)
      simp only [List.append_assoc] at this
      rw [← List.length_append, this]
      simp only [List.length_cons, Nat.add_sub_add_right, List.cons_append, bind_assoc, Res.ok_bind]

theorem setLoop_ok (p : BgpSessionParams) (fuel : Nat) (pre rest : Bytes) (l : List BgpAttrItem)
    (h : BgpAttrSet.loop (BgpAttrItem.decodeFromIn .release p) (pre ++ rest) fuel pre.length = .ok l) :
    ∃ raws, rest = raws.flatMap rawWire ∧ (∀ r ∈ raws, RawWF r) ∧ AttrsDec p raws l := by
  induction fuel generalizing pre rest l with
  | zero =>
    rw [BgpAttrSet.loop] at h
    split at h
    · cases h
    · rename_i hn
      simp only [List.length_append, Nat.not_lt] at hn
      have : rest = [] := List.length_eq_zero_iff.1 (by omega)
      subst this
      simp only [Res.ok.injEq] at h
      subst h
      exact ⟨[], rfl, by simp, rfl⟩
  | succ fuel ih =>
    by_cases hne : rest = []
    · subst hne
      rw [setLoop_nil] at h
      simp only [Res.ok.injEq] at h
      subst h
      exact ⟨[], rfl, by simp, rfl⟩
    · rcases setLoop_cases (BgpAttrItem.decodeFromIn .release p) pre rest fuel hne with hc | he | ⟨r, t, rfl, hw⟩
      · rw [setLoop_cut _ _ _ hc] at h; cases h
      · rw [h] at he; exact he.elim
      · rw [setLoop_raw _ pre t r hw fuel _ rfl] at h
        obtain ⟨x, hx, h⟩ := Res.bind_eq_ok.1 h
        obtain ⟨l', hl', h⟩ := Res.bind_eq_ok.1 h
        simp only [Res.ok.injEq] at h
        subst h
        rw [← List.append_assoc, ← List.length_append] at hl'
        obtain ⟨raws, rfl, h1, h2⟩ := ih _ _ _ hl'
        refine ⟨r :: raws, by simp, ?_, ?_⟩
        · simp only [List.mem_cons, forall_eq_or_imp]; exact ⟨hw, h1⟩
        · unfold AttrsDec at h2 ⊢
          rw [List.map_cons, List.map_cons, hx, h2]

theorem setLoop_panic (p : BgpSessionParams) (fuel : Nat) (pre rest : Bytes)
    (h : BgpAttrSet.loop (BgpAttrItem.decodeFromIn .release p) (pre ++ rest) fuel pre.length = .panic) :
    ∃ raws l t, rest = raws.flatMap rawWire ++ t ∧ (∀ r ∈ raws, RawWF r) ∧ AttrsDec p raws l ∧
      (CutAttr t ∨ ∃ r t', t = rawWire r ++ t' ∧ RawWF r ∧
        BgpAttrItem.decodeFromIn .release p r.code r.flags r.value.length r.value = .panic) := by
  induction fuel generalizing pre rest with
  | zero =>
    rw [BgpAttrSet.loop] at h
    split at h <;> cases h
  | succ fuel ih =>
    by_cases hne : rest = []
    · subst hne
      rw [setLoop_nil] at h
      cases h
    · rcases setLoop_cases (BgpAttrItem.decodeFromIn .release p) pre rest fuel hne with hc | he | ⟨r, t, rfl, hw⟩
      · exact ⟨[], [], rest, rfl, by simp, rfl, .inl hc⟩
      · rw [h] at he; exact he.elim
      · rw [setLoop_raw _ pre t r hw fuel _ rfl] at h
        cases hx : BgpAttrItem.decodeFromIn .release p r.code r.flags r.value.length r.value with
        | err e => rw [hx] at h; cases h
        | hang => rw [hx] at h; cases h
        | panic => exact ⟨[], [], _, rfl, by simp, rfl, .inr ⟨r, t, rfl, hw, hx⟩⟩
        | ok x =>
          rw [hx, Res.ok_bind] at h
          have hl : BgpAttrSet.loop (BgpAttrItem.decodeFromIn .release p) ((pre ++ rawWire r) ++ t) fuel (pre ++ rawWire r).length =
              .panic := by
            rw [List.append_assoc, List.length_append]
            cases hq : BgpAttrSet.loop (BgpAttrItem.decodeFromIn .release p) (pre ++ (rawWire r ++ t)) fuel
                (pre.length + (rawWire r).length) with
            | panic => rfl
            | ok l => rw [hq] at h; cases h
            | err e => rw [hq] at h; cases h
            | hang => rw [hq] at h; cases h
          obtain ⟨raws, l, t', rfl, h1, h2, h3⟩ := ih _ _ hl
          refine ⟨r :: raws, x :: l, t', by simp, ?_, ?_, h3⟩
          · simp only [List.mem_cons, forall_eq_or_imp]; exact ⟨hw, h1⟩
          · unfold AttrsDec at h2 ⊢
            rw [List.map_cons, List.map_cons, hx, h2]

theorem attrSet_ok_iff (p : BgpSessionParams) (fl : U8) (n : Nat) (buf : Bytes) (x : BgpAttrItem) :
    BgpAttrItem.decodeFromIn .release p 128 fl n buf = .ok x ↔ p.hasAs32bit = true ∧ ∃ (asn : U32) (raws : List RawAttr)
      (l : List BgpAttrItem), buf = be 4 asn.toNat ++ raws.flatMap rawWire ∧ (∀ r ∈ raws, RawWF r) ∧
        AttrsDec p raws l ∧ x = .AttrSet asn l := by
  rw [attrSet_eq]
  unfold BgpAttrSet.decodeFrom
  cases h32 : p.hasAs32bit
  · simp
  simp only [Bool.not_true, Bool.false_eq_true, ↓reduceIte, true_and]
  constructor
  · intro h
    split at h
    · cases h
    rename_i hlen
    obtain ⟨v, hv, e⟩ := exists_be (l := buf) 4 (by omega)
    generalize buf.drop 4 = rest at e
    subst e
    obtain ⟨l, hl, h⟩ := Res.bind_eq_ok.1 h
    rw [getn32_be, Res.ok_bind] at h
    simp only [Res.ok.injEq] at h
    subst h
    have h4 : (4 : Nat) = (be 4 v).length := by simp
    generalize hfu : (be 4 v ++ rest).length = fu at hl
    rw [h4, ← h4] at hl
    have hl' : BgpAttrSet.loop (BgpAttrItem.decodeFromIn .release p) (be 4 v ++ rest) fu (be 4 v).length = .ok l := by
      rw [be_length]; exact hl
    obtain ⟨raws, rfl, h1, h2⟩ := setLoop_ok p _ _ _ _ hl'
    refine ⟨BitVec.ofNat 32 v, raws, l, ?_, h1, h2, rfl⟩
    rw [BitVec.toNat_ofNat, Nat.mod_eq_of_lt (by simpa using hv)]
  · rintro ⟨asn, raws, l, rfl, h1, h2, rfl⟩
    rw [if_neg (by simp)]
    have hc : raws.length ≤ (be 4 asn.toNat ++ raws.flatMap rawWire).length := by
      have := raws_length raws
      simp only [List.length_append]; omega
    have hs := setLoop_raws p raws h1 l h2 (be 4 asn.toNat) [] _ hc
    rw [List.append_nil, setLoop_nil, Res.ok_bind, List.append_nil, be_length] at hs
    rw [hs, Res.ok_bind, getn32_be, ofNat_toNat32]
    rfl

theorem attrSet_panic_iff (p : BgpSessionParams) (fl : U8) (n : Nat) (buf : Bytes) :
    BgpAttrItem.decodeFromIn .release p 128 fl n buf = .panic ↔ p.hasAs32bit = true ∧ ∃ (origin : Bytes) (raws : List RawAttr)
      (l : List BgpAttrItem) (t : Bytes), buf = origin ++ (raws.flatMap rawWire ++ t) ∧ origin.length = 4 ∧
        (∀ r ∈ raws, RawWF r) ∧ AttrsDec p raws l ∧ (CutAttr t ∨ ∃ r t', t = rawWire r ++ t' ∧ RawWF r ∧
          BgpAttrItem.decodeFromIn .release p r.code r.flags r.value.length r.value = .panic) := by
  rw [attrSet_eq]
  unfold BgpAttrSet.decodeFrom
  cases h32 : p.hasAs32bit
  · simp
  simp only [Bool.not_true, Bool.false_eq_true, ↓reduceIte, true_and]
  constructor
  · intro h
    split at h
    · cases h
    rename_i hlen
    obtain ⟨v, hv, e⟩ := exists_be (l := buf) 4 (by omega)
    generalize buf.drop 4 = rest at e
    subst e
    have hl' : BgpAttrSet.loop (BgpAttrItem.decodeFromIn .release p) (be 4 v ++ rest) (be 4 v ++ rest).length (be 4 v).length =
        .panic := by
      rw [be_length]
      cases hq : BgpAttrSet.loop (BgpAttrItem.decodeFromIn .release p) (be 4 v ++ rest) (be 4 v ++ rest).length 4 with
      | panic => rfl
      | err e => rw [hq] at h; cases h
      | hang => rw [hq] at h; cases h
      | ok l => rw [hq, Res.ok_bind, getn32_be] at h; cases h
    obtain ⟨raws, l, t, rfl, h1, h2, h3⟩ := setLoop_panic p _ _ _ hl'
    exact ⟨be 4 v, raws, l, t, rfl, by simp, h1, h2, h3⟩
  · rintro ⟨o, raws, l, t, rfl, ho, h1, h2, h3⟩
    rw [if_neg (by simp; omega)]
    have hlr := raws_length raws
    have ht : 0 < t.length := by
      rcases h3 with (⟨f, rfl⟩ | ⟨f, c, rfl⟩ | ⟨f, c, a, rfl, -⟩) | ⟨r, t', rfl, -, -⟩
      · simp
      · simp
      · simp
      · have := rawWire_length r
        simp only [List.length_append]
        split at this <;> omega
    have hc : raws.length + 1 ≤ (o ++ (raws.flatMap rawWire ++ t)).length := by
      simp only [List.length_append]; omega
    obtain ⟨k, hk⟩ : ∃ k, (o ++ (raws.flatMap rawWire ++ t)).length = raws.length + (k + 1) :=
      ⟨(o ++ (raws.flatMap rawWire ++ t)).length - raws.length - 1, by omega⟩
    rw [hk]
    have hs := setLoop_raws p raws h1 l h2 o t (raws.length + (k + 1)) (by omega)
    rw [ho, Nat.add_sub_cancel_left] at hs
    rw [hs]
    rcases h3 with hc | ⟨r, t', rfl, hw, hp⟩
    · rw [setLoop_cut _ _ _ hc]; rfl
    · rw [setLoop_raw _ _ _ _ hw _ _ rfl, hp]; rfl

def reachTail (p : BgpSessionParams) (afi : U16) (safi : U8) (buf : Bytes) (nh : BgpAddr) (curpos : Nat) :
    Res BgpMPUpdates := do
  let snpaCount := (← idx buf curpos).toNat
  let curpos ← BgpMPUpdates.skipSnpa buf snpaCount (curpos + 1)
  let (ap, _) ← BgpAddrs.decodeFromIn .release p afi safi (← rfrom buf curpos)
  .ok ⟨nh, ap⟩

theorem reachTail_wire (p : BgpSessionParams) (afi : U16) (safi : U8) (pre : Bytes) (snpas : List Bytes)
    (hs : SnpasWF snpas) (nlri : Bytes) (nh : BgpAddr) (c : Nat) (hc : c = pre.length) :
    reachTail p afi safi (pre ++ (snpasWire snpas ++ nlri)) nh c =
      (do let (ap, _) ← BgpAddrs.decodeFromIn .release p afi safi nlri
          .ok ⟨nh, ap⟩) := by
  subst hc
  unfold reachTail
  rw [idx_append_len]
  simp only [snpasWire, List.cons_append, idx_cons_zero, Res.ok_bind]
  rw [BitVec.toNat_ofNat, Nat.mod_eq_of_lt (by have := hs.1; omega)]
  have e : pre ++ BitVec.ofNat 8 snpas.length :: (snpas.flatMap snpaWire ++ nlri) =
      (pre ++ [BitVec.ofNat 8 snpas.length]) ++ (snpas.flatMap snpaWire ++ nlri) := by simp
  have h := skipSnpa_wire snpas hs.2 (pre ++ [BitVec.ofNat 8 snpas.length]) nlri
  rw [← e] at h
  rw [show pre.length + 1 = (pre ++ [BitVec.ofNat 8 snpas.length]).length by simp, h, Res.ok_bind, e,
    ← List.append_assoc, rfrom_append _ _ _ rfl, Res.ok_bind]

theorem reachTail_cut (p : BgpSessionParams) (afi : U16) (safi : U8) (pre t : Bytes) (nh : BgpAddr) (c : Nat)
    (hc : pre.length ≤ c) (ht : pre.length < c → t = [])
    (h : ∀ snpas nlri, SnpasWF snpas → t ≠ snpasWire snpas ++ nlri) :
    reachTail p afi safi (pre ++ t) nh c = .panic := by
  unfold reachTail
  match t, ht, h with
  | [], _, _ =>
    have : idx (pre ++ []) c = .panic := by simp [idx, hc]
    rw [this]; rfl
  | b :: t, ht, h =>
    have hc' : c = pre.length := by
      by_contra hne
      exact absurd (ht (by omega)) (by simp)
    subst hc'
    rw [idx_append_len, idx_cons_zero, Res.ok_bind]
    simp only
    rcases skipSnpa_cases (pre ++ b :: t) b.toNat (pre.length + 1) with hs | ⟨c', hs⟩
    · rw [hs]; rfl
    · rw [hs, Res.ok_bind]
      by_cases hle : c' ≤ (pre ++ b :: t).length
      · exfalso
        rw [show pre ++ b :: t = (pre ++ [b]) ++ t by simp] at hs hle
        rw [show pre.length + 1 = (pre ++ [b]).length by simp] at hs
        obtain ⟨l, t', rfl, hl, hs'⟩ := skipSnpa_inv _ _ _ _ hs hle
        have hb := b.isLt
        refine h l t' ⟨by omega, hs'⟩ ?_
        unfold snpasWire
        rw [hl]
        simp
      · have : rfrom (pre ++ b :: t) c' = .panic := by
          unfold rfrom; rw [if_neg hle]
        rw [this]; rfl

theorem reach_eq (p : BgpSessionParams) (f : Family) (l : U8) (rest : Bytes) :
    BgpMPUpdates.decodeFromIn .release p (familyWire f ++ l :: rest) =
      (do
        let (nh, c) ← BgpMPUpdates.decodeNexthop p (familyCode f).1 (familyCode f).2 l.toNat (familyWire f ++ l :: rest)
        reachTail p (familyCode f).1 (familyCode f).2 (familyWire f ++ l :: rest) nh c) := by
  obtain ⟨a, b, h2, hfw⟩ := familyWire_cons f
  have h16 := getn16_be (familyCode f).1.toNat ((familyCode f).2 :: l :: rest)
  rw [h2] at h16
  simp only [List.cons_append, List.nil_append, ofNat_toNat16] at h16
  rw [hfw]
  simp only [BgpMPUpdates.decodeFromIn, List.cons_append, List.nil_append, h16, Res.ok_bind,
    idx_cons_succ, idx_cons_zero]
  rfl

theorem reachTail_panic_iff (p : BgpSessionParams) (f : Family) (pre t : Bytes) (nh : BgpAddr) (c : Nat)
    (hc : pre.length ≤ c) (ht : pre.length < c → t = []) :
    reachTail p (familyCode f).1 (familyCode f).2 (pre ++ t) nh c = .panic ↔ TailPanics p f t := by
  by_cases h : ∃ snpas nlri, SnpasWF snpas ∧ t = snpasWire snpas ++ nlri
  · obtain ⟨snpas, nlri, hs, rfl⟩ := h
    have hc' : c = pre.length := by
      by_contra hne
      have := ht (by omega)
      simp [snpasWire] at this
    rw [reachTail_wire p _ _ pre snpas hs nlri nh c hc']
    constructor
    · intro hp snpas' nlri' hs' e
      have := reachTail_wire p (familyCode f).1 (familyCode f).2 pre snpas' hs' nlri' nh c hc'
      rw [← e, reachTail_wire p _ _ pre snpas hs nlri nh c hc', hp] at this
      cases hq : BgpAddrs.decodeFromIn .release p (familyCode f).1 (familyCode f).2 nlri' with
      | panic => rfl
      | ok x => rw [hq] at this; cases this
      | err x => rw [hq] at this; cases this
      | hang => rw [hq] at this; cases this
    · intro hp
      rw [hp snpas nlri hs rfl]
      rfl
  · have hn : ∀ snpas nlri, SnpasWF snpas → t ≠ snpasWire snpas ++ nlri := fun s n hs e => h ⟨s, n, hs, e⟩
    rw [reachTail_cut p _ _ pre t nh c hc ht hn]
    exact ⟨fun _ s n hs e => absurd e (hn s n hs), fun _ => rfl⟩

theorem reach_family_panic_iff (p : BgpSessionParams) (f : Family) (hr : NexthopReadable f) (l : U8) (rest : Bytes) :
    BgpMPUpdates.decodeFromIn .release p (familyWire f ++ l :: rest) = .panic ↔
    (if VpnFamily f then nexthopSize f ≤ rest.length ∧ TailPanics p f (rest.drop (nexthopSize f))
     else if f = .l2Vpls ∨ f = .l2Evpn then 4 ≤ rest.length ∧ TailPanics p f (rest.drop l.toNat)
     else rest.length < l.toNat ∨ (nexthopSize f ≤ l.toNat ∧ TailPanics p f (rest.drop l.toNat))) := by
  rw [reach_eq]
  obtain ⟨a, b, -, hfw⟩ := familyWire_cons f
  have hv : familyWire f ++ l :: rest = a :: b :: (familyCode f).2 :: l :: rest := by rw [hfw]; rfl
  have tail : ∀ (nh : BgpAddr) (k : Nat), reachTail p (familyCode f).1 (familyCode f).2 (familyWire f ++ l :: rest) nh (4 + k)
      = .panic ↔ TailPanics p f (rest.drop k) := by
    intro nh k
    have e : familyWire f ++ l :: rest = (familyWire f ++ l :: rest.take k) ++ rest.drop k := by simp
    rw [e]
    refine reachTail_panic_iff p f _ _ nh _ ?_ ?_
    · rw [hfw]; simp; omega
    · intro h
      rw [hfw] at h
      simp at h ⊢
      omega
  by_cases hvpn : VpnFamily f
  · rw [if_pos hvpn]
    obtain ⟨h1, h2⟩ := nexthop_vpn p f hvpn a b (familyCode f).2 rest
    by_cases hlen : rest.length < nexthopSize f
    · have := h1 hlen l.toNat l
      rw [← hv] at this
      constructor
      · intro h
        cases hq : BgpMPUpdates.decodeNexthop p (familyCode f).1 (familyCode f).2 l.toNat (familyWire f ++ l :: rest) with
        | err e => rw [hq] at h; cases h
        | ok x => rw [hq] at this; exact this.elim
        | panic => rw [hq] at this; exact this.elim
        | hang => rw [hq] at this; exact this.elim
      · intro h; omega
    · obtain ⟨nh, extra, -, -, -, h3⟩ := h2 (by omega)
      have h3 := h3 l.toNat l
      rw [← hv] at h3
      rw [h3, Res.ok_bind, tail]
      exact ⟨fun h => ⟨by omega, h⟩, fun h => h.2⟩
  rw [if_neg hvpn]
  by_cases hl2 : f = .l2Vpls ∨ f = .l2Evpn
  · rw [if_pos hl2]
    obtain ⟨h1, h2⟩ := nexthop_l2 p f hl2 l.toNat a b (familyCode f).2 l rest
    rw [← hv] at h1 h2
    by_cases hlen : rest.length < 4
    · have := h1 hlen
      constructor
      · intro h
        cases hq : BgpMPUpdates.decodeNexthop p (familyCode f).1 (familyCode f).2 l.toNat (familyWire f ++ l :: rest) with
        | err e => rw [hq] at h; cases h
        | ok x => rw [hq] at this; exact this.elim
        | panic => rw [hq] at this; exact this.elim
        | hang => rw [hq] at this; exact this.elim
      · intro h; omega
    · obtain ⟨nh, extra, -, -, h3⟩ := h2 (by omega)
      rw [h3, Res.ok_bind, tail]
      exact ⟨fun h => ⟨by omega, h⟩, fun h => h.2⟩
  rw [if_neg hl2]
  obtain ⟨h1, h2, h3⟩ := nexthop_plain p f ⟨hr, hvpn, fun h => hl2 (.inl h), fun h => hl2 (.inr h)⟩ l.toNat a b
    (familyCode f).2 l rest
  rw [← hv] at h1 h2 h3
  by_cases hlen : rest.length < l.toNat
  · rw [h1 hlen]
    exact ⟨fun _ => .inl hlen, fun _ => rfl⟩
  · by_cases hsz : l.toNat < nexthopSize f
    · have := h2 (by omega) hsz
      constructor
      · intro h
        cases hq : BgpMPUpdates.decodeNexthop p (familyCode f).1 (familyCode f).2 l.toNat (familyWire f ++ l :: rest) with
        | err e => rw [hq] at h; cases h
        | ok x => rw [hq] at this; exact this.elim
        | panic => rw [hq] at this; exact this.elim
        | hang => rw [hq] at this; exact this.elim
      · intro h; omega
    · obtain ⟨nh, extra, -, -, h4⟩ := h3 (by omega) (by omega)
      rw [h4, Res.ok_bind, tail]
      exact ⟨fun h => .inr ⟨by omega, h⟩, fun h => by
        rcases h with h | h
        · omega
        · exact h.2⟩

theorem reach_panic_iff (p : BgpSessionParams) (v : Bytes) :
    BgpMPUpdates.decodeFromIn .release p v = .panic ↔ ReachPanics p v := by
  constructor
  · intro h
    match v, h with
    | [], _ => exact .inl (by simp)
    | [_], _ => exact .inl (by simp)
    | [_, _], _ => exact .inl (by simp)
    | [_, _, _], _ => exact .inl (by simp)
    | a :: b :: c :: l :: rest, h =>
      rcases nexthop_families p (BitVec.ofNat 16 (unbe [a, b])) c with ⟨f, hr, hf⟩ | hn
      · have e : a :: b :: c :: l :: rest = familyWire f ++ l :: rest := by
          have := be_unbe [a, b]
          simp only [List.length_cons, List.length_nil, Nat.zero_add, Nat.reduceAdd] at this
          have hlt := unbe_lt [a, b]
          simp only [List.length_cons, List.length_nil, Nat.zero_add, Nat.reduceAdd] at hlt
          unfold familyWire
          rw [hf]
          simp only [BitVec.toNat_ofNat]
          rw [Nat.mod_eq_of_lt (by omega), this]
          rfl
        refine .inr ⟨f, l, rest, hr, e, ?_⟩
        rw [e] at h
        exact (reach_family_panic_iff p f hr l rest).1 h
      · exfalso
        unfold BgpMPUpdates.decodeFromIn at h
        rw [getn16_ok (by simp)] at h
        simp only [List.take_succ_cons, List.take_zero, Res.ok_bind, idx_cons_zero, idx_cons_succ] at h
        have := hn l.toNat (a :: b :: c :: l :: rest)
        cases hq : BgpMPUpdates.decodeNexthop p (BitVec.ofNat 16 (unbe [a, b])) c l.toNat (a :: b :: c :: l :: rest) with
        | err e => rw [hq] at h; cases h
        | ok x => rw [hq] at this; exact this.elim
        | panic => rw [hq] at this; exact this.elim
        | hang => rw [hq] at this; exact this.elim
  · rintro (h | ⟨f, l, rest, hr, rfl, h⟩)
    · match v, h with
      | [], _ => rfl
      | [_], _ => rfl
      | [_, _], _ => rfl
      | [_, _, _], _ => rfl
      | _ :: _ :: _ :: _ :: _, h => simp at h; omega
    · exact (reach_family_panic_iff p f hr l rest).2 h

theorem unreach_panic_iff (p : BgpSessionParams) (v : Bytes) : BgpMPWithdraws.decodeFromIn .release p v = .panic ↔
    v.length < 3 ∨ ∃ a b c nlri, v = a :: b :: c :: nlri ∧ BgpAddrs.decodeFromIn .release p (a ++ b) c nlri = .panic := by
  match v with
  | [] => simp; rfl
  | [_] => simp; rfl
  | [_, _] => simp; rfl
  | a :: b :: c :: nlri =>
    unfold BgpMPWithdraws.decodeFromIn
    rw [getn16_pair]
    simp only [Res.ok_bind, idx_cons_succ, idx_cons_zero, rfrom_cons_succ, rfrom_zero]
    constructor
    · intro h
      refine .inr ⟨a, b, c, nlri, rfl, ?_⟩
      cases hq : BgpAddrs.decodeFromIn .release p (a ++ b) c nlri with
      | panic => rfl
      | ok x => rw [hq] at h; cases h
      | err x => rw [hq] at h; cases h
      | hang => rw [hq] at h; cases h
    · rintro (h | ⟨a', b', c', nlri', e, h⟩)
      · simp at h; omega
      · simp only [List.cons.injEq] at e
        obtain ⟨rfl, rfl, rfl, rfl⟩ := e
        rw [h]; rfl

theorem reachTail_ok_iff (p : BgpSessionParams) (f : Family) (pre t : Bytes) (nh : BgpAddr) (c : Nat)
    (hc : pre.length ≤ c) (ht : pre.length < c → t = []) (y : BgpMPUpdates) :
    reachTail p (familyCode f).1 (familyCode f).2 (pre ++ t) nh c = .ok y ↔
      y.nexthop = nh ∧ ∃ snpas nlri n, SnpasWF snpas ∧ t = snpasWire snpas ++ nlri ∧ WrapAddrs p f nlri y.addrs n := by
  have tail : ∀ (snpas : List Bytes) (nlri : Bytes), SnpasWF snpas → t = snpasWire snpas ++ nlri →
      reachTail p (familyCode f).1 (familyCode f).2 (pre ++ t) nh c =
        (do let (ap, _) ← BgpAddrs.decodeFromIn .release p (familyCode f).1 (familyCode f).2 nlri
            .ok ⟨nh, ap⟩) := by
    rintro snpas nlri hs rfl
    refine reachTail_wire p _ _ pre snpas hs nlri nh c ?_
    by_contra hne
    have := ht (by omega)
    simp [snpasWire] at this
  by_cases h : ∃ snpas nlri, SnpasWF snpas ∧ t = snpasWire snpas ++ nlri
  · obtain ⟨snpas, nlri, hs, e⟩ := h
    constructor
    · intro hok
      rw [tail snpas nlri hs e] at hok
      obtain ⟨⟨ap, n⟩, h1, h2⟩ := Res.bind_eq_ok.1 hok
      cases h2
      exact ⟨rfl, snpas, nlri, n, hs, e, ((w_addrs_exactly p f nlri).ok (ap, n)).1 h1⟩
    · rintro ⟨rfl, snpas', nlri', n, hs', e', hr⟩
      rw [tail snpas' nlri' hs' e', ((w_addrs_exactly p f nlri').ok (y.addrs, n)).2 hr]
      rfl
  · constructor
    · intro hok
      rw [reachTail_cut p _ _ pre t nh c hc ht fun s n hs e => h ⟨s, n, hs, e⟩] at hok
      cases hok
    · rintro ⟨-, snpas, nlri, -, hs, e, -⟩
      exact absurd ⟨snpas, nlri, hs, e⟩ h

theorem reach_ok_iff (p : BgpSessionParams) (v : Bytes) (y : BgpMPUpdates) :
    BgpMPUpdates.decodeFromIn .release p v = .ok y ↔ WrapReachRead p v y.nexthop y.addrs := by
  have tail : ∀ (f : Family) (l : U8) (rest : Bytes) (nh : BgpAddr) (k : Nat),
      reachTail p (familyCode f).1 (familyCode f).2 (familyWire f ++ l :: rest) nh (4 + k) = .ok y ↔
        y.nexthop = nh ∧ ∃ snpas nlri n, SnpasWF snpas ∧ rest.drop k = snpasWire snpas ++ nlri ∧
          WrapAddrs p f nlri y.addrs n := by
    intro f l rest nh k
    obtain ⟨a, b, -, hfw⟩ := familyWire_cons f
    have e : familyWire f ++ l :: rest = (familyWire f ++ l :: rest.take k) ++ rest.drop k := by simp
    rw [e]
    refine reachTail_ok_iff p f _ _ nh _ ?_ ?_ y
    · rw [hfw]; simp; omega
    · intro h
      rw [hfw] at h
      simp at h ⊢
      omega
  constructor
  · intro h
    match v, h with
    | a :: b :: c :: l :: rest, h =>
      rcases nexthop_families p (BitVec.ofNat 16 (unbe [a, b])) c with ⟨f, hr, hf⟩ | hn
      · have e : a :: b :: c :: l :: rest = familyWire f ++ l :: rest := by
          have := be_unbe [a, b]
          simp only [List.length_cons, List.length_nil, Nat.zero_add, Nat.reduceAdd] at this
          have hlt := unbe_lt [a, b]
          simp only [List.length_cons, List.length_nil, Nat.zero_add, Nat.reduceAdd] at hlt
          unfold familyWire
          rw [hf]
          simp only [BitVec.toNat_ofNat]
          rw [Nat.mod_eq_of_lt (by omega), this]
          rfl
        rw [e, reach_eq] at h
        rw [e]
        rcases nexthop_ok p f hr l rest with ⟨nh, hk, hpre, hcond, hd⟩ | ⟨hno, -⟩
        · rw [hd, Res.ok_bind] at h
          obtain ⟨rfl, snpas, nlri, n, hs, et, ha⟩ := (tail f l rest nh _).1 h
          exact ⟨f, l, rest, snpas, nlri, n, hr, rfl, hk, hpre, hcond, et, hs, ha⟩
        · obtain ⟨x, hx, -⟩ := Res.bind_eq_ok.1 h
          exact absurd hx (hno x)
      · exfalso
        unfold BgpMPUpdates.decodeFromIn at h
        rw [getn16_ok (by simp)] at h
        simp only [List.take_succ_cons, List.take_zero, Res.ok_bind, idx_cons_zero, idx_cons_succ] at h
        have := hn l.toNat (a :: b :: c :: l :: rest)
        obtain ⟨x, hx, -⟩ := Res.bind_eq_ok.1 h
        rw [hx] at this
        exact this
  · rintro ⟨f, l, rest, snpas, nlri, n, hr, rfl, hk, hpre, hcond, et, hs, ha⟩
    rw [reach_eq]
    rcases nexthop_ok p f hr l rest with ⟨nh, hk', hpre', hcond', hd⟩ | ⟨-, hno⟩
    · rw [hd, Res.ok_bind]
      exact (tail f l rest nh _).2 ⟨nexthop_unique hk hk' hpre hpre', snpas, nlri, n, hs, et, ha⟩
    · exfalso
      apply hno
      have h1 := hpre.length_le
      rw [nexthop_length hk] at h1
      refine ⟨h1, ?_⟩
      rcases hcond with h | h | h | h
      · exact .inl h
      · exact .inr (.inl h)
      · exact .inr (.inr (.inl h))
      · by_cases hvpn : VpnFamily f
        · exact .inl hvpn
        · refine .inr (.inr (.inr ⟨h, ?_⟩))
          rw [if_neg hvpn] at et
          by_contra hlt
          rw [List.drop_of_length_le (by omega)] at et
          simp [snpasWire] at et

theorem unreach_eq (p : BgpSessionParams) (f : Family) (nlri : Bytes) :
    BgpMPWithdraws.decodeFromIn .release p (familyWire f ++ nlri) =
      (BgpAddrs.decodeFromIn .release p (familyCode f).1 (familyCode f).2 nlri >>= fun r => .ok ⟨r.1⟩) := by
  obtain ⟨a, b, h2, hfw⟩ := familyWire_cons f
  have h16 := getn16_be (familyCode f).1.toNat ((familyCode f).2 :: nlri)
  rw [h2] at h16
  simp only [List.cons_append, List.nil_append, ofNat_toNat16] at h16
  rw [hfw]
  unfold BgpMPWithdraws.decodeFromIn
  simp only [List.cons_append, List.nil_append, h16, Res.ok_bind, idx_cons_succ, idx_cons_zero, rfrom_cons_succ,
    rfrom_zero]

theorem unreach_unknown (p : BgpSessionParams) (a b c : U8) (nlri : Bytes) (h : ∀ f, familyCode f ≠ (a ++ b, c)) :
    BgpMPWithdraws.decodeFromIn .release p (a :: b :: c :: nlri) = .err .dynStr := by
  unfold BgpMPWithdraws.decodeFromIn
  rw [getn16_pair]
  simp only [Res.ok_bind, idx_cons_succ, idx_cons_zero, rfrom_cons_succ, rfrom_zero]
  rw [addrs_unknown h]
  rfl

theorem unreach_exactly (p : BgpSessionParams) (v : Bytes) :
    (∀ y, BgpMPWithdraws.decodeFromIn .release p v = .ok y ↔ ∃ f nlri n, v = familyWire f ++ nlri ∧ WrapAddrs p f nlri y.addrs n) ∧
    (BgpMPWithdraws.decodeFromIn .release p v = .panic ↔
      v.length < 3 ∨ ∃ f nlri, v = familyWire f ++ nlri ∧ WrapAddrsCrash p f nlri) := by
  have hfl : ∀ f, (familyWire f).length = 3 := fun f => by
    obtain ⟨a, b, -, hfw⟩ := familyWire_cons f
    rw [hfw]; rfl
  by_cases h3 : v.length < 3
  · have hp : BgpMPWithdraws.decodeFromIn .release p v = .panic := by
      match v, h3 with
      | [], _ => rfl
      | [_], _ => rfl
      | [_, _], _ => rfl
      | _ :: _ :: _ :: _, h => simp at h; omega
    refine ⟨fun y => ?_, ?_⟩
    · rw [hp]
      refine ⟨fun h => (by cases h), ?_⟩
      rintro ⟨f, nlri, n, rfl, -⟩
      rw [List.length_append, hfl] at h3
      omega
    · exact ⟨fun _ => .inl h3, fun _ => hp⟩
  match v, h3 with
  | [], h3 => simp at h3
  | [_], h3 => simp at h3
  | [_, _], h3 => simp at h3
  | a :: b :: c :: nlri, _ =>
    have inj : ∀ f nlri', a :: b :: c :: nlri = familyWire f ++ nlri' → familyWire f = [a, b, c] ∧ nlri' = nlri := by
      intro f nlri' e
      have : [a, b, c] ++ nlri = familyWire f ++ nlri' := e
      obtain ⟨h1, h2⟩ := List.append_inj this (by rw [hfl]; rfl)
      exact ⟨h1.symm, h2.symm⟩
    rcases family_of_octets a b c with ⟨f, hw, hf⟩ | hno
    · have e : a :: b :: c :: nlri = familyWire f ++ nlri := by rw [hw]; rfl
      have hx := w_addrs_exactly p f nlri
      refine ⟨fun y => ?_, ?_⟩
      · rw [e, unreach_eq, Res.bind_eq_ok]
        constructor
        · rintro ⟨⟨x, n⟩, h1, h2⟩
          cases h2
          exact ⟨f, nlri, n, rfl, (hx.ok (x, n)).1 h1⟩
        · rintro ⟨f', nlri', n, e', h⟩
          rw [← e] at e'
          obtain ⟨hw', rfl⟩ := inj f' nlri' e'
          have : familyCode f' = familyCode f := by
            rw [← hw] at hw'
            unfold familyWire at hw'
            obtain ⟨h1, h2⟩ := List.append_inj hw' (by simp)
            exact Prod.ext (be_inj_bv rfl h1) (by simpa using h2)
          have hff := (w_addrs_exactly p f' nlri').ok (y.addrs, n)
          rw [this] at hff
          exact ⟨_, hff.2 h, rfl⟩
      · rw [e, unreach_eq, panic_bind, hx.crash]
        constructor
        · intro h; exact .inr ⟨f, nlri, rfl, h⟩
        · rintro (h | ⟨f', nlri', e', h⟩)
          · rw [List.length_append, hfl] at h; omega
          · rw [← e] at e'
            obtain ⟨hw', rfl⟩ := inj f' nlri' e'
            have : familyCode f' = familyCode f := by
              rw [← hw] at hw'
              unfold familyWire at hw'
              obtain ⟨h1, h2⟩ := List.append_inj hw' (by simp)
              exact Prod.ext (be_inj_bv rfl h1) (by simpa using h2)
            have hff := (w_addrs_exactly p f' nlri').crash
            rw [this, hx.crash] at hff
            exact hff.2 h
    · have hcode : ∀ f, familyWire f ≠ [a, b, c] := by
        intro f hw
        apply hno f
        unfold familyWire at hw
        have hw : be 2 (familyCode f).1.toNat ++ [(familyCode f).2] = [a, b] ++ [c] := hw
        obtain ⟨h1, h2⟩ := List.append_inj hw (by simp)
        have h16 := getn16_be (familyCode f).1.toNat []
        rw [h1, List.append_nil, getn16_pair, ofNat_toNat16] at h16
        refine Prod.ext ?_ (by simpa using h2)
        simpa using h16.symm
      refine ⟨fun y => ?_, ?_⟩
      · rw [unreach_unknown p a b c nlri hno]
        refine ⟨fun h => (by cases h), ?_⟩
        rintro ⟨f, nlri', n, e, -⟩
        exact absurd (inj f nlri' e).1 (hcode f)
      · rw [unreach_unknown p a b c nlri hno]
        refine ⟨fun h => (by cases h), ?_⟩
        rintro (h | ⟨f, nlri', e, -⟩)
        · simp at h; omega
        · exact absurd (inj f nlri' e).1 (hcode f)

theorem tailPanics_iff (p : BgpSessionParams) (f : Family) (t : Bytes) : TailPanics p f t ↔ WrapTailCrash p f t :=
  forall₄_congr fun _ nlri _ _ => (w_addrs_exactly p f nlri).crash

theorem reachPanics_iff (p : BgpSessionParams) (v : Bytes) : ReachPanics p v ↔ WrapReachCrash p v := by
  unfold ReachPanics WrapReachCrash
  simp only [tailPanics_iff]

theorem attrsDec_iff (p : BgpSessionParams) (b : Bytes) (l : List BgpAttrItem)
    (hv : ∀ (code flags : U8) (v : Bytes) (x : BgpAttrItem), v.length < b.length →
      (BgpAttrItem.decodeFromIn .release p code flags v.length v = .ok x ↔ WrapValueRead p code flags v x)) :
    (∃ raws : List RawAttr, b = raws.flatMap rawWire ∧ (∀ r ∈ raws, RawWF r) ∧ AttrsDec p raws l) ↔
      AttrsRead (WrapValueRead p) b l := by
  constructor
  · rintro ⟨raws, rfl, hr, ha⟩
    induction raws generalizing l with
    | nil =>
      have : l = [] := by simpa [AttrsDec] using ha
      subst this
      exact .nil
    | cons r raws ih =>
      unfold AttrsDec at ha
      match l, ha with
      | x :: l, ha =>
        simp only [List.map_cons, List.cons.injEq] at ha
        have hlr := rawWire_length r
        rw [List.flatMap_cons] at hv ⊢
        refine .cons r x _ l (hr r (by simp)) ?_ ?_
        · refine (hv _ _ _ _ ?_).1 ha.1
          simp only [List.length_append]
          split at hlr <;> omega
        · refine ih l (fun code flags v x hlt => hv code flags v x ?_) (fun r h => hr r (by simp [h])) ha.2
          simp only [List.length_append]
          omega
  · intro h
    induction h with
    | nil => exact ⟨[], rfl, by simp, rfl⟩
    | cons r x t l hr hx hl ih =>
      have hlr := rawWire_length r
      obtain ⟨raws, rfl, h1, h2⟩ := ih (fun code flags v x hlt => hv code flags v x (by
        simp only [List.length_append]; omega))
      refine ⟨r :: raws, by rw [List.flatMap_cons], ?_, ?_⟩
      · intro q hq
        rcases List.mem_cons.1 hq with rfl | hq
        · exact hr
        · exact h1 q hq
      · unfold AttrsDec at h2 ⊢
        rw [List.map_cons, List.map_cons, h2, (hv _ _ _ _ (by
          simp only [List.length_append]; split at hlr <;> omega)).2 hx]

theorem value_ok_iff (p : BgpSessionParams) (code flags : U8) (v : Bytes) (x : BgpAttrItem) :
    BgpAttrItem.decodeFromIn .release p code flags v.length v = .ok x ↔ WrapValueRead p code flags v x := by
  induction hn : v.length using Nat.strongRecOn generalizing flags code v x with
  | ind n ih =>
  subst hn
  by_cases h14 : code = 14
  · subst h14
    change (BgpMPUpdates.decodeFromIn .release p v >>= fun x => .ok (BgpAttrItem.MPUpdates x)) = .ok x ↔ _
    rw [bind_ok_iff]
    constructor
    · rintro ⟨y, hy, rfl⟩
      exact .mpReach flags v y.nexthop y.addrs ((reach_ok_iff p v y).1 hy)
    · intro h
      cases h with
      | mpReach _ _ nh a h => exact ⟨⟨nh, a⟩, (reach_ok_iff p v ⟨nh, a⟩).2 h, rfl⟩
      | same _ _ _ _ hc => exact absurd rfl hc.1
  by_cases h15 : code = 15
  · subst h15
    change (BgpMPWithdraws.decodeFromIn .release p v >>= fun x => .ok (BgpAttrItem.MPWithdraws x)) = .ok x ↔ _
    rw [bind_ok_iff]
    constructor
    · rintro ⟨y, hy, rfl⟩
      obtain ⟨f, nlri, n, rfl, h⟩ := ((unreach_exactly p v).1 y).1 hy
      exact .mpUnreach flags f nlri y.addrs n h
    · intro h
      cases h with
      | mpUnreach _ f nlri a n h => exact ⟨⟨a⟩, ((unreach_exactly p _).1 ⟨a⟩).2 ⟨f, nlri, n, rfl, h⟩, rfl⟩
      | same _ _ _ _ hc => exact absurd rfl hc.2.1
  by_cases h128 : code = 128
  · subst h128
    rw [attrSet_ok_iff]
    have inner : ∀ (asn : U32) (b : Bytes) (l : List BgpAttrItem), v = be 4 asn.toNat ++ b →
        ((∃ raws : List RawAttr, b = raws.flatMap rawWire ∧ (∀ r ∈ raws, RawWF r) ∧ AttrsDec p raws l) ↔
          AttrsRead (WrapValueRead p) b l) := by
      intro asn b l e
      refine attrsDec_iff p b l fun code flags w y hw => ih _ ?_ code flags w y rfl
      have := congrArg List.length e
      rw [List.length_append, be_length] at this
      omega
    constructor
    · rintro ⟨h32, asn, raws, l, e, hr, ha, rfl⟩
      rw [e]
      exact .attrSet flags asn _ l h32 ((inner asn _ l e).1 ⟨raws, rfl, hr, ha⟩)
    · intro h
      cases h with
      | attrSet _ asn b l h32 h =>
        obtain ⟨raws, rfl, hr, ha⟩ := (inner asn b l rfl).2 h
        exact ⟨h32, asn, raws, l, rfl, hr, ha, rfl⟩
      | same _ _ _ _ hc => exact absurd rfl hc.2.2
  · unfold BgpAttrItem.decodeFromIn
    rw [same_value p _ _ _ _ _ ⟨h14, h15, h128⟩]
    refine (Zbgp.value_ok_iff p code flags v x).trans ?_
    constructor
    · exact fun h => .same code flags v x ⟨h14, h15, h128⟩ h
    · intro h
      cases h with
      | same _ _ _ _ hc h => exact h
      | _ => contradiction

theorem attrs_read_iff (p : BgpSessionParams) (b : Bytes) (l : List BgpAttrItem) :
    (∃ raws : List RawAttr, b = raws.flatMap rawWire ∧ (∀ r ∈ raws, RawWF r) ∧ AttrsDec p raws l) ↔
      AttrsRead (WrapValueRead p) b l :=
  attrsDec_iff p b l fun code flags v x _ => value_ok_iff p code flags v x

theorem value_panic_iff (p : BgpSessionParams) (code flags : U8) (v : Bytes) :
    BgpAttrItem.decodeFromIn .release p code flags v.length v = .panic ↔ WrapValueCrash p code v := by
  induction hn : v.length using Nat.strongRecOn generalizing flags code v with
  | ind n ih =>
  subst hn
  by_cases h14 : code = 14
  · subst h14
    change (BgpMPUpdates.decodeFromIn .release p v >>= fun x => .ok (BgpAttrItem.MPUpdates x)) = .panic ↔ _
    rw [panic_bind, reach_panic_iff, reachPanics_iff]
    constructor
    · exact .mpReach v
    · intro h
      cases h with
      | mpReach _ h => exact h
      | same _ _ hc => exact absurd rfl hc.1
  by_cases h15 : code = 15
  · subst h15
    change (BgpMPWithdraws.decodeFromIn .release p v >>= fun x => .ok (BgpAttrItem.MPWithdraws x)) = .panic ↔ _
    rw [panic_bind, (unreach_exactly p v).2]
    constructor
    · rintro (h | ⟨f, nlri, rfl, h⟩)
      · exact .mpUnreachHead v h
      · exact .mpUnreachNlri f nlri h
    · intro h
      cases h with
      | mpUnreachHead _ h => exact .inl h
      | mpUnreachNlri f nlri h => exact .inr ⟨f, nlri, rfl, h⟩
      | same _ _ hc => exact absurd rfl hc.2.1
  by_cases h128 : code = 128
  · subst h128
    rw [attrSet_panic_iff]
    constructor
    · rintro ⟨h32, o, raws, l, t, rfl, ho, hr, ha, hc | ⟨r, t', rfl, hw, hp⟩⟩
      · rw [← List.append_assoc]
        exact .setCut o _ l t h32 ho ((attrs_read_iff p _ l).1 ⟨raws, rfl, hr, ha⟩) hc
      · rw [← List.append_assoc, ← List.append_assoc]
        refine .setInner o _ l r t' h32 ho ((attrs_read_iff p _ l).1 ⟨raws, rfl, hr, ha⟩) hw
          ((ih _ ?_ r.code r.flags r.value rfl).1 hp)
        have := rawWire_length r
        simp only [List.length_append]
        split at this <;> omega
    · intro h
      cases h with
      | setCut o b l t h32 ho ha hc =>
        obtain ⟨raws, rfl, hr, ha⟩ := (attrs_read_iff p b l).2 ha
        exact ⟨h32, o, raws, l, t, by rw [List.append_assoc], ho, hr, ha, .inl hc⟩
      | setInner o b l r t h32 ho ha hw hc =>
        obtain ⟨raws, rfl, hr, ha⟩ := (attrs_read_iff p b l).2 ha
        refine ⟨h32, o, raws, l, rawWire r ++ t, by simp only [List.append_assoc], ho, hr, ha, .inr ⟨r, t, rfl, hw,
          (ih _ ?_ r.code r.flags r.value rfl).2 hc⟩⟩
        have := rawWire_length r
        simp only [List.length_append]
        split at this <;> omega
      | same _ _ hc => exact absurd rfl hc.2.2
  · unfold BgpAttrItem.decodeFromIn
    rw [same_value p _ _ _ _ _ ⟨h14, h15, h128⟩]
    refine (Zbgp.value_exactly p code flags v).crash.trans ?_
    constructor
    · exact fun h => .same code v ⟨h14, h15, h128⟩ h
    · intro h
      cases h with
      | same _ _ hc h => exact h
      | _ => contradiction

theorem value_exactly (p : BgpSessionParams) (code flags : U8) (v : Bytes) :
    Exactly (BgpAttrItem.decodeFromIn .release p code flags v.length v) (WrapValueRead p code flags v)
      (WrapValueCrash p code v) where
  ok x := value_ok_iff p code flags v x
  crash := value_panic_iff p code flags v
  noHang := nhr_attr p code flags v.length v

/-! ## UPDATE -/

theorem decodeNlri_eq (p : BgpSessionParams) (b : Bytes) : BgpUpdateMessage.decodeNlriIn .release p b =
    (BgpAddrs.decodeFromIn .release p (familyCode (sessionFamily p)).1 (familyCode (sessionFamily p)).2 b >>= fun r => .ok r.1) := by
  unfold BgpUpdateMessage.decodeNlriIn sessionFamily
  cases p.peerMode <;> rfl

theorem decodeNlri_ok {p : BgpSessionParams} {b : Bytes} {x : BgpAddrs} :
    BgpUpdateMessage.decodeNlriIn .release p b = .ok x ↔ NlriDec p b x := by
  rw [decodeNlri_eq, Res.bind_eq_ok]
  unfold NlriDec
  constructor
  · rintro ⟨⟨y, n⟩, h1, h2⟩
    simp only [Res.ok.injEq] at h2
    exact ⟨n, by rw [h1, h2]⟩
  · rintro ⟨n, h⟩
    exact ⟨_, h, rfl⟩

theorem attrLoop_raw (p : BgpSessionParams) (pre t : Bytes) (r : RawAttr) (hr : RawWF r) (stop fuel pos : Nat)
    (hp : pos = pre.length) (hs : pos + (rawWire r).length ≤ stop) :
    BgpUpdateMessage.attrLoopIn .release p (pre ++ (rawWire r ++ t)) stop (fuel + 1) pos =
      (do
        let x ← BgpAttrItem.decodeFromIn .release p r.code r.flags r.value.length r.value
        let (l, e) ← BgpUpdateMessage.attrLoopIn .release p (pre ++ (rawWire r ++ t)) stop fuel (pos + (rawWire r).length)
        .ok (x :: l, e)) := by
  have hl := rawWire_length r
  have hx := extended_iff r.flags
  unfold RawWF maxValue at hr
  rw [BgpUpdateMessage.attrLoopIn, if_pos (by split at hl <;> omega)]
  simp only
  subst hp
  cases he : extended r.flags <;> rw [he] at hx hl hr
  · simp only [Bool.false_eq_true, iff_false] at hx hr
    simp only [Bool.false_eq_true, ↓reduceIte] at hl hr
    have e : pre ++ (rawWire r ++ t) =
        pre ++ (r.flags :: r.code :: BitVec.ofNat 8 r.value.length :: (r.value ++ t)) := by
      simp [rawWire, attrHeader, he, be_one]
    rw [e]
    rw [idx_append_right (by omega), idx_append_right (by omega), idx_append_right (by omega)]
    simp only [Nat.sub_self, show pre.length + 1 - pre.length = 1 by omega,
      show pre.length + 3 - 1 - pre.length = 2 by omega, idx_cons_zero, idx_cons_succ, Res.ok_bind, if_neg hx]
    rw [BitVec.toNat_ofNat, Nat.mod_eq_of_lt (show r.value.length < 2 ^ 8 by omega)]
    rw [if_neg (by omega)]
    rw [show pre ++ (r.flags :: r.code :: BitVec.ofNat 8 r.value.length :: (r.value ++ t)) =
      (pre ++ [r.flags, r.code, BitVec.ofNat 8 r.value.length]) ++ (r.value ++ t) by simp]
    rw [sliceE_append_mid _ _ _ _ _ (by simp) (by simp), Res.ok_bind]
    rw [show pre.length + 3 + r.value.length = pre.length + (rawWire r).length by omega]
  · simp only [iff_true] at hx
    simp only [↓reduceIte] at hl hr
    have e : pre ++ (rawWire r ++ t) =
        pre ++ (r.flags :: r.code :: (be 2 r.value.length ++ (r.value ++ t))) := by
      simp [rawWire, attrHeader, he]
    rw [e]
    rw [idx_append_right (by omega), idx_append_right (by omega)]
    simp only [Nat.sub_self, show pre.length + 1 - pre.length = 1 by omega, idx_cons_zero, idx_cons_succ, Res.ok_bind,
      if_pos hx]
    rw [show pre ++ (r.flags :: r.code :: (be 2 r.value.length ++ (r.value ++ t))) =
      (pre ++ [r.flags, r.code]) ++ (be 2 r.value.length ++ (r.value ++ t)) by simp]
    rw [sliceE_append_mid _ _ _ _ _ (by simp) (by simp)]
    simp only [Res.ok_bind, getn16_two]
    rw [BitVec.toNat_ofNat, Nat.mod_eq_of_lt (show r.value.length < 2 ^ 16 by omega)]
    rw [if_neg (by omega)]
    rw [show (pre ++ [r.flags, r.code]) ++ (be 2 r.value.length ++ (r.value ++ t)) =
      (pre ++ [r.flags, r.code] ++ be 2 r.value.length) ++ (r.value ++ t) by simp]
    rw [sliceE_append_mid _ _ _ _ _ (by simp) (by simp), Res.ok_bind]
    rw [show pre.length + 4 + r.value.length = pre.length + (rawWire r).length by omega]

theorem attrLoop_raws (p : BgpSessionParams) (raws : List RawAttr) (hr : ∀ r ∈ raws, RawWF r) (l : List BgpAttrItem)
    (h : AttrsDec p raws l) (pre t : Bytes) (stop fuel pos : Nat) (hp : pos = pre.length)
    (hs : stop = pos + (raws.flatMap rawWire).length) (hf : raws.length ≤ fuel) :
    BgpUpdateMessage.attrLoopIn .release p (pre ++ (raws.flatMap rawWire ++ t)) stop fuel pos = .ok (l, stop) := by
  induction raws generalizing pre pos fuel l with
  | nil =>
    have : l = [] := by simpa [AttrsDec] using h
    subst this
    have hs' : stop = pos := by simpa using hs
    cases fuel <;> rw [BgpUpdateMessage.attrLoopIn, if_neg (by omega), hs']
  | cons r raws ih =>
    unfold AttrsDec at h
    cases l with
    | nil => simp at h
    | cons x l =>
      simp only [List.map_cons, List.cons.injEq] at h
      simp only [List.length_cons] at hf
      simp only [List.flatMap_cons, List.length_append] at hs
      obtain ⟨fuel, rfl⟩ : ∃ k, fuel = k + 1 := ⟨fuel - 1, by omega⟩
      simp only [List.flatMap_cons, List.append_assoc]
      rw [attrLoop_raw p pre _ r (hr r (by simp)) stop fuel pos hp (by omega), h.1]
      simp only [Res.ok_bind]
      have := ih (fun r hr' => hr r (by simp [hr'])) l h.2 (pre ++ rawWire r) fuel (pos + (rawWire r).length)
        (by simp [hp]) (by omega) (by omega)
      simp only [List.append_assoc] at this
      rw [this]
      rfl

theorem attrLoop_ok (p : BgpSessionParams) (stop fuel : Nat) (pre rest : Bytes) (l : List BgpAttrItem) (e : Nat)
    (hs : stop ≤ (pre ++ rest).length) (hp : pre.length ≤ stop)
    (h : BgpUpdateMessage.attrLoopIn .release p (pre ++ rest) stop fuel pre.length = .ok (l, e)) :
    e = stop ∧ ∃ raws t, rest = raws.flatMap rawWire ++ t ∧ stop = pre.length + (raws.flatMap rawWire).length ∧
      (∀ r ∈ raws, RawWF r) ∧ AttrsDec p raws l := by
  induction fuel generalizing pre rest l with
  | zero =>
    rw [BgpUpdateMessage.attrLoopIn] at h
    split at h
    · cases h
    · simp only [Res.ok.injEq, Prod.mk.injEq] at h
      obtain ⟨rfl, rfl⟩ := h
      exact ⟨by omega, [], rest, by simp, by simp; omega, by simp, rfl⟩
  | succ fuel ih =>
    by_cases hlt : pre.length < stop
    swap
    · rw [BgpUpdateMessage.attrLoopIn, if_neg hlt] at h
      simp only [Res.ok.injEq, Prod.mk.injEq] at h
      obtain ⟨rfl, rfl⟩ := h
      exact ⟨by omega, [], rest, by simp, by simp; omega, by simp, rfl⟩
    · -- the header is there and the value fits, otherwise the round fails
      have key : ∃ r t, rest = rawWire r ++ t ∧ RawWF r ∧ pre.length + (rawWire r).length ≤ stop := by
        rw [BgpUpdateMessage.attrLoopIn, if_pos hlt] at h
        simp only at h
        obtain ⟨flags, h1, h⟩ := Res.bind_eq_ok.1 h
        obtain ⟨code, h2, h⟩ := Res.bind_eq_ok.1 h
        obtain ⟨⟨q, n⟩, h3, h⟩ := Res.bind_eq_ok.1 h
        simp only at h
        have hx := extended_iff flags
        rw [idx_append_right (by omega), Nat.sub_self] at h1
        rw [idx_append_right (by omega), show pre.length + 1 - pre.length = 1 by omega] at h2
        obtain ⟨f, rest, rfl⟩ := List.exists_cons_of_length_pos (l := rest) (by
          rw [List.length_append] at hs; omega)
        rw [idx_cons_zero] at h1
        simp only [Res.ok.injEq] at h1
        subst h1
        rw [idx_cons_succ] at h2
        cases rest with
        | nil => cases h2
        | cons c rest =>
        rw [idx_cons_zero] at h2
        simp only [Res.ok.injEq] at h2
        subst h2
        cases he : extended f <;> rw [he] at hx
        · simp only [Bool.false_eq_true, iff_false] at hx
          rw [if_neg hx] at h3
          obtain ⟨b, h4, h3⟩ := Res.bind_eq_ok.1 h3
          simp only [Res.ok.injEq, Prod.mk.injEq] at h3
          obtain ⟨rfl, rfl⟩ := h3
          rw [idx_append_right (by omega), show pre.length + 3 - 1 - pre.length = 2 by omega, idx_cons_succ,
            idx_cons_succ] at h4
          cases rest with
          | nil => cases h4
          | cons b' rest =>
          rw [idx_cons_zero] at h4
          simp only [Res.ok.injEq] at h4
          subst h4
          split at h
          · cases h
          · rename_i hfit
            simp only [List.length_append, List.length_cons] at hs
            refine ⟨⟨c, f, rest.take b'.toNat⟩, rest.drop b'.toNat, ?_, ?_, ?_⟩
            · simp only [rawWire, attrHeader, he, List.length_take]
              rw [Nat.min_eq_left (by omega)]
              simp [be_one]
            · simp only [RawWF, maxValue, he, List.length_take]
              have := b'.isLt
              simp; omega
            · rw [rawWire_length]
              simp only [he, List.length_take]
              simp; omega
        · simp only [iff_true] at hx
          rw [if_pos hx] at h3
          obtain ⟨sl, h4, h3⟩ := Res.bind_eq_ok.1 h3
          obtain ⟨v, h5, h3⟩ := Res.bind_eq_ok.1 h3
          simp only [Res.ok.injEq, Prod.mk.injEq] at h3
          obtain ⟨rfl, rfl⟩ := h3
          rw [sliceE_eq_ok] at h4
          obtain ⟨-, h6, h7⟩ := h4
          simp only [List.length_append, List.length_cons] at hs h6
          obtain ⟨a, b, rest, rfl⟩ := exists_cons2 (l := rest) (by omega)
          have e7 : sl = [a, b] := by
            rw [h7, show pre ++ f :: c :: a :: b :: rest = (pre ++ [f, c]) ++ ([a, b] ++ rest) by simp,
              List.take_append, List.drop_append]
            simp
          subst e7
          rw [getn16_ok (by simp)] at h5
          simp only [Res.ok.injEq, List.take_succ_cons, List.take_zero] at h5
          subst h5
          rw [unbe_two] at h
          split at h
          · cases h
          · rename_i hfit
            simp only [List.length_cons] at hs
            refine ⟨⟨c, f, rest.take (a.toNat * 256 + b.toNat)⟩, rest.drop (a.toNat * 256 + b.toNat), ?_, ?_, ?_⟩
            · simp only [rawWire, attrHeader, he, List.length_take]
              rw [Nat.min_eq_left (by omega)]
              simp [be_two_unbe]
            · simp only [RawWF, maxValue, he, List.length_take]
              have := a.isLt
              have := b.isLt
              simp; omega
            · rw [rawWire_length]
              simp only [he, List.length_take]
              simp; omega
      obtain ⟨r, t, rfl, hwf, hfit⟩ := key
      rw [attrLoop_raw p pre t r hwf stop fuel _ rfl hfit] at h
      obtain ⟨x, hx, h⟩ := Res.bind_eq_ok.1 h
      obtain ⟨⟨l', e'⟩, h2, h⟩ := Res.bind_eq_ok.1 h
      simp only [Res.ok.injEq, Prod.mk.injEq] at h
      obtain ⟨rfl, rfl⟩ := h
      have := ih (pre ++ rawWire r) t l' (by simpa using hs) (by simpa using hfit) (by simpa using h2)
      obtain ⟨rfl, raws, t', rfl, h5, h6, h7⟩ := this
      refine ⟨rfl, r :: raws, t', by simp, ?_, ?_, ?_⟩
      · simp only [List.flatMap_cons, List.length_append] at h5 ⊢; omega
      · intro r' hr'
        rcases List.mem_cons.1 hr' with rfl | hr'
        · exact hwf
        · exact h6 r' hr'
      · unfold AttrsDec at h7 ⊢
        rw [List.map_cons, List.map_cons, hx, h7]

theorem update_decode (self : BgpUpdateMessage) (p : BgpSessionParams) (w u : Bytes) (raws : List RawAttr)
    (hw : w.length ≤ 65535) (ha : (raws.flatMap rawWire).length ≤ 65535) (hr : ∀ r ∈ raws, RawWF r) {wd up : BgpAddrs}
    {l : List BgpAttrItem} (h1 : NlriDec p w wd) (h2 : AttrsDec p raws l) (h3 : NlriDec p u up) :
    self.decodeFromIn .release p (updateBytes w (raws.flatMap rawWire) u) = .ok ⟨up, wd, self.attrs ++ l⟩ := by
  unfold BgpUpdateMessage.decodeFromIn updateBytes
  simp only [List.append_assoc]
  rw [sliceE_be_hit]
  simp only [Res.ok_bind, getn16_two]
  rw [BitVec.toNat_ofNat, Nat.mod_eq_of_lt (by omega), if_neg (by simp)]
  rw [sliceE_append_mid _ _ _ _ _ (by simp) (by simp), Res.ok_bind, decodeNlri_ok.2 h1, Res.ok_bind]
  rw [← List.append_assoc (be 2 w.length) w]
  rw [sliceE_append_mid (be 2 w.length ++ w) (be 2 (raws.flatMap rawWire).length) _ _ _ (by simp) (by simp), Res.ok_bind,
    getn16_two, Res.ok_bind]
  rw [BitVec.toNat_ofNat, Nat.mod_eq_of_lt (by omega), if_neg (by simp only [List.length_append, be_length]; omega)]
  rw [← List.append_assoc (be 2 w.length ++ w)]
  rw [attrLoop_raws p raws hr l h2 _ u _ _ _ (by simp; omega) rfl (by have := raws_length raws; omega)]
  simp only [Res.ok_bind]
  rw [sliceE_ok (by simp only [List.length_append, be_length]; omega) (by simp), List.take_length]
  rw [show (be 2 w.length ++ w ++ be 2 (raws.flatMap rawWire).length ++ (raws.flatMap rawWire ++ u)).drop
      (2 + w.length + 2 + (raws.flatMap rawWire).length) = u by
    rw [← List.append_assoc, List.drop_left' (by simp only [List.length_append, be_length])]]
  rw [Res.ok_bind, decodeNlri_ok.2 h3]
  rfl

theorem update_decode_inv {self : BgpUpdateMessage} {p : BgpSessionParams} {buf : Bytes} {m : BgpUpdateMessage}
    (h : self.decodeFromIn .release p buf = .ok m) :
    ∃ w raws u l, buf = updateBytes w (raws.flatMap rawWire) u ∧ w.length ≤ 65535 ∧
      (raws.flatMap rawWire).length ≤ 65535 ∧ (∀ r ∈ raws, RawWF r) ∧ NlriDec p w m.withdraws ∧ AttrsDec p raws l ∧
      NlriDec p u m.updates ∧ m.attrs = self.attrs ++ l := by
  unfold BgpUpdateMessage.decodeFromIn at h
  obtain ⟨s1, h1, h⟩ := Res.bind_eq_ok.1 h
  obtain ⟨wl, h2, h⟩ := Res.bind_eq_ok.1 h
  obtain ⟨-, hl1, -⟩ := sliceE_eq_ok.1 h1
  obtain ⟨v, hv, e⟩ := exists_be (l := buf) 2 hl1
  rw [e, sliceE_be_hit] at h1
  simp only [Res.ok.injEq] at h1
  subst h1
  rw [getn16_two] at h2
  simp only [Res.ok.injEq] at h2
  subst h2
  rw [BitVec.toNat_ofNat, Nat.mod_eq_of_lt (by omega)] at h
  generalize buf.drop 2 = rest at e
  subst e
  simp only at h
  split at h
  · cases h
  rename_i hlen
  simp only [List.length_append, be_length] at hlen
  obtain ⟨w, rest, rfl, hw, -⟩ := exists_split (buf := rest) v (by omega)
  subst hw
  rw [sliceE_append_mid _ _ _ _ _ (by simp) (by simp), Res.ok_bind] at h
  obtain ⟨wd, h3, h⟩ := Res.bind_eq_ok.1 h
  obtain ⟨s2, h4, h⟩ := Res.bind_eq_ok.1 h
  obtain ⟨al, h5, h⟩ := Res.bind_eq_ok.1 h
  obtain ⟨-, hl2, -⟩ := sliceE_eq_ok.1 h4
  simp only [List.length_append, be_length] at hl2 hlen
  obtain ⟨a, ha, e⟩ := exists_be (l := rest) 2 (by omega)
  generalize rest.drop 2 = rest' at e
  subst e
  rw [← List.append_assoc] at h4
  rw [sliceE_append_mid (be 2 w.length ++ w) (be 2 a) rest' _ _ (by simp) (by simp)] at h4
  simp only [Res.ok.injEq] at h4
  subst h4
  rw [getn16_two] at h5
  simp only [Res.ok.injEq] at h5
  subst h5
  rw [BitVec.toNat_ofNat, Nat.mod_eq_of_lt (by omega)] at h
  split at h
  · cases h
  rename_i hlen2
  simp only [List.length_append, be_length] at hlen2
  obtain ⟨⟨l, e⟩, h6, h⟩ := Res.bind_eq_ok.1 h
  simp only at h
  rw [← List.append_assoc, ← List.append_assoc] at h6 h
  have hpre : 2 + w.length + 2 = (be 2 w.length ++ w ++ be 2 a).length := by simp; omega
  rw [hpre] at h6
  obtain ⟨rfl, raws, t, rfl, h7, h8, h9⟩ := attrLoop_ok p _ _ _ _ l e (by simp; omega) (by simp) h6
  obtain rfl : a = (raws.flatMap rawWire).length := by
    simp only [List.length_append, be_length] at h7; omega
  obtain ⟨s3, h10, h⟩ := Res.bind_eq_ok.1 h
  obtain ⟨up, h11, h⟩ := Res.bind_eq_ok.1 h
  simp only [Res.ok.injEq] at h
  subst h
  obtain ⟨-, -, h12⟩ := sliceE_eq_ok.1 h10
  rw [List.take_length, ← List.append_assoc, List.drop_left' (by simp; omega)] at h12
  subst h12
  refine ⟨w, raws, s3, l, by simp [updateBytes], by omega, by omega, h8, decodeNlri_ok.1 h3, h9, decodeNlri_ok.1 h11, rfl⟩

theorem cut_attrLoop (p : BgpSessionParams) (pre t : Bytes) (h : CutHeader t) (stop fuel : Nat) (hs : pre.length < stop) :
    BgpUpdateMessage.attrLoopIn .release p (pre ++ t) stop (fuel + 1) pre.length = .panic := by
  rw [BgpUpdateMessage.attrLoopIn, if_pos hs]
  simp only
  obtain ⟨flags, rfl | ⟨code, rfl, hx⟩⟩ := h
  · rw [idx_append_right (by omega), idx_append_right (by omega)]
    simp only [Nat.sub_self, show pre.length + 1 - pre.length = 1 by omega, idx_cons_zero, idx_cons_succ, Res.ok_bind]
    rfl
  · have hx' := extended_iff flags
    rw [hx] at hx'
    simp only [Bool.false_eq_true, iff_false] at hx'
    rw [idx_append_right (by omega), idx_append_right (by omega), idx_append_right (by omega)]
    simp only [Nat.sub_self, show pre.length + 1 - pre.length = 1 by omega,
      show pre.length + 3 - 1 - pre.length = 2 by omega, idx_cons_zero, idx_cons_succ, Res.ok_bind, if_neg hx']
    rfl

theorem attrLoop_cases (p : BgpSessionParams) (pre rest : Bytes) (stop fuel : Nat) (hlt : pre.length < stop)
    (hs : stop ≤ (pre ++ rest).length) :
    CutHeader rest ∨ (BgpUpdateMessage.attrLoopIn .release p (pre ++ rest) stop (fuel + 1) pre.length).IsErr ∨
      ∃ r t, rest = rawWire r ++ t ∧ RawWF r ∧ pre.length + (rawWire r).length ≤ stop := by
  rw [List.length_append] at hs
  match rest with
  | [] => simp at hs; omega
  | [f] => exact .inl ⟨f, .inl rfl⟩
  | f :: c :: rest =>
    have hx := extended_iff f
    rw [BgpUpdateMessage.attrLoopIn, if_pos hlt]
    simp only
    rw [idx_append_right (by omega), idx_append_right (by omega)]
    simp only [Nat.sub_self, show pre.length + 1 - pre.length = 1 by omega, idx_cons_zero, idx_cons_succ, Res.ok_bind]
    cases he : extended f <;> rw [he] at hx
    · simp only [Bool.false_eq_true, iff_false] at hx
      match rest with
      | [] => exact .inl ⟨f, .inr ⟨c, rfl, he⟩⟩
      | b :: rest =>
        refine .inr ?_
        rw [if_neg hx, idx_append_right (by omega)]
        simp only [show pre.length + 3 - 1 - pre.length = 2 by omega, idx_cons_zero, idx_cons_succ, Res.ok_bind]
        split
        · exact .inl trivial
        · rename_i hfit
          simp only [List.length_cons] at hs
          refine .inr ⟨⟨c, f, rest.take b.toNat⟩, rest.drop b.toNat, ?_, ?_, ?_⟩
          · simp only [rawWire, attrHeader, he, List.length_take]
            rw [Nat.min_eq_left (by omega)]
            simp [be_one]
          · simp only [RawWF, maxValue, he, List.length_take]
            have := b.isLt
            simp; omega
          · rw [rawWire_length]
            simp only [he, List.length_take]
            simp; omega
    · simp only [iff_true] at hx
      refine .inr ?_
      rw [if_pos hx]
      by_cases hl : 2 ≤ rest.length
      · obtain ⟨a, b, rest, rfl⟩ := exists_cons2 (l := rest) hl
        rw [show pre ++ f :: c :: a :: b :: rest = (pre ++ [f, c]) ++ ([a, b] ++ rest) by simp,
          sliceE_append_mid _ _ _ _ _ (by simp) (by simp)]
        simp only [Res.ok_bind]
        rw [getn16_ok (by simp)]
        simp only [Res.ok_bind, List.take_succ_cons, List.take_zero, unbe_two]
        split
        · exact .inl trivial
        · rename_i hfit
          simp only [List.length_cons] at hs
          refine .inr ⟨⟨c, f, rest.take (a.toNat * 256 + b.toNat)⟩, rest.drop (a.toNat * 256 + b.toNat), ?_, ?_, ?_⟩
          · simp only [rawWire, attrHeader, he, List.length_take]
            rw [Nat.min_eq_left (by omega)]
            simp [be_two_unbe]
          · simp only [RawWF, maxValue, he, List.length_take]
            have := a.isLt
            have := b.isLt
            simp; omega
          · rw [rawWire_length]
            simp only [he, List.length_take]
            simp; omega
      · refine .inl ?_
        have : sliceE (pre ++ f :: c :: rest) (pre.length + 4 - 2) (pre.length + 4) = .err .insufficientBufferSize := by
          unfold sliceE
          rw [if_neg (by simp; omega)]
        rw [this]
        trivial

def LoopCrash (p : BgpSessionParams) (room : Nat) (rest : Bytes) : Prop :=
  ∃ raws l t, rest = raws.flatMap rawWire ++ t ∧ (∀ r ∈ raws, RawWF r) ∧ AttrsDec p raws l ∧
    (((raws.flatMap rawWire).length < room ∧ CutHeader t) ∨
      ∃ r t', t = rawWire r ++ t' ∧ RawWF r ∧ (raws.flatMap rawWire).length + (rawWire r).length ≤ room ∧
        ¬ (BgpAttrItem.decodeFromIn .release p r.code r.flags r.value.length r.value).Returns)

theorem attrLoop_crash (p : BgpSessionParams) (stop fuel : Nat) (pre rest : Bytes) (hs : stop ≤ (pre ++ rest).length)
    (hp : pre.length ≤ stop) (hf : stop ≤ pre.length + fuel)
    (h : ¬ (BgpUpdateMessage.attrLoopIn .release p (pre ++ rest) stop fuel pre.length).Returns) :
    LoopCrash p (stop - pre.length) rest := by
  induction fuel generalizing pre rest with
  | zero =>
    rw [BgpUpdateMessage.attrLoopIn, if_neg (by omega)] at h
    exact absurd trivial h
  | succ fuel ih =>
    by_cases hlt : pre.length < stop
    swap
    · rw [BgpUpdateMessage.attrLoopIn, if_neg hlt] at h
      exact absurd trivial h
    rcases attrLoop_cases p pre rest stop fuel hlt hs with hc | he | ⟨r, t, rfl, hwf, hfit⟩
    · exact ⟨[], [], rest, by simp, by simp, rfl, .inl ⟨by simp; omega, hc⟩⟩
    · exact absurd (isErr_returns he) h
    · rw [attrLoop_raw p pre t r hwf stop fuel _ rfl hfit] at h
      rcases not_returns_bind h with h | ⟨x, hx, h⟩
      · exact ⟨[], [], _, by simp, by simp, rfl, .inr ⟨r, t, rfl, hwf, by simp; omega, h⟩⟩
      · rcases not_returns_bind h with h | ⟨_, _, h⟩
        · have hl := rawWire_length r
          rw [← List.append_assoc, ← List.length_append] at h
          obtain ⟨raws, l, t', rfl, h1, h2, h3⟩ := ih (pre ++ rawWire r) t (by simpa using hs) (by simpa using hfit)
            (by rw [List.length_append]; split at hl <;> omega) h
          refine ⟨r :: raws, x :: l, t', by simp, ?_, ?_, ?_⟩
          · intro r' hr'
            rcases List.mem_cons.1 hr' with rfl | hr'
            · exact hwf
            · exact h1 r' hr'
          · unfold AttrsDec at h2 ⊢
            rw [List.map_cons, List.map_cons, hx, h2]
          · simp only [List.length_append, List.flatMap_cons] at h3 ⊢
            rcases h3 with ⟨h3, hc⟩ | ⟨r', t'', e, h4, h5, h6⟩
            · exact .inl ⟨by omega, hc⟩
            · exact .inr ⟨r', t'', e, h4, by omega, h6⟩
        · exact absurd trivial h

theorem crash_attrLoop (p : BgpSessionParams) (stop fuel : Nat) (pre rest : Bytes)
    (hf : stop ≤ pre.length + fuel) (h : LoopCrash p (stop - pre.length) rest) :
    ¬ (BgpUpdateMessage.attrLoopIn .release p (pre ++ rest) stop fuel pre.length).Returns := by
  obtain ⟨raws, l, t, rfl, h1, h2, h3⟩ := h
  induction raws generalizing pre fuel l with
  | nil =>
    simp only [List.flatMap_nil, List.nil_append, List.length_nil, Nat.zero_add] at h3 ⊢
    rcases h3 with ⟨h3, hc⟩ | ⟨r', t'', rfl, h4, h5, h6⟩
    · obtain ⟨fuel, rfl⟩ : ∃ k, fuel = k + 1 := ⟨fuel - 1, by omega⟩
      rw [cut_attrLoop p pre t hc stop fuel (by omega)]
      exact id
    · have hl := rawWire_length r'
      obtain ⟨fuel, rfl⟩ : ∃ k, fuel = k + 1 := ⟨fuel - 1, by split at hl <;> omega⟩
      rw [attrLoop_raw p pre t'' r' h4 stop fuel _ rfl (by split at hl <;> omega)]
      exact not_returns_left h6
  | cons r raws ih =>
    have hl := rawWire_length r
    unfold AttrsDec at h2
    cases l with
    | nil => simp at h2
    | cons x l =>
      simp only [List.map_cons, List.cons.injEq] at h2
      simp only [List.flatMap_cons, List.length_append] at h3
      have hfit : pre.length + (rawWire r).length ≤ stop := by
        rcases h3 with ⟨h3, hc⟩ | ⟨r', t'', e, h4, h5, h6⟩
        · omega
        · split at hl <;> omega
      obtain ⟨fuel, rfl⟩ : ∃ k, fuel = k + 1 := ⟨fuel - 1, by split at hl <;> omega⟩
      simp only [List.flatMap_cons, List.append_assoc]
      rw [attrLoop_raw p pre _ r (h1 r (by simp)) stop fuel _ rfl hfit, h2.1]
      simp only [Res.ok_bind]
      apply not_returns_left
      rw [← List.append_assoc, ← List.length_append]
      refine ih fuel (pre ++ rawWire r) (by rw [List.length_append]; split at hl <;> omega) l
        (fun r' hr' => h1 r' (by simp [hr'])) h2.2 ?_
      rw [List.length_append]
      rcases h3 with ⟨h3, hc⟩ | ⟨r', t'', e, h4, h5, h6⟩
      · exact .inl ⟨by omega, hc⟩
      · exact .inr ⟨r', t'', e, h4, by omega, h6⟩

theorem decodeNlri_returns (p : BgpSessionParams) (b : Bytes) : (BgpUpdateMessage.decodeNlriIn .release p b).Returns ↔
    (BgpAddrs.decodeFromIn .release p (familyCode (sessionFamily p)).1 (familyCode (sessionFamily p)).2 b).Returns := by
  rw [decodeNlri_eq]
  cases BgpAddrs.decodeFromIn .release p (familyCode (sessionFamily p)).1 (familyCode (sessionFamily p)).2 b <;> exact Iff.rfl

theorem update_head (self : BgpUpdateMessage) (p : BgpSessionParams) (w rest : Bytes) (hw : w.length ≤ 65535)
    (hr : rest ≠ []) :
    self.decodeFromIn .release p (be 2 w.length ++ w ++ rest) = (do
      let wd ← BgpUpdateMessage.decodeNlriIn .release p w
      let n ← (do getn16 (← sliceE (be 2 w.length ++ w ++ rest) (2 + w.length) (2 + w.length + 2)) : Res U16)
      if 2 + w.length + 2 + n.toNat > (be 2 w.length ++ w ++ rest).length then .err .protocolError
      else
        let (attrs, curpos) ← BgpUpdateMessage.attrLoopIn .release p (be 2 w.length ++ w ++ rest) (2 + w.length + 2 + n.toNat)
          (2 + w.length + 2 + n.toNat) (2 + w.length + 2)
        let up ← BgpUpdateMessage.decodeNlriIn .release p
          (← sliceE (be 2 w.length ++ w ++ rest) curpos (be 2 w.length ++ w ++ rest).length)
        .ok ⟨up, wd, self.attrs ++ attrs⟩) := by
  unfold BgpUpdateMessage.decodeFromIn
  have : 0 < rest.length := List.length_pos_iff.2 hr
  have e : sliceE (be 2 w.length ++ w ++ rest) 0 2 = .ok (be 2 w.length) := by
    rw [List.append_assoc, sliceE_be_hit]
  have e2 : sliceE (be 2 w.length ++ w ++ rest) 2 (2 + w.length) = .ok w := by
    rw [List.append_assoc, sliceE_append_mid _ _ _ _ _ (by simp) (by simp)]
  rw [e]
  simp only [Res.ok_bind, getn16_two]
  rw [BitVec.toNat_ofNat, Nat.mod_eq_of_lt (by omega), if_neg (by simp only [List.length_append, be_length]; omega), e2]
  simp only [Res.ok_bind, bind_assoc]

theorem update_crash_iff (self : BgpUpdateMessage) (p : BgpSessionParams) (buf : Bytes) :
    ¬ (self.decodeFromIn .release p buf).Returns ↔ UpdatePanics p buf := by
  constructor
  · intro h
    have hshape : ∃ w rest, buf = be 2 w.length ++ w ++ rest ∧ w.length ≤ 65535 ∧ rest ≠ [] := by
      unfold BgpUpdateMessage.decodeFromIn at h
      rcases not_returns_bind h with h | ⟨s, h1, h⟩
      · exact absurd (sliceE_returns _ _ _) h
      obtain ⟨-, hl1, -⟩ := sliceE_eq_ok.1 h1
      obtain ⟨v, hv, e⟩ := exists_be (l := buf) 2 hl1
      rw [e, sliceE_be_hit] at h1
      simp only [Res.ok.injEq] at h1
      subst h1
      rw [getn16_two] at h
      simp only [Res.ok_bind] at h
      rw [BitVec.toNat_ofNat, Nat.mod_eq_of_lt (by omega)] at h
      split at h
      · exact absurd trivial h
      rename_i hlen
      refine ⟨(buf.drop 2).take v, (buf.drop 2).drop v, ?_, ?_, ?_⟩
      · have : ((buf.drop 2).take v).length = v := by simp; omega
        rw [this, List.append_assoc, List.take_append_drop]
        exact e
      · simp; omega
      · intro hn
        have := congrArg List.length hn
        simp at this; omega
    obtain ⟨w, rest, rfl, hw, hr⟩ := hshape
    refine ⟨w, rest, rfl, hw, hr, ?_⟩
    rw [update_head self p w rest hw hr] at h
    rcases not_returns_bind h with h | ⟨wd, h1, h⟩
    · exact .inl (by rwa [decodeNlri_returns] at h)
    refine .inr ⟨wd, ?_⟩
    rcases not_returns_bind h with h | ⟨n, h2, h⟩
    · rcases not_returns_bind h with h | ⟨s, h2, h⟩
      · exact absurd (sliceE_returns _ _ _) h
      · obtain ⟨_, h3, h4⟩ := sliceE_eq_ok.1 h2
        exact absurd (getn16_returns.2 (by rw [h4]; simp at h3 ⊢; omega)) h
    obtain ⟨s, h2, h3⟩ := Res.bind_eq_ok.1 h2
    have hl2 := (sliceE_eq_ok.1 h2).2.1
    simp only [List.length_append, be_length] at hl2
    obtain ⟨v, hv, e⟩ := exists_be (l := rest) 2 (by omega)
    generalize rest.drop 2 = rest' at e
    subst e
    rw [sliceE_append_mid (be 2 w.length ++ w) (be 2 v) rest' _ _ (by simp) (by simp)] at h2
    simp only [Res.ok.injEq] at h2
    subst h2
    rw [getn16_two] at h3
    simp only [Res.ok.injEq] at h3
    subst h3
    rw [BitVec.toNat_ofNat, Nat.mod_eq_of_lt (by omega)] at h
    split at h
    · exact absurd trivial h
    rename_i hlen
    simp only [List.length_append, be_length] at hlen
    refine ⟨v, rest', decodeNlri_ok.1 h1, rfl, by omega, by omega, ?_⟩
    have hpre : 2 + w.length + 2 = (be 2 w.length ++ w ++ be 2 v).length := by simp; omega
    rw [← List.append_assoc, hpre] at h
    rcases not_returns_bind h with h | ⟨⟨l, e⟩, h4, h⟩
    · have := attrLoop_crash p _ _ _ _ (by rw [← hpre]; simp; omega) (by simp) (by omega) h
      rw [Nat.add_sub_cancel_left] at this
      obtain ⟨raws, l, t, e, h5, h6, h7⟩ := this
      exact ⟨raws, l, t, e, h5, h6, .inr h7⟩
    · obtain ⟨rfl, raws, t, rfl, h5, h6, h7⟩ := attrLoop_ok p _ _ _ _ l e (by rw [← hpre]; simp; omega) (by simp) h4
      refine ⟨raws, l, t, rfl, h6, h7, .inl ⟨by omega, ?_⟩⟩
      simp only at h
      rw [sliceE_ok (by rw [← hpre]; simp; omega) (by simp), List.take_length] at h
      rw [show (be 2 w.length ++ w ++ be 2 v ++ (raws.flatMap rawWire ++ t)).drop
          ((be 2 w.length ++ w ++ be 2 v).length + v) = t by
        rw [← List.append_assoc, List.drop_left' (by simp only [List.length_append]; omega)]] at h
      rw [Res.ok_bind] at h
      rcases not_returns_bind h with h | ⟨_, _, h⟩
      · rwa [decodeNlri_returns] at h
      · exact absurd trivial h
  · rintro ⟨w, rest, rfl, hw, hr, h⟩
    rw [update_head self p w rest hw hr]
    rcases h with h | ⟨wd, n, rest', h1, rfl, hn, hn2, raws, l, t, rfl, h2, h3, h⟩
    · exact not_returns_left (by rwa [decodeNlri_returns])
    rw [decodeNlri_ok.2 h1]
    simp only [Res.ok_bind]
    rw [sliceE_append_mid (be 2 w.length ++ w) (be 2 n) _ _ _ (by simp) (by simp)]
    simp only [Res.ok_bind, getn16_two]
    rw [BitVec.toNat_ofNat, Nat.mod_eq_of_lt (by omega),
      if_neg (by simp only [List.length_append, be_length] at hn2 ⊢; omega)]
    have hpre : 2 + w.length + 2 = (be 2 w.length ++ w ++ be 2 n).length := by simp; omega
    rw [← List.append_assoc, hpre]
    rcases h with ⟨rfl, h⟩ | h
    · rw [attrLoop_raws p raws h2 l h3 _ t _ _ _ rfl rfl (by have := raws_length raws; omega)]
      simp only [Res.ok_bind]
      rw [sliceE_ok (by rw [← hpre]; simp; omega) (by simp), List.take_length]
      rw [show (be 2 w.length ++ w ++ be 2 (raws.flatMap rawWire).length ++ (raws.flatMap rawWire ++ t)).drop
          ((be 2 w.length ++ w ++ be 2 (raws.flatMap rawWire).length).length + (raws.flatMap rawWire).length) = t by
        rw [← List.append_assoc, List.drop_left' (by simp only [List.length_append])]]
      rw [Res.ok_bind]
      exact not_returns_left (by rwa [decodeNlri_returns])
    · refine not_returns_left (crash_attrLoop p _ _ _ _ (by omega) ?_)
      rw [Nat.add_sub_cancel_left]
      exact ⟨raws, l, t, rfl, h2, h3, h⟩

theorem nlriDec_iff (p : BgpSessionParams) (b : Bytes) (x : BgpAddrs) : NlriDec p b x ↔ WrapNlriIs p b x :=
  exists_congr fun n => (w_addrs_exactly p (sessionFamily p) b).ok (x, n)

theorem update_read_iff (self : BgpUpdateMessage) (p : BgpSessionParams) (buf : Bytes) (m : BgpUpdateMessage) :
    self.decodeFromIn .release p buf = .ok m ↔ ∃ l, WrapUpdateRead p buf m.withdraws l m.updates ∧ m.attrs = self.attrs ++ l := by
  constructor
  · intro h
    obtain ⟨w, raws, u, l, e, hw, ha, hr, h1, h2, h3, h4⟩ := update_decode_inv h
    exact ⟨l, ⟨w, _, u, e, hw, ha, (nlriDec_iff p w _).1 h1, (attrs_read_iff p _ l).1 ⟨raws, rfl, hr, h2⟩,
      (nlriDec_iff p u _).1 h3⟩, h4⟩
  · rintro ⟨l, ⟨w, a, u, rfl, hw, ha, h1, h2, h3⟩, h4⟩
    obtain ⟨raws, rfl, hr, h2⟩ := (attrs_read_iff p a l).2 h2
    rw [update_decode self p w u raws hw ha hr ((nlriDec_iff p w _).2 h1) h2 ((nlriDec_iff p u _).2 h3)]
    obtain ⟨_, _, _⟩ := m
    simp only at h4
    rw [h4]

theorem updatePanics_iff (p : BgpSessionParams) (buf : Bytes) : UpdatePanics p buf ↔ WrapUpdateCrash p buf := by
  have hc := fun b => (w_addrs_exactly p (sessionFamily p) b).not_returns
  constructor
  · rintro ⟨w, rest, e, hw, hr, h | ⟨wd, n, rest', h1, h2, h3, h4, raws, l, t, h5, h6, h7, h8⟩⟩
    · exact ⟨w, rest, e, hw, hr, .inl ((hc w).1 h)⟩
    · refine ⟨w, rest, e, hw, hr, .inr ⟨wd, n, rest', (nlriDec_iff p w wd).1 h1, h2, h3, h4, _, l, t, h5,
        (attrs_read_iff p _ l).1 ⟨raws, rfl, h6, h7⟩, ?_⟩⟩
      rcases h8 with ⟨h, h'⟩ | h | ⟨r, t', h, h', h'', h'''⟩
      · exact .inl ⟨h, (hc t).1 h'⟩
      · exact .inr (.inl h)
      · exact .inr (.inr ⟨r, t', h, h', h'', (value_exactly p r.code r.flags r.value).not_returns.1 h'''⟩)
  · rintro ⟨w, rest, e, hw, hr, h | ⟨wd, n, rest', h1, h2, h3, h4, a, l, t, h5, h6, h8⟩⟩
    · exact ⟨w, rest, e, hw, hr, .inl ((hc w).2 h)⟩
    · obtain ⟨raws, rfl, h6, h7⟩ := (attrs_read_iff p a l).2 h6
      refine ⟨w, rest, e, hw, hr, .inr ⟨wd, n, rest', (nlriDec_iff p w wd).2 h1, h2, h3, h4, raws, l, t, h5, h6, h7, ?_⟩⟩
      rcases h8 with ⟨h, h'⟩ | h | ⟨r, t', h, h', h'', h'''⟩
      · exact .inl ⟨h, (hc t).2 h'⟩
      · exact .inr (.inl h)
      · exact .inr (.inr ⟨r, t', h, h', h'', (value_exactly p r.code r.flags r.value).not_returns.2 h'''⟩)

theorem update_exactly (self : BgpUpdateMessage) (p : BgpSessionParams) (buf : Bytes) :
    Exactly (self.decodeFromIn .release p buf)
      (fun m => ∃ l, WrapUpdateRead p buf m.withdraws l m.updates ∧ m.attrs = self.attrs ++ l) (WrapUpdateCrash p buf) where
  ok m := update_read_iff self p buf m
  crash := by
    rw [← updatePanics_iff, ← update_crash_iff self p buf]
    have := nhr_update self p buf
    cases hr : self.decodeFromIn .release p buf
    · simp [Res.Returns]
    · simp [Res.Returns]
    · simp [Res.Returns]
    · exact absurd hr this
  noHang := nhr_update self p buf



end Zbgp.Rel
