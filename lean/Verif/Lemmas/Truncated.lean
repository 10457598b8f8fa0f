import Verif.Spec.Truncated
import Verif.Lemmas.ReadsAll
import Verif.Lemmas.Local
import Verif.Lemmas.UpdateReads
import Verif.Lemmas.OpenReads

/-!
# What is read of a message that was cut off
-/

namespace Zbgp

open Spec

variable {α : Type}

/-- an item, and what follows it -/
def ItemGoesOn (R : Bytes → α → Nat → Prop) : Prop :=
  (∀ b x n y m, R b x n → R b y m → x = y ∧ n = m) ∧ ∀ b x n t, R b x n → R (b ++ t) x n

theorem itemsRead_begins {R : Bytes → α → Nat → Prop} (hR : ItemGoesOn R) {lim : Nat} {b : Bytes} {xs : List α} {n : Nat}
    (h : ItemsRead lim R b xs n) (t : Bytes) {ys : List α} {m : Nat} (h' : ItemsRead lim R (b ++ t) ys m) : xs <+: ys := by
  induction h generalizing ys m with
  | done b hb => exact List.nil_prefix
  | item b x n xs m' hb hx hr ih =>
    cases h' with
    | done _ hb' => simp at hb'; omega
    | item _ y k ys' m'' hb' hy hr' =>
      obtain ⟨rfl, rfl⟩ := hR.1 _ _ _ _ _ (hR.2 _ _ _ t hx) hy
      rw [List.cons_prefix_cons]
      refine ⟨rfl, ?_⟩
      by_cases hn : n ≤ b.length
      · rw [List.drop_append_of_le_length hn] at hr'
        exact ih hr'
      · rw [List.drop_eq_nil_of_le (by omega)] at hr
        cases hr with
        | done => exact List.nil_prefix
        | item _ _ _ _ _ h0 => simp at h0

theorem goesOn_of {R : Bytes → α → Nat → Prop} {dec : Bytes → Res (α × Nat)} {C : Bytes → Prop}
    (he : ∀ b, Exactly (dec b) (fun y => R b y.1 y.2) (C b)) (hs : ∀ b x n t, R b x n → R (b ++ t) x n) : ItemGoesOn R :=
  ⟨fun b x n y m h h' => by
    have := (he b).unique (a := (x, n)) (b := (y, m)) h h'
    simpa using this, hs⟩

theorem goesOn_local {R : Bytes → α → Nat → Prop} {dec : Bytes → Res (α × Nat)} {C : Bytes → Prop}
    (he : ∀ b, Exactly (dec b) (fun y => R b y.1 y.2) (C b)) (hl : Local dec) : ItemGoesOn R :=
  goesOn_of he fun b x n t h => by
    have h1 := ((he b).ok (x, n)).2 h
    obtain ⟨h2, h3⟩ := hl b x n h1
    have := h3 (b.drop n ++ t)
    rw [← List.append_assoc, List.take_append_drop] at this
    exact ((he _).ok (x, n)).1 this

theorem goesOn_nlri {T : Type} [BgpItem T] [PrefixReads T] [PrefixExact T] [ItemLocal T] : ItemGoesOn (NlriRead (T := T)) :=
  goesOn_local nlri_exactly decodeItem_local

theorem goesOn_pathId {T : Type} [BgpItem T] [PrefixReads T] [PrefixExact T] [ItemLocal T] : ItemGoesOn (PathIdRead (T := T)) := by
  have h := goesOn_nlri (T := T)
  refine ⟨?_, ?_⟩
  · rintro b x n y m ⟨t, k, hb, hr, rfl⟩ ⟨t', k', hb', hr', rfl⟩
    rw [hb] at hb'
    obtain ⟨h1, rfl⟩ := List.append_inj hb' (by simp)
    obtain ⟨h2, rfl⟩ := h.1 _ _ _ _ _ hr hr'
    obtain ⟨px, nx⟩ := x
    obtain ⟨py, ny⟩ := y
    dsimp only at *
    subst h2
    refine ⟨?_, rfl⟩
    have h3 : px = py := BitVec.eq_of_toNat_eq (be_inj (n := 4) px.isLt py.isLt h1)
    rw [h3]
  · rintro b x n t ⟨t', k, rfl, hr, rfl⟩
    exact ⟨t' ++ t, k, by simp, h.2 _ _ _ t hr, rfl⟩

theorem goesOn_vpls : ItemGoesOn VplsRead := goesOn_of vpls_exactly fun b x n t => by
  rintro ⟨body, lab, t', k, rfl, h⟩
  exact ⟨body, lab, t' ++ t, k, by simp, h⟩

theorem goesOn_evpn : ItemGoesOn EvpnItemRead := goesOn_of (evpn_exactly .IPv4) fun b x n t => by
  rintro ⟨l, body, t', k, rfl, h⟩
  exact ⟨l, body, t' ++ t, k, by simp, h⟩

theorem goesOn_mvpn (mode : BgpTransportMode) : ItemGoesOn (MvpnItemRead mode) := goesOn_of (mvpn_exactly mode) fun b x n t => by
  rintro ⟨l, body, t', k, rfl, h⟩
  exact ⟨l, body, t' ++ t, k, by simp, h⟩

theorem goesOn_fs {T : Type} [FSItem T] [FsPrefixReads T] [FsPrefixExact T] : ItemGoesOn (FsItemRead (T := T)) :=
  goesOn_of (fs_exactly .IPv4) fun b x n t => by
    rintro ⟨pre, l, code, body, t', k, h1, rfl, h⟩
    exact ⟨pre, l, code, body, t' ++ t, k, h1, by simp, h⟩

theorem expected_append {p : BgpSessionParams} {b : Bytes} (hf : p.fuzzyPathid = false ∨ 5 ≤ b.length) (fam : U16 × U8) (t : Bytes) :
    AddPathExpected p fam (b ++ t) = AddPathExpected p fam b := by
  unfold AddPathExpected
  rcases hf with hf | hf
  · simp [hf]
  · have : LooksAddPath (b ++ t) = LooksAddPath b := by
      unfold LooksAddPath
      rw [List.take_append_of_le_length (by omega)]
      simp only [List.length_append]
      congr 1
      simp only [eq_iff_iff, and_congr_left_iff]
      omega
    rw [this]

theorem addrsRead_begins_iff {p : BgpSessionParams} {b t : Bytes} {f : Family} {x y : BgpAddrs} {n m : Nat}
    (h : AddrsRead p f b x n) (h' : AddrsRead p f (b ++ t) y m) :
    Begins x y ↔ hasAddPath f = false ∨ AddPathExpected p (familyCode f) (b ++ t) = AddPathExpected p (familyCode f) b := by
  cases h <;> cases h' <;> simp only [Begins] <;>
    first
    | (refine iff_of_true (itemsRead_begins goesOn_nlri (by assumption) t (by assumption)) (Or.inr ?_); simp_all [familyCode]; done)
    | (refine iff_of_true (itemsRead_begins goesOn_pathId (by assumption) t (by assumption)) (Or.inr ?_); simp_all [familyCode]; done)
    | exact iff_of_true (itemsRead_begins goesOn_vpls (by assumption) t (by assumption)) (Or.inl rfl)
    | exact iff_of_true (itemsRead_begins goesOn_evpn (by assumption) t (by assumption)) (Or.inl rfl)
    | exact iff_of_true (itemsRead_begins (goesOn_mvpn _) (by assumption) t (by assumption)) (Or.inl rfl)
    | exact iff_of_true (itemsRead_begins goesOn_fs (by assumption) t (by assumption)) (Or.inl rfl)
    | simp_all [hasAddPath, familyCode]

theorem addrsRead_begins {p : BgpSessionParams} {b : Bytes} (hf : p.fuzzyPathid = false ∨ 5 ≤ b.length) (t : Bytes) {f : Family}
    {x y : BgpAddrs} {n m : Nat} (h : AddrsRead p f b x n) (h' : AddrsRead p f (b ++ t) y m) : Begins x y :=
  (addrsRead_begins_iff h h').2 (.inr (expected_append hf _ t))

/-! ## Messages -/

theorem updateRead_begins {p : BgpSessionParams} {b t : Bytes} {w w' u u' : BgpAddrs} {a a' : List BgpAttrItem}
    (hf : p.fuzzyPathid = false ∨ ∀ wb ab ub, b = updateBytes wb ab ub → wb.length ≤ 65535 → ab.length ≤ 65535 → 5 ≤ ub.length)
    (h : UpdateRead p b w a u) (h' : UpdateRead p (b ++ t) w' a' u') : w = w' ∧ a = a' ∧ Begins u u' := by
  obtain ⟨wb, ab, ub, rfl, hw, ha, h1, h2, n, h3⟩ := h
  obtain ⟨wb', ab', ub', e, hw', ha', h1', h2', n', h3'⟩ := h'
  have e : updateBytes wb ab (ub ++ t) = updateBytes wb' ab' ub' := by rw [← e]; simp [updateBytes]
  obtain ⟨rfl, rfl, rfl⟩ := updateBytes_inj hw ha hw' ha' e
  exact ⟨nlriIs_inj h1 h1', attrsRead_inj h2 h2', addrsRead_begins (hf.imp_right fun h => h _ _ _ rfl hw ha) t h3 h3'⟩

theorem paramsRead_unique {b : Bytes} {l l' : List BgpCapability} (h : ParamsRead b l) (h' : ParamsRead b l') : l = l' := by
  have e1 := (open_iff ⟨0, 0, 0, []⟩ _ ⟨0, 0, 0, l⟩).2 ⟨0, 0, b, rfl, rfl, h⟩
  have e2 := (open_iff ⟨0, 0, 0, []⟩ _ ⟨0, 0, 0, l'⟩).2 ⟨0, 0, b, rfl, rfl, h'⟩
  have := e1.symm.trans e2
  simpa using this

theorem capsRead_unique {b : Bytes} (hb : b.length ≤ 255) {l l' : List BgpCapability} (h : CapsRead b l) (h' : CapsRead b l') : l = l' := by
  have := paramsRead_unique (.param b [] l [] hb h (.done [] (by simp))) (.param b [] l' [] hb h' (.done [] (by simp)))
  simpa using this

theorem paramsRead_begins {b : Bytes} {l : List BgpCapability} (h : ParamsRead b l) (t : Bytes) {l' : List BgpCapability}
    (h' : ParamsRead (b ++ t) l') : l <+: l' := by
  induction h generalizing l' with
  | done => exact List.nil_prefix
  | param body rest l1 l2 hl hc hr ih =>
    generalize e : capParam body ++ rest ++ t = bb at h'
    cases h' with
    | done _ h0 => subst e; simp [capParam, tlv] at h0
    | param body' rest' l1' l2' hl' hc' hr' =>
      simp only [capParam, tlv, List.append_assoc] at e
      have e := (List.append_inj e (by simp)).2
      obtain ⟨e1, e⟩ := List.append_inj e (by simp)
      have := be_inj (n := 1) (by omega) (by omega) e1
      obtain ⟨rfl, rfl⟩ := List.append_inj e this
      rw [capsRead_unique hl hc hc', List.prefix_append_right_inj]
      exact ih hr'

theorem openRead_begins {b t : Bytes} {m m' : BgpOpenMessage} (h : OpenRead b m) (h' : OpenRead (b ++ t) m') :
    m.asNum = m'.asNum ∧ m.holdTime = m'.holdTime ∧ m.routerId = m'.routerId ∧ m.caps <+: m'.caps := by
  obtain ⟨as, len, params, rfl, ha, hp⟩ := h
  obtain ⟨as', len', params', e, ha', hp'⟩ := h'
  simp only [List.append_assoc, List.cons_append] at e
  have e := (List.append_inj e (by simp)).2
  obtain ⟨e1, e⟩ := List.append_inj e (by simp)
  obtain ⟨e2, e⟩ := List.append_inj e (by simp)
  obtain ⟨e3, e⟩ := List.append_inj e (by simp)
  simp only [List.cons.injEq] at e
  obtain ⟨rfl, rfl⟩ := e
  have f1 := be_inj (n := 2) as.isLt as'.isLt e1
  have f2 := be_inj (n := 2) m.holdTime.isLt m'.holdTime.isLt e2
  have f3 := be_inj (n := 4) m.routerId.isLt m'.routerId.isLt e3
  exact ⟨BitVec.eq_of_toNat_eq (by omega), BitVec.eq_of_toNat_eq f2, BitVec.eq_of_toNat_eq f3, paramsRead_begins hp t hp'⟩

end Zbgp
