import Verif.Lemmas.Mdt
import Verif.Lemmas.NoHang
import Verif.Spec.Reads

/-! # What is read and what crashes: combinators, lists, labels and prefixes -/

namespace Zbgp

open Spec

/-! ## Combinators -/

namespace Spec.Exactly

variable {α β : Type}

theorem of_cases {r : Res α} {R : α → Prop} {C : Prop} (h1 : ∀ x, R x → r = .ok x) (h2 : C → r = .panic)
    (h3 : (∃ x, R x) ∨ C ∨ r.IsErr) : Exactly r R C := by
  rcases h3 with ⟨x, hx⟩ | hc | he
  · have e := h1 x hx
    refine ⟨fun y => ⟨fun h => ?_, h1 y⟩, ⟨fun h => ?_, h2⟩, ?_⟩
    · rw [e] at h; cases h; exact hx
    · rw [e] at h; cases h
    · rw [e]; intro h; cases h
  · have e := h2 hc
    refine ⟨fun y => ⟨fun h => ?_, h1 y⟩, ⟨fun _ => hc, h2⟩, ?_⟩
    · rw [e] at h; cases h
    · rw [e]; intro h; cases h
  · refine ⟨fun y => ⟨fun h => ?_, h1 y⟩, ⟨fun h => ?_, h2⟩, ?_⟩
    · rw [h] at he; exact he.elim
    · rw [h] at he; exact he.elim
    · intro h; rw [h] at he; exact he.elim

theorem cases {r : Res α} {R : α → Prop} {C : Prop} (h : Exactly r R C) : (∃ x, R x) ∨ C ∨ r.IsErr := by
  cases hr : r with
  | ok x => exact .inl ⟨x, (h.ok x).1 hr⟩
  | err e => exact .inr (.inr trivial)
  | panic => exact .inr (.inl (h.crash.1 hr))
  | hang => exact absurd hr h.noHang

theorem congr {r : Res α} {R R' : α → Prop} {C C' : Prop} (h : Exactly r R C) (h1 : ∀ x, R x ↔ R' x) (h2 : C ↔ C') :
    Exactly r R' C' := ⟨fun x => (h.ok x).trans (h1 x), h.crash.trans h2, h.noHang⟩

theorem bind {r : Res α} {R : α → Prop} {C : Prop} {f : α → Res β} {R' : α → β → Prop} {C' : α → Prop}
    (h : Exactly r R C) (hf : ∀ a, R a → Exactly (f a) (R' a) (C' a)) :
    Exactly (r >>= f) (fun b => ∃ a, R a ∧ R' a b) (C ∨ ∃ a, R a ∧ C' a) := by
  rcases h.cases with ⟨a, ha⟩ | hc | he
  · have e := (h.ok a).2 ha
    have hu : ∀ b, R b → b = a := fun b hb => by
      have := (h.ok b).2 hb; rw [e] at this; cases this; rfl
    have hnc : ¬ C := fun hc => by have := h.crash.2 hc; rw [e] at this; cases this
    rw [e, Res.ok_bind]
    refine (hf a ha).congr (fun b => ⟨fun hb => ⟨a, ha, hb⟩, ?_⟩) ⟨fun hb => .inr ⟨a, ha, hb⟩, ?_⟩
    · rintro ⟨a', h1, h2⟩; rw [hu a' h1] at h2; exact h2
    · rintro (hc | ⟨a', h1, h2⟩)
      · exact absurd hc hnc
      · rw [hu a' h1] at h2; exact h2
  · have e := h.crash.2 hc
    rw [e, Res.panic_bind]
    have hn : ∀ a, ¬ R a := fun a ha => by have := (h.ok a).2 ha; rw [e] at this; cases this
    exact of_cases (fun b ⟨a, ha, _⟩ => absurd ha (hn a)) (fun _ => rfl) (.inr (.inl (.inl hc)))
  · have hn : ∀ a, ¬ R a := fun a ha => by have := (h.ok a).2 ha; rw [this] at he; exact he
    have hnc : ¬ C := fun hc => by have := h.crash.2 hc; rw [this] at he; exact he
    have he2 : (r >>= f).IsErr := by cases r <;> first | exact he.elim | trivial
    exact of_cases (fun b ⟨a, ha, _⟩ => absurd ha (hn a))
      (fun h => h.elim (absurd · hnc) fun ⟨a, ha, _⟩ => absurd ha (hn a)) (.inr (.inr he2))

theorem map {r : Res α} {R : α → Prop} {C : Prop} (h : Exactly r R C) (f : α → β) :
    Exactly (r >>= fun a => .ok (f a)) (fun b => ∃ a, R a ∧ b = f a) C :=
  (h.bind (R' := fun a b => b = f a) (C' := fun _ => False) fun a _ =>
    of_cases (fun x hx => by rw [hx]) False.elim (.inl ⟨_, rfl⟩)).congr (fun _ => Iff.rfl) (by simp)

theorem unique {r : Res α} {R : α → Prop} {C : Prop} (h : Exactly r R C) {a b : α} (ha : R a) (hb : R b) : a = b := by
  have h1 := (h.ok a).2 ha
  rw [(h.ok b).2 hb] at h1
  cases h1; rfl

theorem err_iff {r : Res α} {R : α → Prop} {C : Prop} (h : Exactly r R C) : r.IsErr ↔ (∀ x, ¬ R x) ∧ ¬ C := by
  refine ⟨fun he => ⟨fun x hx => ?_, fun hc => ?_⟩, fun ⟨h1, h2⟩ => ?_⟩
  · rw [(h.ok x).2 hx] at he; exact he
  · rw [h.crash.2 hc] at he; exact he
  · rcases h.cases with ⟨x, hx⟩ | hc | he
    · exact absurd hx (h1 x)
    · exact absurd hc h2
    · exact he

end Spec.Exactly

/-! ## Lists -/

section lists
variable {α : Type}

theorem items_exactly {lim : Nat} {dec : Bytes → Res (α × Nat)} {R : Bytes → α → Nat → Prop} {C : Bytes → Prop}
    (hp : Progress dec) (h : ∀ b, lim < b.length → Exactly (dec b) (fun y => R b y.1 y.2) (C b)) (b : Bytes) :
    Exactly (decList lim dec b) (fun y => ItemsRead lim R b y.1 y.2) (ItemsCrash lim R C b) := by
  induction hb : b.length using Nat.strongRecOn generalizing b with
  | ind k ih =>
    by_cases hl : lim < b.length
    · have hs := (h b hl).bind (f := fun y => decList lim dec (b.drop y.2) >>= fun z => .ok (y.1 :: z.1, y.2 + z.2))
        (R' := fun y z => ∃ w : List α × Nat, ItemsRead lim R (b.drop y.2) w.1 w.2 ∧ z = (y.1 :: w.1, y.2 + w.2))
        (C' := fun y => ItemsCrash lim R C (b.drop y.2)) (by
          rintro ⟨x, n⟩ hx
          have h0 := hp b x n (((h b hl).ok (x, n)).2 hx)
          exact (ih _ (by simp only [List.length_drop]; omega) (b.drop n) rfl).map _)
      rw [decList_step hp hl]
      refine hs.congr ?_ ?_
      · rintro ⟨xs, m⟩
        constructor
        · rintro ⟨⟨x, n⟩, hx, ⟨w, m'⟩, hw, he⟩
          simp only [Prod.mk.injEq] at he
          obtain ⟨rfl, rfl⟩ := he
          exact .item b x n w m' hl hx hw
        · intro hr
          cases hr with
          | done _ h => omega
          | item _ x n xs m h hx hr => exact ⟨(x, n), hx, (xs, m), hr, rfl⟩
      · constructor
        · rintro (hc | ⟨⟨x, n⟩, hx, hr⟩)
          · exact .here b hl hc
          · exact .later b x n hl hx hr
        · intro hr
          cases hr with
          | here _ h hc => exact .inl hc
          | later _ x n h hx hr => exact .inr ⟨(x, n), hx, hr⟩
    · rw [decList_stop (by omega)]
      refine .of_cases ?_ ?_ (.inl ⟨([], 0), .done b (by omega)⟩)
      · rintro ⟨xs, m⟩ hr
        cases hr with
        | done h => rfl
        | item x n xs m h hx hr => omega
      · intro hr
        cases hr with
        | here h hc => omega
        | later x n h hx hr => omega

/-- items that lie within their octets take all of them -/
theorem itemsRead_all {R : Bytes → α → Nat → Prop} (hR : ∀ b x n, R b x n → n ≤ b.length) {b : Bytes} {xs : List α}
    {n : Nat} (h : ItemsRead 0 R b xs n) : n = b.length := by
  induction h with
  | done b h => omega
  | item b x n xs m h hx hr ih =>
    have := hR b x n hx
    simp only [List.length_drop] at ih
    omega

end lists

/-! ## Labels -/

theorem exists_be3 {b : Bytes} (h : 3 ≤ b.length) : ∃ v, v < 2 ^ 24 ∧ b = be 3 v ++ b.drop 3 := by
  obtain ⟨v, hv, e⟩ := exists_be 3 h
  exact ⟨v, by simpa using hv, e⟩

theorem extractLoop_be (f : Nat) (bits : U8) (v : Nat) (hv : v < 2 ^ 24) (b : Bytes) (hb : 24 ≤ bits.toNat) :
    MplsLabels.extractLoop (f + 1) bits (be 3 v ++ b) =
      if EndsStack v then .ok ([BitVec.ofNat 32 (v / 16)], 3)
      else (do
        let (ls, n) ← MplsLabels.extractLoop f (bits - 24) b
        .ok (BitVec.ofNat 32 (v / 16) :: ls, 3 + n)) := by
  rw [be3_eq]
  simp only [List.cons_append, List.nil_append, MplsLabels.extractLoop]
  rw [if_pos (by omega)]
  simp only [idx_cons_zero, idx_cons_succ, Res.ok_bind, labelVal_be v hv]
  rw [subC_ok (by change 24 ≤ _; exact hb), Res.ok_bind]
  have hl : (BitVec.ofNat 32 (v / 16) = 524288 ∨ BitVec.ofNat 32 (v / 16) = 0 ∨ BitVec.ofNat 32 (v / 16) = 2 ∨
      BitVec.ofNat 32 (v / 16) = 3) ↔ v / 16 ∈ stackEnding := by
    simp only [stackEnding, List.mem_cons, List.not_mem_nil, or_false]
    have key : ∀ k, k < 2 ^ 32 → (BitVec.ofNat 32 (v / 16) = BitVec.ofNat 32 k ↔ v / 16 = k) := by
      intro k hk
      constructor
      · intro h
        have := congrArg BitVec.toNat h
        simp only [BitVec.toNat_ofNat] at this
        omega
      · intro h; rw [h]
    have a := key 524288 (by decide)
    have b := key 0 (by decide)
    have c := key 2 (by decide)
    have d := key 3 (by decide)
    constructor
    · rintro (h | h | h | h)
      · exact .inr (.inr (.inr (a.1 h)))
      · exact .inl (b.1 h)
      · exact .inr (.inl (c.1 h))
      · exact .inr (.inr (.inl (d.1 h)))
    · rintro (h | h | h | h)
      · exact .inr (.inl (b.2 h))
      · exact .inr (.inr (.inl (c.2 h)))
      · exact .inr (.inr (.inr (d.2 h)))
      · exact .inl (a.2 h)
  have hbit : ((BitVec.ofNat 8 v &&& 1 : U8) != 0) = true ↔ v % 2 = 1 := by
    rw [bne_iff_ne, ne_eq, ← BitVec.toNat_inj, BitVec.toNat_and, show (1 : U8).toNat = 2 ^ 1 - 1 from rfl,
      Nat.and_two_pow_sub_one_eq_mod, BitVec.toNat_ofNat, show (0 : U8).toNat = 0 from rfl]
    omega
  by_cases h1 : v / 16 ∈ stackEnding
  · rw [if_pos (hl.2 h1), if_pos (.inr h1)]
  · rw [if_neg (fun h => h1 (hl.1 h))]
    by_cases h2 : v % 2 = 1
    · rw [if_pos (hbit.2 h2), if_pos (.inl h2)]
    · rw [if_neg (fun h => h2 (hbit.1 h)), if_neg (fun h => h.elim h2 h1)]
      rfl

theorem extractLoop_short (f : Nat) (bits : U8) (b : Bytes) (h0 : 0 < bits.toNat) (h : bits.toNat < 24 ∨ b.length < 3) :
    MplsLabels.extractLoop (f + 1) bits b = .panic := by
  rw [MplsLabels.extractLoop, if_pos h0]
  match b with
  | [] => simp
  | [_] => simp
  | [_, _] => simp
  | b0 :: b1 :: b2 :: t =>
    simp only [idx_cons_zero, idx_cons_succ, Res.ok_bind]
    rw [subC, if_neg (by
      change ¬ 24 ≤ _
      simp only [List.length_cons] at h
      omega)]
    rfl

theorem toNat_sub24 {bits : U8} (h : 24 ≤ bits.toNat) : (bits - 24).toNat = bits.toNat - 24 := by
  rw [BitVec.toNat_sub, show (24 : U8).toNat = 24 from rfl]; omega

theorem extractLoop_total (n : Nat) : ∀ b : Bytes, (∃ ls k, LabelsRead n b ls k) ∨ LabelsCrash n b := by
  induction n using Nat.strongRecOn with
  | ind n ih =>
    intro b
    by_cases h0 : n = 0
    · subst h0; exact .inl ⟨_, _, .done b⟩
    · by_cases h : n < 24 ∨ b.length < 3
      · exact .inr (.short n b (by omega) h)
      · obtain ⟨v, hv, e⟩ := exists_be3 (b := b) (by omega)
        obtain ⟨m, rfl⟩ : ∃ m, n = m + 24 := ⟨n - 24, by omega⟩
        rw [e]
        by_cases he : EndsStack v
        · exact .inl ⟨_, _, .last _ v _ hv (by omega) he⟩
        · rcases ih m (by omega) (b.drop 3) with ⟨ls, k, h1⟩ | h1
          · exact .inl ⟨_, _, .more _ v _ ls k hv he h1⟩
          · exact .inr (.more _ v _ hv he h1)

theorem extractLoop_exactly (f : Nat) (bits : U8) (b : Bytes) (hf : bits.toNat < f) :
    Exactly (MplsLabels.extractLoop f bits b) (fun y => LabelsRead bits.toNat b y.1 y.2) (LabelsCrash bits.toNat b) := by
  have hread : ∀ (n : Nat) (b : Bytes) (ls : List U32) (k : Nat), LabelsRead n b ls k →
      ∀ (f : Nat) (bits : U8), bits.toNat = n → n < f → MplsLabels.extractLoop f bits b = .ok (ls, k) := by
    intro n b ls k h
    induction h with
    | done b =>
      intro f bits hn hf
      obtain ⟨f, rfl⟩ : ∃ g, f = g + 1 := ⟨f - 1, by omega⟩
      rw [MplsLabels.extractLoop, if_neg (by omega)]
    | last n v b hv hb he =>
      intro f bits hn hf
      obtain ⟨f, rfl⟩ : ∃ g, f = g + 1 := ⟨f - 1, by omega⟩
      rw [extractLoop_be f bits v hv b (by omega), if_pos he]
    | more n v b ls k hv he _ ih =>
      intro f bits hn hf
      obtain ⟨f, rfl⟩ : ∃ g, f = g + 1 := ⟨f - 1, by omega⟩
      rw [extractLoop_be f bits v hv b (by omega), if_neg he,
        ih f (bits - 24) (by rw [toNat_sub24 (by omega)]; omega) (by omega)]
      rfl
  have hcrash : ∀ (n : Nat) (b : Bytes), LabelsCrash n b →
      ∀ (f : Nat) (bits : U8), bits.toNat = n → n < f → MplsLabels.extractLoop f bits b = .panic := by
    intro n b h
    induction h with
    | short n b h0 h =>
      intro f bits hn hf
      obtain ⟨f, rfl⟩ : ∃ g, f = g + 1 := ⟨f - 1, by omega⟩
      exact extractLoop_short f bits b (by omega) (by omega)
    | more n v b hv he _ ih =>
      intro f bits hn hf
      obtain ⟨f, rfl⟩ : ∃ g, f = g + 1 := ⟨f - 1, by omega⟩
      rw [extractLoop_be f bits v hv b (by omega), if_neg he,
        ih f (bits - 24) (by rw [toNat_sub24 (by omega)]; omega) (by omega)]
      rfl
  refine .of_cases (fun y h => hread _ _ _ _ h f bits rfl hf) (fun h => hcrash _ _ h f bits rfl hf) ?_
  rcases extractLoop_total bits.toNat b with ⟨ls, k, h⟩ | h
  · exact .inl ⟨(ls, k), h⟩
  · exact .inr (.inl h)

theorem labels_exactly (bits : U8) (b : Bytes) :
    Exactly (MplsLabels.extractBits bits b) (fun y => LabelsRead bits.toNat b y.1.labels y.2)
      (LabelsCrash bits.toNat b) := by
  have h := (extractLoop_exactly (bits.toNat + 1) bits b (by omega)).map fun y => ((⟨y.1⟩ : MplsLabels), y.2)
  refine h.congr (fun y => ⟨?_, fun hy => ⟨(y.1.labels, y.2), hy, rfl⟩⟩) Iff.rfl
  rintro ⟨⟨ls, k⟩, h1, rfl⟩; exact h1

theorem labels_total (bits : U8) (b : Bytes) (h1 : ∀ y : MplsLabels × Nat, ¬ LabelsRead bits.toNat b y.1.labels y.2) :
    ¬ ¬ LabelsCrash bits.toNat b := by
  intro h2
  rcases extractLoop_total bits.toNat b with ⟨ls, k, h⟩ | h
  · exact h1 (⟨ls⟩, k) h
  · exact h2 h

theorem labelsRead_le {bits : Nat} {b : Bytes} {ls : List U32} {k : Nat} (h : LabelsRead bits b ls k) :
    k ≤ b.length ∧ 8 * k ≤ bits := by
  induction h with
  | done b => simp
  | last bits v b hv hb he => simp; omega
  | more bits v b ls n hv he hr ih => simp; omega

/-! ## Prefixes -/

/-- a kind of prefixes that is read as specified -/
class PrefixExact (T : Type) [BgpItem T] [PrefixReads T] : Prop where
  exact : ∀ (bits : U8) (b : Bytes), Exactly (BgpItem.extractBits (T := T) bits b)
    (fun y => PrefixReads.Read bits.toNat b y.1 y.2) (PrefixReads.Crash T bits.toNat b)

theorem padded_value {w addr : Nat} {b : Bytes} (hb : b.length ≤ w) (ha : addr < 256 ^ w) :
    PaddedOctets w addr b ↔ addr = unbe (b ++ List.replicate (w - b.length) (0 : U8)) := by
  have hl : (b ++ List.replicate (w - b.length) (0 : U8)).length = w := by simp; omega
  unfold PaddedOctets
  constructor
  · intro h
    rw [← h, unbe_be, Nat.mod_eq_of_lt ha]
  · intro h
    have := be_unbe (b ++ List.replicate (w - b.length) (0 : U8))
    rw [hl] at this
    rw [h, this]

instance : PrefixExact BgpAddrV4 where
  exact bits b := by
    by_cases h : 249 ≤ bits.toNat
    · refine .of_cases ?_ (fun _ => fromBitsV4_panic h) (.inr (.inl h))
      rintro y ⟨h1, -⟩; omega
    · by_cases h2 : 32 < bits.toNat ∨ b.length < octets bits.toNat
      · refine .of_cases ?_ (fun hc => absurd hc h) (.inr (.inr (by
          simp only [BgpItem.extractBits]; rw [fromBitsV4_err (by omega) h2]; trivial)))
        rintro y ⟨h1, hn, h3, -⟩; omega
      · have ho := octets_le (n := 4) (show bits.toNat ≤ 8 * 4 by omega)
        have e := fromBitsV4_ok (bits := bits) (buf := b) (by omega) (by omega)
        have hl : (b.take (octets bits.toNat)).length = octets bits.toNat := by simp; omega
        have hlt := unbe_lt (b.take (octets bits.toNat) ++ List.replicate (4 - octets bits.toNat) (0 : U8))
        rw [show (b.take (octets bits.toNat) ++ List.replicate (4 - octets bits.toNat) (0 : U8)).length = 4 by
          simp; omega] at hlt
        refine .of_cases ?_ (fun hc => absurd hc h) (.inl ⟨(⟨BitVec.ofNat 32 (unbe (b.take (octets bits.toNat) ++
            List.replicate (4 - octets bits.toNat) (0 : U8))), bits⟩, octets bits.toNat),
            ⟨by omega, rfl, by simp only; omega, rfl, ?_⟩⟩)
        · rintro ⟨⟨a, pl⟩, n⟩ ⟨h3, hn, h4, h5, h6⟩
          simp only at hn h4 h5 h6
          subst hn
          have ha : a.toNat < 256 ^ 4 := a.isLt
          rw [padded_value (by rw [hl]; exact ho) ha, hl] at h6
          simp only [BgpItem.extractBits]
          rw [e]
          simp only [Res.ok.injEq, Prod.mk.injEq, BgpAddrV4.mk.injEq, and_true]
          exact ⟨by rw [← h6]; simp, BitVec.eq_of_toNat_eq h5.symm⟩
        · simp only
          rw [padded_value (by rw [hl]; exact ho) (by exact BitVec.isLt _), hl, BitVec.toNat_ofNat,
            Nat.mod_eq_of_lt (by simpa using hlt)]

instance : PrefixExact BgpAddrV6 where
  exact bits b := by
    by_cases h : 249 ≤ bits.toNat
    · refine .of_cases ?_ (fun _ => fromBitsV6_panic h) (.inr (.inl h))
      rintro y ⟨h1, -⟩; omega
    · by_cases h2 : 128 < bits.toNat ∨ b.length < octets bits.toNat
      · refine .of_cases ?_ (fun hc => absurd hc h) (.inr (.inr (by
          simp only [BgpItem.extractBits]; rw [fromBitsV6_err (by omega) h2]; trivial)))
        rintro y ⟨h1, hn, h3, -⟩; omega
      · have ho := octets_le (n := 16) (show bits.toNat ≤ 8 * 16 by omega)
        have e := fromBitsV6_ok (bits := bits) (buf := b) (by omega) (by omega)
        have hl : (b.take (octets bits.toNat)).length = octets bits.toNat := by simp; omega
        have hlt := unbe_lt (b.take (octets bits.toNat) ++ List.replicate (16 - octets bits.toNat) (0 : U8))
        rw [show (b.take (octets bits.toNat) ++ List.replicate (16 - octets bits.toNat) (0 : U8)).length = 16 by
          simp only [List.length_append, hl, List.length_replicate]; omega] at hlt
        refine .of_cases ?_ (fun hc => absurd hc h) (.inl ⟨(⟨BitVec.ofNat 128 (unbe (b.take (octets bits.toNat) ++
            List.replicate (16 - octets bits.toNat) (0 : U8))), bits⟩, octets bits.toNat),
            ⟨by omega, rfl, by simp only; omega, rfl, ?_⟩⟩)
        · rintro ⟨⟨a, pl⟩, n⟩ ⟨h3, hn, h4, h5, h6⟩
          simp only at hn h4 h5 h6
          subst hn
          have ha : a.toNat < 256 ^ 16 := a.isLt
          rw [padded_value (by rw [hl]; exact ho) ha, hl] at h6
          simp only [BgpItem.extractBits]
          rw [e]
          simp only [Res.ok.injEq, Prod.mk.injEq, BgpAddrV6.mk.injEq, and_true]
          exact ⟨by rw [← h6]; simp, BitVec.eq_of_toNat_eq h5.symm⟩
        · simp only
          rw [padded_value (by rw [hl]; exact ho) (by exact BitVec.isLt _), hl, BitVec.toNat_ofNat,
            Nat.mod_eq_of_lt (by simpa using hlt)]

theorem decodeAddrV4_exactly (b : Bytes) :
    Exactly (decodeAddrV4 b) (fun a => ∃ t, b = be 4 a.toNat ++ t) False := by
  by_cases h : 4 ≤ b.length
  · obtain ⟨v, hv, e⟩ := exists_be 4 h
    refine .of_cases ?_ False.elim (.inl ⟨BitVec.ofNat 32 v, b.drop 4, ?_⟩)
    · rintro a ⟨t, rfl⟩; rw [decodeAddrV4_be]; simp
    · rw [BitVec.toNat_ofNat, Nat.mod_eq_of_lt (by simpa using hv)]; exact e
  · refine .of_cases ?_ False.elim (.inr (.inr (by rw [decodeAddrV4_short (by omega)]; trivial)))
    rintro a ⟨t, rfl⟩; simp at h

theorem decodeAddrV6_exactly (b : Bytes) :
    Exactly (decodeAddrV6 b) (fun a => ∃ t, b = be 16 a.toNat ++ t) False := by
  by_cases h : 16 ≤ b.length
  · obtain ⟨v, hv, e⟩ := exists_be 16 h
    refine .of_cases ?_ False.elim (.inl ⟨BitVec.ofNat 128 v, b.drop 16, ?_⟩)
    · rintro a ⟨t, rfl⟩; rw [decodeAddrV6_be]; simp
    · rw [BitVec.toNat_ofNat, Nat.mod_eq_of_lt (by simpa using hv)]; exact e
  · refine .of_cases ?_ False.elim (.inr (.inr (by rw [decodeAddrV6_short (by omega)]; trivial)))
    rintro a ⟨t, rfl⟩; simp at h

theorem rfrom_exactly {α : Type} (b : List α) (s : Nat) :
    Exactly (rfrom b s) (fun r => s ≤ b.length ∧ r = b.drop s) (b.length < s) := by
  by_cases h : s ≤ b.length
  · exact .of_cases (fun r hr => by rw [rfrom_ok h, hr.2]) (fun hc => by omega) (.inl ⟨_, h, rfl⟩)
  · exact .of_cases (fun r hr => absurd hr.1 h) (fun _ => by simp [rfrom, h]) (.inr (.inl (by omega)))

theorem rd_exactly (b : Bytes) :
    Exactly (BgpRD.decodeFrom b) (fun y => (∃ t, b = rdBody y.1 ++ t) ∧ y.2 = 8) False := by
  by_cases h : 8 ≤ b.length
  · obtain ⟨v, hv, e⟩ := exists_be 4 (l := b) (by omega)
    obtain ⟨w, hw, e2⟩ := exists_be 4 (l := b.drop 4) (by simp; omega)
    refine .of_cases ?_ False.elim (.inl ⟨(⟨BitVec.ofNat 32 v, BitVec.ofNat 32 w⟩, 8), ⟨(b.drop 4).drop 4, ?_⟩, rfl⟩)
    · rintro ⟨rd, n⟩ ⟨⟨t, rfl⟩, rfl⟩; exact rd_reads rd t
    · simp only [rdBody, BitVec.toNat_ofNat]
      rw [Nat.mod_eq_of_lt (by simpa using hv), Nat.mod_eq_of_lt (by simpa using hw), List.append_assoc, ← e2]
      exact e
  · refine .of_cases ?_ False.elim (.inr (.inr (by rw [rd_decode_short (by omega)]; trivial)))
    rintro a ⟨⟨t, rfl⟩, -⟩; simp only [rdBody, List.length_append, be_length] at h; omega

instance : PrefixExact BgpMdtV4 where
  exact bits b := by
    by_cases h : 32 ≤ bits.toNat ∧ bits.toNat ≤ 128
    · by_cases h2 : bits.toNat ≤ 64
      · by_cases h3 : octets (bits.toNat - 32) ≤ b.length
        · have hs : (bits - 32).toNat = bits.toNat - 32 := by
            rw [BitVec.toNat_sub_of_le (by rw [BitVec.le_def]; simpa using h.1)]; rfl
          rw [mdt4_get h.1 h2 h3]
          have key := (PrefixExact.exact (T := BgpAddrV4) (bits - 32) b).bind
            (f := fun y => (do .ok (⟨y.1, ← decodeAddrV4 (← rfrom b y.2)⟩, y.2 + 4) : Res (BgpMdtV4 × Nat)))
            fun y _ => (rfrom_exactly b y.2).bind fun r _ => (decodeAddrV4_exactly r).map fun a => ((⟨y.1, a⟩ : BgpMdtV4), y.2 + 4)
          refine key.congr ?_ ?_
          · rintro ⟨⟨x, g⟩, n⟩
            simp only [PrefixReads.Read, hs]
            constructor
            · rintro ⟨⟨a, m⟩, hp, r, ⟨hl, rfl⟩, g', ⟨t, ht⟩, he⟩
              simp only [Prod.mk.injEq, BgpMdtV4.mk.injEq] at he
              obtain ⟨⟨rfl, rfl⟩, rfl⟩ := he
              exact ⟨m, t, h.1, hp, ht, rfl⟩
            · rintro ⟨m, t, -, hp, ht, rfl⟩
              refine ⟨(x, m), hp, _, ⟨hp.2.2.1, rfl⟩, g, ⟨t, ht⟩, rfl⟩
          · simp only [PrefixReads.Crash, PrefixReads.Read, hs]
            constructor
            · rintro (h4 | ⟨y, hy, h4 | ⟨r, -, h4⟩⟩)
              · omega
              · have := hy.2.2.1; omega
              · exact h4.elim
            · intro h4; omega
        · refine .of_cases ?_ (fun _ => ?_) (.inr (.inl (.inr ⟨h.1, h2, by omega⟩)))
          · rintro ⟨x, n⟩ ⟨m, t, -, ⟨-, hm, hm2, -⟩, -⟩; omega
          · simp only [BgpItem.extractBits]
            rw [if_neg (by omega)]
            unfold octets at h3
            have hs : (bits - 32).toNat = bits.toNat - 32 := by
              rw [BitVec.toNat_sub_of_le (by rw [BitVec.le_def]; simpa using h.1)]; rfl
            rw [if_neg (by intro h; rw [h] at h3; simp at h3), subC_ok (by simpa using h.1), Res.ok_bind]
            obtain ⟨h4, h5⟩ := addC_seven (b := bits - 32) (by omega)
            rw [h4, Res.ok_bind, h5, hs]
            rw [show rslice b 0 ((bits.toNat - 32 + 7) / 8) = .panic by simp [rslice]; omega]
            rfl
      · refine .of_cases ?_ (fun _ => ?_) (.inr (.inl (.inl ⟨by omega, h.2⟩)))
        · rintro ⟨x, n⟩ ⟨m, t, -, ⟨hm, -⟩, -⟩; omega
        · simp only [BgpItem.extractBits]
          have hs : (bits - 32).toNat = bits.toNat - 32 := by
            rw [BitVec.toNat_sub_of_le (by rw [BitVec.le_def]; simpa using h.1)]; rfl
          rw [if_neg (by omega), if_neg (by omega), subC_ok (by simpa using h.1), Res.ok_bind]
          obtain ⟨h4, h5⟩ := addC_seven (b := bits - 32) (by omega)
          rw [h4, Res.ok_bind, h5, hs]
          by_cases h6 : (bits.toNat - 32 + 7) / 8 ≤ b.length
          · rw [rslice_ok (by omega) h6, Res.ok_bind, copyAt, if_neg (by simp; omega)]; rfl
          · rw [show rslice b 0 ((bits.toNat - 32 + 7) / 8) = .panic by simp [rslice]; omega]; rfl
    · refine .of_cases ?_ ?_ (.inr (.inr ?_))
      · rintro ⟨x, n⟩ ⟨m, t, h1, ⟨hm, -⟩, -⟩; omega
      · rintro (h1 | h1) <;> omega
      · simp only [BgpItem.extractBits]; rw [if_pos h]; trivial

instance : PrefixExact BgpMdtV6 where
  exact bits b := by
    by_cases h : 128 ≤ bits.toNat ∧ bits.toNat ≤ 254
    · by_cases h3 : octets (bits.toNat - 128) ≤ b.length
      · have hs : (bits - 128).toNat = bits.toNat - 128 := by
          rw [BitVec.toNat_sub_of_le (by rw [BitVec.le_def]; simpa using h.1)]; rfl
        rw [mdt6_get h.1 h.2 h3]
        have key := (PrefixExact.exact (T := BgpAddrV6) (bits - 128) b).bind
          (f := fun y => (do .ok (⟨y.1, ← decodeAddrV6 (← rfrom b y.2)⟩, y.2 + 16) : Res (BgpMdtV6 × Nat)))
          fun y _ => (rfrom_exactly b y.2).bind fun r _ => (decodeAddrV6_exactly r).map fun a => ((⟨y.1, a⟩ : BgpMdtV6), y.2 + 16)
        refine key.congr ?_ ?_
        · rintro ⟨⟨x, g⟩, n⟩
          simp only [PrefixReads.Read, hs]
          constructor
          · rintro ⟨⟨a, m⟩, hp, r, ⟨hl, rfl⟩, g', ⟨t, ht⟩, he⟩
            simp only [Prod.mk.injEq, BgpMdtV6.mk.injEq] at he
            obtain ⟨⟨rfl, rfl⟩, rfl⟩ := he
            exact ⟨m, t, h.1, h.2, hp, ht, rfl⟩
          · rintro ⟨m, t, -, -, hp, ht, rfl⟩
            refine ⟨(x, m), hp, _, ⟨hp.2.2.1, rfl⟩, g, ⟨t, ht⟩, rfl⟩
        · simp only [PrefixReads.Crash, PrefixReads.Read, hs]
          constructor
          · rintro (h4 | ⟨y, hy, h4 | ⟨r, -, h4⟩⟩)
            · omega
            · have := hy.2.2.1; omega
            · exact h4.elim
          · intro h4; omega
      · refine .of_cases ?_ (fun _ => ?_) (.inr (.inl ⟨h.1, h.2, by omega⟩))
        · rintro ⟨x, n⟩ ⟨m, t, -, -, ⟨-, hm, hm2, -⟩, -⟩; omega
        · simp only [BgpItem.extractBits]
          rw [if_neg (by omega)]
          unfold octets at h3
          have hs : (bits - 128).toNat = bits.toNat - 128 := by
            rw [BitVec.toNat_sub_of_le (by rw [BitVec.le_def]; simpa using h.1)]; rfl
          rw [if_neg (by intro h; rw [h] at h3; simp at h3), subC_ok (by simpa using h.1), Res.ok_bind]
          obtain ⟨h4, h5⟩ := addC_seven (b := bits - 128) (by omega)
          rw [h4, Res.ok_bind, h5, hs]
          rw [show rslice b 0 ((bits.toNat - 128 + 7) / 8) = .panic by simp [rslice]; omega]
          rfl
    · refine .of_cases ?_ ?_ (.inr (.inr ?_))
      · rintro ⟨x, n⟩ ⟨m, t, h1, h2, -⟩; omega
      · rintro ⟨h1, h2, -⟩; omega
      · simp only [BgpItem.extractBits]; rw [if_pos h]; trivial

theorem toNat_sub_ofNat {bits : U8} {k : Nat} (h : k ≤ bits.toNat) : (bits - BitVec.ofNat 8 k).toNat = bits.toNat - k := by
  have := bits.isLt
  rw [BitVec.toNat_sub, BitVec.toNat_ofNat, Nat.mod_eq_of_lt (by omega : k < 2 ^ 8)]
  omega

theorem subC_ofNat {bits : U8} {k : Nat} (h : k ≤ bits.toNat) :
    subC bits (BitVec.ofNat 8 k) = .ok (bits - BitVec.ofNat 8 k) := by
  have := bits.isLt
  exact subC_ok (by rw [BitVec.toNat_ofNat, Nat.mod_eq_of_lt (by omega : k < 2 ^ 8)]; exact h)

instance {T : Type} [BgpItem T] [PrefixReads T] [PrefixExact T] : PrefixExact (Labeled T) where
  exact bits b := by
    have key := (labels_exactly bits b).bind
      (f := fun y => (do
        let left ← subC bits (BitVec.ofNat 8 (y.2 * 8))
        let z ← BgpItem.extractBits left (← rfrom b y.2)
        .ok (⟨z.1, y.1⟩, y.2 + z.2) : Res (Labeled T × Nat)))
      (R' := fun y z => ∃ w : T × Nat, PrefixReads.Read (bits.toNat - 8 * y.2) (b.drop y.2) w.1 w.2 ∧
        z = (⟨w.1, y.1⟩, y.2 + w.2))
      (C' := fun y => PrefixReads.Crash T (bits.toNat - 8 * y.2) (b.drop y.2)) (by
        rintro ⟨ls, k⟩ hk
        have := labelsRead_le hk
        simp only at this ⊢
        rw [Nat.mul_comm, subC_ofNat this.2, Res.ok_bind, rfrom_ok this.1, Res.ok_bind, ← toNat_sub_ofNat this.2]
        exact (PrefixExact.exact (T := T) _ _).map _)
    refine key.congr ?_ ?_
    · rintro ⟨⟨p, ls⟩, n⟩
      constructor
      · rintro ⟨⟨ls', k⟩, hk, ⟨p', m⟩, hp, he⟩
        simp only [Prod.mk.injEq, Labeled.mk.injEq] at he
        obtain ⟨⟨rfl, rfl⟩, rfl⟩ := he
        exact ⟨k, m, hk, hp, rfl⟩
      · rintro ⟨k, m, hk, hp, hn⟩
        simp only at hn hk hp
        exact ⟨(ls, k), hk, (p, m), hp, by rw [hn]⟩
    · constructor
      · rintro (h | ⟨⟨ls, k⟩, hk, hc⟩)
        · exact .inl h
        · exact .inr ⟨ls.labels, k, hk, hc⟩
      · rintro (h | ⟨ls, k, hk, hc⟩)
        · exact .inl h
        · exact .inr ⟨(⟨ls⟩, k), hk, hc⟩

instance {T : Type} [BgpItem T] [PrefixReads T] [PrefixExact T] : PrefixExact (WithRd T) where
  exact bits b := by
    by_cases h : b.length < 8
    · refine .of_cases ?_ ?_ (.inr (.inr (by simp only [BgpItem.extractBits]; rw [if_pos h]; trivial)))
      · rintro ⟨x, n⟩ ⟨t, m, -, hb, -⟩
        simp only at hb
        rw [hb] at h; simp only [rdBody, List.length_append, be_length] at h; omega
      · rintro ⟨h1, -⟩; omega
    · have e : BgpItem.extractBits (T := WithRd T) bits b = (do
          let y ← BgpRD.decodeFrom b
          let left ← subC bits 64
          let z ← BgpItem.extractBits left (b.drop 8)
          .ok (⟨z.1, y.1⟩, 8 + z.2)) := by
        simp only [BgpItem.extractBits]
        rw [if_neg h, rslice_ok (by omega) (by omega), Res.ok_bind]
        obtain ⟨v, hv, e1⟩ := exists_be 4 (l := b) (by omega)
        obtain ⟨w, hw, e2⟩ := exists_be 4 (l := b.drop 4) (by simp; omega)
        have hb : b = rdBody ⟨BitVec.ofNat 32 v, BitVec.ofNat 32 w⟩ ++ b.drop 8 := by
          simp only [rdBody, BitVec.toNat_ofNat]
          rw [Nat.mod_eq_of_lt (by simpa using hv), Nat.mod_eq_of_lt (by simpa using hw), List.append_assoc]
          rw [List.drop_drop] at e2
          rw [← e2]
          exact e1
        have h1 : BgpRD.decodeFrom ((b.take 8).drop 0) = BgpRD.decodeFrom b := by
          conv => rhs; rw [hb, rd_reads]
          rw [hb, List.drop_zero, List.take_left' (by simp [rdBody])]
          have := rd_reads ⟨BitVec.ofNat 32 v, BitVec.ofNat 32 w⟩ []
          rwa [List.append_nil] at this
        rw [h1]
        conv => lhs; rw [hb, rd_reads]
        conv => rhs; rw [hb, rd_reads]
        simp only [Res.ok_bind]
        rw [← hb, rfrom_ok (by simpa using h)]
        rfl
      rw [e]
      have key := (rd_exactly b).bind (f := fun y => (do
          let left ← subC bits 64
          let z ← BgpItem.extractBits left (b.drop 8)
          .ok (⟨z.1, y.1⟩, 8 + z.2) : Res (WithRd T × Nat)))
        (R' := fun y z => 64 ≤ bits.toNat ∧ ∃ w : T × Nat, PrefixReads.Read (bits.toNat - 64) (b.drop 8) w.1 w.2 ∧
          z = (⟨w.1, y.1⟩, 8 + w.2))
        (C' := fun y => bits.toNat < 64 ∨ PrefixReads.Crash T (bits.toNat - 64) (b.drop 8)) (by
          rintro ⟨rd, k⟩ -
          by_cases h64 : 64 ≤ bits.toNat
          · rw [show (64 : U8) = BitVec.ofNat 8 64 from rfl, subC_ofNat h64, Res.ok_bind, ← toNat_sub_ofNat h64]
            refine ((PrefixExact.exact (T := T) (bits - BitVec.ofNat 8 64) (b.drop 8)).map _).congr
              (fun z => ⟨fun hz => ⟨h64, hz⟩, fun hz => hz.2⟩) ⟨.inr, fun hz => hz.resolve_left (by omega)⟩
          · rw [show subC bits 64 = .panic by rw [subC, if_neg]; exact h64]
            exact .of_cases (fun z hz => absurd hz.1 h64) (fun _ => rfl) (.inr (.inl (.inl (by omega)))))
      refine key.congr ?_ ?_
      · rintro ⟨⟨p, rd⟩, n⟩
        constructor
        · rintro ⟨⟨rd', k⟩, ⟨⟨t, ht⟩, rfl⟩, h64, ⟨p', m⟩, hp, he⟩
          simp only [Prod.mk.injEq, WithRd.mk.injEq] at he
          obtain ⟨⟨rfl, rfl⟩, rfl⟩ := he
          simp only at ht hp
          rw [ht, List.drop_left' (by simp [rdBody])] at hp
          exact ⟨t, m, h64, ht, hp, rfl⟩
        · rintro ⟨t, m, h64, ht, hp, hn⟩
          simp only at ht hn hp
          refine ⟨(rd, 8), ⟨⟨t, ht⟩, rfl⟩, h64, (p, m), ?_, by rw [hn]⟩
          simp only
          rw [ht, List.drop_left' (by simp [rdBody])]
          exact hp
      · simp only [PrefixReads.Crash, false_or]
        constructor
        · rintro ⟨y, -, hc⟩; exact ⟨by omega, hc⟩
        · rintro ⟨-, hc⟩
          rcases (rd_exactly b).cases with ⟨y, hy⟩ | hf | he
          · exact ⟨y, hy, hc⟩
          · exact hf.elim
          · obtain ⟨r, hr, -⟩ := rd_decode_eq (b := b) (by omega)
            rw [hr] at he
            exact he.elim

/-! ## Items with a length octet, with and without path identifiers -/

section items
variable {T : Type} [BgpItem T] [PrefixReads T] [PrefixExact T]

theorem nlri_exactly (b : Bytes) :
    Exactly (decodeItem (T := T) b) (fun y => NlriRead b y.1 y.2) (NlriCrash T b) := by
  cases b with
  | nil =>
    rw [decodeItem_nil]
    refine .of_cases ?_ (fun _ => rfl) (.inr (.inl (.inl rfl)))
    rintro y ⟨_, _, _, h, _⟩; cases h
  | cons bits t =>
    rw [decodeItem_cons]
    refine ((PrefixExact.exact (T := T) bits t).map fun y => (y.1, y.2 + 1)).congr ?_ ?_
    · rintro ⟨x, n⟩
      constructor
      · rintro ⟨⟨x', m⟩, h, he⟩; cases he; exact ⟨bits, t, m, rfl, h, rfl⟩
      · rintro ⟨bits', t', m, hb, h, he⟩
        cases hb
        simp only at h he
        exact ⟨(x, m), h, by rw [he]⟩
    · constructor
      · exact fun h => .inr ⟨bits, t, rfl, h⟩
      · rintro (h | ⟨_, _, hb, h⟩)
        · cases h
        · cases hb; exact h

theorem getn32_exactly (b : Bytes) :
    Exactly (getn32 b) (fun v => ∃ t, b = be 4 v.toNat ++ t) (b.length < 4) := by
  by_cases h : 4 ≤ b.length
  · obtain ⟨v, hv, e⟩ := exists_be 4 h
    refine .of_cases ?_ (by omega) (.inl ⟨BitVec.ofNat 32 v, b.drop 4, ?_⟩)
    · rintro a ⟨t, rfl⟩; rw [getn32_be]; simp
    · rw [BitVec.toNat_ofNat, Nat.mod_eq_of_lt (by simpa using hv)]; exact e
  · refine .of_cases ?_ (fun _ => getn32_short (by omega)) (.inr (.inl (by omega)))
    rintro a ⟨t, rfl⟩; simp at h

theorem pathId_exactly (b : Bytes) :
    Exactly (decodePathIdItem (T := T) b) (fun y => PathIdRead b y.1 y.2) (PathIdCrash T b) := by
  have key := (getn32_exactly b).bind (f := fun v => (do
      let y ← decodeItem (← rfrom b 4)
      .ok (⟨v, y.1⟩, 4 + y.2) : Res (WithPathId T × Nat)))
    (R' := fun v z => ∃ y : T × Nat, NlriRead (b.drop 4) y.1 y.2 ∧ z = (⟨v, y.1⟩, 4 + y.2))
    (C' := fun _ => NlriCrash T (b.drop 4)) (by
      rintro v ⟨t, ht⟩
      rw [rfrom_ok (by rw [ht]; simp), Res.ok_bind]
      exact (nlri_exactly _).map _)
  refine key.congr ?_ ?_
  · rintro ⟨⟨p, x⟩, n⟩
    constructor
    · rintro ⟨v, ⟨t, ht⟩, ⟨x', m⟩, h, he⟩
      cases he
      simp only at h
      rw [ht, List.drop_left' (by simp)] at h
      exact ⟨t, m, ht, h, rfl⟩
    · rintro ⟨t, m, ht, h, hn⟩
      simp only at ht h hn
      refine ⟨p, ⟨t, ht⟩, (x, m), ?_, by rw [hn]⟩
      simp only
      rw [ht, List.drop_left' (by simp)]
      exact h
  · constructor
    · rintro (h | ⟨_, _, h⟩)
      · exact .inl h
      · exact .inr h
    · rintro (h | h)
      · exact .inl h
      · by_cases h4 : b.length < 4
        · exact .inl h4
        · obtain ⟨v, hv, e⟩ := exists_be 4 (l := b) (by omega)
          refine .inr ⟨BitVec.ofNat 32 v, ⟨b.drop 4, ?_⟩, h⟩
          rw [BitVec.toNat_ofNat, Nat.mod_eq_of_lt (by simpa using hv)]; exact e

theorem nlris_exactly (b : Bytes) :
    Exactly (decodeItems (T := T) b) (fun y => ItemsRead 0 NlriRead b y.1 y.2)
      (ItemsCrash 0 (NlriRead (T := T)) (NlriCrash T) b) :=
  items_exactly decodeItem_progress (fun b _ => nlri_exactly b) b

theorem pathIds_exactly (b : Bytes) :
    Exactly (decodePathIdItems (T := T) b) (fun y => ItemsRead 4 PathIdRead b y.1 y.2)
      (ItemsCrash 4 (PathIdRead (T := T)) (PathIdCrash T) b) :=
  items_exactly decodePathIdItem_progress (fun b _ => pathId_exactly b) b

end items

theorem PrefixExact.of_kind {T : Type} [BgpItem T] [PrefixReads T] (h : PrefixReadsKind T) : PrefixExact T := by
  induction h with
  | v4 => infer_instance
  | v6 => infer_instance
  | mdt4 => infer_instance
  | mdt6 => infer_instance
  | labeled _ ih => infer_instance
  | withRd _ ih => infer_instance

end Zbgp
