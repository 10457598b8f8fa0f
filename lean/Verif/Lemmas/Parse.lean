import Verif.Lemmas.TextV6
import Verif.Spec.Parse

namespace Zbgp

open Std Spec

/-! ## Numbers -/

theorem digits_iff (s : Txt) (acc v : Nat) :
    digits acc s = some v ↔ ∃ ds : List Nat, (∀ d ∈ ds, d < 10) ∧ s = ds.map Nat.digitChar ∧
      v = ds.foldl (fun n d => n * 10 + d) acc := by
  induction s generalizing acc with
  | nil =>
    unfold digits
    constructor
    · intro h; exact ⟨[], by simp, rfl, (Option.some.inj h).symm⟩
    · rintro ⟨ds, -, h, rfl⟩
      cases ds with
      | nil => rfl
      | cons d ds => simp at h
  | cons c s ih =>
    unfold digits
    cases hc : toDigit 10 c with
    | none =>
      constructor
      · intro h; cases h
      · rintro ⟨ds, h1, h2, -⟩
        cases ds with
        | nil => simp at h2
        | cons d ds =>
          simp only [List.map_cons, List.cons.injEq] at h2
          rw [h2.1, toDigit_digitChar (h1 d (by simp)) (by omega)] at hc
          cases hc
    | some d =>
      obtain ⟨h5, h6⟩ := toDigit_ten hc
      simp only [ih]
      constructor
      · rintro ⟨ds, h1, h2, h3⟩
        exact ⟨d :: ds, by simpa using ⟨h5, h1⟩, by rw [h2, h6]; rfl, h3⟩
      · rintro ⟨ds, h1, h2, h3⟩
        cases ds with
        | nil => simp at h2
        | cons e ds =>
          simp only [List.map_cons, List.cons.injEq] at h2
          have he := h1 e (by simp)
          have : e = d := by
            have := toDigit_digitChar he (show 10 ≤ 16 by omega)
            rw [← h2.1, hc] at this
            exact (Option.some.inj this).symm
          subst this
          exact ⟨ds, fun x hx => h1 x (by simp [hx]), h2.2, h3⟩

theorem digitChar_plus : ∀ d < 10, Nat.digitChar d ≠ '+' := by decide

theorem stripPlus_plus (s : Txt) : stripPlus ('+' :: s) = s := rfl

theorem stripPlus_other {s : Txt} (h : s.head? ≠ some '+') : stripPlus s = s := by
  unfold stripPlus
  split
  · exact absurd rfl h
  · rfl

theorem parseU_iff {w : Nat} (s : Txt) (x : BitVec w) : parseU w s = some x ↔ Number s x.toNat := by
  unfold parseU
  constructor
  · intro h
    split at h
    · cases h
    rename_i hne
    split at h
    · rename_i v hv
      split at h
      · rename_i hlt
        have hx : x.toNat = v := by rw [← Option.some.inj h, BitVec.toNat_ofNat, Nat.mod_eq_of_lt hlt]
        obtain ⟨ds, h1, h2, h3⟩ := (digits_iff _ _ _).1 hv
        have hds : ds ≠ [] := by rintro rfl; exact hne h2
        by_cases hp : s.head? = some '+'
        · refine ⟨true, ds, hds, h1, ?_, by rw [hx, h3]⟩
          cases s with
          | nil => simp at hp
          | cons c s =>
            simp only [List.head?_cons, Option.some.injEq] at hp
            subst hp
            rw [stripPlus_plus] at h2
            simp [h2]
        · refine ⟨false, ds, hds, h1, ?_, by rw [hx, h3]⟩
          rw [stripPlus_other hp] at h2
          simpa using h2
      · cases h
    · cases h
  · rintro ⟨plus, ds, h1, h2, h3, h4⟩
    have hs : stripPlus s = ds.map Nat.digitChar := by
      rw [h3]
      cases plus with
      | true => rfl
      | false =>
        rw [stripPlus_other]
        · rfl
        · cases ds with
          | nil => exact (h1 rfl).elim
          | cons d ds => simpa using digitChar_plus d (h2 d (by simp))
    rw [hs, if_neg (by simpa using h1), (digits_iff _ 0 x.toNat).2 ⟨ds, h2, rfl, h4⟩]
    simp only [x.isLt, if_true, BitVec.ofNat_toNat, BitVec.setWidth_eq]

theorem parseU_none {w : Nat} (s : Txt) : parseU w s = none ↔ ¬ ∃ n < 2 ^ w, Number s n := by
  constructor
  · rintro h ⟨n, hn, hs⟩
    have : Number s (BitVec.ofNat w n).toNat := by rwa [BitVec.toNat_ofNat, Nat.mod_eq_of_lt hn]
    rw [← parseU_iff, h] at this
    cases this
  · intro h
    cases hp : parseU w s with
    | none => rfl
    | some x => exact (h ⟨x.toNat, x.isLt, (parseU_iff s x).1 hp⟩).elim

theorem number_unique {t : Txt} {n m : Nat} (h1 : Number t n) (h2 : Number t m) : n = m := by
  have e (w : Nat) (hn : n < 2 ^ w) (hm : m < 2 ^ w) : n = m := by
    have a1 : parseU w t = some (BitVec.ofNat w n) := by
      rw [parseU_iff, BitVec.toNat_ofNat, Nat.mod_eq_of_lt hn]; exact h1
    have a2 : parseU w t = some (BitVec.ofNat w m) := by
      rw [parseU_iff, BitVec.toNat_ofNat, Nat.mod_eq_of_lt hm]; exact h2
    have := congrArg BitVec.toNat (Option.some.inj (a1.symm.trans a2))
    rwa [BitVec.toNat_ofNat, BitVec.toNat_ofNat, Nat.mod_eq_of_lt hn, Nat.mod_eq_of_lt hm] at this
  refine e (n + m) ?_ ?_
  · exact lt_of_lt_of_le Nat.lt_two_pow_self (Nat.pow_le_pow_right (by omega) (by omega))
  · exact lt_of_lt_of_le Nat.lt_two_pow_self (Nat.pow_le_pow_right (by omega) (by omega))

theorem length_iff (w : Nat) (hw : w < 256) (t : Txt) (p : U8) :
    (parseU 8 t).getD (BitVec.ofNat 8 w) = p ↔ LengthText w t p := by
  unfold LengthText
  cases h : parseU 8 t with
  | none =>
    have h' := (parseU_none t).1 h
    simp only [Option.getD_none]
    constructor
    · rintro rfl
      exact .inr ⟨h', by rw [BitVec.toNat_ofNat, Nat.mod_eq_of_lt hw]⟩
    · rintro (h1 | h1)
      · exact (h' ⟨_, p.isLt, h1⟩).elim
      · apply BitVec.eq_of_toNat_eq
        rw [h1.2, BitVec.toNat_ofNat, Nat.mod_eq_of_lt hw]
  | some x =>
    have h' := (parseU_iff t x).1 h
    simp only [Option.getD_some]
    constructor
    · rintro rfl; exact .inl h'
    · rintro (h1 | h1)
      · exact BitVec.eq_of_toNat_eq (number_unique h' h1)
      · exact (h1.1 ⟨_, x.isLt, h'⟩).elim

/-! ## Parts -/

theorem intercalate_cons (sep t u : Txt) (l : List Txt) :
    List.intercalate sep (t :: u :: l) = t ++ sep ++ List.intercalate sep (u :: l) := by
  simp [List.intercalate]

theorem split_iff (c : Char) (t : Txt) (l : List Txt) : split (· = c) t = l ↔ Parts c t l := by
  have h1 (l : List Txt) (hne : l ≠ []) (hl : ∀ p ∈ l, c ∉ p) : split (· = c) (List.intercalate [c] l) = l := by
    induction l with
    | nil => exact (hne rfl).elim
    | cons t l ih =>
      have ht : ∀ d ∈ t, decide (d = c) = false := by
        intro d hd
        rw [decide_eq_false_iff_not]
        rintro rfl
        exact hl t (by simp) hd
      cases l with
      | nil => simpa [List.intercalate] using split_none ht
      | cons u l =>
        rw [intercalate_cons, List.append_assoc, List.singleton_append, split_append ht (by simp),
          ih (by simp) (fun p hp => hl p (by simp [hp]))]
  have h2 (t : Txt) : Parts c t (split (· = c) t) := by
    refine ⟨split_ne_nil _ _, ?_, ?_⟩
    · induction t with
      | nil => simp [split]
      | cons d t ih =>
        unfold split
        cases hs : split (· = c) t with
        | nil => exact (split_ne_nil _ _ hs).elim
        | cons h r =>
          rw [hs] at ih
          simp only [decide_eq_true_eq]
          split
          · intro p hp
            rcases List.mem_cons.1 hp with rfl | hp
            · simp
            · exact ih p hp
          · rename_i hd
            intro p hp
            rcases List.mem_cons.1 hp with rfl | hp
            · intro hm
              rcases List.mem_cons.1 hm with rfl | hm
              · exact hd rfl
              · exact ih h (by simp) hm
            · exact ih p (by simp [hp])
    · induction t with
      | nil => simp [split, List.intercalate]
      | cons d t ih =>
        unfold split
        cases hs : split (· = c) t with
        | nil => exact (split_ne_nil _ _ hs).elim
        | cons h r =>
          rw [hs] at ih
          simp only [decide_eq_true_eq]
          split
          · rename_i hd
            rw [intercalate_cons, ← ih, hd]; rfl
          · cases r with
            | nil => rw [ih]; simp [List.intercalate]
            | cons u r => rw [ih, intercalate_cons, intercalate_cons]; rfl
  constructor
  · rintro rfl; exact h2 t
  · rintro ⟨a1, a2, rfl⟩
    exact h1 l a1 a2

theorem v4Text_iff (t : Txt) (a : IPv4) : parseV4 t = some a ↔ V4Text t a := by
  have e : (v4String a).toList = showV4 a := by
    have r (n : Nat) : (toString n).toList = dec n := by
      show (Nat.repr n).toList = _
      simp [Nat.repr, dec]
    have d : (toString ".").toList = ['.'] := rfl
    simp [v4String, showV4, ← r, d]
  unfold V4Text
  rw [e]
  constructor
  · exact parseV4_canonical
  · rintro rfl; exact parseV4_show a

theorem macText_iff (t : Txt) (m : MacAddress) : MacAddress.parse t = some m ↔ MacText t m := by
  unfold MacText
  rw [mac_parse_eq]
  have h0 : t.filterMap (toDigit 16) = [] ↔ ¬ ∃ c ∈ t, c ∈ hexDigits := by
    rw [List.filterMap_eq_nil_iff]
    push Not
    constructor
    · intro h c hc hx
      have := h c hc
      rw [toDigit_hex, if_pos hx] at this
      cases this
    · intro h c hc
      rw [toDigit_hex, if_neg (h c hc)]
  by_cases h : ∃ c ∈ t, c ∈ hexDigits
  · rw [if_neg (by rw [h0]; simpa using h), hexNumber_eq]
    simp only [h, true_and, Option.some.injEq]
    have e : (MacAddress.fromU64 (BitVec.ofNat 64 (hexNumber t))).toU64.toNat = hexNumber t % 2 ^ 48 := by
      rw [toU64_fromU64, BitVec.toNat_ofNat]; omega
    constructor
    · rintro rfl; exact e
    · intro hm
      have : m.toU64 = (MacAddress.fromU64 (BitVec.ofNat 64 (hexNumber t))).toU64 := BitVec.eq_of_toNat_eq (by rw [hm, e])
      have := congrArg MacAddress.fromU64 this
      rw [fromU64_toU64, fromU64_toU64] at this
      exact this.symm
  · rw [if_pos (h0.2 h)]
    simp [h]

theorem prefix_iff {A : Type} {parse : Txt → Option A} {addr : Txt → A → Prop} (h : ∀ t a, parse t = some a ↔ addr t a)
    (w : Nat) (hw : w < 256) (t : Txt) (a : A) (p : U8) :
    (match split (· = '/') t with
      | [] => none
      | [x] => (parse x).bind fun y => some (y, BitVec.ofNat 8 w)
      | x :: y :: _ => (parse x).bind fun z => some (z, (parseU 8 y).getD (BitVec.ofNat 8 w))) = some (a, p) ↔
      PrefixText addr w t a p := by
  unfold PrefixText
  have hu : ∀ l, Parts '/' t l ↔ l = split (· = '/') t := fun l => by rw [← split_iff, eq_comm]
  simp only [hu, exists_eq_left]
  cases hs : split (· = '/') t with
  | nil => simp
  | cons x l =>
    cases l with
    | nil =>
      simp only [Option.bind_eq_some_iff, Option.some.injEq, Prod.mk.injEq, ← h]
      constructor
      · rintro ⟨y, h1, rfl, rfl⟩
        exact ⟨h1, by rw [BitVec.toNat_ofNat, Nat.mod_eq_of_lt hw]⟩
      · rintro ⟨h1, h2⟩
        exact ⟨a, h1, rfl, BitVec.eq_of_toNat_eq (by rw [h2, BitVec.toNat_ofNat, Nat.mod_eq_of_lt hw])⟩
    | cons y l =>
      simp only [Option.bind_eq_some_iff, Option.some.injEq, Prod.mk.injEq, ← h]
      constructor
      · rintro ⟨z, h1, rfl, h2⟩
        exact ⟨h1, (length_iff w hw y p).1 h2⟩
      · rintro ⟨h1, h2⟩
        exact ⟨a, h1, rfl, (length_iff w hw y p).2 h2⟩

/-! ## IPv6 -/

theorem readDigits_parts (r k v n : Nat) (s : Txt) : ∃ t, s = t ++ (readDigits r k v n s).2.2 ∧
    (∀ c ∈ t, toDigit r c ≠ none) ∧ (readDigits r k v n s).2.1 = n + t.length ∧
    (readDigits r k v n s).1 = valOf r v (t.filterMap (toDigit r)) ∧
    (t.length = k ∨ ∀ c ∈ (readDigits r k v n s).2.2.head?, toDigit r c = none) := by
  induction k generalizing v n s with
  | zero => exact ⟨[], rfl, by simp, rfl, rfl, .inl rfl⟩
  | succ k ih =>
    cases s with
    | nil => exact ⟨[], rfl, by simp, rfl, rfl, .inr (by simp [readDigits])⟩
    | cons c s =>
      unfold readDigits
      cases hc : toDigit r c with
      | none => exact ⟨[], rfl, by simp, rfl, rfl, .inr (by simpa using hc)⟩
      | some d =>
        obtain ⟨t, h1, h2, h3, h4, h5⟩ := ih (v * r + d) (n + 1) s
        refine ⟨c :: t, by simp only [List.cons_append]; rw [← h1], ?_, ?_, ?_, ?_⟩
        · intro x hx
          rcases List.mem_cons.1 hx with rfl | hx
          · rw [hc]; simp
          · exact h2 x hx
        · simp only [List.length_cons]; rw [h3]; omega
        · simp only [List.filterMap_cons, hc]; rw [h4]; rfl
        · rcases h5 with h5 | h5
          · exact .inl (by simp [h5])
          · exact .inr h5

theorem readDigits_exact (r : Nat) (t rest : Txt) (k v n : Nat) (ht : ∀ c ∈ t, toDigit r c ≠ none) (hk : t.length < k)
    (hr : ∀ c ∈ rest.head?, toDigit r c = none) :
    readDigits r k v n (t ++ rest) = (valOf r v (t.filterMap (toDigit r)), n + t.length, rest) := by
  induction t generalizing k v n with
  | nil =>
    obtain ⟨k, rfl⟩ : ∃ j, k = j + 1 := ⟨k - 1, by simp at hk; omega⟩
    cases rest with
    | nil => rfl
    | cons c s =>
      have : toDigit r c = none := hr c (by simp)
      simp [readDigits, this, valOf]
  | cons c t ih =>
    obtain ⟨k, rfl⟩ : ∃ j, k = j + 1 := ⟨k - 1, by simp at hk; omega⟩
    cases hc : toDigit r c with
    | none => exact (ht c (by simp) hc).elim
    | some d =>
      simp only [List.cons_append, readDigits, hc, List.filterMap_cons]
      rw [ih k _ _ (fun x hx => ht x (by simp [hx])) (by simp at hk; omega)]
      simp [valOf]; omega

theorem toDigit_hex_iff (c : Char) : toDigit 16 c ≠ none ↔ c ∈ hexDigits := by
  rw [toDigit_hex]
  by_cases h : c ∈ hexDigits
  · simp [h]
  · simp [h]

theorem toDigit_lt {r : Nat} {c : Char} {d : Nat} (h : toDigit r c = some d) : d < r := by
  unfold toDigit at h
  obtain ⟨x, -, hx⟩ := Option.bind_eq_some_iff.1 h
  split at hx
  · rw [← Option.some.inj hx]; assumption
  · cases hx

theorem valOf_lt (r : Nat) (hr : 0 < r) (ds : List Nat) (h : ∀ d ∈ ds, d < r) (v m : Nat) (hv : v < r ^ m) :
    valOf r v ds < r ^ (m + ds.length) := by
  induction ds generalizing v m with
  | nil => simpa [valOf] using hv
  | cons d ds ih =>
    have hd := h d (by simp)
    have := ih (fun x hx => h x (by simp [hx])) (v * r + d) (m + 1) (by
      rw [pow_succ]
      calc v * r + d < v * r + r := by omega
        _ = (v + 1) * r := by ring
        _ ≤ r ^ m * r := Nat.mul_le_mul_right _ hv)
    simp only [valOf, List.foldl_cons, List.length_cons] at this ⊢
    rwa [show m + (ds.length + 1) = m + 1 + ds.length by omega]

theorem group_lt {t : Txt} {g : Nat} (h : Group t g) : g < 65536 := by
  obtain ⟨-, h2, -, rfl⟩ := h
  rw [← hexNumber_eq]
  have := valOf_lt 16 (by omega) (t.filterMap (toDigit 16)) (by
    intro d hd
    obtain ⟨c, -, hc⟩ := List.mem_filterMap.1 hd
    exact toDigit_lt hc) 0 0 (by simp)
  refine lt_of_lt_of_le this ?_
  have hl : (t.filterMap (toDigit 16)).length ≤ 4 := le_trans (List.length_filterMap_le _ _) h2
  exact le_trans (Nat.pow_le_pow_right (by omega) (show 0 + _ ≤ 4 by omega)) (by decide)

theorem readGroup_iff (s rest : Txt) (g : Nat) :
    readNumber 16 4 true 65536 s = some (g, rest) ↔
      ∃ t, Group t g ∧ s = t ++ rest ∧ ∀ c ∈ rest.head?, toDigit 16 c = none := by
  constructor
  · intro h
    obtain ⟨t, h1, h2, h3, h4, h5⟩ := readDigits_parts 16 (4 + 1) 0 0 s
    unfold readNumber at h
    simp only at h
    split at h
    · cases h
    rename_i hn
    split at h
    · cases h
    rename_i h0
    split at h
    · cases h
    split at h
    · simp only [Option.some.injEq, Prod.mk.injEq] at h
      obtain ⟨e1, e2⟩ := h
      have hl : t.length ≤ 4 := by rw [h3] at hn; omega
      refine ⟨t, ⟨?_, hl, fun c hc => (toDigit_hex_iff c).1 (h2 c hc), ?_⟩, ?_, ?_⟩
      · rintro rfl; exact h0 (by rw [h3]; rfl)
      · rw [← e1, h4, hexNumber_eq]
      · rw [← e2]; exact h1
      · rw [← e2]
        rcases h5 with h5 | h5
        · omega
        · exact h5
    · cases h
  · rintro ⟨t, hg, rfl, hr⟩
    have hlt := group_lt hg
    obtain ⟨h1, h2, h3, rfl⟩ := hg
    unfold readNumber
    rw [readDigits_exact 16 t rest 5 0 0 (fun c hc => (toDigit_hex_iff c).2 (h3 c hc)) (by omega) hr]
    have hp : 0 < t.length := List.length_pos_iff.2 h1
    simp only [Nat.zero_add]
    rw [if_neg (by omega), if_neg (by omega), if_neg (by simp), hexNumber_eq, if_pos hlt]

theorem readV4_group {t rest : Txt} (ht : ∀ c ∈ t, c ∈ hexDigits) (hr : ∀ c ∈ rest.head?, c = ':') :
    readV4 (t ++ rest) = none := by
  cases h : readV4 (t ++ rest) with
  | none => rfl
  | some r =>
    obtain ⟨a, r⟩ := r
    obtain ⟨pre, h1, h2, h3⟩ := readV4_consumes h
    exfalso
    have hdot : '.' ∉ t := fun hm => absurd (ht _ hm) (by decide)
    have : t.length < pre.length := by
      by_contra hlt
      have : pre = t.take pre.length := by
        have := congrArg (List.take pre.length) h1
        rw [List.take_left, List.take_append_of_le_length (by omega)] at this
        exact this.symm
      rw [this] at h2
      exact hdot (List.mem_of_mem_take h2)
    cases rest with
    | nil =>
      have := congrArg List.length h1
      simp at this; omega
    | cons c rest =>
      have hc : c = ':' := hr c (by simp)
      subst hc
      have hm : ':' ∈ pre := by
        have e := congrArg (fun l => l[t.length]?) h1
        simp only [List.getElem?_append_right (Nat.le_refl _), Nat.sub_self, List.getElem?_cons_zero,
          List.getElem?_append_left this] at e
        exact List.mem_of_getElem? e.symm
      rcases h3 _ hm with h | h
      · exact absurd h (by decide)
      · exact h rfl

theorem readV4_iff_text {s rest : Txt} {a : IPv4} (h : readV4 s = some (a, rest)) : ∃ t, V4Text t a ∧ s = t ++ rest := by
  unfold readV4 at h
  simp only [readSep, Nat.lt_irrefl, gt_iff_lt, ↓reduceIte, Option.bind_eq_bind, Option.bind_eq_some_iff,
    Nat.ofNat_pos, Nat.lt_one_iff, zero_lt_one] at h
  obtain ⟨⟨a1, s1⟩, h1, ⟨b1, s2⟩, ⟨t1, g1, h2⟩, ⟨c1, s3⟩, ⟨t2, g2, h3⟩, ⟨d1, s4⟩, ⟨t3, g3, h4⟩, h5⟩ := h
  obtain ⟨e1, q1⟩ := octet_canonical h1
  obtain ⟨e2, q2⟩ := octet_canonical h2
  obtain ⟨e3, q3⟩ := octet_canonical h3
  obtain ⟨e4, q4⟩ := octet_canonical h4
  have g1 := readChar_eq g1
  have g2 := readChar_eq g2
  have g3 := readChar_eq g3
  simp only [Option.some.injEq, Prod.mk.injEq] at h5
  obtain ⟨h5, rfl⟩ := h5
  refine ⟨showV4 a, (v4Text_iff _ a).1 (parseV4_show a), ?_⟩
  have hn : a.toNat = a1 * 2 ^ 24 + b1 * 2 ^ 16 + c1 * 2 ^ 8 + d1 := by
    rw [← h5, BitVec.toNat_ofNat]; omega
  have k1 : a.toNat / 2 ^ 24 = a1 := by omega
  have k2 : a.toNat / 2 ^ 16 % 256 = b1 := by omega
  have k3 : a.toNat / 2 ^ 8 % 256 = c1 := by omega
  have k4 : a.toNat % 256 = d1 := by omega
  unfold showV4
  rw [k1, k2, k3, k4]
  subst e4 g3 e3 g2 e2 g1 e1
  simp

/-- What stands before a group that is not the first. -/
def colon (i : Nat) : Txt := if i > 0 then [':'] else []

theorem readSep_colon {α : Type} (i : Nat) (f : Txt → Option (α × Txt)) (s : Txt) : readSep ':' i f (colon i ++ s) = f s := by
  unfold readSep colon
  split <;> simp [readChar]

theorem readSep_some {α : Type} {i : Nat} {f : Txt → Option (α × Txt)} {s : Txt} {r : α × Txt}
    (h : readSep ':' i f s = some r) : ∃ u, s = colon i ++ u ∧ f u = some r := by
  unfold readSep at h
  unfold colon
  split at h
  · rename_i hi
    obtain ⟨u, h1, h2⟩ := Option.bind_eq_some_iff.1 h
    exact ⟨u, by rw [if_pos hi, readChar_eq h1]; rfl, h2⟩
  · rename_i hi
    exact ⟨s, by rw [if_neg hi]; rfl, h⟩

theorem readGroups_sound (k i : Nat) (s rest : Txt) (gs : List Nat) (v4 : Bool) (h : readGroups k i s = (gs, v4, rest)) :
    gs.length ≤ k ∧ (gs = [] ∧ v4 = false ∧ s = rest ∨
      ∃ t, s = colon i ++ (t ++ rest) ∧ GroupsV4 t gs ∧ (v4 = false → Groups t gs)) := by
  induction k generalizing i s gs v4 with
  | zero =>
    simp only [readGroups, Prod.mk.injEq] at h
    obtain ⟨rfl, rfl, rfl⟩ := h
    exact ⟨by simp, .inl ⟨rfl, rfl, rfl⟩⟩
  | succ k ih =>
    unfold readGroups at h
    split at h
    · rename_i a s' hv
      simp only [Prod.mk.injEq] at h
      obtain ⟨rfl, rfl, rfl⟩ := h
      split at hv
      · rename_i hk
        obtain ⟨u, h1, h2⟩ := readSep_some hv
        obtain ⟨t, ht, rfl⟩ := readV4_iff_text h2
        exact ⟨by simp; omega, .inr ⟨t, h1, .v4 ht, by simp⟩⟩
      · cases hv
    · split at h
      · rename_i g s' hg
        obtain ⟨u, h1, h2⟩ := readSep_some hg
        obtain ⟨t, ht, rfl, -⟩ := (readGroup_iff _ _ _).1 h2
        generalize hr : readGroups k (i + 1) s' = r at h
        obtain ⟨gs', v4', rest'⟩ := r
        simp only [Prod.mk.injEq] at h
        obtain ⟨rfl, rfl, rfl⟩ := h
        obtain ⟨hl, hh⟩ := ih (i + 1) s' gs' v4' hr
        refine ⟨by simp; omega, .inr ?_⟩
        rcases hh with ⟨rfl, rfl, rfl⟩ | ⟨t', rfl, h3, h4⟩
        · exact ⟨t, h1, .one ht, fun _ => .one ht⟩
        · refine ⟨t ++ ':' :: t', by rw [h1]; simp [colon], .more ht h3, fun hv => .more ht (h4 hv)⟩
      · simp only [Prod.mk.injEq] at h
        obtain ⟨rfl, rfl, rfl⟩ := h
        exact ⟨by simp, .inl ⟨rfl, rfl, rfl⟩⟩

/-- What may follow the groups read: nothing, or two colons. -/
def Stop (rest : Txt) : Prop := rest = [] ∨ ∃ r, rest = ':' :: ':' :: r

theorem Stop.stops {rest : Txt} (h : Stop rest) (k i : Nat) : readGroups k i rest = ([], false, rest) := by
  have n4 (r : Txt) : readV4 (':' :: r) = none := rfl
  have n6 (r : Txt) : readNumber 16 4 true 65536 (':' :: r) = none := rfl
  have m4 : readV4 [] = none := rfl
  have m6 : readNumber 16 4 true 65536 [] = none := rfl
  cases k with
  | zero => rfl
  | succ k =>
    unfold readGroups
    obtain rfl | ⟨r, rfl⟩ := h <;> simp [readSep, readChar, n4, n6, m4, m6]

theorem Stop.colonHead {rest : Txt} (h : Stop rest) : ∀ c ∈ rest.head?, c = ':' := by
  obtain rfl | ⟨r, rfl⟩ := h <;> simp

theorem colon_noDigit {rest : Txt} (h : ∀ c ∈ rest.head?, c = ':') : ∀ c ∈ rest.head?, toDigit 16 c = none := by
  intro c hc; rw [h c hc]; rfl

theorem readGroups_step {t rest' : Txt} {g : Nat} (hg : Group t g) (hr : ∀ c ∈ rest'.head?, c = ':') (k i : Nat) :
    readGroups (k + 1) i (colon i ++ (t ++ rest')) =
      (g :: (readGroups k (i + 1) rest').1, (readGroups k (i + 1) rest').2.1, (readGroups k (i + 1) rest').2.2) := by
  rw [readGroups, readSep_colon, readSep_colon, readV4_group hg.2.2.1 hr,
    (readGroup_iff _ _ _).2 ⟨t, hg, rfl, colon_noDigit hr⟩]
  simp

theorem readGroups_plain {t : Txt} {gs : List Nat} (h : Groups t gs) (rest : Txt) (hs : Stop rest) (k i : Nat)
    (hk : gs.length ≤ k) : readGroups k i (colon i ++ (t ++ rest)) = (gs, false, rest) := by
  induction h generalizing k i with
  | one hg =>
    obtain ⟨k, rfl⟩ : ∃ j, k = j + 1 := ⟨k - 1, by simp at hk; omega⟩
    rw [readGroups_step hg hs.colonHead, hs.stops]
  | @more t g u gs hg _ ih =>
    obtain ⟨k, rfl⟩ : ∃ j, k = j + 1 := ⟨k - 1, by simp at hk; omega⟩
    rw [List.append_assoc, List.cons_append, readGroups_step hg (by simp)]
    have := ih k (i + 1) (by simp at hk; omega)
    simp only [colon, Nat.zero_lt_succ, gt_iff_lt, if_true, List.singleton_append] at this
    rw [this]

theorem readGroups_v4 {t : Txt} {gs : List Nat} (h : GroupsV4 t gs) (k i : Nat)
    (hk : gs.length ≤ k) : ∃ b, readGroups k i (colon i ++ t) = (gs, b, []) := by
  induction h generalizing k i with
  | @one t g hg =>
    obtain ⟨k, rfl⟩ : ∃ j, k = j + 1 := ⟨k - 1, by simp at hk; omega⟩
    have := readGroups_step hg (rest' := []) (by simp) k i
    rw [List.append_nil] at this
    exact ⟨false, by rw [this, Stop.stops (.inl rfl)]⟩
  | @v4 t a ht =>
    obtain ⟨k, rfl⟩ : ∃ j, k = j + 1 := ⟨k - 1, by simp at hk; omega⟩
    have : readV4 t = some (a, []) := by
      have h := (v4Text_iff t a).2 ht
      unfold parseV4 at h
      split at h
      · rename_i a' hr; rw [hr, Option.some.inj h]
      · cases h
    refine ⟨true, ?_⟩
    rw [readGroups, if_pos (by simp at hk; omega), readSep_colon, this]
  | @more t g u gs hg _ ih =>
    obtain ⟨k, rfl⟩ : ∃ j, k = j + 1 := ⟨k - 1, by simp at hk; omega⟩
    obtain ⟨b, hb⟩ := ih k (i + 1) (by simp at hk; omega)
    simp only [colon, Nat.zero_lt_succ, gt_iff_lt, if_true, List.singleton_append] at hb
    exact ⟨b, by rw [readGroups_step hg (by simp), hb]⟩

theorem groups_lt {t : Txt} {gs : List Nat} (h : GroupsV4 t gs) : ∀ g ∈ gs, g < 65536 := by
  induction h with
  | one hg => simpa using group_lt hg
  | @v4 t a _ => have := a.isLt; intro g hg; simp at hg; omega
  | more hg _ ih =>
    intro x hx
    rcases List.mem_cons.1 hx with rfl | hx
    · exact group_lt hg
    · exact ih x hx

theorem groups_groupsV4 {t : Txt} {gs : List Nat} (h : Groups t gs) : GroupsV4 t gs := by
  induction h with
  | one hg => exact .one hg
  | more hg _ ih => exact .more hg ih

theorem ofSegments_toNat (gs : List Nat) (h : ∀ g ∈ gs, g < 65536) (hl : gs.length = 8) :
    (ofSegments gs).toNat = groupsNumber gs := by
  unfold ofSegments groupsNumber
  rw [BitVec.toNat_ofNat, Nat.mod_eq_of_lt]
  have := valOf_lt 65536 (by omega) gs h 0 0 (by simp)
  rw [hl] at this
  exact this

theorem v6Text_iff (t : Txt) (a : IPv6) : parseV6 t = some a ↔ V6Text t a := by
  constructor
  · intro h
    unfold parseV6 at h
    split at h
    · rename_i a' hr
      have := Option.some.inj h
      subst this
      unfold readV6 at hr
      generalize hg : readGroups 8 0 t = r at hr
      obtain ⟨hd, v4, s⟩ := r
      obtain ⟨hl, hc⟩ := readGroups_sound _ _ _ _ _ _ hg
      simp only at hr
      split at hr
      · rename_i h8
        simp only [Option.some.injEq, Prod.mk.injEq] at hr
        obtain ⟨rfl, rfl⟩ := hr
        left
        rcases hc with ⟨rfl, -, -⟩ | ⟨u, rfl, h1, -⟩
        · simp at h8
        · refine ⟨hd, by simpa [colon] using h1, h8, ofSegments_toNat hd (groups_lt h1) h8⟩
      · rename_i h8
        split at hr
        · cases hr
        rename_i hv
        simp only [Option.bind_eq_bind, Option.bind_eq_some_iff] at hr
        obtain ⟨s1, e1, s2, e2, hr⟩ := hr
        have e1 := readChar_eq e1
        have e2 := readChar_eq e2
        subst e2 e1
        generalize hg2 : readGroups (8 - (hd.length + 1)) 0 s2 = r2 at hr
        obtain ⟨tl, v4', s3⟩ := r2
        simp only [Option.some.injEq, Prod.mk.injEq] at hr
        obtain ⟨rfl, rfl⟩ := hr
        obtain ⟨hl2, hc2⟩ := readGroups_sound _ _ _ _ _ _ hg2
        have hv : v4 = false := by simpa using hv
        right
        have hhead : ∃ th, t = th ++ ':' :: ':' :: s2 ∧ (th = [] ∧ hd = [] ∨ Groups th hd) := by
          rcases hc with ⟨rfl, -, rfl⟩ | ⟨u, rfl, -, h2⟩
          · exact ⟨[], rfl, .inl ⟨rfl, rfl⟩⟩
          · exact ⟨u, by simp [colon], .inr (h2 hv)⟩
        have htail : s2 = [] ∧ tl = [] ∨ GroupsV4 s2 tl := by
          rcases hc2 with ⟨rfl, -, rfl⟩ | ⟨u, rfl, h2, -⟩
          · exact .inl ⟨rfl, rfl⟩
          · exact .inr (by simpa [colon] using h2)
        obtain ⟨th, rfl, hth⟩ := hhead
        refine ⟨th, hd, s2, tl, hth, htail, by omega, rfl, ?_⟩
        rw [show 8 - hd.length - tl.length = 8 - (hd.length + tl.length) by omega]
        refine ofSegments_toNat _ ?_ (by simp; omega)
        intro g hgm
        simp only [List.mem_append, List.mem_replicate] at hgm
        rcases hgm with (h | h) | h
        · rcases hth with ⟨-, rfl⟩ | hth
          · simp at h
          · exact groups_lt (groups_groupsV4 hth) g h
        · omega
        · rcases htail with ⟨-, rfl⟩ | htail
          · simp at h
          · exact groups_lt htail g h
    · cases h
  · rintro (⟨gs, h1, h8, ha⟩ | ⟨th, h, tl, l, hh, hl, hlen, rfl, ha⟩)
    · obtain ⟨b, hb⟩ := readGroups_v4 h1 8 0 (by omega)
      have hb : readGroups 8 0 t = (gs, b, []) := by simpa [colon] using hb
      unfold parseV6 readV6
      rw [hb]
      simp only [h8, if_true]
      rw [Option.some.injEq]
      exact BitVec.eq_of_toNat_eq (by rw [ofSegments_toNat gs (groups_lt h1) h8, ha])
    · have h1 : readGroups 8 0 (th ++ ':' :: ':' :: tl) = (h, false, ':' :: ':' :: tl) := by
        rcases hh with ⟨rfl, rfl⟩ | hh
        · exact Stop.stops (.inr ⟨tl, rfl⟩) 8 0
        · have := readGroups_plain hh (':' :: ':' :: tl) (.inr ⟨tl, rfl⟩) 8 0 (by omega)
          simpa [colon] using this
      have h2 : ∃ b, readGroups (8 - (h.length + 1)) 0 tl = (l, b, []) := by
        rcases hl with ⟨rfl, rfl⟩ | hl
        · exact ⟨false, Stop.stops (.inl rfl) _ 0⟩
        · obtain ⟨b, hb⟩ := readGroups_v4 hl (8 - (h.length + 1)) 0 (by omega)
          exact ⟨b, by simpa [colon] using hb⟩
      obtain ⟨b, h2⟩ := h2
      unfold parseV6 readV6
      rw [h1]
      simp only [show ¬ h.length = 8 by omega, if_false, readChar, if_true, Option.bind_eq_bind, Option.bind_some, h2,
        Bool.false_eq_true]
      rw [Option.some.injEq]
      apply BitVec.eq_of_toNat_eq
      rw [show 8 - h.length - l.length = 8 - (h.length + l.length) by omega, ha]
      refine ofSegments_toNat _ ?_ (by simp; omega)
      intro g hgm
      simp only [List.mem_append, List.mem_replicate] at hgm
      rcases hgm with (hg | hg) | hg
      · rcases hh with ⟨-, rfl⟩ | hh
        · simp at hg
        · exact groups_lt (groups_groupsV4 hh) g hg
      · omega
      · rcases hl with ⟨-, rfl⟩ | hl
        · simp at hg
        · exact groups_lt hl g hg

/-! ## Communities -/

theorem isWs_iff (c : Char) : isWs c = true ↔ c.toNat ∈ whiteSpace := by
  unfold isWs whiteSpace
  simp only [Bool.or_eq_true, Bool.and_eq_true, decide_eq_true_eq, List.mem_cons, List.not_mem_nil, or_false]
  omega

theorem dropWhile_split (p : Char → Bool) (s : Txt) : ∃ l, s = l ++ s.dropWhile p ∧ ∀ c ∈ l, p c = true := by
  induction s with
  | nil => exact ⟨[], rfl, by simp⟩
  | cons c s ih =>
    obtain ⟨l, h1, h2⟩ := ih
    rw [List.dropWhile_cons]
    split
    · rename_i hc
      refine ⟨c :: l, by rw [List.cons_append, ← h1], fun x hx => ?_⟩
      rcases List.mem_cons.1 hx with rfl | hx
      · exact hc
      · exact h2 x hx
    · exact ⟨[], rfl, by simp⟩

theorem trim_split (s : Txt) : ∃ l r, s = l ++ trim s ++ r ∧ (∀ c ∈ l, isWs c = true) ∧ ∀ c ∈ r, isWs c = true := by
  obtain ⟨l, h1, h2⟩ := dropWhile_split isWs s
  obtain ⟨r, h3, h4⟩ := dropWhile_split isWs (s.dropWhile isWs).reverse
  refine ⟨l, r.reverse, ?_, h2, fun c hc => h4 c (by simpa using hc)⟩
  have := congrArg List.reverse h3
  rw [List.reverse_reverse, List.reverse_append] at this
  unfold trim
  rw [List.append_assoc, ← this]
  exact h1

theorem dropWhile_all {p : Char → Bool} (l m : Txt) (h : ∀ c ∈ l, p c = true) : (l ++ m).dropWhile p = m.dropWhile p := by
  induction l with
  | nil => rfl
  | cons c l ih =>
    rw [List.cons_append, List.dropWhile_cons, if_pos (h c (by simp)), ih fun x hx => h x (by simp [hx])]

theorem dropWhile_none {p : Char → Bool} (m r : Txt) (hm : m ≠ []) (h : ∀ c ∈ m, p c = false) :
    (m ++ r).dropWhile p = m ++ r := by
  cases m with
  | nil => exact (hm rfl).elim
  | cons c m => rw [List.cons_append, List.dropWhile_cons, if_neg (by simp [h c (by simp)])]

theorem trim_middle (l m r : Txt) (hm : m ≠ []) (hl : ∀ c ∈ l, isWs c = true) (hr : ∀ c ∈ r, isWs c = true)
    (h : ∀ c ∈ m, isWs c = false) : trim (l ++ m ++ r) = m := by
  unfold trim
  rw [List.append_assoc, dropWhile_all l _ hl, dropWhile_none m r hm h, List.reverse_append,
    dropWhile_all _ _ (fun c hc => hr c (by simpa using hc)), ← List.append_nil m.reverse,
    dropWhile_none _ _ (by simpa using hm) (fun c hc => h c (by simpa using hc)), List.append_nil, List.reverse_reverse]

theorem number_ne {t : Txt} {n : Nat} (h : Number t n) : t ≠ [] := by
  obtain ⟨p, ds, h1, -, rfl, -⟩ := h
  cases p <;> simpa using h1

theorem number_chars {t : Txt} {n : Nat} (h : Number t n) : ∀ c ∈ t, c ≠ ':' ∧ isWs c = false ∧ c ≠ 'n' := by
  obtain ⟨p, ds, -, h2, rfl, -⟩ := h
  intro c hc
  rcases List.mem_append.1 hc with hc | hc
  · cases p
    · simp at hc
    · simp at hc; subst hc; decide
  · obtain ⟨d, hd, rfl⟩ := List.mem_map.1 hc
    exact (by decide : ∀ d < 10, Nat.digitChar d ≠ ':' ∧ isWs (Nat.digitChar d) = false ∧ Nat.digitChar d ≠ 'n') d (h2 d hd)

theorem pair_eq (h l : U16) : ((h.setWidth 32 <<< 16) ||| l.setWidth 32 : U32).toNat = h.toNat * 65536 + l.toNat := by
  have h1 := h.isLt
  have h2 := l.isLt
  simp only [BitVec.toNat_or, BitVec.toNat_shiftLeft, BitVec.toNat_setWidth]
  rw [Nat.mod_eq_of_lt (show l.toNat < 2 ^ 32 by omega), Nat.mod_eq_of_lt (show h.toNat < 2 ^ 32 by omega), Nat.shiftLeft_eq,
    Nat.mod_eq_of_lt (by omega), ← Nat.shiftLeft_eq, ← Nat.shiftLeft_add_eq_or_of_lt h2, Nat.shiftLeft_eq]

theorem parse_no_name {s : Txt} (h : s.head? ≠ some 'n') :
    BgpCommunity.parse s = match split (· = ':') (trim s) with
    | [] => none
    | [a] => (parseU 32 a).bind fun v => some ⟨v⟩
    | [a, b] => (parseU 16 a).bind fun h => (parseU 16 b).bind fun l => some ⟨(h.setWidth 32 <<< 16) ||| l.setWidth 32⟩
    | _ => (parseU 32 s).bind fun v => some ⟨v⟩ := by
  have hn (t : Txt) : s ≠ 'n' :: t := by rintro rfl; exact h rfl
  unfold BgpCommunity.parse
  rw [if_neg (by rintro (e | e | e) <;> exact hn _ e), if_neg (by rintro (e | e) <;> exact hn _ e),
    if_neg (by intro e; exact hn _ e), if_neg (by rintro (e | e) <;> exact hn _ e)]
  rfl

theorem intercalate_one (c : Char) (a : Txt) : List.intercalate [c] [a] = a := by simp [List.intercalate]

theorem intercalate_two (c : Char) (a b : Txt) : List.intercalate [c] [a, b] = a ++ c :: b := by simp [List.intercalate]

theorem communityText_iff (t : Txt) (c : BgpCommunity) : BgpCommunity.parse t = some c ↔ CommunityText t c := by
  constructor
  · intro h
    by_cases hn : ∃ e ∈ communityNames, t = e.1.toList
    · obtain ⟨e, he, rfl⟩ := hn
      refine .inl ⟨e, he, rfl, ?_⟩
      have hall : ∀ e ∈ communityNames, (BgpCommunity.parse e.1.toList).map (fun c => c.value.toNat) = some e.2 := by decide
      have := hall e he
      rw [h] at this
      exact Option.some.inj this
    · right
      unfold BgpCommunity.parse at h
      have hne (n : String) (v : Nat) (hm : (n, v) ∈ communityNames) : t ≠ n.toList := fun e => hn ⟨_, hm, e⟩
      rw [if_neg (by rintro (e | e | e)
                     · exact hne _ 0xffffff01 (by decide) e
                     · exact hne _ 0xffffff01 (by decide) e
                     · exact hne _ 0xffffff01 (by decide) e),
        if_neg (by rintro (e | e)
                   · exact hne _ 0xffffff02 (by decide) e
                   · exact hne _ 0xffffff02 (by decide) e),
        if_neg (by intro e; exact hne _ 0xffffff03 (by decide) e),
        if_neg (by rintro (e | e)
                   · exact hne _ 0xffffff04 (by decide) e
                   · exact hne _ 0xffffff04 (by decide) e)] at h
      obtain ⟨l, r, ht, hl, hr⟩ := trim_split t
      refine ⟨l, trim t, r, ht, fun x hx => (isWs_iff x).1 (hl x hx), fun x hx => (isWs_iff x).1 (hr x hx), ?_⟩
      split at h
      · cases h
      · rename_i a hs
        obtain ⟨-, -, e⟩ := (split_iff _ _ _).1 hs
        rw [intercalate_one] at e
        obtain ⟨v, h1, h2⟩ := Option.bind_eq_some_iff.1 h
        rw [← Option.some.inj h2, e]
        exact .inl ((parseU_iff _ _).1 h1)
      · rename_i a b hs
        obtain ⟨-, -, e⟩ := (split_iff _ _ _).1 hs
        rw [intercalate_two] at e
        obtain ⟨x, h1, h2⟩ := Option.bind_eq_some_iff.1 h
        obtain ⟨y, h3, h4⟩ := Option.bind_eq_some_iff.1 h2
        rw [← Option.some.inj h4]
        exact .inr ⟨a, b, x.toNat, y.toNat, e, (parseU_iff _ _).1 h1, (parseU_iff _ _).1 h3, x.isLt, y.isLt, pair_eq x y⟩
      · rename_i h0 h1 h2
        obtain ⟨v, h3, -⟩ := Option.bind_eq_some_iff.1 h
        exfalso
        have hc : ':' ∈ t := by
          generalize hs : split (· = ':') (trim t) = q at h0 h1 h2
          obtain ⟨-, -, e⟩ := (split_iff _ _ _).1 hs
          rcases q with _ | ⟨a, _ | ⟨b, q⟩⟩
          · exact (h0 rfl).elim
          · exact (h1 a rfl).elim
          · rw [ht, e, intercalate_cons]; simp
        exact (number_chars ((parseU_iff _ _).1 h3) ':' hc).1 rfl
  · rintro (⟨e, he, rfl, hv⟩ | ⟨l, m, r, rfl, hl, hr, h⟩)
    · have hall : ∀ e ∈ communityNames, (BgpCommunity.parse e.1.toList).map (fun c => c.value.toNat) = some e.2 := by decide
      have := hall e he
      cases hp : BgpCommunity.parse e.1.toList with
      | none => rw [hp] at this; cases this
      | some d =>
        rw [hp] at this
        have : d.value.toNat = e.2 := Option.some.inj this
        rw [← hv] at this
        obtain ⟨d⟩ := d
        obtain ⟨c⟩ := c
        simp only [BitVec.toNat_inj] at this
        rw [this]
    · have hm : m ≠ [] ∧ ∀ c ∈ m, isWs c = false ∧ c ≠ 'n' := by
        rcases h with h | ⟨x, y, i, j, rfl, hx, hy, -⟩
        · exact ⟨number_ne h, fun c hc => (number_chars h c hc).2⟩
        · refine ⟨by simp, fun c hc => ?_⟩
          simp only [List.mem_append, List.mem_cons] at hc
          rcases hc with hc | rfl | hc
          · exact (number_chars hx c hc).2
          · decide
          · exact (number_chars hy c hc).2
      have htr := trim_middle l m r hm.1 (fun c hc => (isWs_iff c).2 (hl c hc)) (fun c hc => (isWs_iff c).2 (hr c hc))
        (fun c hc => (hm.2 c hc).1)
      have hnn : 'n' ∉ l ++ m ++ r := by
        intro hc
        simp only [List.mem_append] at hc
        rcases hc with (hc | hc) | hc
        · exact absurd (hl _ hc) (by decide)
        · exact (hm.2 _ hc).2 rfl
        · exact absurd (hr _ hc) (by decide)
      rw [parse_no_name (fun e => hnn (List.mem_of_mem_head? e)), htr]
      rcases h with h | ⟨x, y, i, j, rfl, hx, hy, hi, hj, hv⟩
      · rw [(split_iff ':' m [m]).2 ⟨by simp, by simpa using fun hc => (number_chars h ':' hc).1 rfl, (intercalate_one _ _).symm⟩]
        simp only [(parseU_iff m c.value).2 h, Option.bind_some]
      · rw [(split_iff ':' (x ++ ':' :: y) [x, y]).2 ⟨by simp, by
          intro p hp
          simp only [List.mem_cons, List.not_mem_nil, or_false] at hp
          rcases hp with rfl | rfl
          · exact fun hc => (number_chars hx ':' hc).1 rfl
          · exact fun hc => (number_chars hy ':' hc).1 rfl, (intercalate_two _ _ _).symm⟩]
        have ex : parseU 16 x = some (BitVec.ofNat 16 i) := by
          rw [parseU_iff, BitVec.toNat_ofNat, Nat.mod_eq_of_lt hi]; exact hx
        have ey : parseU 16 y = some (BitVec.ofNat 16 j) := by
          rw [parseU_iff, BitVec.toNat_ofNat, Nat.mod_eq_of_lt hj]; exact hy
        simp only [ex, ey, Option.bind_some, Option.some.injEq]
        obtain ⟨c⟩ := c
        congr 1
        apply BitVec.eq_of_toNat_eq
        rw [pair_eq, hv, BitVec.toNat_ofNat, BitVec.toNat_ofNat, Nat.mod_eq_of_lt hi, Nat.mod_eq_of_lt hj]

theorem split_mem (p : Char → Bool) (t u : Txt) : u ∈ split p t ↔ ∃ pre post, t = pre ++ u ++ post ∧
    (∀ c ∈ u, p c = false) ∧ (∀ c ∈ pre.getLast?, p c = true) ∧ (∀ c ∈ post.head?, p c = true) := by
  have key : ∀ t : Txt, ∃ h r, split p t = h :: r ∧
      (∀ u, u = h ↔ ∃ post, t = u ++ post ∧ (∀ c ∈ u, p c = false) ∧ ∀ c ∈ post.head?, p c = true) ∧
      (∀ u, u ∈ r ↔ ∃ pre post, pre ≠ [] ∧ t = pre ++ u ++ post ∧ (∀ c ∈ u, p c = false) ∧
        (∀ c ∈ pre.getLast?, p c = true) ∧ ∀ c ∈ post.head?, p c = true) := by
    intro t
    induction t with
    | nil =>
      refine ⟨[], [], rfl, fun u => ?_, fun u => ?_⟩
      · constructor
        · rintro rfl; exact ⟨[], rfl, by simp, by simp⟩
        · rintro ⟨post, h, -⟩; exact (List.append_eq_nil_iff.1 h.symm).1
      · constructor
        · simp
        · rintro ⟨pre, post, h1, h2, -⟩
          rw [List.append_assoc] at h2
          exact (h1 (List.append_eq_nil_iff.1 h2.symm).1).elim
    | cons c t ih =>
      obtain ⟨h, r, h1, h2, h3⟩ := ih
      unfold split
      rw [h1]
      simp only
      by_cases hc : p c = true
      · rw [if_pos hc]
        refine ⟨[], h :: r, rfl, fun u => ?_, fun u => ?_⟩
        · constructor
          · rintro rfl; exact ⟨c :: t, rfl, by simp, by simpa using hc⟩
          · rintro ⟨post, e, hu, -⟩
            cases u with
            | nil => rfl
            | cons d u =>
              simp only [List.cons_append, List.cons.injEq] at e
              rw [← e.1] at hu
              exact absurd (hu c (by simp)) (by simp [hc])
        · rw [List.mem_cons, h2, h3]
          constructor
          · rintro (⟨post, rfl, a, b⟩ | ⟨pre, post, a, rfl, b, d, e⟩)
            · exact ⟨[c], post, by simp, rfl, a, by simpa using hc, b⟩
            · refine ⟨c :: pre, post, by simp, rfl, b, ?_, e⟩
              rw [List.getLast?_cons, List.getLast?_eq_getLast_of_ne_nil a]
              rw [List.getLast?_eq_getLast_of_ne_nil a] at d
              simpa using d
          · rintro ⟨pre, post, a, e, b, d, f⟩
            cases pre with
            | nil => exact (a rfl).elim
            | cons x pre =>
              simp only [List.cons_append, List.cons.injEq] at e
              by_cases hp : pre = []
              · subst hp
                exact .inl ⟨post, by simpa using e.2, b, f⟩
              · refine .inr ⟨pre, post, hp, e.2, b, ?_, f⟩
                rw [List.getLast?_cons, List.getLast?_eq_getLast_of_ne_nil hp] at d
                rw [List.getLast?_eq_getLast_of_ne_nil hp]
                simpa using d
      · rw [if_neg hc]
        refine ⟨c :: h, r, rfl, fun u => ?_, fun u => ?_⟩
        · constructor
          · rintro rfl
            obtain ⟨post, e, a, b⟩ := (h2 h).1 rfl
            refine ⟨post, by rw [e]; rfl, ?_, b⟩
            intro x hx
            rcases List.mem_cons.1 hx with rfl | hx
            · simpa using hc
            · exact a x hx
          · rintro ⟨post, e, a, b⟩
            cases u with
            | nil =>
              rw [List.nil_append] at e
              rw [← e] at b
              exact absurd (b c (by simp)) hc
            | cons d u =>
              simp only [List.cons_append, List.cons.injEq] at e
              rw [e.1, (h2 u).2 ⟨post, e.2, fun x hx => a x (by simp [hx]), b⟩]
        · rw [h3]
          constructor
          · rintro ⟨pre, post, a, rfl, b, d, e⟩
            refine ⟨c :: pre, post, by simp, rfl, b, ?_, e⟩
            rw [List.getLast?_cons, List.getLast?_eq_getLast_of_ne_nil a]
            rw [List.getLast?_eq_getLast_of_ne_nil a] at d
            simpa using d
          · rintro ⟨pre, post, a, e, b, d, f⟩
            cases pre with
            | nil => exact (a rfl).elim
            | cons x pre =>
              simp only [List.cons_append, List.cons.injEq] at e
              have hp : pre ≠ [] := by
                rintro rfl
                rw [← e.1] at d
                exact hc (d c (by simp))
              refine ⟨pre, post, hp, e.2, b, ?_, f⟩
              rw [List.getLast?_cons, List.getLast?_eq_getLast_of_ne_nil hp] at d
              rw [List.getLast?_eq_getLast_of_ne_nil hp]
              simpa using d
  obtain ⟨h, r, h1, h2, h3⟩ := key t
  rw [h1, List.mem_cons, h2, h3]
  constructor
  · rintro (⟨post, rfl, a, b⟩ | ⟨pre, post, -, e⟩)
    · exact ⟨[], post, rfl, a, by simp, b⟩
    · exact ⟨pre, post, e⟩
  · rintro ⟨pre, post, e⟩
    by_cases hp : pre = []
    · subst hp
      exact .inl ⟨post, by simpa using e.1, e.2.1, e.2.2.2⟩
    · exact .inr ⟨pre, post, hp, e⟩

end Zbgp
