import Verif.Model.Text
import Verif.Lemmas.Bytes

namespace Zbgp

open Std

/-! ## Numbers -/

theorem charVal_digitChar : ∀ d < 16, charVal (Nat.digitChar d) = some d := by decide

theorem toDigit_digitChar {r d : Nat} (h : d < r) (hr : r ≤ 16) : toDigit r (Nat.digitChar d) = some d := by
  unfold toDigit; rw [charVal_digitChar d (by omega)]; simp [h]

/-- value of a list of digits -/
def valOf (b acc : Nat) (ds : List Nat) : Nat := ds.foldl (fun a d => a * b + d) acc

/-- the digits of a number -/
theorem toDigits_spec (b : Nat) (hb : 1 < b) (n : Nat) :
    ∃ ds : List Nat, Nat.toDigits b n = ds.map Nat.digitChar ∧ (∀ d ∈ ds, d < b) ∧ valOf b 0 ds = n ∧ ds ≠ [] ∧
      (ds.head? = some 0 → n = 0) := by
  induction n using Nat.strongRecOn with
  | ind n ih =>
    rw [Nat.toDigits_eq_if hb]
    split
    · rename_i h
      exact ⟨[n], by simp, by simpa using h, by simp [valOf], by simp, by simp⟩
    · rename_i h
      obtain ⟨ds, h1, h2, h3, h4, h5⟩ := ih (n / b) (Nat.div_lt_self (by omega) hb)
      refine ⟨ds ++ [n % b], by simp [h1], ?_, ?_, by simp, ?_⟩
      · intro d hd
        rcases List.mem_append.1 hd with hd | hd
        · exact h2 d hd
        · simp only [List.mem_singleton] at hd; subst hd; exact Nat.mod_lt _ (by omega)
      · simp only [valOf, List.foldl_append, List.foldl_cons, List.foldl_nil] at h3 ⊢
        rw [h3, Nat.mul_comm]; exact Nat.div_add_mod n b
      · intro hh
        exfalso
        have : ds.head? = some 0 := by
          cases ds with
          | nil => exact (h4 rfl).elim
          | cons a t => simpa using hh
        have := h5 this
        have := (Nat.div_pos_iff (a := n) (b := b)).2 ⟨by omega, by omega⟩
        omega

theorem mem_toDigits {b n : Nat} (hb : 1 < b) (hb' : b ≤ 16) {c : Char} (h : c ∈ Nat.toDigits b n) :
    ∃ d < b, c = Nat.digitChar d := by
  obtain ⟨ds, h1, h2, -⟩ := toDigits_spec b hb n
  rw [h1, List.mem_map] at h
  obtain ⟨d, hd, rfl⟩ := h
  exact ⟨d, h2 d hd, rfl⟩

theorem digitChar_ne : ∀ d < 16, Nat.digitChar d ≠ ':' ∧ Nat.digitChar d ≠ '/' ∧ Nat.digitChar d ≠ '@' ∧ Nat.digitChar d ≠ '.' ∧
    Nat.digitChar d ≠ ',' ∧ Nat.digitChar d ≠ ' ' ∧ Nat.digitChar d ≠ '\t' ∧ Nat.digitChar d ≠ '+' ∧ Nat.digitChar d ≠ 'n' ∧
    isWs (Nat.digitChar d) = false := by decide

theorem digits_map (ds : List Nat) (h : ∀ d ∈ ds, d < 10) (acc : Nat) :
    digits acc (ds.map Nat.digitChar) = some (valOf 10 acc ds) := by
  induction ds generalizing acc with
  | nil => rfl
  | cons d ds ih =>
    simp only [List.map_cons, digits, toDigit_digitChar (h d (by simp)) (by omega)]
    rw [ih (fun x hx => h x (by simp [hx]))]
    rfl

theorem parseU_dec (w n : Nat) (h : n < 2 ^ w) : parseU w (dec n) = some (BitVec.ofNat w n) := by
  obtain ⟨ds, h1, h2, h3, h4, -⟩ := toDigits_spec 10 (by omega) n
  cases ds with
  | nil => exact (h4 rfl).elim
  | cons d t =>
    have hd := h2 d (by simp)
    have hne := (digitChar_ne d (by omega)).2.2.2.2.2.2.2.1
    have hbody : stripPlus (dec n) = (d :: t).map Nat.digitChar := by
      unfold dec stripPlus; rw [h1]; simp only [List.map_cons]
      split
      · rename_i hc; exact (hne (List.cons.inj hc).1).elim
      · rfl
    unfold parseU
    rw [hbody, digits_map _ h2, h3]
    simp [h]

theorem parseU_dec' {w : Nat} (x : BitVec w) : parseU w (dec x.toNat) = some x := by
  rw [parseU_dec _ _ x.isLt]; simp

/-! ## Splitting -/

theorem split_none {p : Char → Bool} {a : Txt} (h : ∀ c ∈ a, p c = false) : split p a = [a] := by
  induction a with
  | nil => rfl
  | cons c t ih => simp [split, ih (fun x hx => h x (by simp [hx])), h c (by simp)]

theorem split_ne_nil (p : Char → Bool) (a : Txt) : split p a ≠ [] := by
  cases a with
  | nil => simp [split]
  | cons c t =>
    unfold split
    split
    · simp
    · split <;> simp

theorem split_append {p : Char → Bool} {a b : Txt} {s : Char} (h : ∀ c ∈ a, p c = false) (hs : p s = true) :
    split p (a ++ s :: b) = a :: split p b := by
  induction a with
  | nil =>
    simp only [List.nil_append, split, hs]
    split
    · rename_i hn; exact (split_ne_nil p b hn).elim
    · rename_i h t ht; simp [ht]
  | cons c t ih =>
    rw [List.cons_append, split, ih (fun x hx => h x (by simp [hx]))]
    simp [h c (by simp)]

/-! ## Reading digits -/

theorem readDigits_map {r : Nat} (hr : r ≤ 16) (ds : List Nat) (h : ∀ d ∈ ds, d < r) (rest : Txt)
    (hs : ∀ c ∈ rest.head?, toDigit r c = none) (k v n : Nat) (hk : ds.length ≤ k) :
    readDigits r k v n (ds.map Nat.digitChar ++ rest) = (valOf r v ds, n + ds.length, rest) := by
  induction ds generalizing k v n with
  | nil =>
    cases k with
    | zero => simp [readDigits, valOf]
    | succ k =>
      cases rest with
      | nil => simp [readDigits, valOf]
      | cons c t => simp [readDigits, valOf, hs c (by simp)]
  | cons d ds ih =>
    obtain ⟨k, rfl⟩ : ∃ j, k = j + 1 := ⟨k - 1, by simp at hk; omega⟩
    simp only [List.map_cons, List.cons_append, readDigits, toDigit_digitChar (h d (by simp)) hr]
    rw [ih (fun x hx => h x (by simp [hx])) _ _ _ (by simp at hk; omega)]
    simp [valOf]; omega

theorem readNumber_toDigits {r max bound n : Nat} (zeros : Bool) (hr1 : 1 < r) (hr : r ≤ 16) (hm : 0 < max) (hn : n < r ^ max)
    (hb : n < bound) (rest : Txt) (hs : ∀ c ∈ rest.head?, toDigit r c = none) :
    readNumber r max zeros bound (Nat.toDigits r n ++ rest) = some (n, rest) := by
  obtain ⟨ds, h1, h2, h3, h4, h5⟩ := toDigits_spec r hr1 n
  have hlen : ds.length ≤ max := by
    have := (Nat.length_toDigits_le_iff (n := n) hr1 hm).2 hn
    rwa [h1, List.length_map] at this
  unfold readNumber
  rw [h1, readDigits_map hr ds h2 rest hs _ _ _ (by omega)]
  simp only [Nat.zero_add]
  have h0 : ds.length ≠ 0 := by simpa using h4
  rw [if_neg (by omega), if_neg h0, if_neg, h3, if_pos hb]
  rintro ⟨-, hh, hl⟩
  cases ds with
  | nil => exact h4 rfl
  | cons d t =>
    simp only [List.map_cons, List.cons_append, List.head?_cons, Option.some.injEq, Nat.digitChar_eq_zero] at hh
    subst hh
    have hz := h5 rfl
    subst hz
    rw [Nat.toDigits_zero] at h1
    have := congrArg List.length h1
    simp at this
    simp [this] at hl

/-! ## IPv4 addresses -/

theorem digitStop {c : Char} (hc : c = '.' ∨ c = '/' ∨ c = '@' ∨ c = ':') (r : Nat) : toDigit r c = none := by
  rcases hc with rfl | rfl | rfl | rfl <;> rfl

theorem ipv4_value (a : IPv4) : BitVec.ofNat 32 (a.toNat / 2 ^ 24 * 2 ^ 24 + a.toNat / 2 ^ 16 % 256 * 2 ^ 16 +
    a.toNat / 2 ^ 8 % 256 * 2 ^ 8 + a.toNat % 256) = a := by
  apply BitVec.eq_of_toNat_eq
  have := a.isLt
  rw [BitVec.toNat_ofNat]
  omega

theorem readV4_show (a : IPv4) (rest : Txt) (hs : ∀ c ∈ rest.head?, toDigit 10 c = none) :
    readV4 (showV4 a ++ rest) = some (a, rest) := by
  have ha := a.isLt
  have oct : ∀ n < 256, ∀ rest : Txt, (∀ c ∈ rest.head?, toDigit 10 c = none) →
      readNumber 10 3 false 256 (dec n ++ rest) = some (n, rest) := by
    intro n hn rest hs
    exact readNumber_toDigits false (by omega) (by omega) (by omega) (by omega) hn rest hs
  have dot : ∀ t : Txt, ∀ c ∈ ('.' :: t).head?, toDigit 10 c = none := by
    intro t c hc; simp at hc; subst hc; rfl
  unfold readV4 showV4
  simp only [List.append_assoc, List.cons_append]
  simp only [readSep, Nat.lt_irrefl, gt_iff_lt, ↓reduceIte, Nat.zero_lt_succ]
  rw [oct _ (by omega) _ (dot _)]
  simp only [Option.bind_eq_bind, Option.bind_some, readChar, ↓reduceIte]
  rw [oct _ (by omega) _ (dot _)]
  simp only [Option.bind_some, readChar, ↓reduceIte]
  rw [oct _ (by omega) _ (dot _)]
  simp only [Option.bind_some, readChar, ↓reduceIte]
  rw [oct _ (by omega) _ hs]
  simp only [Option.bind_some, ipv4_value]

theorem parseV4_show (a : IPv4) : parseV4 (showV4 a) = some a := by
  have := readV4_show a [] (by simp)
  rw [List.append_nil] at this
  simp [parseV4, this]

/-- characters of numbers and addresses -/
def IsHexDigit (c : Char) : Prop := ∃ d < 16, c = Nat.digitChar d

theorem mem_dec {n : Nat} {c : Char} (h : c ∈ dec n) : IsHexDigit c := by
  obtain ⟨d, h1, h2⟩ := mem_toDigits (by omega) (by omega) h
  exact ⟨d, by omega, h2⟩

theorem mem_hex {n : Nat} {c : Char} (h : c ∈ hex n) : IsHexDigit c := mem_toDigits (by omega) (by omega) h

theorem mem_hex2 {n : Nat} {c : Char} (h : c ∈ hex2 n) : IsHexDigit c := by
  unfold hex2 at h
  split at h
  · rcases List.mem_cons.1 h with rfl | h
    · exact ⟨0, by omega, rfl⟩
    · exact mem_hex h
  · exact mem_hex h

theorem IsHexDigit.ne {c : Char} (h : IsHexDigit c) : c ≠ ':' ∧ c ≠ '/' ∧ c ≠ '@' ∧ c ≠ '.' ∧ c ≠ ',' ∧ c ≠ ' ' ∧ c ≠ '\t' ∧
    c ≠ '+' ∧ c ≠ 'n' ∧ isWs c = false := by
  obtain ⟨d, hd, rfl⟩ := h
  exact digitChar_ne d hd

theorem mem_showV4 {a : IPv4} {c : Char} (h : c ∈ showV4 a) : IsHexDigit c ∨ c = '.' := by
  unfold showV4 at h
  simp only [List.mem_append, List.mem_cons, List.append_assoc, List.cons_append] at h
  rcases h with h | h | h | h | h | h | h
  all_goals first | exact .inl (mem_dec h) | exact .inr h

theorem showV4_no_slash {a : IPv4} {c : Char} (h : c ∈ showV4 a) : c ≠ '/' ∧ c ≠ '@' ∧ c ≠ ':' := by
  rcases mem_showV4 h with h | rfl
  · exact ⟨h.ne.2.1, h.ne.2.2.1, h.ne.1⟩
  · decide

theorem v4_text (x : BgpAddrV4) : BgpAddrV4.parse x.display = some x := by
  unfold BgpAddrV4.parse BgpAddrV4.display
  rw [split_append (fun c hc => by simpa using (showV4_no_slash hc).1) (by simp),
    split_none (fun c hc => by simpa using (mem_dec hc).ne.2.1)]
  simp [parseV4_show, parseU_dec']

/-! ## Route distinguishers -/

theorem rd_text (r : BgpRD) (h : r.rdh >>> 16 ≠ 1) : BgpRD.parse r.display = some r := by
  unfold BgpRD.parse BgpRD.display
  rw [if_neg h, split_append (fun c hc => by simpa using (mem_dec hc).ne.1) (by simp),
    split_none (fun c hc => by simpa using (mem_dec hc).ne.1)]
  simp [parseU_dec']

theorem digits_bad {s : Txt} {c : Char} (hc : c ∈ s) (h : toDigit 10 c = none) (acc : Nat) : digits acc s = none := by
  induction s generalizing acc with
  | nil => simp at hc
  | cons a t ih =>
    unfold digits
    cases ha : toDigit 10 a with
    | none => rfl
    | some d =>
      rcases List.mem_cons.1 hc with rfl | hc
      · rw [h] at ha; cases ha
      · exact ih hc _

theorem parseU_bad {w : Nat} {s : Txt} {c : Char} (hc : c ∈ s) (h : toDigit 10 c = none) (hp : c ≠ '+') : parseU w s = none := by
  unfold parseU
  split
  · rfl
  · have : c ∈ stripPlus s := by
      unfold stripPlus
      split
      · rename_i r
        rcases List.mem_cons.1 hc with rfl | hc
        · exact (hp rfl).elim
        · exact hc
      · exact hc
    rw [digits_bad this h]

theorem rd_text_type1 (r : BgpRD) (h : r.rdh >>> 16 = 1) : BgpRD.parse r.display = none := by
  unfold BgpRD.parse BgpRD.display
  rw [if_pos h]
  have : ∀ a b c d e : Nat, dec a ++ '.' :: dec b ++ '.' :: dec c ++ '.' :: dec d ++ ':' :: dec e =
    (dec a ++ '.' :: (dec b ++ '.' :: (dec c ++ '.' :: dec d))) ++ ':' :: dec e := by
    intros; simp
  rw [this, split_append (fun c hc => by
      simp only [List.mem_append, List.mem_cons] at hc
      rcases hc with h | rfl | h | rfl | h | rfl | h
      all_goals first | simpa using (mem_dec h).ne.1 | decide) (by simp),
    split_none (fun c hc => by simpa using (mem_dec hc).ne.1)]
  simp only
  rw [parseU_bad (c := '.') (by simp) rfl (by decide)]
  rfl

/-! ## Communities -/

theorem trim_none {s : Txt} (h : ∀ c ∈ s, isWs c = false) : trim s = s := by
  have hd : ∀ l : Txt, (∀ c ∈ l, isWs c = false) → l.dropWhile isWs = l := by
    intro l hl
    cases l with
    | nil => rfl
    | cons a t => simp [List.dropWhile, hl a (by simp)]
  unfold trim
  rw [hd s h, hd _ (by simpa using h), List.reverse_reverse]

theorem pair_value (v : U32) :
    (((v >>> 16).setWidth 16 : U16).setWidth 32 <<< 16) ||| ((v &&& 0xffff).setWidth 16 : U16).setWidth 32 = v := by
  apply BitVec.eq_of_getLsbD_eq
  intro i hi
  simp only [BitVec.getLsbD_or, BitVec.getLsbD_shiftLeft, BitVec.getLsbD_setWidth, BitVec.getLsbD_ushiftRight, BitVec.getLsbD_and]
  have h16 : ∀ i < 32, (0xffff : U32).getLsbD i = decide (i < 16) := by decide
  rw [h16 i hi]
  by_cases h : i < 16
  · simp [h, hi]
  · simp [h, hi]
    have : i - 16 < 16 := by omega
    simp [this, show 16 + (i - 16) = i by omega]
    simp [show i - 16 < 32 by omega]
    exact (BitVec.getLsbD_eq_getElem hi)

theorem community_text (x : BgpCommunity) : BgpCommunity.parse x.display = some x := by
  obtain ⟨v⟩ := x
  unfold BgpCommunity.display
  simp only
  split
  · rename_i h; subst h; rfl
  split
  · rename_i h; subst h; rfl
  split
  · rename_i h; subst h; rfl
  split
  · rename_i h; subst h; rfl
  · have hmem : ∀ {a b : Nat} {c : Char}, c ∈ dec a ++ ':' :: dec b → IsHexDigit c ∨ c = ':' := by
      intro a b c hc
      simp only [List.mem_append, List.mem_cons] at hc
      rcases hc with h | h | h
      · exact .inl (mem_dec h)
      · exact .inr h
      · exact .inl (mem_dec h)
    have hn : ∀ a b : Nat, ∀ t : Txt, dec a ++ ':' :: dec b ≠ 'n' :: t := by
      intro a b t h
      have : 'n' ∈ dec a ++ ':' :: dec b := by rw [h]; simp
      rcases hmem this with h | h
      · exact h.ne.2.2.2.2.2.2.2.2.1 rfl
      · exact absurd h (by decide)
    unfold BgpCommunity.parse
    rw [if_neg (by rintro (h | h | h) <;> exact hn _ _ _ h), if_neg (by rintro (h | h) <;> exact hn _ _ _ h), if_neg (by intro h; exact hn _ _ _ h),
      if_neg (by rintro (h | h) <;> exact hn _ _ _ h)]
    rw [trim_none (fun c hc => by
        rcases hmem hc with h | rfl
        · exact h.ne.2.2.2.2.2.2.2.2.2
        · rfl),
      split_append (fun c hc => by simpa using (mem_dec hc).ne.1) (by simp),
      split_none (fun c hc => by simpa using (mem_dec hc).ne.1)]
    simp only [parseU_dec', Option.bind_eq_bind, Option.bind_some, pair_value]

end Zbgp
