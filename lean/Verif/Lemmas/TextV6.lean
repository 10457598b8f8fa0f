import Verif.Lemmas.Text
import Verif.Lemmas.Mac
import Verif.Lemmas.Attrs
import Verif.Spec.Text

namespace Zbgp

open Std

/-! ## Texts without a dot are no IPv4 address -/

theorem readDigits_suffix (r k v n : Nat) (s : Txt) : ∃ pre, s = pre ++ (readDigits r k v n s).2.2 ∧ ∀ c ∈ pre, toDigit r c ≠ none := by
  induction k generalizing v n s with
  | zero => exact ⟨[], rfl, by simp⟩
  | succ k ih =>
    cases s with
    | nil => exact ⟨[], rfl, by simp⟩
    | cons c t =>
      unfold readDigits
      cases hc : toDigit r c with
      | none => exact ⟨[], rfl, by simp⟩
      | some d =>
        obtain ⟨pre, h1, h2⟩ := ih (v * r + d) (n + 1) t
        refine ⟨c :: pre, by simp only [List.cons_append]; rw [← h1], ?_⟩
        intro x hx
        rcases List.mem_cons.1 hx with rfl | hx
        · rw [hc]; simp
        · exact h2 x hx

theorem readNumber_suffix {r m : Nat} {z : Bool} {b : Nat} {s rest : Txt} {v : Nat} (h : readNumber r m z b s = some (v, rest)) :
    ∃ pre, s = pre ++ rest ∧ ∀ c ∈ pre, toDigit r c ≠ none := by
  obtain ⟨pre, h1, h2⟩ := readDigits_suffix r (m + 1) 0 0 s
  refine ⟨pre, ?_, h2⟩
  unfold readNumber at h
  simp only at h
  split at h
  · cases h
  split at h
  · cases h
  split at h
  · cases h
  split at h
  · simp only [Option.some.injEq, Prod.mk.injEq] at h
    rw [← h.2]; exact h1
  · cases h

theorem readChar_eq {c : Char} {s rest : Txt} (h : readChar c s = some rest) : s = c :: rest := by
  cases s with
  | nil => cases h
  | cons d t =>
    simp only [readChar] at h
    by_cases hd : d = c
    · rw [if_pos hd] at h; rw [hd, Option.some.inj h]
    · rw [if_neg hd] at h; cases h

/-- what an IPv4 address consumes -/
theorem readV4_consumes {s rest : Txt} {a : IPv4} (h : readV4 s = some (a, rest)) :
    ∃ pre, s = pre ++ rest ∧ '.' ∈ pre ∧ ∀ c ∈ pre, c = '.' ∨ toDigit 10 c ≠ none := by
  unfold readV4 at h
  simp only [readSep, Nat.lt_irrefl, gt_iff_lt, ↓reduceIte, Nat.zero_lt_succ, Option.bind_eq_bind, Option.bind_eq_some_iff,
    Nat.ofNat_pos, Nat.lt_one_iff, zero_lt_one] at h
  obtain ⟨⟨a1, s1⟩, h1, ⟨b1, s2⟩, ⟨t1, g1, h2⟩, ⟨c1, s3⟩, ⟨t2, g2, h3⟩, ⟨d1, s4⟩, ⟨t3, g3, h4⟩, h5⟩ := h
  obtain ⟨p1, e1, q1⟩ := readNumber_suffix h1
  obtain ⟨p2, e2, q2⟩ := readNumber_suffix h2
  obtain ⟨p3, e3, q3⟩ := readNumber_suffix h3
  obtain ⟨p4, e4, q4⟩ := readNumber_suffix h4
  have g1 := readChar_eq g1
  have g2 := readChar_eq g2
  have g3 := readChar_eq g3
  simp only [Option.some.injEq, Prod.mk.injEq] at h5
  obtain ⟨-, rfl⟩ := h5
  subst e4 g3 e3 g2 e2 g1 e1
  refine ⟨p1 ++ '.' :: (p2 ++ '.' :: (p3 ++ '.' :: p4)), by simp, by simp, ?_⟩
  intro c hc
  simp only [List.mem_append, List.mem_cons] at hc
  rcases hc with h | h | h | h | h | h | h
  · exact .inr (q1 c h)
  · exact .inl h
  · exact .inr (q2 c h)
  · exact .inl h
  · exact .inr (q3 c h)
  · exact .inl h
  · exact .inr (q4 c h)

theorem readV4_no_dot {s : Txt} (h : '.' ∉ s) : readV4 s = none := by
  cases hr : readV4 s with
  | none => rfl
  | some r =>
    obtain ⟨a, rest⟩ := r
    obtain ⟨pre, h1, h2, -⟩ := readV4_consumes hr
    exact absurd (by rw [h1]; simp [h2]) h

theorem parseV4_colon {s : Txt} (h : ':' ∈ s) : parseV4 s = none := by
  unfold parseV4
  split
  · rename_i a hr
    obtain ⟨pre, h1, -, h3⟩ := readV4_consumes hr
    rw [List.append_nil] at h1
    subst h1
    rcases h3 ':' h with h | h
    · exact absurd h (by decide)
    · exact absurd rfl h
  · rfl

/-! ## Groups -/

/-- A text for a group of an IPv6 address. -/
def GroupText (t : Txt) (g : Nat) : Prop :=
  (∀ rest : Txt, (∀ c ∈ rest.head?, toDigit 16 c = none) → readNumber 16 4 true 65536 (t ++ rest) = some (g, rest)) ∧
    (∀ c ∈ t, IsHexDigit c) ∧ t ≠ []

theorem toDigits_ne_nil (b n : Nat) : Nat.toDigits b n ≠ [] := by
  intro h
  have := Nat.length_toDigits_pos (b := b) (n := n)
  rw [h] at this; simp at this

theorem groupText_hex {n : Nat} (h : n < 65536) : GroupText (hex n) n :=
  ⟨fun rest hs => readNumber_toDigits true (by omega) (by omega) (by omega) (by omega) h rest hs, fun _ hc => mem_hex hc, toDigits_ne_nil _ _⟩

theorem hex2_eq (n : Nat) (hn : n < 256) : hex2 n = [n / 16, n % 16].map Nat.digitChar := by
  unfold hex2 hex
  rw [Nat.toDigits_eq_if (by omega)]
  by_cases h : n < 16
  · rw [if_pos h]
    simp [show n / 16 = 0 by omega, show n % 16 = n by omega, h]
  · rw [if_neg h, Nat.toDigits_of_lt_base (show n / 16 < 16 by omega)]
    simpa using h

theorem groupText_hex2 {n : Nat} (h : n < 256) : GroupText (hex2 n) n := by
  refine ⟨fun rest hs => ?_, fun _ hc => mem_hex2 hc, by rw [hex2_eq n h]; simp⟩
  unfold readNumber
  rw [hex2_eq n h, readDigits_map (by omega) [n / 16, n % 16] (by simp; omega) rest hs _ _ _ (by simp)]
  simp [valOf]
  omega

/-- Texts with colons between them. -/
def joinColon : List Txt → Txt
  | [] => []
  | [t] => t
  | t :: u :: r => t ++ ':' :: joinColon (u :: r)

theorem showGroups_eq (gs : List Nat) : showGroups gs = joinColon (gs.map hex) := by
  induction gs with
  | nil => rfl
  | cons g r ih =>
    cases r with
    | nil => rfl
    | cons h r => simp only [showGroups, List.map_cons, joinColon] at ih ⊢; rw [ih]

theorem mem_joinColon {l : List Txt} {c : Char} (h : c ∈ joinColon l) : c = ':' ∨ ∃ t ∈ l, c ∈ t := by
  induction l with
  | nil => simp [joinColon] at h
  | cons t r ih =>
    cases r with
    | nil => exact .inr ⟨t, by simp, by simpa [joinColon] using h⟩
    | cons u r =>
      simp only [joinColon, List.mem_append, List.mem_cons] at h ih
      rcases h with h | h | h
      · exact .inr ⟨t, by simp, h⟩
      · exact .inl h
      · rcases ih h with h | ⟨t', h1, h2⟩
        · exact .inl h
        · exact .inr ⟨t', List.mem_cons.2 (.inr (List.mem_cons.2 h1)), h2⟩

/-- With a colon before the first group when it is not the first. -/
def groupsText (i : Nat) : List Txt → Txt
  | [] => []
  | t :: r => (if i > 0 then [':'] else []) ++ joinColon (t :: r)

theorem groupsText_cons (i : Nat) (t : Txt) (r : List Txt) :
    groupsText i (t :: r) = (if i > 0 then [':'] else []) ++ (t ++ groupsText (i + 1) r) := by
  cases r with
  | nil => simp [groupsText, joinColon]
  | cons u r => simp [groupsText, joinColon]

/-- What may follow the groups read. -/
def StopText (rest : Txt) : Prop := '.' ∉ rest ∧ (rest = [] ∨ ∃ r, rest = ':' :: ':' :: r)

theorem StopText.head {rest : Txt} (h : StopText rest) : ∀ c ∈ rest.head?, toDigit 16 c = none := by
  obtain ⟨-, rfl | ⟨r, rfl⟩⟩ := h
  · simp
  · simp; rfl

theorem StopText.stops {rest : Txt} (h : StopText rest) (k i : Nat) : readGroups k i rest = ([], false, rest) := by
  cases k with
  | zero => rfl
  | succ k =>
    have h1 : (if k > 0 then readSep ':' i readV4 rest else none) = none := by
      split
      · unfold readSep
        split
        · cases hc : readChar ':' rest with
          | none => rfl
          | some t =>
            have := readChar_eq hc
            exact readV4_no_dot (fun hd => h.1 (by rw [this]; simp [hd]))
        · exact readV4_no_dot h.1
      · rfl
    have h2 : readSep ':' i (readNumber 16 4 true 65536) rest = none := by
      obtain ⟨-, rfl | ⟨r, rfl⟩⟩ := h
      · unfold readSep; split <;> rfl
      · unfold readSep; split <;> rfl
    unfold readGroups
    rw [h1, h2]

theorem readGroups_text (l : List (Txt × Nat)) (hl : ∀ p ∈ l, GroupText p.1 p.2) (rest : Txt) (hs : StopText rest)
    (k i : Nat) (hk : l.length ≤ k) :
    readGroups k i (groupsText i (l.map Prod.fst) ++ rest) = (l.map Prod.snd, false, rest) := by
  induction l generalizing k i with
  | nil => simpa [groupsText] using hs.stops k i
  | cons p l ih =>
    obtain ⟨t, g⟩ := p
    obtain ⟨k, rfl⟩ : ∃ j, k = j + 1 := ⟨k - 1, by simp at hk; omega⟩
    obtain ⟨hg, hx, hne⟩ := hl (t, g) (by simp)
    simp only at hg hx hne
    have hnd : '.' ∉ t ++ (groupsText (i + 1) (l.map Prod.fst) ++ rest) := by
      intro hd
      rcases List.mem_append.1 hd with h | h
      · exact (hx _ h).ne.2.2.2.1 rfl
      rcases List.mem_append.1 h with h | h
      · cases l with
        | nil => simp [groupsText] at h
        | cons q l =>
          simp only [List.map_cons, groupsText, List.mem_append] at h
          rcases h with h | h
          · split at h <;> simp at h
          · rcases mem_joinColon h with h | ⟨u, hu, h⟩
            · exact absurd h (by decide)
            · rw [← List.map_cons, List.mem_map] at hu
              obtain ⟨q', hq, rfl⟩ := hu
              exact ((hl q' (List.mem_cons_of_mem _ hq)).2.1 _ h).ne.2.2.2.1 rfl
      · exact hs.1 h
    have hst : ∀ c ∈ (groupsText (i + 1) (l.map Prod.fst) ++ rest).head?, toDigit 16 c = none := by
      cases l with
      | nil => simpa [groupsText] using hs.head
      | cons q l => simp [groupsText]; rfl
    have key : ∀ {α : Type} (f : Txt → Option (α × Txt)),
        readSep ':' i f (groupsText i ((t, g) :: l |>.map Prod.fst) ++ rest) =
          f (t ++ (groupsText (i + 1) (l.map Prod.fst) ++ rest)) := by
      intro α f
      rw [List.map_cons, groupsText_cons]
      unfold readSep
      split
      · simp [readChar]
      · simp
    unfold readGroups
    rw [key, key, readV4_no_dot hnd, hg _ hst]
    simp only [ite_self]
    rw [ih (fun q hq => hl q (List.mem_cons_of_mem _ hq)) k (i + 1) (by simp at hk; omega)]
    simp

/-! ## IPv6 addresses -/

theorem segments_lt (a : IPv6) : ∀ g ∈ segments a, g < 65536 := by
  have := a.isLt
  intro g hg
  simp only [segments, List.mem_cons, List.not_mem_nil, or_false] at hg
  rcases hg with rfl | rfl | rfl | rfl | rfl | rfl | rfl | rfl <;> omega

theorem ofSegments_segments (a : IPv6) : ofSegments (segments a) = a := by
  have := a.isLt
  apply BitVec.eq_of_toNat_eq
  simp only [ofSegments, segments, List.foldl_cons, List.foldl_nil, BitVec.toNat_ofNat]
  omega

/-- a run of zeroes of a list -/
def ZeroRun (l : List Nat) (z : Nat × Nat) : Prop := l.take z.1 ++ List.replicate z.2 0 ++ l.drop (z.1 + z.2) = l ∧ z.1 + z.2 ≤ l.length

theorem zeroRun_zero (l : List Nat) : ZeroRun l (0, 0) := ⟨by simp, by simp⟩

theorem zeroRun_extend {l : List Nat} {s n : Nat} (h : ZeroRun l (s, n)) (hn : s + n < l.length) (hz : l[s + n] = 0) :
    ZeroRun l (s, n + 1) := by
  obtain ⟨h1, -⟩ := h
  refine ⟨?_, by simp; omega⟩
  have : l.drop (s + n) = 0 :: l.drop (s + (n + 1)) := by
    rw [List.drop_eq_getElem_cons hn, hz]; rfl
  simp only at h1 ⊢
  rw [this] at h1
  rw [List.replicate_succ']
  simpa using h1

theorem zeroRun_start {l : List Nat} {s : Nat} (hn : s ≤ l.length) : ZeroRun l (s, 0) := ⟨by simp, by simpa using hn⟩

theorem longestZeroes_run (l : List Nat) (gs pre : List Nat) (i : Nat) (longest current : Nat × Nat) (hl : l = pre ++ gs)
    (hi : pre.length = i) (h1 : ZeroRun l longest) (h2 : ZeroRun l current) (h3 : current.2 = 0 ∨ current.1 + current.2 = i) :
    ZeroRun l (longestZeroes i gs longest current) := by
  induction gs generalizing pre i longest current with
  | nil => exact h1
  | cons g gs ih =>
    unfold longestZeroes
    split
    · rename_i hg
      subst hg
      have hlen : i < l.length := by rw [hl]; simp; omega
      have hget : l[i] = 0 := by subst hl hi; simp
      have hnew : ZeroRun l (if current.2 = 0 then i else current.1, current.2 + 1) ∧
          (if current.2 = 0 then i else current.1) + (current.2 + 1) = i + 1 := by
        split
        · rename_i h0
          rw [h0]
          exact ⟨zeroRun_extend (zeroRun_start (by omega)) (by simpa using hlen) (by simpa using hget), by simp⟩
        · rename_i h0
          have h3 : current.1 + current.2 = i := by rcases h3 with h | h; exact (h0 h).elim; exact h
          refine ⟨zeroRun_extend h2 (by omega) (by simpa [h3] using hget), by omega⟩
      obtain ⟨cur, hcur⟩ : ∃ cur : Nat × Nat, cur = (if current.2 = 0 then i else current.1, current.2 + 1) := ⟨_, rfl⟩
      simp only [← hcur] at hnew ⊢
      have hn1 : ZeroRun l cur := hnew.1
      refine ih (pre ++ [0]) (i + 1) _ _ (by simp [hl]) (by simp [hi]) ?_ hn1 (.inr (by rw [hcur]; exact hnew.2))
      by_cases hgt : current.2 + 1 > longest.2
      · rw [if_pos hgt]; exact hn1
      · rw [if_neg hgt]; exact h1
    · exact ih (pre ++ [g]) (i + 1) _ _ (by simp [hl]) (by simp [hi]) h1 (zeroRun_zero l) (.inl rfl)

theorem groupsText_zero (gs : List Nat) : groupsText 0 (gs.map hex) = showGroups gs := by
  rw [showGroups_eq]
  cases gs with
  | nil => rfl
  | cons g r => simp [groupsText]

theorem readGroups_show (gs : List Nat) (hg : ∀ g ∈ gs, g < 65536) (rest : Txt) (hs : StopText rest) (k : Nat) (hk : gs.length ≤ k) :
    readGroups k 0 (showGroups gs ++ rest) = (gs, false, rest) := by
  have := readGroups_text (gs.map fun g => (hex g, g)) (by
    intro p hp
    obtain ⟨g, h, rfl⟩ := List.mem_map.1 hp
    exact groupText_hex (hg g h)) rest hs k 0 (by simpa using hk)
  simp only [List.map_map, Function.comp_def] at this
  rw [← groupsText_zero]
  simpa using this

theorem showGroups_no_dot (gs : List Nat) : '.' ∉ showGroups gs := by
  rw [showGroups_eq]
  intro h
  rcases mem_joinColon h with h | ⟨t, ht, h⟩
  · exact absurd h (by decide)
  · obtain ⟨g, -, rfl⟩ := List.mem_map.1 ht
    exact (mem_hex h).ne.2.2.2.1 rfl

theorem readV6_mapped (b : IPv4) : readV6 ("::ffff:".toList ++ showV4 b) = some (ofSegments [0, 0, 0, 0, 0, 0xffff, b.toNat / 65536, b.toNat % 65536], []) := by
  have h4 : readV4 (showV4 b) = some (b, []) := by simpa using readV4_show b [] (by simp)
  have h1 : readGroups 8 0 (':' :: ':' :: 'f' :: 'f' :: 'f' :: 'f' :: ':' :: showV4 b) = ([], false, ':' :: ':' :: 'f' :: 'f' :: 'f' :: 'f' :: ':' :: showV4 b) := by
    rfl
  have h2 : readGroups 7 0 ('f' :: 'f' :: 'f' :: 'f' :: ':' :: showV4 b) = ([0xffff, b.toNat / 65536, b.toNat % 65536], true, []) := by
    have e1 : readV4 ('f' :: 'f' :: 'f' :: 'f' :: ':' :: showV4 b) = none := rfl
    have e2 : readNumber 16 4 true 65536 ('f' :: 'f' :: 'f' :: 'f' :: ':' :: showV4 b) = some (0xffff, ':' :: showV4 b) := rfl
    rw [readGroups]
    simp only [readSep, gt_iff_lt, Nat.lt_irrefl, ↓reduceIte, e1, e2, Nat.ofNat_pos]
    rw [readGroups]
    simp [readSep, readChar, h4]
  show readV6 (':' :: ':' :: 'f' :: 'f' :: 'f' :: 'f' :: ':' :: showV4 b) = _
  unfold readV6
  simp only [h1, List.length_nil, readChar, ↓reduceIte, Option.bind_eq_bind, Option.bind_some, Bool.false_eq_true]
  simp [h2, List.replicate]

theorem mapped_value (a : IPv6) (h : a.toNat / 2 ^ 32 = 0xffff) :
    ofSegments [0, 0, 0, 0, 0, 0xffff, (BitVec.ofNat 32 a.toNat).toNat / 65536, (BitVec.ofNat 32 a.toNat).toNat % 65536] = a := by
  have := a.isLt
  apply BitVec.eq_of_toNat_eq
  simp only [ofSegments, List.foldl_cons, List.foldl_nil, BitVec.toNat_ofNat]
  omega

theorem readV6_show (a : IPv6) : readV6 (showV6 a) = some (a, []) := by
  unfold showV6
  split
  · rename_i h
    rw [readV6_mapped]
    simp only [mapped_value a h]
  · have hlen : (segments a).length = 8 := rfl
    simp only
    split
    · rename_i hz
      have hrun := longestZeroes_run (segments a) (segments a) [] 0 (0, 0) (0, 0) rfl rfl (zeroRun_zero _) (zeroRun_zero _) (.inl rfl)
      generalize longestZeroes 0 (segments a) (0, 0) (0, 0) = z at hz hrun
      obtain ⟨s, n⟩ := z
      obtain ⟨hr, hle⟩ := hrun
      simp only [hlen] at hr hle hz ⊢
      have r1 := readGroups_show ((segments a).take s) (fun g hg => segments_lt a g (List.mem_of_mem_take hg))
        ("::".toList ++ showGroups ((segments a).drop (s + n))) ⟨by
          intro h
          rcases List.mem_append.1 h with h | h
          · exact absurd h (by decide)
          · exact showGroups_no_dot _ h, .inr ⟨_, rfl⟩⟩ 8 (by simp [hlen])
      have r2 := readGroups_show ((segments a).drop (s + n)) (fun g hg => segments_lt a g (List.mem_of_mem_drop hg)) [] ⟨by simp, .inl rfl⟩
        (8 - (s + 1)) (by simp [hlen]; omega)
      rw [List.append_nil] at r2
      have l1 : ((segments a).take s).length = s := by simp [hlen]; omega
      have l2 : 8 - s - ((segments a).drop (s + n)).length = n := by simp [hlen]; omega
      unfold readV6
      rw [List.append_assoc, r1]
      simp only [l1]
      rw [if_neg (by omega)]
      have hd : ("::".toList ++ showGroups ((segments a).drop (s + n))) = ':' :: ':' :: showGroups ((segments a).drop (s + n)) := rfl
      simp only [hd, readChar, ↓reduceIte, Option.bind_eq_bind, Option.bind_some, Bool.false_eq_true, r2, l2, hr, ofSegments_segments]
    · have r1 := readGroups_show (segments a) (segments_lt a) [] ⟨by simp, .inl rfl⟩ 8 (by simp [hlen])
      rw [List.append_nil] at r1
      unfold readV6
      simp only [r1, hlen, ↓reduceIte, ofSegments_segments]

theorem parseV6_show (a : IPv6) : parseV6 (showV6 a) = some a := by simp [parseV6, readV6_show]

theorem mem_showGroups {gs : List Nat} {c : Char} (h : c ∈ showGroups gs) : IsHexDigit c ∨ c = ':' := by
  rw [showGroups_eq] at h
  rcases mem_joinColon h with h | ⟨t, ht, h⟩
  · exact .inr h
  · obtain ⟨g, -, rfl⟩ := List.mem_map.1 ht
    exact .inl (mem_hex h)

theorem mem_showV6 {a : IPv6} {c : Char} (h : c ∈ showV6 a) : c ≠ '/' ∧ c ≠ '@' := by
  have hx : ∀ {c : Char}, (IsHexDigit c ∨ c = ':') → c ≠ '/' ∧ c ≠ '@' := by
    rintro c (h | rfl)
    · exact ⟨h.ne.2.1, h.ne.2.2.1⟩
    · decide
  unfold showV6 at h
  split at h
  · rcases List.mem_append.1 h with h | h
    · exact (by decide : ∀ c ∈ "::ffff:".toList, c ≠ '/' ∧ c ≠ '@') c h
    · exact ⟨(showV4_no_slash h).1, (showV4_no_slash h).2.1⟩
  · simp only at h
    split at h
    · rcases List.mem_append.1 h with h | h
      · rcases List.mem_append.1 h with h | h
        · exact hx (mem_showGroups h)
        · exact (by decide : ∀ c ∈ "::".toList, c ≠ '/' ∧ c ≠ '@') c h
      · exact hx (mem_showGroups h)
    · exact hx (mem_showGroups h)

theorem v6_text (x : BgpAddrV6) : BgpAddrV6.parse x.display = some x := by
  unfold BgpAddrV6.parse BgpAddrV6.display
  rw [split_append (fun c hc => by simpa using (mem_showV6 hc).1) (by simp),
    split_none (fun c hc => by simpa using (mem_dec hc).ne.2.1)]
  simp [parseV6_show, parseU_dec']

theorem colon_mem_showV6 (a : IPv6) : ':' ∈ showV6 a := by
  unfold showV6
  split
  · exact List.mem_append.2 (.inl (by decide))
  · simp only
    split
    · exact List.mem_append.2 (.inl (List.mem_append.2 (.inr (by decide))))
    · simp [segments, showGroups]

/-! ## MAC addresses -/

theorem mac_display_eq (m : MacAddress) :
    m.display = joinColon ([m.m5.toNat, m.m4.toNat, m.m3.toNat, m.m2.toNat, m.m1.toNat, m.m0.toNat].map hex2) := by
  simp [MacAddress.display, joinColon]

theorem mem_mac_display {m : MacAddress} {c : Char} (h : c ∈ m.display) : IsHexDigit c ∨ c = ':' := by
  rw [mac_display_eq] at h
  rcases mem_joinColon h with h | ⟨t, ht, h⟩
  · exact .inr h
  · obtain ⟨g, -, rfl⟩ := List.mem_map.1 ht
    exact .inl (mem_hex2 h)

theorem parseV6_mac (m : MacAddress) : parseV6 m.display = none := by
  have h5 := m.m5.isLt
  have h4 := m.m4.isLt
  have h3 := m.m3.isLt
  have h2 := m.m2.isLt
  have h1 := m.m1.isLt
  have h0 := m.m0.isLt
  have := readGroups_text ([m.m5.toNat, m.m4.toNat, m.m3.toNat, m.m2.toNat, m.m1.toNat, m.m0.toNat].map fun g => (hex2 g, g)) (by
    intro p hp
    obtain ⟨g, h, rfl⟩ := List.mem_map.1 hp
    refine groupText_hex2 ?_
    simp only [List.mem_cons, List.not_mem_nil, or_false] at h
    omega) [] ⟨by simp, .inl rfl⟩ 8 0 (by simp)
  rw [List.append_nil, List.map_map, List.map_map] at this
  have e : groupsText 0 (List.map (Prod.fst ∘ fun g => (hex2 g, g)) [m.m5.toNat, m.m4.toNat, m.m3.toNat, m.m2.toNat, m.m1.toNat, m.m0.toNat]) = m.display := by
    rw [mac_display_eq]; simp [groupsText, Function.comp_def]
  rw [e] at this
  unfold parseV6 readV6
  rw [this]
  simp [readChar]

theorem parseLoop_append (a b : Txt) (mac : U64) (cnt : Nat) :
    MacAddress.parseLoop (a ++ b) mac cnt = MacAddress.parseLoop b (MacAddress.parseLoop a mac cnt).1 (MacAddress.parseLoop a mac cnt).2 := by
  induction a generalizing mac cnt with
  | nil => rfl
  | cons c a ih =>
    simp only [List.cons_append, MacAddress.parseLoop]
    split <;> exact ih _ _

theorem shl4_or (mac : U64) (d : Nat) (hd : d < 16) (hm : mac.toNat < 2 ^ 60) :
    ((mac <<< 4) ||| BitVec.ofNat 64 d).toNat = mac.toNat * 16 + d := by
  rw [BitVec.toNat_or, BitVec.toNat_shiftLeft, BitVec.toNat_ofNat, Nat.mod_eq_of_lt (show d < 2 ^ 64 by omega), Nat.shiftLeft_eq,
    Nat.mod_eq_of_lt (by omega), ← Nat.shiftLeft_eq, ← Nat.shiftLeft_add_eq_or_of_lt (by omega), Nat.shiftLeft_eq]

theorem parseLoop_hex2 (n : Nat) (hn : n < 256) (mac : U64) (cnt : Nat) (hm : mac.toNat < 2 ^ 56) :
    (MacAddress.parseLoop (hex2 n) mac cnt).1.toNat = mac.toNat * 256 + n ∧ (MacAddress.parseLoop (hex2 n) mac cnt).2 = cnt + 2 := by
  rw [hex2_eq n hn]
  simp only [List.map_cons, List.map_nil, MacAddress.parseLoop, toDigit_digitChar (show n / 16 < 16 by omega) (Nat.le_refl _),
    toDigit_digitChar (show n % 16 < 16 by omega) (Nat.le_refl _)]
  have h1 := shl4_or mac (n / 16) (by omega) (by omega)
  refine ⟨?_, trivial⟩
  rw [shl4_or _ _ (by omega) (by omega), h1]
  omega

theorem parseLoop_colon (t : Txt) (mac : U64) (cnt : Nat) : MacAddress.parseLoop (':' :: t) mac cnt = MacAddress.parseLoop t mac cnt := rfl

theorem parseLoop_step (n : Nat) (hn : n < 256) (t : Txt) (mac : U64) (v cnt : Nat) (hm : mac.toNat = v) (hv : v < 2 ^ 56) :
    ∃ mac' : U64, mac'.toNat = v * 256 + n ∧ MacAddress.parseLoop (hex2 n ++ t) mac cnt = MacAddress.parseLoop t mac' (cnt + 2) := by
  subst hm
  have := parseLoop_hex2 n hn mac cnt hv
  exact ⟨_, this.1, by rw [parseLoop_append, this.2]⟩

theorem mac_text (m : MacAddress) : MacAddress.parse m.display = some m := by
  have h5 := m.m5.isLt
  have h4 := m.m4.isLt
  have h3 := m.m3.isLt
  have h2 := m.m2.isLt
  have h1 := m.m1.isLt
  have h0 := m.m0.isLt
  obtain ⟨x5, e5, p5⟩ := parseLoop_step m.m5.toNat h5 (':' :: (hex2 m.m4.toNat ++ ':' :: (hex2 m.m3.toNat ++ ':' :: (hex2 m.m2.toNat ++ ':' :: (hex2 m.m1.toNat ++ ':' :: (hex2 m.m0.toNat ++ [])))))) 0 0 0 rfl (by omega)
  obtain ⟨x4, e4, p4⟩ := parseLoop_step m.m4.toNat h4 (':' :: (hex2 m.m3.toNat ++ ':' :: (hex2 m.m2.toNat ++ ':' :: (hex2 m.m1.toNat ++ ':' :: (hex2 m.m0.toNat ++ []))))) x5 _ 2 e5 (by omega)
  obtain ⟨x3, e3, p3⟩ := parseLoop_step m.m3.toNat h3 (':' :: (hex2 m.m2.toNat ++ ':' :: (hex2 m.m1.toNat ++ ':' :: (hex2 m.m0.toNat ++ [])))) x4 _ 4 e4 (by omega)
  obtain ⟨x2, e2, p2⟩ := parseLoop_step m.m2.toNat h2 (':' :: (hex2 m.m1.toNat ++ ':' :: (hex2 m.m0.toNat ++ []))) x3 _ 6 e3 (by omega)
  obtain ⟨x1, e1, p1⟩ := parseLoop_step m.m1.toNat h1 (':' :: (hex2 m.m0.toNat ++ [])) x2 _ 8 e2 (by omega)
  obtain ⟨x0, e0, p0⟩ := parseLoop_step m.m0.toNat h0 [] x1 _ 10 e1 (by omega)
  have hx : x0 = m.toU64 := by
    apply BitVec.eq_of_toNat_eq
    rw [e0, toU64_toNat]
    simp only [macNet, Spec.unbe, List.foldl]
  unfold MacAddress.parse
  have hd : m.display = hex2 m.m5.toNat ++ (':' :: (hex2 m.m4.toNat ++ ':' :: (hex2 m.m3.toNat ++ ':' :: (hex2 m.m2.toNat ++ ':' :: (hex2 m.m1.toNat ++ ':' :: (hex2 m.m0.toNat ++ [])))))) := by
    simp [MacAddress.display]
  rw [hd, p5, parseLoop_colon, p4, parseLoop_colon, p3, parseLoop_colon, p2, parseLoop_colon, p1, parseLoop_colon, p0]
  simp [MacAddress.parseLoop, hx, fromU64_toU64]

theorem split_prefix {a : Txt} (h : ∀ c ∈ a, c ≠ '/') (n : Nat) : split (· = '/') (a ++ '/' :: dec n) = [a, dec n] := by
  rw [split_append (fun c hc => by simpa using h c hc) (by simp),
    split_none (fun c hc => by simpa using (mem_dec hc).ne.2.1)]

theorem mac_no_slash {m : MacAddress} {c : Char} (h : c ∈ m.display) : c ≠ '/' := by
  rcases mem_mac_display h with h | rfl
  · exact h.ne.2.1
  · decide

theorem macnet_text (x : BgpAddrMac) : BgpAddrMac.parse x.display = some x := by
  unfold BgpAddrMac.parse BgpAddrMac.display
  rw [split_prefix (fun c hc => mac_no_slash hc)]
  simp [mac_text, parseU_dec']

theorem colon_mem_mac (m : MacAddress) : ':' ∈ m.display := by simp [MacAddress.display]

theorem net_text (x : BgpNet) : BgpNet.parse x.display = some x := by
  cases x with
  | V4 x => simp [BgpNet.parse, BgpNet.display, v4_text]
  | V6 x =>
    have h4 : BgpAddrV4.parse x.display = none := by
      unfold BgpAddrV4.parse BgpAddrV6.display
      rw [split_prefix (fun c hc => (mem_showV6 hc).1)]
      simp [parseV4_colon (colon_mem_showV6 x.addr)]
    simp [BgpNet.parse, BgpNet.display, h4, v6_text]
  | MAC x =>
    have h4 : BgpAddrV4.parse x.display = none := by
      unfold BgpAddrV4.parse BgpAddrMac.display
      rw [split_prefix (fun c hc => mac_no_slash hc)]
      simp [parseV4_colon (colon_mem_mac x.addr)]
    have h6 : BgpAddrV6.parse x.display = none := by
      unfold BgpAddrV6.parse BgpAddrMac.display
      rw [split_prefix (fun c hc => mac_no_slash hc)]
      simp [parseV6_mac x.addr]
    simp [BgpNet.parse, BgpNet.display, h4, h6, macnet_text]

/-! ## MDT -/

theorem mdt4_text (x : BgpMdtV4) : BgpMdtV4.parse x.display = some x := by
  unfold BgpMdtV4.parse BgpMdtV4.display
  rw [split_append (fun c hc => by
      simp only [BgpAddrV4.display, List.mem_append, List.mem_cons] at hc
      rcases hc with h | rfl | h
      · simpa using (showV4_no_slash h).2.1
      · rfl
      · simpa using (mem_dec h).ne.2.2.1) (by simp),
    split_none (fun c hc => by simpa using (showV4_no_slash hc).2.1)]
  simp [v4_text, parseV4_show]

theorem mdt6_text (x : BgpMdtV6) : BgpMdtV6.parse x.display = some x := by
  unfold BgpMdtV6.parse BgpMdtV6.display
  rw [split_append (fun c hc => by
      simp only [BgpAddrV6.display, List.mem_append, List.mem_cons] at hc
      rcases hc with h | rfl | h
      · simpa using (mem_showV6 h).2
      · rfl
      · simpa using (mem_dec h).ne.2.2.1) (by simp),
    split_none (fun c hc => by simpa using (mem_showV6 hc).2)]
  simp [v6_text, parseV6_show]

/-! ## What the parsers accept -/

theorem parseLoop_digits (s : Txt) (mac : U64) (v cnt : Nat) (hm : mac.toNat = v % 2 ^ 64) :
    (MacAddress.parseLoop s mac cnt).1.toNat = valOf 16 v (s.filterMap (toDigit 16)) % 2 ^ 64 ∧
      (MacAddress.parseLoop s mac cnt).2 = cnt + (s.filterMap (toDigit 16)).length := by
  induction s generalizing mac v cnt with
  | nil => simp [MacAddress.parseLoop, valOf, hm]
  | cons c s ih =>
    unfold MacAddress.parseLoop
    cases hc : toDigit 16 c with
    | none => simpa [List.filterMap_cons, hc] using ih mac v cnt hm
    | some d =>
      have hd : d < 16 := by
        unfold toDigit at hc
        obtain ⟨x, -, hx⟩ := Option.bind_eq_some_iff.1 hc
        split at hx
        · rw [← Option.some.inj hx]; assumption
        · cases hx
      have hs : ((mac <<< 4) ||| BitVec.ofNat 64 d).toNat = (v * 16 + d) % 2 ^ 64 := by
        rw [BitVec.toNat_or, BitVec.toNat_shiftLeft, BitVec.toNat_ofNat, Nat.mod_eq_of_lt (show d < 2 ^ 64 by omega), Nat.shiftLeft_eq, hm]
        have e1 : v % 2 ^ 64 * 2 ^ 4 % 2 ^ 64 = (v % 2 ^ 60) <<< 4 := by rw [Nat.shiftLeft_eq]; omega
        rw [e1, ← Nat.shiftLeft_add_eq_or_of_lt (by omega), Nat.shiftLeft_eq]
        omega
      have := ih _ (v * 16 + d) (cnt + 1) hs
      simp only [List.filterMap_cons, hc, List.length_cons]
      refine ⟨?_, ?_⟩
      · rw [this.1]; rfl
      · rw [this.2]; omega

theorem mac_parse_eq (s : Txt) :
    MacAddress.parse s = if s.filterMap (toDigit 16) = [] then none else
      some (MacAddress.fromU64 (BitVec.ofNat 64 (valOf 16 0 (s.filterMap (toDigit 16))))) := by
  have := parseLoop_digits s 0 0 0 rfl
  unfold MacAddress.parse
  generalize MacAddress.parseLoop s 0 0 = r at this
  obtain ⟨mac, cnt⟩ := r
  simp only at this ⊢
  by_cases h : s.filterMap (toDigit 16) = []
  · rw [if_pos h, if_pos (by rw [this.2, h]; simp)]
  · have : mac = BitVec.ofNat 64 (valOf 16 0 (s.filterMap (toDigit 16))) := by
      apply BitVec.eq_of_toNat_eq
      rw [this.1, BitVec.toNat_ofNat]
    have hpos : 0 < (s.filterMap (toDigit 16)).length := List.length_pos_iff.2 h
    rw [if_neg h, if_neg (by omega), this]

theorem v4_parse_len (a : IPv4) (t : Txt) (u : List Txt) (rest : Txt) (h : split (· = '/') rest = t :: u) :
    BgpAddrV4.parse (showV4 a ++ '/' :: rest) = some ⟨a, (parseU 8 t).getD 32⟩ := by
  unfold BgpAddrV4.parse
  rw [split_append (fun c hc => by simpa using (showV4_no_slash hc).1) (by simp), h]
  simp [parseV4_show]

theorem v6_parse_len (a : IPv6) (t : Txt) (u : List Txt) (rest : Txt) (h : split (· = '/') rest = t :: u) :
    BgpAddrV6.parse (showV6 a ++ '/' :: rest) = some ⟨a, (parseU 8 t).getD 128⟩ := by
  unfold BgpAddrV6.parse
  rw [split_append (fun c hc => by simpa using (mem_showV6 hc).1) (by simp), h]
  simp [parseV6_show]

theorem mac_parse_len (a : MacAddress) (t : Txt) (u : List Txt) (rest : Txt) (h : split (· = '/') rest = t :: u) :
    BgpAddrMac.parse (a.display ++ '/' :: rest) = some ⟨a, (parseU 8 t).getD 48⟩ := by
  unfold BgpAddrMac.parse
  rw [split_append (fun c hc => by simpa using mac_no_slash hc) (by simp), h]
  simp [mac_text]

/-! ## Community lists -/

theorem split_sepText {p : Char → Bool} (t : Txt) (r : List (Char × Txt)) (ht : ∀ c ∈ t, p c = false)
    (hr : ∀ x ∈ r, p x.1 = true ∧ ∀ c ∈ x.2, p c = false) : split p (Spec.sepText t r) = t :: r.map Prod.snd := by
  induction r generalizing t with
  | nil => simpa [Spec.sepText] using split_none ht
  | cons x r ih =>
    obtain ⟨s, u⟩ := x
    have := hr (s, u) (by simp)
    simp only [Spec.sepText]
    rw [split_append ht this.1, ih u this.2 (fun y hy => hr y (by simp [hy]))]
    simp

theorem list_text (t : Txt) (r : List (Char × Txt)) (ht : ∀ c ∈ t, c ∉ Spec.listSeparators)
    (hr : ∀ x ∈ r, x.1 ∈ Spec.listSeparators ∧ ∀ c ∈ x.2, c ∉ Spec.listSeparators) :
    BgpCommunityList.parse (Spec.sepText t r) = some ⟨setOf BgpCommunity.lt ((t :: r.map Prod.snd).filterMap BgpCommunity.parse)⟩ := by
  unfold BgpCommunityList.parse
  rw [split_sepText t r]
  · intro c hc
    have := ht c hc
    simp only [Spec.listSeparators, List.mem_cons, List.not_mem_nil, or_false, not_or] at this
    simp [this]
  · intro x hx
    obtain ⟨h1, h2⟩ := hr x hx
    refine ⟨by simpa [Spec.listSeparators, or_assoc] using h1, fun c hc => ?_⟩
    have := h2 c hc
    simp only [Spec.listSeparators, List.mem_cons, List.not_mem_nil, or_false, not_or] at this
    simp [this]

theorem community_no_sep (x : BgpCommunity) : ∀ c ∈ x.display, c ∉ Spec.listSeparators := by
  unfold BgpCommunity.display
  split
  · decide
  split
  · decide
  split
  · decide
  split
  · decide
  · intro c hc
    simp only [List.mem_append, List.mem_cons] at hc
    have key : ∀ {c : Char}, IsHexDigit c → c ∉ Spec.listSeparators := by
      intro c h
      simp only [Spec.listSeparators, List.mem_cons, List.not_mem_nil, or_false, not_or]
      exact ⟨h.ne.2.2.2.2.1, h.ne.2.2.2.2.2.1, h.ne.2.2.2.2.2.2.1⟩
    rcases hc with h | rfl | h
    · exact key (mem_dec h)
    · decide
    · exact key (mem_dec h)

theorem char_of_toNat {c : Char} {n : Nat} (h : c.toNat = n) : c = Char.ofNat n := by
  rw [← h, Char.ofNat_toNat]

/-- hexadecimal digits -/
theorem toDigit_hex (c : Char) : toDigit 16 c = if c ∈ Spec.hexDigits then
    some (if c.isDigit then c.toNat - '0'.toNat else if c.isLower then c.toNat - 'a'.toNat + 10 else c.toNat - 'A'.toNat + 10) else none := by
  by_cases hm : c ∈ Spec.hexDigits
  · rw [if_pos hm]
    exact (by decide : ∀ c ∈ Spec.hexDigits, toDigit 16 c =
      some (if c.isDigit then c.toNat - '0'.toNat else if c.isLower then c.toNat - 'a'.toNat + 10 else c.toNat - 'A'.toNat + 10)) c hm
  · rw [if_neg hm]
    cases hc : toDigit 16 c with
    | none => rfl
    | some d =>
      exfalso
      apply hm
      unfold toDigit charVal at hc
      obtain ⟨x, h1, h2⟩ := Option.bind_eq_some_iff.1 hc
      have hx : x < 16 := by
        by_contra hx
        rw [if_neg hx] at h2; cases h2
      have le : ∀ {a b : Char}, a ≤ b ↔ a.toNat ≤ b.toNat := fun {a b} => Iff.rfl
      simp only [le] at h1
      split at h1
      · rename_i h
        have e := Option.some.inj h1
        have a1 : 48 ≤ c.toNat := h.1
        have a2 : c.toNat ≤ 57 := h.2
        obtain ⟨n, hn⟩ : ∃ n, c.toNat = n := ⟨_, rfl⟩
        rw [char_of_toNat hn]
        rw [hn] at a1 a2
        clear h hn h1 e
        revert a1 a2
        have : ∀ n ≤ 57, 48 ≤ n → Char.ofNat n ∈ Spec.hexDigits := by decide
        exact fun a b => this n a b
      split at h1
      · rename_i h
        have e := Option.some.inj h1
        have a1 : 97 ≤ c.toNat := h.1
        have a2 : c.toNat ≤ 102 := by omega
        obtain ⟨n, hn⟩ : ∃ n, c.toNat = n := ⟨_, rfl⟩
        rw [char_of_toNat hn]
        rw [hn] at a1 a2
        have : ∀ k < 6, Char.ofNat (97 + k) ∈ Spec.hexDigits := by decide
        have := this (n - 97) (by omega)
        rwa [show 97 + (n - 97) = n by omega] at this
      split at h1
      · rename_i h
        have e := Option.some.inj h1
        have a1 : 65 ≤ c.toNat := h.1
        have a2 : c.toNat ≤ 70 := by omega
        obtain ⟨n, hn⟩ : ∃ n, c.toNat = n := ⟨_, rfl⟩
        rw [char_of_toNat hn]
        rw [hn] at a1 a2
        have : ∀ k < 6, Char.ofNat (65 + k) ∈ Spec.hexDigits := by decide
        have := this (n - 65) (by omega)
        rwa [show 65 + (n - 65) = n by omega] at this
      · cases h1

theorem filterMap_hex (s : Txt) : s.filterMap (toDigit 16) = (s.filter (· ∈ Spec.hexDigits)).map fun c =>
    if c.isDigit then c.toNat - '0'.toNat else if c.isLower then c.toNat - 'a'.toNat + 10 else c.toNat - 'A'.toNat + 10 := by
  induction s with
  | nil => rfl
  | cons c s ih =>
    rw [List.filterMap_cons, toDigit_hex, ih]
    by_cases h : c ∈ Spec.hexDigits <;> simp [h]

theorem hexNumber_eq (s : Txt) : valOf 16 0 (s.filterMap (toDigit 16)) = Spec.hexNumber s := by
  unfold valOf Spec.hexNumber
  rw [filterMap_hex]

/-! ## Canonical IPv4 texts -/

theorem toDigits_valOf (b : Nat) (hb : 1 < b) (ds : List Nat) (hne : ds ≠ []) (hlt : ∀ d ∈ ds, d < b) (h0 : ds.head? = some 0 → ds.length = 1) :
    Nat.toDigits b (valOf b 0 ds) = ds.map Nat.digitChar := by
  induction ds using List.reverseRecOn with
  | nil => exact (hne rfl).elim
  | append_singleton l d ih =>
    have hd := hlt d (by simp)
    have hv : valOf b 0 (l ++ [d]) = valOf b 0 l * b + d := by simp [valOf]
    cases l with
    | nil => simp [valOf, Nat.toDigits_of_lt_base hd]
    | cons e l =>
      have he : e ≠ 0 := by
        intro he; subst he
        have := h0 (by simp)
        simp at this
      have ih := ih (by simp) (fun x hx => hlt x (by simp only [List.mem_append]; exact .inl hx)) (by simp [he])
      have hpos : 0 < valOf b 0 (e :: l) := by
        have : ∀ (l : List Nat) (a : Nat), 0 < a → 0 < valOf b a l := by
          intro l
          induction l with
          | nil => intro a ha; exact ha
          | cons x l ih => intro a ha; exact ih _ (Nat.add_pos_left (Nat.mul_pos ha (by omega)) _)
        exact this l _ (by simp only [Nat.zero_mul, Nat.zero_add]; omega)
      rw [hv, Nat.toDigits_eq_if hb, if_neg (by
        intro h
        have := Nat.mul_le_mul_right b hpos
        omega)]
      rw [show (valOf b 0 (e :: l) * b + d) / b = valOf b 0 (e :: l) by
          rw [Nat.mul_comm, Nat.mul_add_div (by omega), Nat.div_eq_of_lt hd, Nat.add_zero],
        show (valOf b 0 (e :: l) * b + d) % b = d by rw [Nat.mul_comm, Nat.mul_add_mod, Nat.mod_eq_of_lt hd], ih]
      simp

theorem toDigit_ten {c : Char} {d : Nat} (h : toDigit 10 c = some d) : d < 10 ∧ c = Nat.digitChar d := by
  unfold toDigit at h
  obtain ⟨x, h1, h2⟩ := Option.bind_eq_some_iff.1 h
  split at h2
  · rename_i hx
    have := Option.some.inj h2
    subst this
    refine ⟨hx, ?_⟩
    unfold charVal at h1
    have le : ∀ {a b : Char}, a ≤ b ↔ a.toNat ≤ b.toNat := fun {a b} => Iff.rfl
    simp only [le] at h1
    split at h1
    · rename_i h
      have a1 : 48 ≤ c.toNat := h.1
      have e := Option.some.inj h1
      rw [char_of_toNat (show c.toNat = 48 + x by omega)]
      exact (by decide : ∀ x < 10, Char.ofNat (48 + x) = Nat.digitChar x) x hx
    split at h1
    · have e := Option.some.inj h1; omega
    split at h1
    · have e := Option.some.inj h1; omega
    · cases h1
  · cases h2

theorem readDigits_digits (k v n : Nat) (s : Txt) : ∃ ds : List Nat, (∀ d ∈ ds, d < 10) ∧
    s = ds.map Nat.digitChar ++ (readDigits 10 k v n s).2.2 ∧ (readDigits 10 k v n s).2.1 = n + ds.length ∧
      (readDigits 10 k v n s).1 = valOf 10 v ds := by
  induction k generalizing v n s with
  | zero => exact ⟨[], by simp, rfl, rfl, rfl⟩
  | succ k ih =>
    cases s with
    | nil => exact ⟨[], by simp, rfl, rfl, rfl⟩
    | cons c t =>
      unfold readDigits
      cases hc : toDigit 10 c with
      | none => exact ⟨[], by simp, rfl, rfl, rfl⟩
      | some d =>
        obtain ⟨ds, h1, h2, h3, h4⟩ := ih (v * 10 + d) (n + 1) t
        obtain ⟨h5, h6⟩ := toDigit_ten hc
        refine ⟨d :: ds, by simpa using ⟨h5, h1⟩, ?_, ?_, ?_⟩
        · simp only [List.map_cons, List.cons_append]; rw [← h2, h6]
        · simp only [List.length_cons]; rw [h3]; omega
        · simp only; rw [h4]; rfl

theorem octet_canonical {s rest : Txt} {v : Nat} (h : readNumber 10 3 false 256 s = some (v, rest)) : s = dec v ++ rest ∧ v < 256 := by
  obtain ⟨ds, h1, h2, h3, h4⟩ := readDigits_digits 4 0 0 s
  unfold readNumber at h
  simp only at h
  split at h
  · cases h
  split at h
  · cases h
  split at h
  · cases h
  rename_i a1 a2 a3
  split at h
  · rename_i hv
    simp only [Option.some.injEq, Prod.mk.injEq] at h
    obtain ⟨e1, e2⟩ := h
    rw [e2] at h2
    rw [h4] at e1
    refine ⟨?_, by rw [← e1, ← h4]; exact hv⟩
    rw [h2, ← e1]
    unfold dec
    rw [toDigits_valOf 10 (by omega) ds (by intro hn; apply a2; rw [h3, hn]; rfl) h1]
    intro hh
    by_contra hl
    apply a3
    refine ⟨by simp, ?_, by rw [h3]; cases ds with | nil => simp at hh | cons x l => simp only [List.length_cons] at hl ⊢; omega⟩
    cases ds with
    | nil => simp at hh
    | cons x l =>
      simp only [List.head?_cons, Option.some.injEq] at hh
      subst hh
      rw [h2]
      simp
  · cases h

theorem parseV4_canonical {s : Txt} {a : IPv4} (h : parseV4 s = some a) : s = showV4 a := by
  unfold parseV4 at h
  split at h
  · rename_i a' hr
    have := Option.some.inj h
    subst this
    unfold readV4 at hr
    simp only [readSep, Nat.lt_irrefl, gt_iff_lt, ↓reduceIte, Option.bind_eq_bind, Option.bind_eq_some_iff,
      Nat.ofNat_pos, Nat.lt_one_iff, zero_lt_one] at hr
    obtain ⟨⟨a1, s1⟩, h1, ⟨b1, s2⟩, ⟨t1, g1, h2⟩, ⟨c1, s3⟩, ⟨t2, g2, h3⟩, ⟨d1, s4⟩, ⟨t3, g3, h4⟩, h5⟩ := hr
    obtain ⟨e1, q1⟩ := octet_canonical h1
    obtain ⟨e2, q2⟩ := octet_canonical h2
    obtain ⟨e3, q3⟩ := octet_canonical h3
    obtain ⟨e4, q4⟩ := octet_canonical h4
    have g1 := readChar_eq g1
    have g2 := readChar_eq g2
    have g3 := readChar_eq g3
    simp only [Option.some.injEq, Prod.mk.injEq] at h5
    obtain ⟨h5, rfl⟩ := h5
    have hn : a'.toNat = a1 * 2 ^ 24 + b1 * 2 ^ 16 + c1 * 2 ^ 8 + d1 := by
      rw [← h5, BitVec.toNat_ofNat]; omega
    have k1 : a'.toNat / 2 ^ 24 = a1 := by omega
    have k2 : a'.toNat / 2 ^ 16 % 256 = b1 := by omega
    have k3 : a'.toNat / 2 ^ 8 % 256 = c1 := by omega
    have k4 : a'.toNat % 256 = d1 := by omega
    unfold showV4
    rw [k1, k2, k3, k4]
    subst e4 g3 e3 g2 e2 g1 e1
    simp
  · cases h

theorem split_join (p : Char → Bool) (s : Txt) : ∃ t u, split p s = t :: u ∧ (u = [] → s = t) ∧
    (u ≠ [] → ∃ c r, p c = true ∧ s = t ++ c :: r) := by
  induction s with
  | nil => exact ⟨[], [], rfl, fun _ => rfl, fun h => (h rfl).elim⟩
  | cons c s ih =>
    obtain ⟨t, u, h1, h2, h3⟩ := ih
    unfold split
    rw [h1]
    simp only
    split
    · rename_i hp
      exact ⟨[], t :: u, rfl, by simp, fun _ => ⟨c, s, hp, rfl⟩⟩
    · refine ⟨c :: t, u, rfl, fun h => by rw [h2 h], fun h => ?_⟩
      obtain ⟨d, r, hd, e⟩ := h3 h
      exact ⟨d, r, hd, by rw [e]; rfl⟩

theorem v4_parse_address {s : Txt} {x : BgpAddrV4} (h : BgpAddrV4.parse s = some x) :
    s = showV4 x.addr ∨ ∃ t, s = showV4 x.addr ++ '/' :: t := by
  obtain ⟨t, u, h1, h2, h3⟩ := split_join (· = '/') s
  unfold BgpAddrV4.parse at h
  rw [h1] at h
  cases u with
  | nil =>
    simp only [Option.bind_eq_bind, Option.bind_eq_some_iff] at h
    obtain ⟨a, ha, h⟩ := h
    have := Option.some.inj h
    subst this
    exact .inl (by rw [h2 rfl]; exact parseV4_canonical ha)
  | cons b u =>
    simp only [Option.bind_eq_bind, Option.bind_eq_some_iff] at h
    obtain ⟨a, ha, h⟩ := h
    have := Option.some.inj h
    subst this
    obtain ⟨c, r, hc, e⟩ := h3 (by simp)
    have : c = '/' := by simpa using hc
    subst this
    exact .inr ⟨r, by rw [e]; simp only; rw [← parseV4_canonical ha]⟩

end Zbgp
