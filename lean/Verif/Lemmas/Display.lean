import Verif.Model.Display
import Verif.Lemmas.TextV6

namespace Zbgp

open Std

/-! ## Texts cut at a character -/

theorem sep {c : Char} {a b x y : Txt} (ha : c ∉ a) (hb : c ∉ b) (h : a ++ c :: x = b ++ c :: y) : a = b ∧ x = y := by
  induction a generalizing b with
  | nil =>
    cases b with
    | nil => simpa using h
    | cons d b => simp at h; exact (hb (by simp [h.1])).elim
  | cons d a ih =>
    cases b with
    | nil => simp at h; exact (ha (by simp [h.1])).elim
    | cons e b =>
      simp only [List.cons_append, List.cons.injEq] at h
      obtain ⟨h1, h2⟩ := ih (fun m => ha (by simp [m])) (fun m => hb (by simp [m])) h.2
      exact ⟨by rw [h.1, h1], h2⟩

theorem sepR {c : Char} {a b x y : Txt} (hx : c ∉ x) (hy : c ∉ y) (h : a ++ c :: x = b ++ c :: y) : a = b ∧ x = y := by
  have h' := congrArg List.reverse h
  simp only [List.reverse_append, List.reverse_cons, List.append_assoc, List.cons_append, List.nil_append] at h'
  obtain ⟨h1, h2⟩ := sep (by simpa using hx) (by simpa using hy) h'
  exact ⟨List.reverse_injective h2, List.reverse_injective h1⟩

/-! ## Which characters are in the texts -/

def lowerHex : List Char := "0123456789abcdef".toList

theorem IsHexDigit.mem {c : Char} (h : IsHexDigit c) : c ∈ lowerHex := by
  obtain ⟨d, hd, rfl⟩ := h
  exact (by decide : ∀ d < 16, Nat.digitChar d ∈ lowerHex) d hd

theorem nm_dec {c : Char} {n : Nat} (h : c ∉ lowerHex) : c ∉ dec n := fun m => h (mem_dec m).mem
theorem nm_hex {c : Char} {n : Nat} (h : c ∉ lowerHex) : c ∉ hex n := fun m => h (mem_hex m).mem
theorem nm_hex2 {c : Char} {n : Nat} (h : c ∉ lowerHex) : c ∉ hex2 n := fun m => h (mem_hex2 m).mem

theorem nm_hex8 {c : Char} {n : Nat} (h : c ∉ lowerHex) : c ∉ hex8 n := by
  intro m
  rcases List.mem_append.1 m with m | m
  · rw [List.eq_of_mem_replicate m] at h; exact h (by decide)
  · exact nm_hex h m

theorem nm_showV4 {c : Char} {a : IPv4} (h : c ∉ '.' :: lowerHex) : c ∉ showV4 a := by
  intro m
  rcases mem_showV4 m with m | m
  · exact h (List.mem_cons_of_mem _ m.mem)
  · exact h (by simp [m])

theorem nm_showV6 {c : Char} {a : IPv6} (h : c ∉ ':' :: '.' :: lowerHex) : c ∉ showV6 a := by
  have hg : ∀ gs : List Nat, c ∉ showGroups gs := by
    intro gs m
    rcases mem_showGroups m with m | m
    · exact h (List.mem_cons_of_mem _ (List.mem_cons_of_mem _ m.mem))
    · exact h (by simp [m])
  intro m
  unfold showV6 at m
  split at m
  · rcases List.mem_append.1 m with m | m
    · exact h ((by decide : ∀ c ∈ "::ffff:".toList, c ∈ ':' :: '.' :: lowerHex) c m)
    · exact nm_showV4 (fun k => h (List.mem_cons_of_mem _ k)) m
  · simp only at m
    split at m
    · rcases List.mem_append.1 m with m | m
      · rcases List.mem_append.1 m with m | m
        · exact hg _ m
        · exact h ((by decide : ∀ c ∈ "::".toList, c ∈ ':' :: '.' :: lowerHex) c m)
      · exact hg _ m
    · exact hg _ m

theorem nm_showIp {c : Char} {a : IpAddr} (h : c ∉ ':' :: '.' :: lowerHex) : c ∉ showIp a := by
  cases a with
  | v4 a => exact nm_showV4 (fun k => h (List.mem_cons_of_mem _ k))
  | v6 a => exact nm_showV6 h

theorem nm_mac {c : Char} {m : MacAddress} (h : c ∉ ':' :: lowerHex) : c ∉ m.display := by
  intro k
  rcases mem_mac_display k with k | k
  · exact h (List.mem_cons_of_mem _ k.mem)
  · exact h (by simp [k])

theorem nm_labelsRest {c : Char} {l : List U32} (h : c ∉ ',' :: lowerHex) : c ∉ MplsLabels.displayRest l := by
  induction l with
  | nil => exact List.not_mem_nil
  | cons x r ih =>
    intro m
    simp only [MplsLabels.displayRest, List.cons_append, List.mem_cons, List.mem_append] at m
    rcases m with m | m | m
    · exact h (by simp [m])
    · exact nm_dec (fun k => h (List.mem_cons_of_mem _ k)) m
    · exact ih m

theorem nm_labels {c : Char} {l : MplsLabels} (h : c ∉ ',' :: lowerHex) : c ∉ l.display := by
  unfold MplsLabels.display
  split
  · exact List.not_mem_nil
  · intro m
    rcases List.mem_append.1 m with m | m
    · exact nm_dec (fun k => h (List.mem_cons_of_mem _ k)) m
    · exact nm_labelsRest h m

/-! ## Numbers and addresses -/

theorem toDigits_inj {b m n : Nat} (hb : 1 < b) (hb' : b ≤ 16) (h : Nat.toDigits b m = Nat.toDigits b n) : m = n := by
  obtain ⟨ds, h1, h2, h3, -⟩ := toDigits_spec b hb m
  obtain ⟨es, k1, k2, k3, -⟩ := toDigits_spec b hb n
  rw [h1, k1] at h
  have hd : ∀ d < 16, ∀ e < 16, Nat.digitChar d = Nat.digitChar e → d = e := by decide
  have : ds = es := by
    clear h1 h3 k1 k3
    induction ds generalizing es with
    | nil => cases es with
      | nil => rfl
      | cons e es => simp at h
    | cons d ds ih => cases es with
      | nil => simp at h
      | cons e es =>
        simp only [List.map_cons, List.cons.injEq] at h
        rw [hd d (by have := h2 d (by simp); omega) e (by have := k2 e (by simp); omega) h.1,
          ih (fun d hd => h2 d (by simp [hd])) es h.2 (fun d hd => k2 d (by simp [hd]))]
  rw [← h3, ← k3, this]

theorem dec_inj {m n : Nat} (h : dec m = dec n) : m = n := toDigits_inj (by omega) (by omega) h
theorem hex_inj {m n : Nat} (h : hex m = hex n) : m = n := toDigits_inj (by omega) (by omega) h

theorem decU_inj {w : Nat} {a b : BitVec w} (h : dec a.toNat = dec b.toNat) : a = b := BitVec.eq_of_toNat_eq (dec_inj h)
theorem hexU_inj {w : Nat} {a b : BitVec w} (h : hex a.toNat = hex b.toNat) : a = b := BitVec.eq_of_toNat_eq (hex_inj h)

theorem hex2_inj {a b : U8} (h : hex2 a.toNat = hex2 b.toNat) : a = b := by
  rw [hex2_eq _ a.isLt, hex2_eq _ b.isLt] at h
  have hd : ∀ d < 16, ∀ e < 16, Nat.digitChar d = Nat.digitChar e → d = e := by decide
  simp only [List.map_cons, List.map_nil, List.cons.injEq, and_true] at h
  have h1 := a.isLt
  have h2 := b.isLt
  have := hd _ (by omega) _ (by omega) h.1
  have := hd _ (by omega) _ (by omega) h.2
  exact BitVec.eq_of_toNat_eq (by omega)

theorem hex8_eq (a : U32) : ∃ ds : List Nat, ds.length = 8 ∧ hex8 a.toNat = ds.map Nat.digitChar ∧ (∀ d ∈ ds, d < 16) ∧
    valOf 16 0 ds = a.toNat := by
  obtain ⟨ds, h1, h2, h3, h4, h5⟩ := toDigits_spec 16 (by omega) a.toNat
  have hv : ∀ (k : Nat), valOf 16 0 (List.replicate k 0 ++ ds) = a.toNat := by
    intro k
    induction k with
    | zero => simpa using h3
    | succ k ih => simpa [List.replicate_succ, valOf] using ih
  have hl : ds.length ≤ 8 := by
    by_contra hc
    have : ∀ (l : List Nat) (acc : Nat), 16 ^ l.length * acc ≤ valOf 16 acc l := by
      intro l
      induction l with
      | nil => intro acc; simp [valOf]
      | cons d l ih =>
        intro acc
        have := ih (acc * 16 + d)
        rw [show valOf 16 acc (d :: l) = valOf 16 (acc * 16 + d) l from rfl]
        refine Nat.le_trans ?_ this
        rw [List.length_cons, Nat.pow_succ, Nat.mul_assoc]
        exact Nat.mul_le_mul_left _ (by omega)
    cases ds with
    | nil => exact (h4 rfl).elim
    | cons d l =>
      simp only [List.length_cons] at hc
      have h0 : d ≠ 0 := by
        intro h0
        have := h5 (by simp [h0])
        rw [this, show Nat.toDigits 16 0 = ['0'] from rfl] at h1
        have := congrArg List.length h1
        simp only [List.length_map, List.length_cons, List.length_nil] at this
        omega
      have h6 := this l d
      rw [show valOf 16 0 (d :: l) = valOf 16 (0 * 16 + d) l from rfl] at h3
      simp only [Nat.zero_mul, Nat.zero_add] at h3
      have h7 : 16 ^ 8 ≤ 16 ^ l.length := Nat.pow_le_pow_right (by omega) (by omega)
      have h8 : 16 ^ l.length * 1 ≤ 16 ^ l.length * d := Nat.mul_le_mul_left _ (by omega)
      have := a.isLt
      omega
  refine ⟨List.replicate (8 - ds.length) 0 ++ ds, by simp; omega, ?_, ?_, hv _⟩
  · simp [hex8, hex, h1, Nat.digitChar]
  · intro d hd
    rcases List.mem_append.1 hd with hd | hd
    · rw [List.eq_of_mem_replicate hd]; omega
    · exact h2 d hd

theorem hex8_inj {a b : U32} (h : hex8 a.toNat = hex8 b.toNat) : a = b := by
  obtain ⟨ds, -, h1, h2, h3⟩ := hex8_eq a
  obtain ⟨es, -, k1, k2, k3⟩ := hex8_eq b
  rw [h1, k1] at h
  have hd : ∀ d < 16, ∀ e < 16, Nat.digitChar d = Nat.digitChar e → d = e := by decide
  have : ds = es := by
    clear h1 h3 k1 k3
    induction ds generalizing es with
    | nil => cases es with
      | nil => rfl
      | cons e es => simp at h
    | cons d ds ih => cases es with
      | nil => simp at h
      | cons e es =>
        simp only [List.map_cons, List.cons.injEq] at h
        rw [hd d (h2 d (by simp)) e (k2 e (by simp)) h.1,
          ih (fun d hd => h2 d (by simp [hd])) es h.2 (fun d hd => k2 d (by simp [hd]))]
  exact BitVec.eq_of_toNat_eq (by rw [← h3, ← k3, this])

theorem showV4_inj {a b : IPv4} (h : showV4 a = showV4 b) : a = b := by
  have := parseV4_show a
  rw [h, parseV4_show] at this
  exact (Option.some.inj this).symm

theorem showV6_inj {a b : IPv6} (h : showV6 a = showV6 b) : a = b := by
  have := parseV6_show a
  rw [h, parseV6_show] at this
  exact (Option.some.inj this).symm

theorem showIp_inj {a b : IpAddr} (h : showIp a = showIp b) : a = b := by
  cases a with
  | v4 a => cases b with
    | v4 b => rw [showV4_inj h]
    | v6 b =>
      have := colon_mem_showV6 b
      rw [show showV6 b = showV4 a from h.symm] at this
      exact (nm_showV4 (by decide) this).elim
  | v6 a => cases b with
    | v4 b =>
      have := colon_mem_showV6 a
      rw [show showV6 a = showV4 b from h] at this
      exact (nm_showV4 (by decide) this).elim
    | v6 b => rw [showV6_inj h]

theorem showIp_ne_nil (a : IpAddr) : showIp a ≠ [] := by
  cases a with
  | v4 a => intro h; have := parseV4_show a; rw [show showV4 a = [] from h] at this; simp [parseV4, readV4, readSep, readNumber, readDigits] at this
  | v6 a => intro h; have := colon_mem_showV6 a; rw [show showV6 a = [] from h] at this; simp at this

theorem mac_inj {a b : MacAddress} (h : a.display = b.display) : a = b := by
  have := mac_text a
  rw [h, mac_text] at this
  exact (Option.some.inj this).symm

theorem mac_length (m : MacAddress) : m.display.length = 17 := by
  have h : ∀ x : U8, (hex2 x.toNat).length = 2 := fun x => by rw [hex2_eq _ x.isLt]; rfl
  simp [MacAddress.display, h]

/-! ## Route distinguishers -/

theorem rd_parts (r : BgpRD) : ∃ p q, r.display = p ++ ':' :: q ∧ ':' ∉ p ∧ ':' ∉ q ∧
    ∀ c, c ∉ '.' :: lowerHex → c ∉ p ∧ c ∉ q := by
  unfold BgpRD.display
  split
  · refine ⟨dec ((r.rdh >>> 8) &&& 0xff).toNat ++ '.' :: dec (r.rdh &&& 0xff).toNat ++ '.' :: dec ((r.rdl >>> 24) &&& 0xff).toNat ++
      '.' :: dec ((r.rdl >>> 16) &&& 0xff).toNat, dec (r.rdl &&& 0xffff).toNat, by simp, ?_, nm_dec (by decide), ?_⟩
    · simp only [List.append_assoc, List.cons_append, List.mem_append, List.mem_cons, not_or]
      exact ⟨nm_dec (by decide), by decide, nm_dec (by decide), by decide, nm_dec (by decide), by decide, nm_dec (by decide)⟩
    · intro c hc
      have hd : ∀ n, c ∉ dec n := fun n => nm_dec (fun k => hc (List.mem_cons_of_mem _ k))
      have hp : c ≠ '.' := fun k => hc (by simp [k])
      simp only [List.append_assoc, List.cons_append, List.mem_append, List.mem_cons, not_or]
      exact ⟨⟨hd _, hp, hd _, hp, hd _, hp, hd _⟩, hd _⟩
  · refine ⟨_, _, rfl, nm_dec (by decide), nm_dec (by decide), fun c hc => ?_⟩
    have hd : ∀ n, c ∉ dec n := fun n => nm_dec (fun k => hc (List.mem_cons_of_mem _ k))
    exact ⟨hd _, hd _⟩

theorem nm_rd {c : Char} {r : BgpRD} (h : c ∉ ':' :: '.' :: lowerHex) : c ∉ r.display := by
  obtain ⟨p, q, e, -, -, hc⟩ := rd_parts r
  have := hc c (fun k => h (List.mem_cons_of_mem _ k))
  rw [e]
  simp only [List.mem_append, List.mem_cons, not_or]
  exact ⟨this.1, fun k => h (by simp [k]), this.2⟩

theorem rd_type1_value (r : BgpRD) : (r.rdh >>> 16 = 1 → r.rdh.toNat = 65536 + ((r.rdh >>> 8) &&& 0xff).toNat * 256 + (r.rdh &&& 0xff).toNat) ∧
    r.rdl.toNat = ((r.rdl >>> 24) &&& 0xff).toNat * 2 ^ 24 + ((r.rdl >>> 16) &&& 0xff).toNat * 2 ^ 16 + (r.rdl &&& 0xffff).toNat := by
  have h1 := r.rdh.isLt
  have h2 := r.rdl.isLt
  have e8 : (255 : U32).toNat = 2 ^ 8 - 1 := rfl
  have e16 : (65535 : U32).toNat = 2 ^ 16 - 1 := rfl
  constructor
  · intro h
    have h := congrArg BitVec.toNat h
    simp only [BitVec.toNat_ushiftRight, Nat.shiftRight_eq_div_pow] at h
    rw [show (1 : U32).toNat = 1 from rfl] at h
    simp only [BitVec.toNat_and, BitVec.toNat_ushiftRight, Nat.shiftRight_eq_div_pow, e8, Nat.and_two_pow_sub_one_eq_mod]
    omega
  · simp only [BitVec.toNat_and, BitVec.toNat_ushiftRight, Nat.shiftRight_eq_div_pow, e8, e16, Nat.and_two_pow_sub_one_eq_mod]
    omega

theorem rd_inj {r s : BgpRD} (h : r.display = s.display) : r = s := by
  have nd : ∀ n, '.' ∉ dec n := fun n => nm_dec (by decide)
  have nc : ∀ n, ':' ∉ dec n := fun n => nm_dec (by decide)
  by_cases hr : r.rdh >>> 16 = 1
  · by_cases hs : s.rdh >>> 16 = 1
    · unfold BgpRD.display at h
      rw [if_pos hr, if_pos hs] at h
      simp only [List.append_assoc, List.cons_append] at h
      obtain ⟨a1, h⟩ := sep (nd _) (nd _) h
      obtain ⟨a2, h⟩ := sep (nd _) (nd _) h
      obtain ⟨a3, h⟩ := sep (nd _) (nd _) h
      obtain ⟨a4, h⟩ := sep (nc _) (nc _) h
      have v1 := rd_type1_value r
      have v2 := rd_type1_value s
      have v1' := v1.1 hr
      have v2' := v2.1 hs
      rw [dec_inj a1, dec_inj a2, ← v2'] at v1'
      have v1 := v1.2
      rw [dec_inj a3, dec_inj a4, dec_inj h, ← v2.2] at v1
      cases r; cases s
      simp only at v1' v1
      rw [BitVec.eq_of_toNat_eq v1', BitVec.eq_of_toNat_eq v1]
    · exfalso
      unfold BgpRD.display at h
      rw [if_pos hr, if_neg hs] at h
      have : '.' ∈ dec s.rdh.toNat ++ ':' :: dec s.rdl.toNat := by rw [← h]; simp
      simp [nd] at this
  · by_cases hs : s.rdh >>> 16 = 1
    · exfalso
      unfold BgpRD.display at h
      rw [if_neg hr, if_pos hs] at h
      have : '.' ∈ dec r.rdh.toNat ++ ':' :: dec r.rdl.toNat := by rw [h]; simp
      simp [nd] at this
    · have := rd_text r hr
      rw [h, rd_text s hs] at this
      exact (Option.some.inj this).symm

theorem rd_sep {r s : BgpRD} {x y : Txt} (h : r.display ++ ':' :: x = s.display ++ ':' :: y) : r = s ∧ x = y := by
  obtain ⟨p, q, e, hp, hq, -⟩ := rd_parts r
  obtain ⟨p', q', e', hp', hq', -⟩ := rd_parts s
  rw [e, e'] at h
  simp only [List.append_assoc, List.cons_append] at h
  obtain ⟨h1, h⟩ := sep hp hp' h
  obtain ⟨h2, h⟩ := sep hq hq' h
  exact ⟨rd_inj (by rw [e, e', h1, h2]), h⟩

/-! ## Labels -/

theorem labelsRest_inj {l m : List U32} (h : MplsLabels.displayRest l = MplsLabels.displayRest m) : l = m := by
  induction l generalizing m with
  | nil => cases m with
    | nil => rfl
    | cons b m => simp [MplsLabels.displayRest] at h
  | cons a l ih => cases m with
    | nil => simp [MplsLabels.displayRest] at h
    | cons b m =>
      simp only [MplsLabels.displayRest, List.cons_append, List.cons.injEq, true_and] at h
      have nc : ∀ n, ',' ∉ dec n := fun n => nm_dec (by decide)
      cases l with
      | nil => cases m with
        | nil => simp only [MplsLabels.displayRest, List.append_nil] at h; rw [decU_inj h]
        | cons b' m =>
          exfalso
          simp only [MplsLabels.displayRest, List.append_nil, List.cons_append] at h
          exact nc a.toNat (by rw [h]; simp)
      | cons a' l => cases m with
        | nil =>
          exfalso
          simp only [MplsLabels.displayRest, List.append_nil, List.cons_append] at h
          exact nc b.toNat (by rw [← h]; simp)
        | cons b' m =>
          have h' := h
          simp only [MplsLabels.displayRest, List.cons_append] at h'
          obtain ⟨h1, -⟩ := sep (nc _) (nc _) h'
          rw [h1] at h
          rw [decU_inj h1, ih (List.append_cancel_left h)]

theorem labels_inj {l m : MplsLabels} (h : l.display = m.display) : l = m := by
  obtain ⟨l⟩ := l
  obtain ⟨m⟩ := m
  have hne : ∀ (b : U32) m, dec b.toNat ++ MplsLabels.displayRest m ≠ [] := by
    intro b m h
    exact toDigits_ne_nil 10 b.toNat (List.append_eq_nil_iff.1 h).1
  cases l with
  | nil => cases m with
    | nil => rfl
    | cons b m => exact (hne b m h.symm).elim
  | cons a l => cases m with
    | nil => exact (hne a l h).elim
    | cons b m =>
      have : MplsLabels.displayRest (a :: l) = MplsLabels.displayRest (b :: m) := congrArg (',' :: ·) h
      rw [labelsRest_inj this]

/-! ## Prefixes with labels, route distinguishers, path identifiers -/

/-- The texts of a type tell the values apart and do not begin with the marks given. -/
structure TextOf (T : Type) [RDisplay T] (marks : List Char) : Prop where
  inj : ∀ x y : T, RDisplay.display x = RDisplay.display y → x = y
  start : ∀ x : T, ∀ c t, RDisplay.display x = '<' :: c :: t → c ∈ marks

theorem hex_start {s t : Txt} {c : Char} (h : s = '<' :: t) (hc : ∀ c ∈ s.head?, c ∈ ':' :: '.' :: lowerHex) : c ∈ ([] : List Char) := by
  subst h
  exact absurd (hc '<' (by simp)) (by decide)

theorem textOf_labeled {T : Type} [RDisplay T] {m : List Char} (h : TextOf T m) (hm : 'l' ∉ m) : TextOf (Labeled T) ('l' :: m) := by
  constructor
  · intro x y e
    obtain ⟨p, l⟩ := x
    obtain ⟨q, k⟩ := y
    simp only [RDisplay.display] at e
    split at e
    · rename_i hl
      split at e
      · rename_i hk
        rw [h.inj _ _ e]
        obtain ⟨l⟩ := l
        obtain ⟨k⟩ := k
        simp only [List.isEmpty_iff] at hl hk
        rw [hl, hk]
      · exact (hm (h.start p 'l' _ e)).elim
    · split at e
      · exact (hm (h.start q 'l' _ e.symm)).elim
      · have e' : l.display ++ '>' :: (' ' :: RDisplay.display p) = k.display ++ '>' :: (' ' :: RDisplay.display q) := by
          simpa using e
        obtain ⟨e1, e2⟩ := sep (nm_labels (by decide)) (nm_labels (by decide)) e'
        simp only [List.cons.injEq, true_and] at e2
        rw [labels_inj e1, h.inj _ _ e2]
  · intro x c t e
    simp only [RDisplay.display] at e
    split at e
    · exact List.mem_cons_of_mem _ (h.start _ _ _ e)
    · have e' : 'l' :: (':' :: (x.labels.display ++ "> ".toList ++ RDisplay.display x.pfx)) = c :: t := by simpa using e
      rw [(List.cons.inj e').1]
      exact List.mem_cons_self

theorem textOf_rd {T : Type} [RDisplay T] {m : List Char} (h : TextOf T m) (hm : 'r' ∉ m) : TextOf (WithRd T) ('r' :: m) := by
  constructor
  · intro x y e
    obtain ⟨p, l⟩ := x
    obtain ⟨q, k⟩ := y
    simp only [RDisplay.display] at e
    split at e
    · rename_i hl
      split at e
      · rename_i hk
        rw [h.inj _ _ e]
        obtain ⟨l1, l2⟩ := l
        obtain ⟨k1, k2⟩ := k
        simp only [BgpRD.isZero, Bool.and_eq_true, beq_iff_eq] at hl hk
        rw [hl.1, hl.2, hk.1, hk.2]
      · exact (hm (h.start p 'r' _ e)).elim
    · split at e
      · exact (hm (h.start q 'r' _ e.symm)).elim
      · have e' : l.display ++ '>' :: (' ' :: RDisplay.display p) = k.display ++ '>' :: (' ' :: RDisplay.display q) := by
          simpa using e
        obtain ⟨e1, e2⟩ := sep (nm_rd (by decide)) (nm_rd (by decide)) e'
        simp only [List.cons.injEq, true_and] at e2
        rw [rd_inj e1, h.inj _ _ e2]
  · intro x c t e
    simp only [RDisplay.display] at e
    split at e
    · exact List.mem_cons_of_mem _ (h.start _ _ _ e)
    · have e' : 'r' :: ('d' :: ':' :: (x.rd.display ++ "> ".toList ++ RDisplay.display x.pfx)) = c :: t := by simpa using e
      rw [(List.cons.inj e').1]
      exact List.mem_cons_self

theorem textOf_pathid {T : Type} [RDisplay T] {m : List Char} (h : TextOf T m) (hm : 'p' ∉ m) : TextOf (WithPathId T) ('p' :: m) := by
  constructor
  · intro x y e
    obtain ⟨l, p⟩ := x
    obtain ⟨k, q⟩ := y
    simp only [RDisplay.display] at e
    split at e
    · rename_i hl
      split at e
      · rename_i hk
        rw [h.inj _ _ e, hl, hk]
      · exact (hm (h.start p 'p' _ e)).elim
    · split at e
      · exact (hm (h.start q 'p' _ e.symm)).elim
      · have e' : dec l.toNat ++ '>' :: (' ' :: RDisplay.display p) = dec k.toNat ++ '>' :: (' ' :: RDisplay.display q) := by
          simpa using e
        obtain ⟨e1, e2⟩ := sep (nm_dec (by decide)) (nm_dec (by decide)) e'
        simp only [List.cons.injEq, true_and] at e2
        rw [decU_inj e1, h.inj _ _ e2]
  · intro x c t e
    simp only [RDisplay.display] at e
    split at e
    · exact List.mem_cons_of_mem _ (h.start _ _ _ e)
    · have e' : 'p' :: ("athid:".toList ++ (dec x.pathid.toNat ++ "> ".toList ++ RDisplay.display x.nlri)) = c :: t := by simpa using e
      rw [(List.cons.inj e').1]
      exact List.mem_cons_self

theorem textOf_plain {T : Type} [RDisplay T] (hi : ∀ x y : T, RDisplay.display x = RDisplay.display y → x = y)
    (hs : ∀ x : T, '<' ∉ RDisplay.display x) : TextOf T [] :=
  ⟨hi, fun x c t e => (hs x (by rw [e]; simp)).elim⟩

theorem textOf_v4 : TextOf BgpAddrV4 [] := by
  refine textOf_plain (fun x y h => ?_) (fun x m => ?_)
  · have := v4_text x
    rw [show x.display = y.display from h, v4_text] at this
    exact (Option.some.inj this).symm
  · rcases List.mem_append.1 m with m | m
    · exact nm_showV4 (by decide) m
    · rcases List.mem_cons.1 m with m | m
      · exact absurd m (by decide)
      · exact nm_dec (by decide) m

theorem textOf_v6 : TextOf BgpAddrV6 [] := by
  refine textOf_plain (fun x y h => ?_) (fun x m => ?_)
  · have := v6_text x
    rw [show x.display = y.display from h, v6_text] at this
    exact (Option.some.inj this).symm
  · rcases List.mem_append.1 m with m | m
    · exact nm_showV6 (by decide) m
    · rcases List.mem_cons.1 m with m | m
      · exact absurd m (by decide)
      · exact nm_dec (by decide) m

theorem textOf_mdt4 : TextOf BgpMdtV4 [] := by
  refine textOf_plain (fun x y h => ?_) (fun x m => ?_)
  · have := mdt4_text x
    rw [show x.display = y.display from h, mdt4_text] at this
    exact (Option.some.inj this).symm
  · rcases List.mem_append.1 m with m | m
    · rcases List.mem_append.1 m with m | m
      · exact nm_showV4 (by decide) m
      · rcases List.mem_cons.1 m with m | m
        · exact absurd m (by decide)
        · exact nm_dec (by decide) m
    · rcases List.mem_cons.1 m with m | m
      · exact absurd m (by decide)
      · exact nm_showV4 (by decide) m

theorem textOf_mdt6 : TextOf BgpMdtV6 [] := by
  refine textOf_plain (fun x y h => ?_) (fun x m => ?_)
  · have := mdt6_text x
    rw [show x.display = y.display from h, mdt6_text] at this
    exact (Option.some.inj this).symm
  · rcases List.mem_append.1 m with m | m
    · rcases List.mem_append.1 m with m | m
      · exact nm_showV6 (by decide) m
      · rcases List.mem_cons.1 m with m | m
        · exact absurd m (by decide)
        · exact nm_dec (by decide) m
    · rcases List.mem_cons.1 m with m | m
      · exact absurd m (by decide)
      · exact nm_showV6 (by decide) m

end Zbgp
