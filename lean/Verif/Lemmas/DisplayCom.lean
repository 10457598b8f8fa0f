import Verif.Lemmas.Display

namespace Zbgp

open Std

namespace BgpExtCommunity

/-- the words extended communities are shown with -/
def word (k : Fin 12) : Txt :=
  (["ext-target", "ext-origin", "ext-src-as", "ext-rt-import", "ext-as-specific", "ext-import-rt", "ext-ipv4a-specific", "encapsulation",
    "evpn-l2-info", "esi-label", "ext-opaque", "ext-unknown"][k.val]'(by simp)).toList

/-- which communities are shown with a word, and the text behind it -/
def Shown (x : BgpExtCommunity) (t : Txt) (k : Fin 12) : Prop :=
  match k with
  | 0 => x.subtype = 2 ∧ ((x.ctype = 0 ∧ t = dec x.a.toNat ++ ':' :: dec x.b.toNat) ∨ (x.ctype = 1 ∧ t = x.ipNum) ∨
      (x.ctype = 2 ∧ t = x.typeAB))
  | 1 => x.subtype = 3 ∧ ((x.ctype = 1 ∧ t = x.ipNum) ∨ t = x.typeAB)
  | 2 => x.subtype = 9 ∧ t = x.typeAB
  | 3 => x.subtype = 11 ∧ ((x.ctype = 1 ∧ t = x.ipNum) ∨ t = x.typeAB)
  | 4 => t = x.hexAll
  | 5 => x.subtype = 10 ∧ (x.ctype = 1 ∨ x.ctype = 0x41) ∧ t = x.ipNum
  | 6 => t = x.hexAll
  | 7 => x.ctype = 3 ∧ x.subtype = 12 ∧ t = "0x".toList ++ hex x.b.toNat
  | 8 => x.ctype = 6 ∧ x.subtype = 4 ∧ t = "cf=".toList ++ dec x.a.toNat ++ ":mtu=".toList ++ dec (x.b >>> 16).toNat
  | 9 => x.ctype = 6 ∧ x.subtype = 1 ∧ t = dec x.a.toNat ++ ":label=".toList ++ dec (x.b >>> 8).toNat ++ ':' :: dec (x.b &&& 0xff).toNat
  | 10 => t = x.hexAll2
  | 11 => t = x.hexAll2

private theorem ite_elim {P : Txt → Prop} {c : Prop} [Decidable c] {a b : Txt} (h1 : c → P a) (h2 : ¬ c → P b) : P (if c then a else b) := by
  by_cases h : c
  · rw [if_pos h]; exact h1 h
  · rw [if_neg h]; exact h2 h

private theorem tag_eq {s : String} {k : Fin 12} {t : Txt} (h : s.toList = word k ++ [':']) : s.toList ++ t = word k ++ ':' :: t := by
  rw [h]; simp

theorem display_shown (x : BgpExtCommunity) : ∃ k t, x.display = word k ++ ':' :: t ∧ x.Shown t k := by
  let P : Txt → Prop := fun d => ∃ k t, d = word k ++ ':' :: t ∧ x.Shown t k
  show P x.display
  unfold display
  refine ite_elim (P := P) (fun h => ⟨0, _, by rw [List.append_assoc]; exact tag_eq (by decide), h.1, .inl ⟨h.2, rfl⟩⟩) fun _ => ?_
  refine ite_elim (P := P) (fun h => ⟨0, _, tag_eq (by decide), h.1, .inr (.inl ⟨h.2, rfl⟩)⟩) fun _ => ?_
  refine ite_elim (P := P) (fun h => ⟨0, _, tag_eq (by decide), h.1, .inr (.inr ⟨h.2, rfl⟩)⟩) fun _ => ?_
  refine ite_elim (P := P) (fun h => ⟨1, _, tag_eq (by decide), h.1, .inl ⟨h.2, rfl⟩⟩) fun _ => ?_
  refine ite_elim (P := P) (fun h => ⟨1, _, tag_eq (by decide), h.1, .inr rfl⟩) fun _ => ?_
  refine ite_elim (P := P) (fun h => ⟨2, _, tag_eq (by decide), h, rfl⟩) fun _ => ?_
  refine ite_elim (P := P) (fun h => ⟨3, _, tag_eq (by decide), h.1, .inl ⟨h.2, rfl⟩⟩) fun _ => ?_
  refine ite_elim (P := P) (fun h => ⟨3, _, tag_eq (by decide), h.1, .inr rfl⟩) fun _ => ?_
  refine ite_elim (P := P) (fun h => ⟨4, _, tag_eq (by decide), rfl⟩) fun _ => ?_
  refine ite_elim (P := P) (fun h => ⟨5, _, tag_eq (by decide), h.1, h.2, rfl⟩) fun _ => ?_
  refine ite_elim (P := P) (fun h => ⟨6, _, tag_eq (by decide), rfl⟩) fun _ => ?_
  refine ite_elim (P := P) (fun h => ⟨7, _, by rw [show "encapsulation:0x".toList = "encapsulation:".toList ++ "0x".toList by decide, List.append_assoc]; exact tag_eq (by decide), h.1, h.2, rfl⟩) fun _ => ?_
  refine ite_elim (P := P) (fun h => ⟨8, _, by rw [show "evpn-l2-info:cf=".toList = "evpn-l2-info:".toList ++ "cf=".toList by decide, List.append_assoc, List.append_assoc, List.append_assoc]; exact tag_eq (by decide), h.1, h.2, by simp only [List.append_assoc]⟩) fun _ => ?_
  refine ite_elim (P := P) (fun h => ⟨9, _, by rw [List.append_assoc, List.append_assoc, List.append_assoc]; exact tag_eq (by decide), h.1, h.2, by simp only [List.append_assoc]⟩) fun _ => ?_
  refine ite_elim (P := P) (fun h => ⟨10, _, tag_eq (by decide), rfl⟩) fun _ => ?_
  exact ⟨11, _, tag_eq (by decide), rfl⟩

theorem word_inj : ∀ k l : Fin 12, word k = word l → k = l := by decide

theorem word_colon : ∀ k : Fin 12, ':' ∉ word k := by decide

private theorem nd (n : Nat) : ':' ∉ dec n := nm_dec (by decide)

theorem getIpv4_value (x : BgpExtCommunity) : x.getIpv4.toNat = x.a.toNat * 65536 + x.b.toNat / 65536 ∧ x.getNum.toNat = x.b.toNat % 65536 := by
  have ha := x.a.isLt
  have hb := x.b.isLt
  unfold getIpv4 getNum
  have e8 : (255 : U16).toNat = 2 ^ 8 - 1 := rfl
  have e8' : (255 : U32).toNat = 2 ^ 8 - 1 := rfl
  have e16 : (65535 : U32).toNat = 2 ^ 16 - 1 := rfl
  constructor
  · simp only [BitVec.toNat_append, BitVec.toNat_setWidth, BitVec.toNat_and, BitVec.toNat_ushiftRight, Nat.shiftRight_eq_div_pow, e8, e8',
      Nat.and_two_pow_sub_one_eq_mod]
    rw [← Nat.shiftLeft_add_eq_or_of_lt (by omega), ← Nat.shiftLeft_add_eq_or_of_lt (by omega), ← Nat.shiftLeft_add_eq_or_of_lt (by omega)]
    simp only [Nat.shiftLeft_eq]
    omega
  · simp only [BitVec.toNat_setWidth, BitVec.toNat_and, e16, Nat.and_two_pow_sub_one_eq_mod]
    omega

theorem ipNum_inj {x y : BgpExtCommunity} (h : x.ipNum = y.ipNum) : x.a = y.a ∧ x.b = y.b := by
  obtain ⟨h1, h2⟩ := sep (nm_showV4 (by decide)) (nm_showV4 (by decide)) h
  have h1 := congrArg BitVec.toNat (showV4_inj h1)
  have h2 := dec_inj h2
  rw [(getIpv4_value x).1, (getIpv4_value y).1] at h1
  rw [(getIpv4_value x).2, (getIpv4_value y).2] at h2
  have := x.a.isLt
  have := x.b.isLt
  have := y.a.isLt
  have := y.b.isLt
  exact ⟨BitVec.eq_of_toNat_eq (by omega), BitVec.eq_of_toNat_eq (by omega)⟩

theorem typeAB_inj {x y : BgpExtCommunity} (h : x.typeAB = y.typeAB) : x.ctype = y.ctype ∧ x.a = y.a ∧ x.b = y.b := by
  unfold typeAB at h
  simp only [List.append_assoc, List.cons_append] at h
  obtain ⟨h1, h⟩ := sep (nd _) (nd _) h
  obtain ⟨h2, h⟩ := sep (nd _) (nd _) h
  exact ⟨decU_inj h1, decU_inj h2, decU_inj h⟩

theorem ipNum_typeAB (x y : BgpExtCommunity) : x.ipNum ≠ y.typeAB := by
  intro h
  unfold ipNum typeAB at h
  simp only [List.append_assoc, List.cons_append] at h
  obtain ⟨-, h⟩ := sep (nm_showV4 (by decide)) (nd _) h
  exact nd _ (by rw [h]; simp)

theorem ab_ipNum (a b : Nat) (x : BgpExtCommunity) : dec a ++ ':' :: dec b ≠ x.ipNum := by
  intro h
  unfold ipNum at h
  obtain ⟨h, -⟩ := sep (nd _) (nm_showV4 (by decide)) h
  have : '.' ∈ dec a := by rw [h]; simp [showV4]
  exact nm_dec (by decide) this

theorem ab_typeAB (a b : Nat) (x : BgpExtCommunity) : dec a ++ ':' :: dec b ≠ x.typeAB := by
  intro h
  unfold typeAB at h
  simp only [List.append_assoc, List.cons_append] at h
  obtain ⟨-, h⟩ := sep (nd _) (nd _) h
  exact nd b (by rw [h]; simp)

theorem hexAll_inj {x y : BgpExtCommunity} (h : x.hexAll = y.hexAll) : x = y := by
  unfold hexAll at h
  rw [show ∀ p q r s : Txt, "0x".toList ++ p ++ ":0x".toList ++ q ++ ":0x".toList ++ r ++ ":0x".toList ++ s =
    '0' :: 'x' :: (p ++ ':' :: ('0' :: 'x' :: (q ++ ':' :: ('0' :: 'x' :: (r ++ ':' :: ('0' :: 'x' :: s)))))) from by simp,
    show ∀ p q r s : Txt, "0x".toList ++ p ++ ":0x".toList ++ q ++ ":0x".toList ++ r ++ ":0x".toList ++ s =
    '0' :: 'x' :: (p ++ ':' :: ('0' :: 'x' :: (q ++ ':' :: ('0' :: 'x' :: (r ++ ':' :: ('0' :: 'x' :: s)))))) from by simp] at h
  simp only [List.cons.injEq, true_and] at h
  obtain ⟨h1, h⟩ := sep (nm_hex (by decide)) (nm_hex (by decide)) h
  simp only [List.cons.injEq, true_and] at h
  obtain ⟨h2, h⟩ := sep (nm_hex (by decide)) (nm_hex (by decide)) h
  simp only [List.cons.injEq, true_and] at h
  obtain ⟨h3, h⟩ := sep (nm_hex (by decide)) (nm_hex (by decide)) h
  simp only [List.cons.injEq, true_and] at h
  cases x; cases y
  simp only at h1 h2 h3 h
  rw [hexU_inj h1, hexU_inj h2, hexU_inj h3, hexU_inj h]

theorem hexAll2_inj {x y : BgpExtCommunity} (h : x.hexAll2 = y.hexAll2) : x = y := by
  unfold hexAll2 at h
  rw [show ∀ p q r s : Txt, "0x".toList ++ p ++ ":0x".toList ++ q ++ ":0x".toList ++ r ++ ":0x".toList ++ s =
    '0' :: 'x' :: (p ++ ':' :: ('0' :: 'x' :: (q ++ ':' :: ('0' :: 'x' :: (r ++ ':' :: ('0' :: 'x' :: s)))))) from by simp,
    show ∀ p q r s : Txt, "0x".toList ++ p ++ ":0x".toList ++ q ++ ":0x".toList ++ r ++ ":0x".toList ++ s =
    '0' :: 'x' :: (p ++ ':' :: ('0' :: 'x' :: (q ++ ':' :: ('0' :: 'x' :: (r ++ ':' :: ('0' :: 'x' :: s)))))) from by simp] at h
  simp only [List.cons.injEq, true_and] at h
  obtain ⟨h1, h⟩ := sep (nm_hex2 (by decide)) (nm_hex2 (by decide)) h
  simp only [List.cons.injEq, true_and] at h
  obtain ⟨h2, h⟩ := sep (nm_hex2 (by decide)) (nm_hex2 (by decide)) h
  simp only [List.cons.injEq, true_and] at h
  obtain ⟨h3, h⟩ := sep (nm_hex (by decide)) (nm_hex (by decide)) h
  simp only [List.cons.injEq, true_and] at h
  cases x; cases y
  simp only at h1 h2 h3 h
  rw [hex2_inj h1, hex2_inj h2, hexU_inj h3, hexU_inj h]

private theorem ext_eq {x y : BgpExtCommunity} (h1 : x.ctype = y.ctype) (h2 : x.subtype = y.subtype) (h3 : x.a = y.a ∧ x.b = y.b) : x = y := by
  cases x; cases y
  simp only at h1 h2 h3
  rw [h1, h2, h3.1, h3.2]

theorem display_inj {x y : BgpExtCommunity} (h : x.display = y.display) :
    x = y ∨ (x.subtype = 10 ∧ y.subtype = 10 ∧ (x.ctype = 1 ∨ x.ctype = 0x41) ∧ (y.ctype = 1 ∨ y.ctype = 0x41) ∧ x.a = y.a ∧ x.b = y.b) ∨
    (x.ctype = 3 ∧ x.subtype = 12 ∧ y.ctype = 3 ∧ y.subtype = 12 ∧ x.b = y.b) ∨
    (x.ctype = 6 ∧ x.subtype = 4 ∧ y.ctype = 6 ∧ y.subtype = 4 ∧ x.a = y.a ∧ x.b >>> 16 = y.b >>> 16) := by
  obtain ⟨k, t, e, hx⟩ := display_shown x
  obtain ⟨l, u, f, hy⟩ := display_shown y
  rw [e, f] at h
  obtain ⟨h1, htu⟩ := sep (word_colon k) (word_colon l) h
  have := word_inj k l h1
  subst this
  subst htu
  clear h1 e f h
  have mixed : ∀ s, x.subtype = s → y.subtype = s → ((x.ctype = 1 ∧ t = x.ipNum) ∨ t = x.typeAB) →
      ((y.ctype = 1 ∧ t = y.ipNum) ∨ t = y.typeAB) → x = y := by
    rintro s hs ht (⟨c, rfl⟩ | rfl) (⟨d, g⟩ | g)
    · exact ext_eq (by rw [c, d]) (by rw [hs, ht]) (ipNum_inj g)
    · exact (ipNum_typeAB _ _ g).elim
    · exact (ipNum_typeAB _ _ g.symm).elim
    · have := typeAB_inj g
      exact ext_eq this.1 (by rw [hs, ht]) this.2
  match k with
  | 0 =>
    left
    obtain ⟨hs, hx⟩ := hx
    obtain ⟨ht, hy⟩ := hy
    rcases hx with ⟨c, rfl⟩ | ⟨c, rfl⟩ | ⟨c, rfl⟩ <;> rcases hy with ⟨d, g⟩ | ⟨d, g⟩ | ⟨d, g⟩
    · obtain ⟨g1, g2⟩ := sep (nd _) (nd _) g
      exact ext_eq (by rw [c, d]) (by rw [hs, ht]) ⟨decU_inj g1, decU_inj g2⟩
    · exact (ab_ipNum _ _ _ g).elim
    · exact (ab_typeAB _ _ _ g).elim
    · exact (ab_ipNum _ _ _ g.symm).elim
    · exact ext_eq (by rw [c, d]) (by rw [hs, ht]) (ipNum_inj g)
    · exact (ipNum_typeAB _ _ g).elim
    · exact (ab_typeAB _ _ _ g.symm).elim
    · exact (ipNum_typeAB _ _ g.symm).elim
    · exact ext_eq (by rw [c, d]) (by rw [hs, ht]) (typeAB_inj g).2
  | 1 => exact .inl (mixed 3 hx.1 hy.1 hx.2 hy.2)
  | 2 =>
    left
    have g := typeAB_inj (hx.2.symm.trans hy.2)
    exact ext_eq g.1 (by rw [hx.1, hy.1]) g.2
  | 3 => exact .inl (mixed 11 hx.1 hy.1 hx.2 hy.2)
  | 4 => exact .inl (hexAll_inj (Eq.trans (Eq.symm hx) hy))
  | 5 =>
    right; left
    have g := ipNum_inj (hx.2.2.symm.trans hy.2.2)
    exact ⟨hx.1, hy.1, hx.2.1, hy.2.1, g.1, g.2⟩
  | 6 => exact .inl (hexAll_inj (Eq.trans (Eq.symm hx) hy))
  | 7 =>
    right; right; left
    refine ⟨hx.1, hx.2.1, hy.1, hy.2.1, hexU_inj ?_⟩
    have g := hx.2.2.symm.trans hy.2.2
    simpa using g
  | 8 =>
    right; right; right
    have g := hx.2.2.symm.trans hy.2.2
    rw [show ∀ p q : Txt, "cf=".toList ++ p ++ ":mtu=".toList ++ q = 'c' :: 'f' :: '=' :: (p ++ ':' :: ('m' :: 't' :: 'u' :: '=' :: q)) from by simp,
      show ∀ p q : Txt, "cf=".toList ++ p ++ ":mtu=".toList ++ q = 'c' :: 'f' :: '=' :: (p ++ ':' :: ('m' :: 't' :: 'u' :: '=' :: q)) from by simp] at g
    simp only [List.cons.injEq, true_and] at g
    obtain ⟨g1, g⟩ := sep (nd _) (nd _) g
    simp only [List.cons.injEq, true_and] at g
    exact ⟨hx.1, hx.2.1, hy.1, hy.2.1, decU_inj g1, decU_inj g⟩
  | 9 =>
    left
    have g := hx.2.2.symm.trans hy.2.2
    rw [show ∀ p q r : Txt, p ++ ":label=".toList ++ q ++ ':' :: r = p ++ ':' :: ('l' :: 'a' :: 'b' :: 'e' :: 'l' :: '=' :: (q ++ ':' :: r)) from by simp,
      show ∀ p q r : Txt, p ++ ":label=".toList ++ q ++ ':' :: r = p ++ ':' :: ('l' :: 'a' :: 'b' :: 'e' :: 'l' :: '=' :: (q ++ ':' :: r)) from by simp] at g
    obtain ⟨g1, g⟩ := sep (nd _) (nd _) g
    simp only [List.cons.injEq, true_and] at g
    obtain ⟨g2, g⟩ := sep (nd _) (nd _) g
    have g2 := dec_inj g2
    have g3 := dec_inj g
    have e8' : (255 : U32).toNat = 2 ^ 8 - 1 := rfl
    simp only [BitVec.toNat_and, BitVec.toNat_ushiftRight, Nat.shiftRight_eq_div_pow, e8', Nat.and_two_pow_sub_one_eq_mod] at g2 g3
    exact ext_eq (by rw [hx.1, hy.1]) (by rw [hx.2.1, hy.2.1]) ⟨decU_inj g1, BitVec.eq_of_toNat_eq (by omega)⟩
  | 10 => exact .inl (hexAll2_inj (Eq.trans (Eq.symm hx) hy))
  | 11 => exact .inl (hexAll2_inj (Eq.trans (Eq.symm hx) hy))

end BgpExtCommunity

end Zbgp
