import Verif.Spec.Display
import Verif.Lemmas.Display

namespace Zbgp

open Std

namespace BgpNotificationMessage

/-- the text of a subcode from a table of names -/
def named (l : List (Nat × String)) (n : U8) : Txt :=
  match l.find? (·.1 = n.toNat) with
  | some p => p.2.toList
  | none => subcodeText n

theorem ite_u8 {α : Type} (n k : U8) (a b : α) : (if n = k then a else b) = if k.toNat = n.toNat then a else b := by
  by_cases h : n = k
  · subst h; simp
  · rw [if_neg h, if_neg (fun e => h (BitVec.eq_of_toNat_eq e.symm))]

theorem named_cons (k : Nat) (s : String) (l : List (Nat × String)) (n : U8) :
    named ((k, s) :: l) n = if k = n.toNat then s.toList else named l n := by
  unfold named
  rw [List.find?_cons]
  by_cases h : k = n.toNat
  · simp [h]
  · simp [h]

theorem headerText_eq (n : U8) : headerText n = named (Spec.subcodeNames 1) n := by
  unfold headerText
  simp only [ite_u8, Spec.subcodeNames, named_cons]
  rfl

theorem openText_eq (n : U8) : openText n = named (Spec.subcodeNames 2) n := by
  unfold openText
  simp only [ite_u8, Spec.subcodeNames, named_cons]
  rfl

theorem updateText_eq (n : U8) : updateText n = named (Spec.subcodeNames 3) n := by
  unfold updateText
  simp only [ite_u8, Spec.subcodeNames, named_cons]
  rfl

theorem subcodeText_inj {m n : U8} (h : subcodeText m = subcodeText n) : m = n := decU_inj (List.append_cancel_left h)

theorem named_inj (l : List (Nat × String)) (hl : ∀ p ∈ l, ∀ q ∈ l, p.2.toList = q.2.toList → p.1 = q.1)
    (hs : ∀ p ∈ l, p.2.toList.head? ≠ some ' ') {m n : U8} (h : named l m = named l n) : m = n := by
  unfold named at h
  have hf : ∀ {n : U8} {p : Nat × String}, l.find? (·.1 = n.toNat) = some p → p ∈ l ∧ p.1 = n.toNat := fun h =>
    ⟨List.mem_of_find?_eq_some h, by simpa using List.find?_some h⟩
  cases hm : l.find? (·.1 = m.toNat) with
  | some p =>
    cases hn : l.find? (·.1 = n.toNat) with
    | some q =>
      rw [hm, hn] at h
      obtain ⟨p1, p2⟩ := hf hm
      obtain ⟨q1, q2⟩ := hf hn
      exact BitVec.eq_of_toNat_eq (by rw [← p2, ← q2]; exact hl p p1 q q1 h)
    | none =>
      rw [hm, hn] at h
      exact (hs p (hf hm).1 (by rw [show p.2.toList = subcodeText n from h]; rfl)).elim
  | none =>
    cases hn : l.find? (·.1 = n.toNat) with
    | some q =>
      rw [hm, hn] at h
      exact (hs q (hf hn).1 (by rw [show q.2.toList = subcodeText m from h.symm]; rfl)).elim
    | none =>
      rw [hm, hn] at h
      exact subcodeText_inj h

theorem subcodeText_ne (n : U8) : subcodeText n ≠ "(0)".toList := by
  intro h
  have e : subcodeText n = ' ' :: ("subcode ".toList ++ dec n.toNat) := rfl
  rw [e, show "(0)".toList = ['(', '0', ')'] by decide] at h
  exact absurd (List.cons.inj h).1 (by decide)

theorem otherText_inj {m n : U8} (h : otherText m = otherText n) : m = n := by
  unfold otherText at h
  split at h
  · split at h
    · exact subcodeText_inj h
    · exact (subcodeText_ne m h).elim
  · split at h
    · exact (subcodeText_ne n h.symm).elim
    · rename_i h1 h2
      simp only [ne_eq, Decidable.not_not] at h1 h2
      rw [h1, h2]

/-- the beginnings of the texts -/
def head (k : Fin 7) : Txt :=
  (["Unknown code ", "Message Header Error: ", "OPEN Message Error: ", "Update Message Error: ", "Hold Timer Expired",
    "Finite State Machine Error", "Cease"][k.val]'(by simp)).toList

/-- the rest of the text -/
def Rest (m : BgpNotificationMessage) (t : Txt) (k : Fin 7) : Prop :=
  match k with
  | 0 => t = dec m.errorCode.toNat ++ ' ' :: ("subcode ".toList ++ dec m.errorSubcode.toNat)
  | 1 => m.errorCode = 1 ∧ t = headerText m.errorSubcode
  | 2 => m.errorCode = 2 ∧ t = openText m.errorSubcode
  | 3 => m.errorCode = 3 ∧ t = updateText m.errorSubcode
  | 4 => m.errorCode = 4 ∧ t = otherText m.errorSubcode
  | 5 => m.errorCode = 5 ∧ t = otherText m.errorSubcode
  | 6 => m.errorCode = 6 ∧ t = otherText m.errorSubcode

theorem errorText_rest (m : BgpNotificationMessage) : ∃ k t, m.errorText = head k ++ t ∧ m.Rest t k := by
  unfold errorText
  by_cases h1 : m.errorCode = 1
  · exact ⟨1, _, by rw [if_pos h1]; rfl, h1, rfl⟩
  rw [if_neg h1]
  by_cases h2 : m.errorCode = 2
  · exact ⟨2, _, by rw [if_pos h2]; rfl, h2, rfl⟩
  rw [if_neg h2]
  by_cases h3 : m.errorCode = 3
  · exact ⟨3, _, by rw [if_pos h3]; rfl, h3, rfl⟩
  rw [if_neg h3]
  by_cases h4 : m.errorCode = 4
  · exact ⟨4, _, by rw [if_pos h4]; rfl, h4, rfl⟩
  rw [if_neg h4]
  by_cases h5 : m.errorCode = 5
  · exact ⟨5, _, by rw [if_pos h5]; rfl, h5, rfl⟩
  rw [if_neg h5]
  by_cases h6 : m.errorCode = 6
  · exact ⟨6, _, by rw [if_pos h6]; rfl, h6, rfl⟩
  rw [if_neg h6]
  refine ⟨0, dec m.errorCode.toNat ++ ' ' :: ("subcode ".toList ++ dec m.errorSubcode.toNat), ?_, rfl⟩
  rw [show head 0 = "Unknown code ".toList from rfl, show " subcode ".toList = ' ' :: "subcode ".toList from rfl]
  simp only [List.append_assoc, List.cons_append]

theorem head_take (k : Fin 7) (t : Txt) : (head k ++ t).take 2 = (head k).take 2 := by
  rw [List.take_append_of_le_length]
  revert k
  decide

theorem head_inj : ∀ k l : Fin 7, (head k).take 2 = (head l).take 2 → k = l := by decide

theorem errorText_inj {m n : BgpNotificationMessage} (h : m.errorText = n.errorText) :
    m.errorCode = n.errorCode ∧ m.errorSubcode = n.errorSubcode := by
  obtain ⟨k, t, e, hm⟩ := errorText_rest m
  obtain ⟨l, u, f, hn⟩ := errorText_rest n
  rw [e, f] at h
  have hkl := head_inj k l (by rw [← head_take k t, h, head_take])
  subst hkl
  have htu := List.append_cancel_left h
  subst htu
  match k with
  | 0 =>
    have g : dec m.errorCode.toNat ++ ' ' :: _ = dec n.errorCode.toNat ++ ' ' :: _ := Eq.trans (Eq.symm hm) hn
    obtain ⟨g1, g2⟩ := sep (nm_dec (by decide)) (nm_dec (by decide)) g
    exact ⟨decU_inj g1, decU_inj (List.append_cancel_left g2)⟩
  | 1 =>
    have g := hm.2.symm.trans hn.2
    rw [headerText_eq, headerText_eq] at g
    exact ⟨by rw [hm.1, hn.1], named_inj _ (by decide) (by decide) g⟩
  | 2 =>
    have g := hm.2.symm.trans hn.2
    rw [openText_eq, openText_eq] at g
    exact ⟨by rw [hm.1, hn.1], named_inj _ (by decide) (by decide) g⟩
  | 3 =>
    have g := hm.2.symm.trans hn.2
    rw [updateText_eq, updateText_eq] at g
    exact ⟨by rw [hm.1, hn.1], named_inj _ (by decide) (by decide) g⟩
  | 4 => exact ⟨by rw [hm.1, hn.1], otherText_inj (hm.2.symm.trans hn.2)⟩
  | 5 => exact ⟨by rw [hm.1, hn.1], otherText_inj (hm.2.symm.trans hn.2)⟩
  | 6 => exact ⟨by rw [hm.1, hn.1], otherText_inj (hm.2.symm.trans hn.2)⟩

theorem named_mem (l : List (Nat × String)) (hl : ∀ p ∈ l, ∀ q ∈ l, p.1 = q.1 → p.2 = q.2) {n : U8} {s : String}
    (h : (n.toNat, s) ∈ l) : named l n = s.toList := by
  unfold named
  cases hf : l.find? (·.1 = n.toNat) with
  | none => exact absurd (List.find?_eq_none.mp hf _ h) (by simp)
  | some p =>
    show p.2.toList = _
    rw [hl p (List.mem_of_find?_eq_some hf) _ h (by simpa using List.find?_some hf)]

theorem named_not_mem (l : List (Nat × String)) {n : U8} (h : ∀ s, (n.toNat, s) ∉ l) : named l n = subcodeText n := by
  unfold named
  cases hf : l.find? (·.1 = n.toNat) with
  | none => rfl
  | some p =>
    have := List.find?_some hf
    simp only [decide_eq_true_eq] at this
    exact absurd (this ▸ List.mem_of_find?_eq_some hf) (h p.2)

theorem errorText_1 {m : BgpNotificationMessage} (h : m.errorCode.toNat = 1) :
    m.errorText = "Message Header Error: ".toList ++ named (Spec.subcodeNames m.errorCode.toNat) m.errorSubcode := by
  have e : m.errorCode = 1 := BitVec.eq_of_toNat_eq h
  rw [h, ← headerText_eq, errorText, if_pos e]

theorem errorText_2 {m : BgpNotificationMessage} (h : m.errorCode.toNat = 2) :
    m.errorText = "OPEN Message Error: ".toList ++ named (Spec.subcodeNames m.errorCode.toNat) m.errorSubcode := by
  have e : m.errorCode = 2 := BitVec.eq_of_toNat_eq h
  rw [h, ← openText_eq, errorText, if_neg (by rw [e]; decide), if_pos e]

theorem errorText_3 {m : BgpNotificationMessage} (h : m.errorCode.toNat = 3) :
    m.errorText = "Update Message Error: ".toList ++ named (Spec.subcodeNames m.errorCode.toNat) m.errorSubcode := by
  have e : m.errorCode = 3 := BitVec.eq_of_toNat_eq h
  rw [h, ← updateText_eq, errorText, if_neg (by rw [e]; decide), if_neg (by rw [e]; decide), if_pos e]

theorem errorText_4 {m : BgpNotificationMessage} (h : m.errorCode.toNat = 4) :
    m.errorText = "Hold Timer Expired".toList ++ otherText m.errorSubcode := by
  have e : m.errorCode = 4 := BitVec.eq_of_toNat_eq h
  rw [errorText, if_neg (by rw [e]; decide), if_neg (by rw [e]; decide), if_neg (by rw [e]; decide), if_pos e]

theorem errorText_5 {m : BgpNotificationMessage} (h : m.errorCode.toNat = 5) :
    m.errorText = "Finite State Machine Error".toList ++ otherText m.errorSubcode := by
  have e : m.errorCode = 5 := BitVec.eq_of_toNat_eq h
  rw [errorText, if_neg (by rw [e]; decide), if_neg (by rw [e]; decide), if_neg (by rw [e]; decide), if_neg (by rw [e]; decide), if_pos e]

theorem errorText_6 {m : BgpNotificationMessage} (h : m.errorCode.toNat = 6) :
    m.errorText = "Cease".toList ++ otherText m.errorSubcode := by
  have e : m.errorCode = 6 := BitVec.eq_of_toNat_eq h
  rw [errorText, if_neg (by rw [e]; decide), if_neg (by rw [e]; decide), if_neg (by rw [e]; decide), if_neg (by rw [e]; decide),
    if_neg (by rw [e]; decide), if_pos e]

end BgpNotificationMessage

end Zbgp
