import Verif.Model.Debug
import Verif.Spec.OpenReads
import Verif.Lemmas.Display

/-!
# `{:?}` texts can be read back

A value is followed by nothing, by `,`, `)`, `]`, `}` or by ` }`. Words hold none of the characters the builders write, so
where a value ends is seen from the text.
-/

namespace Zbgp

open Std

/-- Not one of the characters the builders write. -/
def plainChar (c : Char) : Bool := !(" ,()[]{}\"\n".toList.contains c)

/-- What can follow a value. -/
def DbgStop (r : Txt) : Prop := r = [] ∨ (∃ c s, r = c :: s ∧ c ∈ [',', ')', ']', '}']) ∨ ∃ c s, r = ' ' :: c :: s ∧ c ≠ '{'

mutual

/-- Words and names are not empty and hold only plain characters, names of fields no colons; strings are of scalar values. -/
def Dbg.Wf : Dbg → Prop
  | .atom s => s ≠ [] ∧ s.all plainChar = true
  | .str cs => ∀ c ∈ cs, Spec.Scalar c
  | .record name fs vs =>
    name.toList ≠ [] ∧ name.toList.all plainChar = true ∧ fs ≠ [] ∧ fs.length = vs.length ∧
      (fs.all fun f => f.toList.all fun c => plainChar c && c != ':') = true ∧ Dbg.Wfs vs
  | .tuple name vs => name.toList ≠ [] ∧ name.toList.all plainChar = true ∧ Dbg.Wfs vs
  | .list vs => Dbg.Wfs vs
  | .set vs => Dbg.Wfs vs

def Dbg.Wfs : List Dbg → Prop
  | [] => True
  | v :: vs => Dbg.Wf v ∧ Dbg.Wfs vs

end

/-- The word a value begins with. -/
def Dbg.lead : Dbg → Txt
  | .atom s => s
  | .record name _ _ => name.toList
  | .tuple name _ => name.toList
  | _ => []

/-- The rest of the value. -/
def Dbg.body (u : UnicodeTables) : Dbg → Txt
  | .atom _ => []
  | .str cs => '"' :: cs.flatMap (escapeDebug u) ++ ['"']
  | .record _ fs vs => Dbg.renderFields u true fs vs
  | .tuple _ vs => '(' :: Dbg.renderSeq u true vs ++ [')']
  | .list vs => '[' :: Dbg.renderSeq u true vs ++ [']']
  | .set vs => '{' :: Dbg.renderSeq u true vs ++ ['}']

theorem Dbg.render_eq (u : UnicodeTables) (t : Dbg) : t.render u = t.lead ++ t.body u := by
  cases t <;> simp [Dbg.render, Dbg.lead, Dbg.body]

theorem Dbg.lead_plain {t : Dbg} (h : t.Wf) : t.lead.all plainChar = true := by
  cases t with
  | atom s => exact h.2
  | record n fs vs => exact h.2.1
  | tuple n vs => exact h.2.1
  | str cs => rfl
  | list vs => rfl
  | set vs => rfl

/-- A text that begins with no plain character. -/
def Mark (r : Txt) : Prop := r = [] ∨ ∃ c s, r = c :: s ∧ plainChar c = false

theorem DbgStop.mark {r : Txt} (h : DbgStop r) : Mark r := by
  rcases h with h | ⟨c, s, rfl, hc⟩ | ⟨d, s, rfl, -⟩
  · exact .inl h
  · refine .inr ⟨c, s, rfl, ?_⟩
    simp only [List.mem_cons, List.not_mem_nil, or_false] at hc
    rcases hc with rfl | rfl | rfl | rfl <;> decide
  · exact .inr ⟨' ', _, rfl, by decide⟩

/-- Words end where the first character comes that is not plain. -/
theorem plain_split {a b r s : Txt} (ha : a.all plainChar = true) (hb : b.all plainChar = true) (hr : Mark r) (hs : Mark s)
    (h : a ++ r = b ++ s) : a = b ∧ r = s := by
  induction a generalizing b with
  | nil =>
    cases b with
    | nil => exact ⟨rfl, h⟩
    | cons c b =>
      simp only [List.nil_append, List.cons_append] at h
      simp only [List.all_cons, Bool.and_eq_true] at hb
      rcases hr with hr | ⟨d, s', hr, hd⟩
      · rw [hr] at h; simp at h
      · rw [hr] at h; simp only [List.cons.injEq] at h; rw [h.1, hb.1] at hd; simp at hd
  | cons c a ih =>
    simp only [List.all_cons, Bool.and_eq_true] at ha
    cases b with
    | nil =>
      simp only [List.nil_append, List.cons_append] at h
      rcases hs with hs | ⟨d, s', hs, hd⟩
      · rw [hs] at h; simp at h
      · rw [hs] at h; simp only [List.cons.injEq] at h; rw [← h.1, ha.1] at hd; simp at hd
    | cons d b =>
      simp only [List.all_cons, Bool.and_eq_true] at hb
      simp only [List.cons_append, List.cons.injEq] at h
      obtain ⟨h1, h2⟩ := ih ha.2 hb.2 h.2
      exact ⟨by rw [h.1, h1], h2⟩

/-! ## Strings -/

theorem ofNat_toNat {c : Nat} (h : Spec.Scalar c) : (Char.ofNat c).toNat = c := by
  have hv : c.isValidChar := by
    rcases h with h | h
    · exact .inl (by simpa using h)
    · exact .inr ⟨by omega, by omega⟩
  rw [Char.ofNat, dif_pos hv]
  show (Char.ofNatAux c hv).val.toNat = c
  simp [Char.ofNatAux, UInt32.toNat]

/-- The escaped text of a character: a backslash and more, or the character, which is no backslash and no quotation mark. -/
theorem escape_cases (u : UnicodeTables) {c : Nat} (hc : Spec.Scalar c) :
    (escapeDebug u c = '\\' :: '0' :: [] ∧ c = 0) ∨ (escapeDebug u c = '\\' :: 't' :: [] ∧ c = 9) ∨
      (escapeDebug u c = '\\' :: 'r' :: [] ∧ c = 13) ∨ (escapeDebug u c = '\\' :: 'n' :: [] ∧ c = 10) ∨
      (escapeDebug u c = '\\' :: '\\' :: [] ∧ c = 92) ∨ (escapeDebug u c = '\\' :: '"' :: [] ∧ c = 34) ∨
      escapeDebug u c = '\\' :: 'u' :: '{' :: (hex c ++ ['}']) ∨
      (∃ d : Char, escapeDebug u c = [d] ∧ d ≠ '\\' ∧ d ≠ '"' ∧ d ≠ '\n' ∧ d.toNat = c) := by
  by_cases h0 : c = 0
  · subst h0; left; exact ⟨rfl, rfl⟩
  by_cases h1 : c = 9
  · subst h1; right; left; exact ⟨rfl, rfl⟩
  by_cases h2 : c = 13
  · subst h2; right; right; left; exact ⟨rfl, rfl⟩
  by_cases h3 : c = 10
  · subst h3; right; right; right; left; exact ⟨rfl, rfl⟩
  by_cases h4 : c = 92
  · subst h4; right; right; right; right; left; exact ⟨rfl, rfl⟩
  by_cases h5 : c = 34
  · subst h5; right; right; right; right; right; left; exact ⟨rfl, rfl⟩
  right; right; right; right; right; right
  have hu : escapeUnicode c = '\\' :: 'u' :: '{' :: (hex c ++ ['}']) := by
    show "\\u{".toList ++ hex c ++ "}".toList = _
    simp
  rw [escapeDebug, if_neg h0, if_neg h1, if_neg h2, if_neg h3, if_neg h4, if_neg h5]
  by_cases h6 : u.graphemeExtend c = true
  · left; rw [if_pos h6, hu]
  by_cases h7 : u.printable c = true
  · right
    rw [if_neg h6, if_pos h7]
    have hn := ofNat_toNat hc
    refine ⟨_, rfl, ?_, ?_, ?_, hn⟩
    · intro e; rw [e] at hn; exact h4 hn.symm
    · intro e; rw [e] at hn; exact h5 hn.symm
    · intro e; rw [e] at hn; exact h3 hn.symm
  · left; rw [if_neg h6, if_neg h7, hu]

/-- The escaped texts of two characters with what follows them. -/
theorem escape_split (u : UnicodeTables) {c d : Nat} (hc : Spec.Scalar c) (hd : Spec.Scalar d) {r s : Txt}
    (h : escapeDebug u c ++ r = escapeDebug u d ++ s) : c = d ∧ r = s := by
  have hx : ∀ {a b : Nat} {x y : Txt}, hex a ++ '}' :: x = hex b ++ '}' :: y → a = b ∧ x = y := fun h =>
    (sep (nm_hex (by decide)) (nm_hex (by decide)) h).imp hex_inj id
  rcases escape_cases u hc with ⟨e, hc'⟩ | ⟨e, hc'⟩ | ⟨e, hc'⟩ | ⟨e, hc'⟩ | ⟨e, hc'⟩ | ⟨e, hc'⟩ | e | ⟨x, e, h1, h2, h3, h4⟩ <;>
  rcases escape_cases u hd with ⟨f, hd'⟩ | ⟨f, hd'⟩ | ⟨f, hd'⟩ | ⟨f, hd'⟩ | ⟨f, hd'⟩ | ⟨f, hd'⟩ | f | ⟨y, f, k1, k2, k3, k4⟩ <;>
  rw [e, f] at h <;>
  simp only [List.cons_append, List.nil_append, List.cons.injEq, List.append_assoc, true_and, reduceCtorEq, false_and, and_false] at h <;>
  first
  | exact ⟨hc'.trans hd'.symm, h⟩
  | exact absurd h.1 (by decide)
  | exact hx h
  | exact absurd h.1 h1
  | exact absurd h.1.symm k1
  | exact ⟨by rw [← h4, ← k4, h.1], h.2⟩

theorem escape_head (u : UnicodeTables) {c : Nat} (hc : Spec.Scalar c) (r s : Txt) : escapeDebug u c ++ r ≠ '"' :: s := by
  intro h
  rcases escape_cases u hc with ⟨e, _⟩ | ⟨e, _⟩ | ⟨e, _⟩ | ⟨e, _⟩ | ⟨e, _⟩ | ⟨e, _⟩ | e | ⟨x, e, h1, h2, h3, h4⟩ <;>
  rw [e] at h <;> simp only [List.cons_append, List.nil_append, List.cons.injEq] at h
  all_goals first | exact absurd h.1 (by decide) | exact h2 h.1

theorem str_split (u : UnicodeTables) : ∀ {cs ds : List Nat}, (∀ c ∈ cs, Spec.Scalar c) → (∀ c ∈ ds, Spec.Scalar c) → ∀ {r s : Txt},
    cs.flatMap (escapeDebug u) ++ '"' :: r = ds.flatMap (escapeDebug u) ++ '"' :: s → cs = ds ∧ r = s
  | [], [], _, _, r, s, h => by simpa using h
  | [], d :: ds, _, hd, r, s, h => by
    simp only [List.flatMap_nil, List.nil_append, List.flatMap_cons, List.append_assoc] at h
    exact (escape_head u (hd d (by simp)) _ _ h.symm).elim
  | c :: cs, [], hc, _, r, s, h => by
    simp only [List.flatMap_nil, List.nil_append, List.flatMap_cons, List.append_assoc] at h
    exact (escape_head u (hc c (by simp)) _ _ h).elim
  | c :: cs, d :: ds, hc, hd, r, s, h => by
    simp only [List.flatMap_cons, List.append_assoc] at h
    obtain ⟨h1, h2⟩ := escape_split u (hc c (by simp)) (hd d (by simp)) h
    obtain ⟨h3, h4⟩ := str_split u (fun c m => hc c (by simp [m])) (fun c m => hd c (by simp [m])) h2
    exact ⟨by rw [h1, h3], h4⟩

/-! ## Values -/

theorem DbgStop.cons {c : Char} {s : Txt} (h : c ∈ [',', ')', ']', '}']) : DbgStop (c :: s) := .inr (.inl ⟨c, s, rfl, h⟩)

theorem seqFalse_stop (u : UnicodeTables) (vs : List Dbg) {c : Char} (hc : c ∈ [')', ']', '}']) (r : Txt) :
    DbgStop (Dbg.renderSeq u false vs ++ c :: r) := by
  cases vs with
  | nil => exact DbgStop.cons (List.mem_cons_of_mem _ hc)
  | cons v vs => simp only [Dbg.renderSeq, Bool.false_eq_true, if_false, List.append_assoc]; exact DbgStop.cons (c := ',') (by simp)

theorem fieldsFalse_stop (u : UnicodeTables) (fs : List String) (vs : List Dbg) (r : Txt) :
    DbgStop (Dbg.renderFields u false fs vs ++ r) := by
  cases fs with
  | nil => cases vs <;> exact .inr (.inr ⟨'}', r, rfl, by decide⟩)
  | cons f fs => cases vs with
    | nil => exact .inr (.inr ⟨'}', r, rfl, by decide⟩)
    | cons v vs => simp only [Dbg.renderFields, Bool.false_eq_true, if_false, List.append_assoc]; exact DbgStop.cons (c := ',') (by simp)

/-- The first characters of a value are no closing bracket. -/
theorem Dbg.render_head (u : UnicodeTables) {t : Dbg} (h : t.Wf) (r : Txt) :
    ∃ c s, t.render u ++ r = c :: s ∧ c ∉ [',', ')', ']', '}', ' '] := by
  have hp : ∀ {a : Txt} (x : Txt), a ≠ [] → a.all plainChar = true → ∃ c s, a ++ x = c :: s ∧ c ∉ [',', ')', ']', '}', ' '] := by
    intro a x h1 h2
    cases a with
    | nil => exact absurd rfl h1
    | cons c a =>
      refine ⟨c, a ++ x, rfl, ?_⟩
      simp only [List.all_cons, Bool.and_eq_true] at h2
      intro m
      have := h2.1
      simp only [List.mem_cons, List.not_mem_nil, or_false] at m
      rcases m with rfl | rfl | rfl | rfl | rfl <;> revert this <;> decide
  cases t with
  | atom s => exact hp r h.1 h.2
  | str cs => exact ⟨'"', _, by simp [Dbg.render]; rfl, by decide⟩
  | record n fs vs => rw [Dbg.render, List.append_assoc]; exact hp _ h.1 h.2.1
  | tuple n vs => rw [Dbg.render, List.append_assoc, List.append_assoc]; exact hp _ h.1 h.2.1
  | list vs => exact ⟨'[', _, by simp [Dbg.render]; rfl, by decide⟩
  | set vs => exact ⟨'{', _, by simp [Dbg.render]; rfl, by decide⟩

theorem fields_true (u : UnicodeTables) {f : String} {fs : List String} {v : Dbg} {vs : List Dbg} :
    Dbg.renderFields u true (f :: fs) (v :: vs) = ' ' :: '{' :: ' ' :: (f.toList ++ ':' :: ' ' :: (v.render u ++ Dbg.renderFields u false fs vs)) := by
  simp [Dbg.renderFields]

theorem fields_false (u : UnicodeTables) {f : String} {fs : List String} {v : Dbg} {vs : List Dbg} :
    Dbg.renderFields u false (f :: fs) (v :: vs) = ',' :: ' ' :: (f.toList ++ ':' :: ' ' :: (v.render u ++ Dbg.renderFields u false fs vs)) := by
  simp [Dbg.renderFields]

theorem fields_end (u : UnicodeTables) : Dbg.renderFields u false [] [] = [' ', '}'] := rfl

theorem body_mark (u : UnicodeTables) {t : Dbg} (ht : t.Wf) {r : Txt} (hr : DbgStop r) : Mark (t.body u ++ r) := by
  cases t with
  | atom s => exact hr.mark
  | str cs => exact .inr ⟨'"', _, by simp [Dbg.body]; rfl, by decide⟩
  | record n fs vs =>
    obtain ⟨_, _, h1, h2, _⟩ := ht
    cases fs with
    | nil => exact absurd rfl h1
    | cons f fs => cases vs with
      | nil => simp at h2
      | cons v vs => exact .inr ⟨' ', _, by simp only [Dbg.body, fields_true]; rfl, by decide⟩
  | tuple n vs => exact .inr ⟨'(', _, by simp [Dbg.body]; rfl, by decide⟩
  | list vs => exact .inr ⟨'[', _, by simp [Dbg.body]; rfl, by decide⟩
  | set vs => exact .inr ⟨'{', _, by simp [Dbg.body]; rfl, by decide⟩

theorem string_toList_inj {a b : String} (h : a.toList = b.toList) : a = b := String.toList_injective h

/-- The kinds of values are told apart by the characters after the word. -/
def Dbg.kind (u : UnicodeTables) (t : Dbg) (r : Txt) : Nat :=
  match t.lead, t.body u ++ r with
  | [], '"' :: _ => 1
  | [], '[' :: _ => 2
  | [], '{' :: _ => 3
  | _, ' ' :: '{' :: _ => 4
  | _, '(' :: _ => 5
  | _, _ => 6

def Dbg.kindOf : Dbg → Nat
  | .str _ => 1
  | .list _ => 2
  | .set _ => 3
  | .record _ _ _ => 4
  | .tuple _ _ => 5
  | .atom _ => 6

theorem Dbg.kind_eq (u : UnicodeTables) {t : Dbg} (ht : t.Wf) {r : Txt} (hr : DbgStop r) : t.kind u r = t.kindOf := by
  cases t with
  | str cs => simp [Dbg.kind, Dbg.lead, Dbg.body, Dbg.kindOf]
  | list vs => simp [Dbg.kind, Dbg.lead, Dbg.body, Dbg.kindOf]
  | set vs => simp [Dbg.kind, Dbg.lead, Dbg.body, Dbg.kindOf]
  | record n fs vs =>
    obtain ⟨h0, _, h1, h2, _⟩ := ht
    cases fs with
    | nil => exact absurd rfl h1
    | cons f fs => cases vs with
      | nil => simp at h2
      | cons v vs =>
        simp only [Dbg.kind, Dbg.lead, Dbg.body, Dbg.kindOf, fields_true, List.cons_append]
  | tuple n vs =>
    simp only [Dbg.kind, Dbg.lead, Dbg.body, Dbg.kindOf, List.cons_append]
  | atom s =>
    obtain ⟨h0, _⟩ := ht
    simp only [Dbg.kind, Dbg.lead, Dbg.body, Dbg.kindOf, List.nil_append]
    cases s with
    | nil => exact absurd rfl h0
    | cons c s =>
      rcases hr with rfl | ⟨d, s', rfl, hd⟩ | ⟨d, s', rfl, hd⟩
      · rfl
      · simp only [List.mem_cons, List.not_mem_nil, or_false] at hd
        rcases hd with rfl | rfl | rfl | rfl <;> rfl
      · simp [hd]

mutual

theorem Dbg.split (u : UnicodeTables) : ∀ {t v : Dbg} {r s : Txt}, t.Wf → v.Wf → DbgStop r → DbgStop s →
    t.render u ++ r = v.render u ++ s → t = v ∧ r = s
  | t, v, r, s, ht, hv, hr, hs, h => by
    rw [Dbg.render_eq, Dbg.render_eq, List.append_assoc, List.append_assoc] at h
    obtain ⟨h1, h2⟩ := plain_split (Dbg.lead_plain ht) (Dbg.lead_plain hv) (body_mark u ht hr) (body_mark u hv hs) h
    have hk : t.kindOf = v.kindOf := by
      rw [← Dbg.kind_eq u ht hr, ← Dbg.kind_eq u hv hs, Dbg.kind, Dbg.kind, h1, h2]
    match t, v, hk with
    | .atom a, .atom b, _ => exact ⟨congrArg _ h1, h2⟩
    | .str cs, .str ds, _ =>
      simp only [Dbg.body, List.cons_append, List.append_assoc, List.cons.injEq, true_and, List.nil_append] at h2
      obtain ⟨h3, h4⟩ := str_split u ht hv h2
      exact ⟨congrArg _ h3, h4⟩
    | .record n fs vs, .record m gs ws, _ =>
      simp only [Dbg.body] at h2
      obtain ⟨h3, h4, h5⟩ := Dbg.splitFields u ht.2.2.2.1 hv.2.2.2.1 ht.2.2.2.2.1 hv.2.2.2.2.1 ht.2.2.2.2.2 hv.2.2.2.2.2 true
        (fun _ => ht.2.2.1) (fun _ => hv.2.2.1) h2
      exact ⟨by rw [string_toList_inj h1, h3, h4], h5⟩
    | .tuple n vs, .tuple m ws, _ =>
      simp only [Dbg.body, List.cons_append, List.append_assoc, List.cons.injEq, true_and, List.nil_append] at h2
      obtain ⟨h3, h4⟩ := Dbg.splitSeq u (c := ')') (by simp) ht.2.2 hv.2.2 true h2
      exact ⟨by rw [string_toList_inj h1, h3], h4⟩
    | .list vs, .list ws, _ =>
      simp only [Dbg.body, List.cons_append, List.append_assoc, List.cons.injEq, true_and, List.nil_append] at h2
      obtain ⟨h3, h4⟩ := Dbg.splitSeq u (c := ']') (by simp) ht hv true h2
      exact ⟨by rw [h3], h4⟩
    | .set vs, .set ws, _ =>
      simp only [Dbg.body, List.cons_append, List.append_assoc, List.cons.injEq, true_and, List.nil_append] at h2
      obtain ⟨h3, h4⟩ := Dbg.splitSeq u (c := '}') (by simp) ht hv true h2
      exact ⟨by rw [h3], h4⟩

theorem Dbg.splitFields (u : UnicodeTables) : ∀ {fs gs : List String} {vs ws : List Dbg} {r s : Txt}, fs.length = vs.length → gs.length = ws.length →
    (fs.all fun f => f.toList.all fun c => plainChar c && c != ':') = true → (gs.all fun f => f.toList.all fun c => plainChar c && c != ':') = true →
    Dbg.Wfs vs → Dbg.Wfs ws → ∀ first : Bool, (first = true → fs ≠ []) → (first = true → gs ≠ []) →
    Dbg.renderFields u first fs vs ++ r = Dbg.renderFields u first gs ws ++ s → fs = gs ∧ vs = ws ∧ r = s
  | [], [], [], [], r, s, _, _, _, _, _, _, first, h1, _, h => by
    cases first with
    | true => exact absurd rfl (h1 rfl)
    | false => simpa [Dbg.renderFields] using h
  | [], g :: gs, [], w :: ws, r, s, _, _, _, _, _, _, first, h1, _, h => by
    cases first with
    | true => exact absurd rfl (h1 rfl)
    | false => rw [fields_end, fields_false] at h; simp at h
  | f :: fs, [], v :: vs, [], r, s, _, _, _, _, _, _, first, _, h1, h => by
    cases first with
    | true => exact absurd rfl (h1 rfl)
    | false => rw [fields_end, fields_false] at h; simp at h
  | f :: fs, g :: gs, v :: vs, w :: ws, r, s, hl, hm, hf, hg, hv, hw, first, _, _, h => by
    simp only [List.all_cons, Bool.and_eq_true] at hf hg
    have h' : f.toList ++ ':' :: (' ' :: (v.render u ++ (Dbg.renderFields u false fs vs ++ r))) =
        g.toList ++ ':' :: (' ' :: (w.render u ++ (Dbg.renderFields u false gs ws ++ s))) := by
      cases first with
      | true => simpa [fields_true] using h
      | false => simpa [fields_false] using h
    have nc : ∀ {l : Txt}, (l.all fun c => plainChar c && c != ':') = true → ':' ∉ l := by
      intro l hl m
      have := List.all_eq_true.1 hl _ m
      simp at this
    obtain ⟨h1, h2⟩ := sep (nc hf.1) (nc hg.1) h'
    simp only [List.cons.injEq, true_and] at h2
    obtain ⟨h3, h4⟩ := Dbg.split u hv.1 hw.1 (fieldsFalse_stop u fs vs r) (fieldsFalse_stop u gs ws s) h2
    obtain ⟨h5, h6, h7⟩ := Dbg.splitFields u (by simpa using hl) (by simpa using hm) hf.2 hg.2 hv.2 hw.2 false (by simp) (by simp) h4
    exact ⟨by rw [string_toList_inj h1, h5], by rw [h3, h6], h7⟩
  | [], _, v :: vs, _, r, s, hl, _, _, _, _, _, _, _, _, _ => by simp at hl
  | f :: fs, _, [], _, r, s, hl, _, _, _, _, _, _, _, _, _ => by simp at hl
  | _, [], _, v :: vs, r, s, _, hl, _, _, _, _, _, _, _, _ => by simp at hl
  | _, f :: fs, _, [], r, s, _, hl, _, _, _, _, _, _, _, _ => by simp at hl

theorem Dbg.splitSeq (u : UnicodeTables) {c : Char} (hc : c ∈ [')', ']', '}']) : ∀ {vs ws : List Dbg} {r s : Txt}, Dbg.Wfs vs → Dbg.Wfs ws → ∀ first : Bool,
    Dbg.renderSeq u first vs ++ c :: r = Dbg.renderSeq u first ws ++ c :: s → vs = ws ∧ r = s
  | [], [], r, s, _, _, first, h => by simpa [Dbg.renderSeq] using h
  | [], w :: ws, r, s, _, hw, first, h => by
    exfalso
    simp only [Dbg.renderSeq, List.nil_append, List.append_assoc] at h
    cases first with
    | true =>
      obtain ⟨d, x, e, hd⟩ := Dbg.render_head u hw.1 (Dbg.renderSeq u false ws ++ c :: s)
      rw [if_pos rfl, List.nil_append, e] at h
      simp only [List.cons.injEq] at h
      rw [← h.1] at hd
      exact hd (List.mem_cons_of_mem _ (by simp only [List.mem_cons, List.not_mem_nil, or_false] at hc ⊢; tauto))
    | false =>
      simp only [Bool.false_eq_true, if_false] at h
      have := congrArg List.head? h
      simp at this
      rw [this] at hc; exact absurd hc (by decide)
  | v :: vs, [], r, s, hv, _, first, h => by
    exfalso
    simp only [Dbg.renderSeq, List.nil_append, List.append_assoc] at h
    cases first with
    | true =>
      obtain ⟨d, x, e, hd⟩ := Dbg.render_head u hv.1 (Dbg.renderSeq u false vs ++ c :: r)
      rw [if_pos rfl, List.nil_append, e] at h
      simp only [List.cons.injEq] at h
      rw [h.1] at hd
      exact hd (List.mem_cons_of_mem _ (by simp only [List.mem_cons, List.not_mem_nil, or_false] at hc ⊢; tauto))
    | false =>
      simp only [Bool.false_eq_true, if_false] at h
      have := congrArg List.head? h
      simp at this
      rw [← this] at hc; exact absurd hc (by decide)
  | v :: vs, w :: ws, r, s, hv, hw, first, h => by
    simp only [Dbg.renderSeq, List.append_assoc] at h
    have h' := List.append_cancel_left h
    obtain ⟨h3, h4⟩ := Dbg.split u hv.1 hw.1 (seqFalse_stop u vs hc r) (seqFalse_stop u ws hc s) h'
    obtain ⟨h5, h6⟩ := Dbg.splitSeq u hc hv.2 hw.2 false h4
    exact ⟨by rw [h3, h5], h6⟩

end

end Zbgp
