import Verif.Spec.Table
import Verif.Props.Derived
import Verif.Props.Update

/-! # A table of routes kept from received UPDATE messages (C111) -/

namespace Zbgp.Props

open Spec

/-- `cmp` tells exactly the routes of `S` apart that BGP tells apart. -/
def Faithful {T I : Type} [ROrd T] [RouteId T I] (S : T → Prop) : Prop :=
  ∀ x y, S x → S y → (ROrd.cmp x y = .eq ↔ RouteId.ident x = RouteId.ident y)

section general
variable {T I V : Type} [ROrd T] [RouteId T I] {S : T → Prop}

/-- entry of route `i` -/
def Entry (t : Table T V) (i : I) (v : V) : Prop := ∃ k, (k, v) ∈ t ∧ RouteId.ident k = i

/-- keys are of `S`, and no two are the same route -/
def Sound (S : T → Prop) (t : Table T V) : Prop :=
  (∀ e ∈ t, S e.1) ∧ t.Pairwise fun a b => RouteId.ident a.1 ≠ RouteId.ident b.1

theorem remove_sound {t : Table T V} (h : Sound S t) (k : T) : Sound S (t.remove k) :=
  ⟨fun e he => h.1 e (List.mem_filter.1 he).1, h.2.sublist List.filter_sublist⟩

theorem remove_entry (f : Faithful S) {t : Table T V} (h : Sound S t) {k : T} (hk : S k) (i : I) (v : V) :
    Entry (t.remove k) i v ↔ Entry t i v ∧ RouteId.ident k ≠ i := by
  unfold Entry Table.remove
  constructor
  · rintro ⟨e, he, rfl⟩
    obtain ⟨h1, h2⟩ := List.mem_filter.1 he
    refine ⟨⟨e, h1, rfl⟩, fun hc => ?_⟩
    simp [(f k e hk (h.1 _ h1)).2 hc] at h2
  · rintro ⟨⟨e, he, rfl⟩, hne⟩
    refine ⟨e, List.mem_filter.2 ⟨he, ?_⟩, rfl⟩
    have : ROrd.cmp k e ≠ .eq := fun hc => hne ((f k e hk (h.1 _ he)).1 hc)
    simpa using this

theorem insert_entry (f : Faithful S) {t : Table T V} (h : Sound S t) {k : T} (hk : S k) (u : V) :
    Sound S (t.insert k u) ∧
    ∀ i v, Entry (t.insert k u) i v ↔ (RouteId.ident k = i ∧ u = v) ∨ (RouteId.ident k ≠ i ∧ Entry t i v) := by
  have test : ∀ e ∈ t, ((ROrd.cmp k e.1 == .eq) = true ↔ RouteId.ident k = RouteId.ident e.1) := by
    intro e he
    rw [beq_iff_eq]
    exact f k e.1 hk (h.1 e he)
  unfold Table.insert
  by_cases hc : t.any fun e => ROrd.cmp k e.1 == .eq
  · rw [if_pos hc]
    have keys : ∀ e : T × V, (if ROrd.cmp k e.1 == .eq then (e.1, u) else e).1 = e.1 := by intro e; split <;> rfl
    constructor
    · constructor
      · intro e he
        obtain ⟨e0, h0, rfl⟩ := List.mem_map.1 he
        rw [keys]; exact h.1 _ h0
      · rw [List.pairwise_map]
        refine h.2.imp ?_
        intro a b hab
        rw [keys, keys]; exact hab
    · intro i v
      constructor
      · rintro ⟨e, he, rfl⟩
        obtain ⟨e0, h0, e1⟩ := List.mem_map.1 he
        by_cases hq : (ROrd.cmp k e0.1 == .eq) = true
        · rw [if_pos hq, Prod.mk.injEq] at e1
          exact .inl ⟨by rw [← e1.1]; exact (test _ h0).1 hq, e1.2⟩
        · rw [if_neg hq] at e1
          subst e1
          exact .inr ⟨fun hx => hq ((test _ h0).2 hx), ⟨e, h0, rfl⟩⟩
      · rintro (⟨rfl, rfl⟩ | ⟨hne, e, he, rfl⟩)
        · obtain ⟨e0, h0, hq⟩ := List.any_eq_true.1 hc
          exact ⟨e0.1, List.mem_map.2 ⟨e0, h0, by rw [if_pos hq]⟩, ((test _ h0).1 hq).symm⟩
        · refine ⟨e, List.mem_map.2 ⟨(e, v), he, ?_⟩, rfl⟩
          rw [if_neg]
          exact fun hq => hne ((test _ he).1 hq)
  · rw [if_neg hc]
    have hn : ∀ e ∈ t, RouteId.ident k ≠ RouteId.ident e.1 := by
      intro e he hx
      exact hc (List.any_eq_true.2 ⟨e, he, (test e he).2 hx⟩)
    constructor
    · constructor
      · intro e he
        rcases List.mem_append.1 he with h0 | h0
        · exact h.1 e h0
        · rw [List.mem_singleton.1 h0]; exact hk
      · rw [List.pairwise_append]
        refine ⟨h.2, List.pairwise_singleton _ _, fun a ha b hb => ?_⟩
        rw [List.mem_singleton.1 hb]
        exact (hn a ha).symm
    · intro i v
      constructor
      · rintro ⟨e, he, rfl⟩
        rcases List.mem_append.1 he with h0 | h0
        · exact .inr ⟨hn _ h0, e, h0, rfl⟩
        · have := List.mem_singleton.1 h0
          rw [Prod.mk.injEq] at this
          exact .inl ⟨by rw [this.1], this.2.symm⟩
      · rintro (⟨rfl, rfl⟩ | ⟨-, e, he, rfl⟩)
        · exact ⟨k, List.mem_append.2 (.inr (List.mem_singleton.2 rfl)), rfl⟩
        · exact ⟨e, List.mem_append.2 (.inl he), rfl⟩

theorem removes_entry (f : Faithful S) (l : List T) (hl : ∀ x ∈ l, S x) (t : Table T V) (h : Sound S t) :
    Sound S (l.foldl (fun t x => t.remove x) t) ∧
    ∀ i v, Entry (l.foldl (fun t x => t.remove x) t) i v ↔ Entry t i v ∧ ∀ x ∈ l, RouteId.ident x ≠ i := by
  induction l generalizing t with
  | nil => exact ⟨h, fun i v => by simp⟩
  | cons x l ih =>
    obtain ⟨h1, h2⟩ := ih (fun y hy => hl y (List.mem_cons_of_mem _ hy)) _ (remove_sound h x)
    refine ⟨h1, fun i v => ?_⟩
    rw [List.foldl_cons, h2, remove_entry f h (hl x (by simp)), List.forall_mem_cons, and_assoc]

theorem inserts_entry (f : Faithful S) (u : V) (l : List T) (hl : ∀ x ∈ l, S x) (t : Table T V) (h : Sound S t) :
    Sound S (l.foldl (fun t x => t.insert x u) t) ∧
    ∀ i v, Entry (l.foldl (fun t x => t.insert x u) t) i v ↔
      ((∃ x ∈ l, RouteId.ident x = i) ∧ u = v) ∨ ((∀ x ∈ l, RouteId.ident x ≠ i) ∧ Entry t i v) := by
  induction l generalizing t with
  | nil => exact ⟨h, fun i v => by simp⟩
  | cons x l ih =>
    obtain ⟨i1, i2⟩ := insert_entry f h (hl x (by simp)) u
    obtain ⟨h1, h2⟩ := ih (fun y hy => hl y (List.mem_cons_of_mem _ hy)) _ i1
    refine ⟨h1, fun i v => ?_⟩
    rw [List.foldl_cons, h2, i2, List.exists_mem_cons_iff, List.forall_mem_cons]
    have hn : (∀ y ∈ l, RouteId.ident y ≠ i) ↔ ¬ ∃ y ∈ l, RouteId.ident y = i := by simp
    rw [hn]
    generalize (∃ y ∈ l, RouteId.ident y = i) = P
    tauto

theorem step_entry (f : Faithful S) (t : Table T V) (h : Sound S t) (s : Step T V)
    (hs : ∀ x ∈ s.withdrawn ++ s.announced, S x) :
    Sound S (t.step s) ∧ ∀ i v, Entry (t.step s) i v ↔ ((∃ x ∈ s.announced, RouteId.ident x = i) ∧ s.info = v) ∨
      ((∀ x ∈ s.withdrawn ++ s.announced, RouteId.ident x ≠ i) ∧ Entry t i v) := by
  obtain ⟨r1, r2⟩ := removes_entry f s.withdrawn (fun x hx => hs x (by simp [hx])) t h
  obtain ⟨i1, i2⟩ := inserts_entry f s.info s.announced (fun x hx => hs x (by simp [hx])) _ r1
  refine ⟨i1, fun i v => ?_⟩
  unfold Table.step
  rw [i2, r2]
  simp only [List.mem_append, or_imp, forall_and]
  generalize (∀ x ∈ s.announced, RouteId.ident x ≠ i) = P
  generalize (∀ x ∈ s.withdrawn, RouteId.ident x ≠ i) = Q
  generalize (∃ x ∈ s.announced, RouteId.ident x = i) = R
  tauto

omit [ROrd T] in
/-- the last route of the list with this identity -/
theorem last_of (l : List T) (i : I) (h : ∃ x ∈ l, RouteId.ident x = i) :
    ∃ a1 x a2, l = a1 ++ x :: a2 ∧ RouteId.ident x = i ∧ ∀ y ∈ a2, RouteId.ident y ≠ i := by
  induction l with
  | nil => simp at h
  | cons y l ih =>
    by_cases hl : ∃ x ∈ l, RouteId.ident x = i
    · obtain ⟨a1, x, a2, rfl, h1, h2⟩ := ih hl
      exact ⟨y :: a1, x, a2, rfl, h1, h2⟩
    · obtain ⟨x, hx, hi⟩ := h
      rcases List.mem_cons.1 hx with rfl | hx
      · exact ⟨[], x, l, rfl, hi, fun z h1 h2 => hl ⟨z, h1, h2⟩⟩
      · exact absurd ⟨x, hx, hi⟩ hl

omit [ROrd T] in
theorem inForce_snoc (hist : List (Step T V)) (s : Step T V) (i : I) (v : V) :
    (∃ x, InForce (hist ++ [s]) i x v) ↔ ((∃ x ∈ s.announced, RouteId.ident x = i) ∧ s.info = v) ∨
      ((∀ x ∈ s.withdrawn ++ s.announced, RouteId.ident x ≠ i) ∧ ∃ x, InForce hist i x v) := by
  constructor
  · rintro ⟨x, before, s', after, a1, a2, e, e1, e2, e3, h1, h2⟩
    rcases List.eq_nil_or_concat after with rfl | ⟨r, z, rfl⟩
    · obtain ⟨-, e⟩ := List.append_inj' e rfl
      rw [List.singleton_inj] at e
      subst e
      exact .inl ⟨⟨x, by rw [e2]; simp, e3⟩, e1⟩
    · rw [List.concat_eq_append, ← List.cons_append, ← List.append_assoc] at e
      obtain ⟨e', ez⟩ := List.append_inj' e rfl
      rw [List.singleton_inj] at ez
      subst ez
      refine .inr ⟨h2 s (by simp), x, before, s', r, a1, a2, e', e1, e2, e3, h1, fun t ht => h2 t (by simp [ht])⟩
  · rintro (⟨h, rfl⟩ | ⟨h, x, before, s', after, a1, a2, rfl, e1, e2, e3, h1, h2⟩)
    · obtain ⟨a1, x, a2, e, e1, h1⟩ := last_of s.announced i h
      exact ⟨x, hist, s, [], a1, a2, rfl, rfl, e, e1, h1, by simp⟩
    · refine ⟨x, before, s', after ++ [s], a1, a2, by simp, e1, e2, e3, h1, fun t ht => ?_⟩
      rcases List.mem_append.1 ht with ht | ht
      · exact h2 t ht
      · rw [List.mem_singleton.1 ht]; exact h

theorem table_entries (f : Faithful S) (hist : List (Step T V)) (hs : SpeaksOf S hist) :
    Sound S (tableOf hist) ∧ ∀ i v, Entry (tableOf hist) i v ↔ ∃ x, InForce hist i x v := by
  induction hist using List.reverseRecOn with
  | nil =>
    refine ⟨⟨by simp [tableOf], by simp [tableOf]⟩, fun i v => ?_⟩
    constructor
    · rintro ⟨k, h, -⟩; simp [tableOf] at h
    · rintro ⟨x, before, s, after, a1, a2, e, -⟩; simp at e
  | append_singleton hist s ih =>
    obtain ⟨i1, i2⟩ := ih fun s' h => hs s' (by simp [h])
    obtain ⟨s1, s2⟩ := step_entry f _ i1 s (hs s (by simp))
    have e : tableOf (hist ++ [s]) = (tableOf hist).step s := by simp [tableOf]
    rw [e]
    refine ⟨s1, fun i v => ?_⟩
    rw [s2, inForce_snoc, i2]

theorem get_entry (f : Faithful S) {t : Table T V} (h : Sound S t) {x : T} (hx : S x) (v : V) :
    t.get x = some v ↔ Entry t (RouteId.ident x) v := by
  unfold Table.get
  constructor
  · intro hg
    obtain ⟨e, he, rfl⟩ := Option.map_eq_some_iff.1 hg
    have hm := List.mem_of_find?_eq_some he
    have hq := List.find?_some he
    rw [beq_iff_eq] at hq
    exact ⟨e.1, hm, ((f x e.1 hx (h.1 _ hm)).1 hq).symm⟩
  · rintro ⟨k, hk, hi⟩
    have hq : (ROrd.cmp x k == .eq) = true := beq_iff_eq.2 ((f x k hx (h.1 _ hk)).2 hi.symm)
    obtain ⟨e, he⟩ := Option.isSome_iff_exists.1 (List.find?_isSome.2 ⟨(k, v), hk, hq⟩ :
      (t.find? fun e => ROrd.cmp x e.1 == .eq).isSome)
    have hm := List.mem_of_find?_eq_some he
    have hq' := List.find?_some he
    rw [beq_iff_eq] at hq'
    have hid := ((f x e.1 hx (h.1 _ hm)).1 hq').symm
    have : e = (k, v) := by
      by_contra hne
      have : Std.Symm fun a b : T × V => RouteId.ident a.1 ≠ RouteId.ident b.1 := ⟨fun _ _ => Ne.symm⟩
      exact h.2.forall hm hk hne (hid.trans hi.symm)
    rw [he, this]; rfl

end general

/-! ## Prefixes -/

theorem net_iff {w : Nat} (m : Nat) (a b : BitVec w) (p q : U8) (ha : a.toNat % 2 ^ (m - p.toNat) = 0)
    (hb : b.toNat % 2 ^ (m - q.toNat) = 0) :
    (a = b ∧ p = q) ↔ (p.toNat, a.toNat / 2 ^ (m - p.toNat)) = (q.toNat, b.toNat / 2 ^ (m - q.toNat)) := by
  rw [Prod.mk.injEq]
  constructor
  · rintro ⟨rfl, rfl⟩; exact ⟨rfl, rfl⟩
  · rintro ⟨h1, h2⟩
    have hpq : p = q := BitVec.eq_of_toNat_eq h1
    subst hpq
    refine ⟨BitVec.eq_of_toNat_eq ?_, rfl⟩
    rw [← Nat.div_add_mod a.toNat (2 ^ (m - p.toNat)), ← Nat.div_add_mod b.toNat (2 ^ (m - p.toNat)), ha, hb, h2]

theorem faithful_v4 : Faithful (T := BgpAddrV4) Tidy.Tidy := by
  rintro ⟨a, p⟩ ⟨b, q⟩ ⟨-, ha⟩ ⟨-, hb⟩
  rw [C88_full_keys.1.equal_iff]
  exact (by simp : _ ↔ (a = b ∧ p = q)).trans (net_iff 32 a b p q ha hb)

theorem faithful_v6 : Faithful (T := BgpAddrV6) Tidy.Tidy := by
  rintro ⟨a, p⟩ ⟨b, q⟩ ⟨-, ha⟩ ⟨-, hb⟩
  rw [C88_full_keys.2.1.equal_iff]
  exact (by simp : _ ↔ (a = b ∧ p = q)).trans (net_iff 128 a b p q ha hb)

section wrap
variable {T I : Type} [ROrd T] [RouteId T I] [Tidy T]

theorem faithful_labeled (f : Faithful (T := T) Tidy.Tidy) : Faithful (T := Labeled T) Tidy.Tidy :=
  fun x y hx hy => f x.pfx y.pfx hx hy

theorem match_eq (o r : Ordering) :
    (match o with | .lt => .lt | .gt => .gt | .eq => r) = Ordering.eq ↔ o = .eq ∧ r = .eq := by
  cases o <;> simp

theorem faithful_rd (f : Faithful (T := T) Tidy.Tidy) : Faithful (T := WithRd T) Tidy.Tidy := by
  intro x y hx hy
  refine (match_eq _ _).trans ?_
  rw [f x.pfx y.pfx hx hy, C88_full_keys.2.2.2.2.1.equal_iff]
  exact ⟨fun h => Prod.ext h.2 h.1, fun h => ⟨congrArg Prod.snd h, congrArg Prod.fst h⟩⟩

theorem faithful_pathid (f : Faithful (T := T) Tidy.Tidy) : Faithful (T := WithPathId T) Tidy.Tidy := by
  intro x y hx hy
  refine (match_eq _ _).trans ?_
  have hc : ROrd.cmp x.pathid y.pathid = .eq ↔ x.pathid = y.pathid :=
    Nat.compare_eq_eq.trans ⟨BitVec.eq_of_toNat_eq, fun h => by rw [h]⟩
  rw [f x.nlri y.nlri hx hy, hc]
  exact ⟨fun h => Prod.ext h.2 h.1, fun h => ⟨congrArg Prod.snd h, congrArg Prod.fst h⟩⟩

end wrap

theorem faithful_kinds {T I : Type} [ROrd T] [RouteId T I] [Tidy T] (h : PlainKind T ∨ LabeledKind T) :
    Faithful (T := T) Tidy.Tidy := by
  rcases h with h | h
  · cases h
    · exact faithful_v4
    · exact faithful_v6
    · exact faithful_pathid faithful_v4
    · exact faithful_pathid faithful_v6
  · cases h
    · exact faithful_labeled faithful_v4
    · exact faithful_labeled faithful_v6
    · exact faithful_labeled (faithful_rd faithful_v4)
    · exact faithful_labeled (faithful_rd faithful_v6)
    · exact faithful_pathid (faithful_labeled faithful_v4)
    · exact faithful_pathid (faithful_labeled faithful_v6)
    · exact faithful_pathid (faithful_labeled (faithful_rd faithful_v4))
    · exact faithful_pathid (faithful_labeled (faithful_rd faithful_v6))

/-- without labels, the identity of a tidy route is the route -/
theorem plain_ident {T I : Type} [ROrd T] [RouteId T I] [Tidy T] (h : PlainKind T) {x y : T} (hx : Tidy.Tidy x)
    (hy : Tidy.Tidy y) (e : RouteId.ident x = RouteId.ident y) : x = y := by
  have hc := (faithful_kinds (.inl h) x y hx hy).2 e
  cases h
  · exact (C88_full_keys.1.equal_iff x y).1 hc
  · exact (C88_full_keys.2.1.equal_iff x y).1 hc
  · exact (C88_wrapped_keys.2.2.1.equal_iff x y).1 hc
  · exact (C88_wrapped_keys.2.2.1.equal_iff x y).1 hc

/-- **C111**, prefixes of any kind without set bits behind their length: after every history the table has an entry for exactly the
routes in force, with the attributes last announced; a lookup of a route finds it, whatever labels are asked with; and no route has
two entries. Missing: prefixes with bits set behind their length (`C111_trailing_bits`), and that the labels in the table are those
last announced (`C111_stale_labels`; without labels, `C111_plain_table_partial`). -/
theorem C111_table_partial {T I V : Type} [ROrd T] [RouteId T I] [Tidy T] (k : PlainKind T ∨ LabeledKind T)
    (hist : List (Step T V)) (h : SpeaksOf Tidy.Tidy hist) :
    (∀ i v, (∃ x, (x, v) ∈ tableOf hist ∧ RouteId.ident x = i) ↔ ∃ x, InForce hist i x v) ∧
    (∀ x, Tidy.Tidy x → ∀ v, (tableOf hist).get x = some v ↔ ∃ y, InForce hist (RouteId.ident x) y v) ∧
    (tableOf hist).Pairwise fun a b => RouteId.ident a.1 ≠ RouteId.ident b.1 := by
  have f := faithful_kinds k
  obtain ⟨h1, h2⟩ := table_entries f hist h
  exact ⟨h2, fun x hx v => (get_entry f h1 hx v).trans (h2 _ _), h1.2⟩

/-- **C111**, prefixes without labels and without set bits behind their length: the entries of the table are exactly the routes in
force as they were announced last. Missing: prefixes with bits set behind their length (`C111_trailing_bits`). -/
theorem C111_plain_table_partial {T I V : Type} [ROrd T] [RouteId T I] [Tidy T] (k : PlainKind T)
    (hist : List (Step T V)) (h : SpeaksOf Tidy.Tidy hist) (x : T) (v : V) :
    (x, v) ∈ tableOf hist ↔ InForce hist (RouteId.ident x) x v := by
  obtain ⟨h1, h2⟩ := table_entries (faithful_kinds (.inl k)) hist h
  have tidy : ∀ {i : I} {y : T}, InForce hist i y v → Tidy.Tidy y := by
    rintro i y ⟨before, s, after, a1, a2, rfl, -, e, -⟩
    exact h s (by simp) y (by simp [e])
  constructor
  · intro hx
    obtain ⟨y, hy⟩ := (h2 _ v).1 ⟨x, hx, rfl⟩
    have hi : RouteId.ident y = RouteId.ident x := by
      obtain ⟨_, _, _, _, _, _, _, _, hi, _⟩ := hy
      exact hi
    rwa [plain_ident k (tidy hy) (h1.1 _ hx) hi] at hy
  · intro hx
    obtain ⟨y, hy, hi⟩ := (h2 _ v).2 ⟨x, hx⟩
    have e : y = x := plain_ident k (h1.1 _ hy) (tidy hx) hi
    rwa [e] at hy

/-- **C111**, EVPN routes, as long as a MAC or prefix route stays with its Ethernet segment and gateway. Missing: routes that move
(`C111_evpn_moved`). -/
theorem C111_evpn_table_partial {V : Type} (seg : BgpEVPN → U8 × EVPNESI × IpAddr) (hist : List (Step BgpEVPN V))
    (h : SpeaksOf (fun x => seg (evpnKey x) = evpnSegment x) hist) :
    (∀ i v, (∃ x, (x, v) ∈ tableOf hist ∧ RouteId.ident x = i) ↔ ∃ x, InForce hist i x v) ∧
    (tableOf hist).Pairwise fun a b => RouteId.ident a.1 ≠ RouteId.ident b.1 := by
  have f : Faithful (T := BgpEVPN) (fun x => seg (evpnKey x) = evpnSegment x) := by
    intro x y hx hy
    rw [C88_labeled_keys_partial.2.1.equal_iff]
    constructor
    · intro e
      cases x <;> cases y <;> simp_all [RouteId.ident, evpnKey, bareEvpn]
    · intro e
      have e' : evpnSegment x = evpnSegment y := by rw [← hx, ← hy]; exact congrArg seg e
      cases x <;> cases y <;> simp_all [RouteId.ident, evpnKey, bareEvpn, evpnSegment]
  obtain ⟨h1, h2⟩ := table_entries f hist h
  exact ⟨h2, h1.2⟩

/-- **C111**, the program: if every message is decoded, its table is that of what the messages say. -/
theorem C111_watch {T : Type} [ROrd T] (p : BgpSessionParams) (routes : BgpAddrs → List T) (bs : List Bytes)
    (t : Table T (List BgpAttrItem)) :
    watch p routes bs [] = .ok t ↔
      ∃ ms : List BgpUpdateMessage, bs.map (BgpUpdateMessage.new.decodeFrom p) = ms.map .ok ∧ t = tableOf (ms.map (stepOf routes)) := by
  have gen : ∀ (bs : List Bytes) (t0 : Table T (List BgpAttrItem)), watch p routes bs t0 = .ok t ↔
      ∃ ms : List BgpUpdateMessage, bs.map (BgpUpdateMessage.new.decodeFrom p) = ms.map .ok ∧
        t = (ms.map (stepOf routes)).foldl Table.step t0 := by
    intro bs
    induction bs with
    | nil =>
      intro t0
      constructor
      · intro e
        simp only [watch, Res.ok.injEq] at e
        exact ⟨[], rfl, e.symm⟩
      · rintro ⟨ms, e, rfl⟩
        cases ms
        · rfl
        · simp at e
    | cons b bs ih =>
      intro t0
      rw [watch]
      constructor
      · intro e
        obtain ⟨m, hm, e⟩ := Res.bind_eq_ok.1 e
        obtain ⟨ms, h1, h2⟩ := (ih _).1 e
        exact ⟨m :: ms, by rw [List.map_cons, List.map_cons, hm, h1], h2⟩
      · rintro ⟨ms, e, h2⟩
        cases ms with
        | nil => simp at e
        | cons m ms =>
          simp only [List.map_cons, List.cons.injEq] at e
          rw [e.1]
          exact (ih _).2 ⟨ms, e.2, h2⟩
  exact gen bs []

/-- the gap in C111: of two forms of a prefix that differ only behind its length, one does not withdraw the other -/
theorem C111_trailing_bits {V : Type} (x y : BgpAddrV4) (v : V) (hne : x ≠ y) (hi : RouteId.ident x = RouteId.ident y) :
    tableOf [⟨[], [x], v⟩, ⟨[y], [], v⟩] = [(x, v)] ∧ ¬ ∃ z w, InForce [⟨[], [x], v⟩, ⟨[y], [], v⟩] (RouteId.ident x) z w := by
  constructor
  · have : ROrd.cmp y x ≠ .eq := fun hc => hne ((C88_full_keys.1.equal_iff y x).1 hc).symm
    simp [tableOf, Table.step, Table.insert, Table.remove, this]
  · rintro ⟨z, w, hf⟩
    have := (inForce_snoc [⟨[], [x], v⟩] ⟨[y], [], v⟩ (RouteId.ident x) w).1 ⟨z, hf⟩
    simp [hi] at this

/-- the gap in C111: a labeled route that is announced again with other labels stays in the table with the first ones -/
theorem C111_stale_labels {T I V : Type} [ROrd T] [RouteId T I] (refl : ∀ x : T, ROrd.cmp x x = .eq) (x : T)
    (l1 l2 : MplsLabels) (v1 v2 : V) :
    tableOf [⟨[], [(⟨x, l1⟩ : Labeled T)], v1⟩, ⟨[], [⟨x, l2⟩], v2⟩] = [(⟨x, l1⟩, v2)] ∧
    InForce [⟨[], [(⟨x, l1⟩ : Labeled T)], v1⟩, ⟨[], [⟨x, l2⟩], v2⟩] (RouteId.ident x) ⟨x, l2⟩ v2 := by
  constructor
  · have h : ROrd.cmp (⟨x, l2⟩ : Labeled T) ⟨x, l1⟩ = .eq := refl x
    simp [tableOf, Table.step, Table.insert, h]
  · exact ⟨[_], _, [], [], [], rfl, rfl, rfl, rfl, by simp, by simp⟩

/-- the gap in C111: a MAC route that moves to another Ethernet segment is in the table twice -/
theorem C111_evpn_moved {V : Type} (r : BgpEVPN2) (e : EVPNESI) (he : e ≠ r.esi) (v1 v2 : V) :
    tableOf [⟨[], [BgpEVPN.evpn2 r], v1⟩, ⟨[], [.evpn2 { r with esi := e }], v2⟩] =
      [(.evpn2 r, v1), (.evpn2 { r with esi := e }, v2)] ∧
    (∀ x v, InForce [⟨[], [BgpEVPN.evpn2 r], v1⟩, ⟨[], [.evpn2 { r with esi := e }], v2⟩] (RouteId.ident (BgpEVPN.evpn2 r)) x v →
      x = .evpn2 { r with esi := e } ∧ v = v2) := by
  constructor
  · have : ROrd.cmp (BgpEVPN.evpn2 { r with esi := e }) (.evpn2 r) ≠ .eq := by
      intro hc
      have := (C88_labeled_keys_partial.2.1.equal_iff _ _).1 hc
      simp only [bareEvpn, BgpEVPN.evpn2.injEq, BgpEVPN2.mk.injEq] at this
      exact he this.2.2.1
    simp [tableOf, Table.step, Table.insert, this]
  · rintro x v ⟨before, s, after, a1, a2, e1, e2, e3, e4, e5, e6⟩
    match before, e1 with
    | [], e1 =>
      simp only [List.nil_append, List.cons.injEq] at e1
      obtain ⟨-, rfl⟩ := e1
      have := e6 ⟨[], [.evpn2 { r with esi := e }], v2⟩ (by simp) (.evpn2 { r with esi := e }) (by simp)
      exact absurd rfl this
    | [_], e1 =>
      simp only [List.cons_append, List.nil_append, List.cons.injEq] at e1
      obtain ⟨-, rfl, -⟩ := e1
      cases a1 with
      | nil => simp only [List.nil_append, List.cons.injEq] at e3; exact ⟨e3.1.symm, e2.symm⟩
      | cons _ a1 => simp at e3
    | _ :: _ :: _, e1 => simp at e1

/-- a history of tidy routes -/
example : SpeaksOf Tidy.Tidy [⟨[], [(⟨0x0a000000, 8⟩ : BgpAddrV4), ⟨0xc0000200, 24⟩], "a"⟩, ⟨[⟨0x0a000000, 8⟩], [], "b"⟩] ∧
    tableOf [⟨[], [(⟨0x0a000000, 8⟩ : BgpAddrV4), ⟨0xc0000200, 24⟩], "a"⟩, ⟨[⟨0x0a000000, 8⟩], [], "b"⟩] =
      [(⟨0xc0000200, 24⟩, "a")] := by
  refine ⟨?_, by decide⟩
  intro s hs x hx
  simp only [List.mem_cons, List.not_mem_nil, or_false] at hs
  rcases hs with rfl | rfl <;> simp only [List.nil_append, List.append_nil, List.mem_cons, List.not_mem_nil, or_false] at hx
  · rcases hx with rfl | rfl <;> exact ⟨by decide, by decide⟩
  · subst hx; exact ⟨by decide, by decide⟩

/-- announced as `10.0.0.0/7`, withdrawn as `11.0.0.0/7`: from octets to the table -/
example : ∃ t, watch session32 (fun a => match a with | .IPV4U v => v | _ => [])
      [[0, 0, 0, 0, 7, 10], [0, 2, 7, 11, 0, 0]] [] = .ok t ∧ t = [((⟨0x0a000000, 7⟩ : BgpAddrV4), [])] ∧
    RouteId.ident (⟨0x0a000000, 7⟩ : BgpAddrV4) = RouteId.ident (⟨0x0b000000, 7⟩ : BgpAddrV4) := ⟨_, rfl, rfl, by decide⟩

/-- EVPN routes that stay where they are -/
example : SpeaksOf (fun x => (fun _ => ((0 : U8), noSegment, IpAddr.v4 0)) (evpnKey x) = evpnSegment x)
    [⟨[], [BgpEVPN.evpn3 ⟨⟨1, 2⟩, 3, .v4 4⟩, .evpn2 ⟨⟨1, 2⟩, 0, noSegment, 3, ⟨1, 2, 3, 4, 5, 6⟩, none, ⟨[16]⟩⟩], ()⟩] := by
  intro s hs x hx
  rw [List.mem_singleton.1 hs] at hx
  simp only [List.nil_append, List.mem_cons, List.not_mem_nil, or_false] at hx
  rcases hx with rfl | rfl <;> rfl

end Zbgp.Props
