import Verif.Spec.ReturnsMsg
import Verif.Lemmas.Returns
import Verif.Lemmas.RelayNeeded
import Verif.Lemmas.OutcomeUpdate
import Verif.Lemmas.ReleaseUpdate

/-!
# Lemmas for C120: which collections, attributes and messages come back without overflow checks
-/

namespace Zbgp

open Spec

/-- if octets are sent, all of them are written -/
def Solid (a : Fate) : Prop := ∀ pat, a = .sent pat → ∃ w, a = .octets w

theorem solid_octets (w : Bytes) : Solid (.octets w) := fun _ _ => ⟨w, rfl⟩
theorem solid_crash : Solid .crash := fun _ h => by cases h
theorem solid_refused : Solid .refused := fun _ h => by cases h

theorem solid_andThen {a b : Fate} (ha : Solid a) (hb : Solid b) : Solid (a.andThen b) := by
  intro pat h
  cases a with
  | sent v =>
    obtain ⟨w, hw⟩ := ha v rfl
    cases b with
    | sent u =>
      obtain ⟨w', hw'⟩ := hb u rfl
      exact ⟨w ++ w', by rw [hw, hw']; simp [Fate.andThen, Fate.octets]⟩
    | refused => cases h
    | crash => cases h
  | refused => cases h
  | crash => cases h

theorem solid_all {α : Type} {fate : α → Fate} (v : List α) (h : ∀ x ∈ v, Solid (fate x)) : Solid (Fate.all fate v) := by
  induction v with
  | nil => exact solid_octets []
  | cons x v ih => exact solid_andThen (h x (by simp)) (ih fun y hy => h y (List.mem_cons_of_mem _ hy))

theorem octets_inj {w v : Bytes} (h : Fate.octets w = .octets v) : w = v := by
  simp only [Fate.octets, Fate.sent.injEq] at h
  exact (List.map_inj_right (by simp)).1 h

/-! ## Prefixes -/

section fields
variable {T : Type} [WrapReads T] [UncheckedForm T] [ReturnsUnchecked T] [ReadsBack T] [NlriKind T] [LengthOctet T]

theorem prefixes_key (v : List T) :
    (∃ w, Fate.all (prefixFate .release) v = .octets w ∧
      ∀ n, (ItemsRead 0 (@NlriRead T (wrapReads T)) w v n ↔ (∀ x ∈ v, ReturnsUnchecked.Back x) ∧ n = w.length)) ∨
      (Fate.all (prefixFate .release) v = .crash ∧ ¬ ∀ x ∈ v, ReturnsUnchecked.Back x) := by
  have e : (prefixFate (T := T) .release) = fun x => formFate [] (UncheckedForm.form x) := funext fun x => prefixFate_eq .release x
  rw [e]
  exact nlris_key v

theorem ids_key (v : List (WithPathId T)) :
    (∃ w, Fate.all (pathIdFate .release) v = .octets w ∧
      ∀ n, (ItemsRead 4 (@PathIdRead T (wrapReads T)) w v n ↔ (∀ x ∈ v, ReturnsUnchecked.Back x.nlri) ∧ n = w.length)) ∨
      (Fate.all (pathIdFate .release) v = .crash ∧ ¬ ∀ x ∈ v, ReturnsUnchecked.Back x.nlri) := by
  have e : (pathIdFate (T := T) .release) = fun x => formFate (be 4 x.pathid.toNat) (UncheckedForm.form x.nlri) :=
    funext fun x => pathIdFate_eq .release x
  rw [e]
  exact pathIds_key v

variable {p : BgpSessionParams} {f : Family} {plain : List T → BgpAddrs} {withId : List (WithPathId T) → BgpAddrs}

theorem plain_back (v : List T) (h1 : ∀ a b, plain a = plain b → a = b) (h2 : ∀ a b, plain a ≠ withId b)  :
    (∃ w, Fate.all (prefixFate .release) v = .octets w ∧
      ((∃ n, WrapField T p f plain withId w (plain v) n) ↔
        (∀ x ∈ v, ReturnsUnchecked.Back x) ∧ AddPathExpected p (familyCode f) w = false)) ∨
      (Fate.all (prefixFate .release) v = .crash ∧ ¬ ∀ x ∈ v, ReturnsUnchecked.Back x) := by
  rcases prefixes_key v with ⟨w, h3, h4⟩ | h
  · refine .inl ⟨w, h3, ?_⟩
    unfold WrapField
    cases AddPathExpected p (familyCode f) w
    · constructor
      · rintro ⟨n, u, h5, h6⟩
        obtain rfl := h1 _ _ h5
        exact ⟨((h4 n).1 h6).1, rfl⟩
      · rintro ⟨h5, -⟩
        exact ⟨_, v, rfl, (h4 _).2 ⟨h5, rfl⟩⟩
    · constructor
      · rintro ⟨n, u, h5, h6⟩
        exact absurd h5 (h2 _ _)
      · rintro ⟨-, h5⟩; cases h5
  · exact .inr h

theorem withId_back (v : List (WithPathId T)) (h1 : ∀ a b, withId a = withId b → a = b) (h2 : ∀ a b, withId a ≠ plain b) :
    (∃ w, Fate.all (pathIdFate .release) v = .octets w ∧
      ((∃ n, WrapField T p f plain withId w (withId v) n) ↔
        (∀ x ∈ v, ReturnsUnchecked.Back x.nlri) ∧ AddPathExpected p (familyCode f) w = true)) ∨
      (Fate.all (pathIdFate .release) v = .crash ∧ ¬ ∀ x ∈ v, ReturnsUnchecked.Back x.nlri) := by
  rcases ids_key v with ⟨w, h3, h4⟩ | h
  · refine .inl ⟨w, h3, ?_⟩
    unfold WrapField
    cases AddPathExpected p (familyCode f) w
    · constructor
      · rintro ⟨n, u, h5, h6⟩
        exact absurd h5 (h2 _ _)
      · rintro ⟨-, h5⟩; cases h5
    · constructor
      · rintro ⟨n, u, h5, h6⟩
        obtain rfl := h1 _ _ h5
        exact ⟨((h4 n).1 h6).1, rfl⟩
      · rintro ⟨h5, -⟩
        exact ⟨_, v, rfl, (h4 _).2 ⟨h5, rfl⟩⟩
  · exact .inr h

end fields

/-! ## VPLS -/

theorem wrapLabels_size {bits : Nat} {b : Bytes} {ls : List U32} {k : Nat} (h : WrapLabels bits b ls k) :
    k = 3 * ls.length ∧ k ≤ b.length := by
  induction h with
  | done b => simp
  | last bits v b hv hb he => simp
  | more bits v b ls n hv hb he hr ih =>
    simp only [List.length_cons, List.length_append, be_length]
    omega

theorem wrapVpls_sizes {b : Bytes} {v : List BgpAddrL2} {n : Nat} (h : ItemsRead 0 WrapVpls b v n) :
    (v.map fun x => 16 + 3 * x.labels.labels.length).sum ≤ b.length := by
  induction h with
  | done b h => simp
  | item b x n xs m hlt hx hr ih =>
    obtain ⟨body, lab, t, k, rfl, -, -, hb, hl, rfl⟩ := hx
    obtain ⟨h1, h2⟩ := wrapLabels_size hl
    have := congrArg List.length hb
    simp only [List.length_append, be_length, rdBody_length, List.length_drop] at this ih ⊢
    simp only [List.map_cons, List.sum_cons]
    omega

theorem vpls_fates (v : List BgpAddrL2) : ∃ w, Fate.all vplsFate v = .octets w ∧
    w.length + 2 * v.length = (v.map fun x => 16 + 3 * x.labels.labels.length).sum := by
  induction v with
  | nil => exact ⟨[], rfl, rfl⟩
  | cons x v ih =>
    obtain ⟨w, h1, h2⟩ := ih
    refine ⟨(vplsWire x).take (vplsBody x).length ++ w, ?_, ?_⟩
    · rw [Fate.all, vplsFate, h1]
      simp [Fate.octets, Fate.andThen]
    · have : ((vplsWire x).take (vplsBody x).length).length = 14 + 3 * x.labels.labels.length := by
        simp [vplsWire, vplsBody_length]
      simp only [List.length_append, this, List.length_cons, List.map_cons, List.sum_cons]
      omega

theorem vpls_back (v : List BgpAddrL2) : ∃ w, Fate.all vplsFate v = .octets w ∧
    ((∃ n, ItemsRead 0 WrapVpls w v n) ↔ v = []) := by
  obtain ⟨w, h1, h2⟩ := vpls_fates v
  refine ⟨w, h1, ?_, ?_⟩
  · rintro ⟨n, h⟩
    have := wrapVpls_sizes h
    exact List.length_eq_zero_iff.1 (by omega)
  · rintro rfl
    simp only [List.length_nil, Nat.mul_zero, Nat.add_zero, List.map_nil, List.sum_nil] at h2
    exact ⟨_, .done _ (by omega)⟩

/-! ## EVPN -/

theorem evpn_labels_back {ls : List U32} {k : Nat} :
    WrapLabels (leftBits (labelsBody ls)) (labelsBody ls) ls k ↔ EvpnLabelsBack ls ∧ k = (labelsBody ls).length := by
  have h := wrapLabels_back (bits := leftBits (labelsBody ls)) (k := k) (rest := []) ls (Nat.mod_lt _ (by decide))
  rw [List.append_nil] at h
  rw [h, labelsBody_len]
  unfold EvpnLabelsBack leftBits
  rw [labelsBody_len]
  constructor
  · rintro ⟨rfl, ⟨h1, -⟩ | ⟨h1, h2⟩⟩
    · exact ⟨.inl h1, rfl⟩
    · refine ⟨.inr ⟨h1, ?_⟩, rfl⟩
      by_contra hc
      refine h2 (ls.length - 32) (by omega) ?_
      unfold wrapSub; omega
  · rintro ⟨h1 | ⟨h1, h2⟩, rfl⟩
    · refine ⟨rfl, .inl ⟨h1, ?_⟩⟩
      rw [h1]; rfl
    · refine ⟨rfl, .inr ⟨h1, fun i hi => ?_⟩⟩
      unfold wrapSub; omega

theorem evpnRead_exact {x : BgpEVPN} {b : Bytes} {k : Nat} (ht : evpnType x = 3 ∨ evpnType x = 4 ∨ evpnType x = 5)
    (hb : evpnSentBody x = some b) (hl : b.length ≤ 255) : EvpnRead b x k ↔ evpnOk x ∧ k = b.length := by
  have hL : (BitVec.ofNat 8 b.length : U8).toNat = b.length := by
    rw [BitVec.toNat_ofNat]; omega
  constructor
  · intro h
    have hw : evpnOk x := evpn_normal (b := evpnType x :: BitVec.ofNat 8 b.length :: b ++ []) (n := k + 2)
      ⟨_, b, [], k, rfl, hL.symm, h, rfl⟩
    refine ⟨hw, ?_⟩
    cases h with
    | t1 => rcases ht with ht | ht | ht <;> cases ht
    | t2 => rcases ht with ht | ht | ht <;> cases ht
    | t3 rd tag ip t =>
      simp only [evpnSentBody, evpnBody, Option.some.injEq] at hb
      have := congrArg List.length hb
      simp only [List.length_append, be_length, rdBody_length] at this ⊢
      omega
    | t4 rd et esi ip t =>
      simp only [evpnSentBody, evpnBody, Option.some.injEq] at hb
      have := congrArg List.length hb
      simp only [List.length_append, be_length, rdBody_length, esiBody_length] at this ⊢
      omega
    | t5 rd et esi tag len p g ls lab k hl' h =>
      obtain ⟨h1, h2, -⟩ := labelsRead_shape h
      have := hw.1.2.1
      simp only at this
      simp only [List.length_append, be_length, rdBody_length, esiBody_length, List.length_cons, List.length_nil] at this ⊢
      omega
    | t5v6 rd et esi tag len p g q r ls lab k hq hr hl' h =>
      have h1 := hw.1.2.1
      simp only at h1
      simp only [evpnSentBody, evpnBody, Option.some.injEq] at hb
      have := congrArg List.length hb
      simp only [List.length_append, be_length, rdBody_length, esiBody_length, List.length_cons, List.length_nil, labelsBody_len,
        h1, ipBody] at this
      omega
  · rintro ⟨hw, rfl⟩
    have he : evpnBody x = b := by
      cases x with
      | evpn5 r =>
        obtain ⟨q, g, h1, h2⟩ := evpn5_v4 hw
        simp only [evpnSentBody, h1, h2, Option.some.injEq] at hb
        exact hb
      | _ => simpa [evpnSentBody] using hb
    have hr := evpn_reads x .IPv4 hw []
    obtain ⟨l, body, t, k, h1, h2, h3, h4⟩ := ((evpn_exactly .IPv4 _).ok _).1 hr
    simp only [evpnWire, he, List.append_nil, List.cons_append, List.nil_append, List.cons.injEq, List.length_cons] at h1 h2 h3 h4
    obtain ⟨-, rfl, h1⟩ := h1
    rw [hL] at h2
    have h5 : t = [] := by
      have := congrArg List.length h1
      simp only [List.length_append] at this
      exact List.length_eq_zero_iff.1 (by omega)
    subst h5
    rw [List.append_nil] at h1
    subst h1
    obtain rfl : k = b.length := by omega
    exact h3

theorem evpn_item_back {x : BgpEVPN} {b rest : Bytes} {n : Nat} (hb : evpnSentBody x = some b) (hl : b.length ≤ 255) :
    WrapEvpnItem (evpnType x :: BitVec.ofNat 8 b.length :: b ++ rest) x n ↔ EvpnBack x ∧ n = b.length + 2 := by
  have hL : (BitVec.ofNat 8 b.length : U8).toNat = b.length := by
    rw [BitVec.toNat_ofNat]; omega
  have h1 : WrapEvpnItem (evpnType x :: BitVec.ofNat 8 b.length :: b ++ rest) x n ↔ ∃ k, WrapEvpn b x k ∧ n = k + 2 := by
    constructor
    · rintro ⟨l, body, t, k, e, h2, h3, h4⟩
      simp only [List.cons_append, List.cons.injEq, true_and] at e
      obtain ⟨rfl, e⟩ := e
      obtain ⟨rfl, -⟩ := List.append_inj e (by omega)
      exact ⟨k, h3, h4⟩
    · rintro ⟨k, h2, h3⟩
      exact ⟨_, b, rest, k, rfl, hL.symm, h2, h3⟩
  have h2 : ∀ k, WrapEvpn b x k ↔ EvpnBack x ∧ k = b.length := by
    intro k
    cases x with
    | evpn1 r =>
      obtain ⟨rd, et, esi, tag, ⟨ls⟩⟩ := r
      simp only [evpnSentBody, evpnBody, Option.some.injEq] at hb
      constructor
      · intro h
        cases h with
        | t1 _ _ _ _ _ lab k h =>
          have := List.append_cancel_left hb
          subst this
          obtain ⟨h3, h4⟩ := evpn_labels_back.1 h
          refine ⟨h3, ?_⟩
          simp only [List.length_append, be_length, rdBody_length, esiBody_length]
          omega
        | other _ _ _ h => rcases h with h | h | h <;> cases h
      · rintro ⟨h3, rfl⟩
        rw [← hb]
        have := WrapEvpn.t1 rd et esi tag ls _ _ (evpn_labels_back.2 ⟨h3, rfl⟩)
        convert this using 1
        simp only [List.length_append, be_length, rdBody_length, esiBody_length]
    | evpn2 r =>
      obtain ⟨rd, et, esi, tag, mac, ip, ⟨ls⟩⟩ := r
      simp only [evpnSentBody, evpnBody, Option.some.injEq] at hb
      rw [show ∀ u v : Bytes, u ++ (48 : U8) :: v = u ++ [48] ++ v from fun u v => by simp] at hb
      constructor
      · intro h
        cases h with
        | t2 _ _ _ _ _ _ _ lab k h =>
          have := List.append_cancel_left hb
          subst this
          obtain ⟨h3, h4⟩ := evpn_labels_back.1 h
          refine ⟨h3, ?_⟩
          simp only [List.length_append, be_length, rdBody_length, esiBody_length, macBody_length, List.length_cons, List.length_nil]
          omega
        | other _ _ _ h => rcases h with h | h | h <;> cases h
      · rintro ⟨h3, rfl⟩
        rw [← hb]
        have := WrapEvpn.t2 rd et esi tag mac ip ls _ _ (evpn_labels_back.2 ⟨h3, rfl⟩)
        cases ip <;>
          (convert this using 1
           simp only [List.length_append, be_length, rdBody_length, esiBody_length, macBody_length, List.length_cons,
             List.length_nil])
    | evpn3 r =>
      rw [show EvpnBack (.evpn3 r) = True from rfl]
      have := evpnRead_exact (k := k) (.inl rfl) hb hl
      constructor
      · intro h
        cases h with
        | other _ _ _ _ h => exact ⟨trivial, (this.1 h).2⟩
      · rintro ⟨-, h⟩
        exact .other _ _ _ (.inl rfl) (this.2 ⟨⟨trivial, id⟩, h⟩)
    | evpn4 r =>
      have := evpnRead_exact (k := k) (.inr (.inl rfl)) hb hl
      constructor
      · intro h
        cases h with
        | other _ _ _ _ h => exact ⟨trivial, (this.1 h).2⟩
      · rintro ⟨-, h⟩
        exact .other _ _ _ (.inr (.inl rfl)) (this.2 ⟨⟨trivial, id⟩, h⟩)
    | evpn5 r =>
      have := evpnRead_exact (k := k) (.inr (.inr rfl)) hb hl
      constructor
      · intro h
        cases h with
        | other _ _ _ _ h => exact this.1 h
      · intro h
        exact .other _ _ _ (.inr (.inr rfl)) (this.2 h)
  rw [h1]
  constructor
  · rintro ⟨k, h3, rfl⟩
    obtain ⟨h4, rfl⟩ := (h2 k).1 h3
    exact ⟨h4, rfl⟩
  · rintro ⟨h3, rfl⟩
    exact ⟨_, (h2 _).2 ⟨h3, rfl⟩, rfl⟩

/-- the octets of a route, if it is sent -/
def evpnForm (x : BgpEVPN) : Option Bytes :=
  match evpnSentBody x with
  | some b => if b.length ≤ 255 then some (evpnType x :: BitVec.ofNat 8 b.length :: b) else none
  | none => none

theorem evpnForm_some {x : BgpEVPN} {w : Bytes} (h : evpnForm x = some w) :
    ∃ b, evpnSentBody x = some b ∧ b.length ≤ 255 ∧ w = evpnType x :: BitVec.ofNat 8 b.length :: b := by
  unfold evpnForm at h
  cases hb : evpnSentBody x with
  | none => rw [hb] at h; cases h
  | some b =>
    rw [hb] at h
    by_cases hl : b.length ≤ 255
    · simp only [if_pos hl, Option.some.injEq] at h
      exact ⟨b, rfl, hl, h.symm⟩
    · simp only [if_neg hl] at h
      cases h

theorem evpnBack_sent {x : BgpEVPN} (h : EvpnBack x) : ∃ w, evpnForm x = some w := by
  have key : ∀ b, evpnSentBody x = some b → b.length ≤ 255 → ∃ w, evpnForm x = some w := by
    intro b hb hl
    unfold evpnForm
    rw [hb]
    simp only [if_pos hl]
    exact ⟨_, rfl⟩
  have hlab : ∀ ls : List U32, EvpnLabelsBack ls → (labelsBody ls).length ≤ 93 := by
    intro ls hs
    rw [labelsBody_len]
    rcases hs with rfl | ⟨-, hs⟩
    · simp
    · omega
  cases x with
  | evpn1 r =>
    refine key _ rfl ?_
    have := hlab _ h
    simp only [evpnBody, List.length_append, be_length, rdBody_length, esiBody_length]
    omega
  | evpn2 r =>
    refine key _ rfl ?_
    have := hlab _ h
    simp only [evpnBody, List.length_append, be_length, rdBody_length, esiBody_length, macBody_length, List.length_cons]
    cases r.ip with
    | none => simp only [List.length_cons, List.length_nil]; omega
    | some a =>
      have := lenIpBody_le a
      simp only
      omega
  | evpn3 r =>
    refine key _ rfl ?_
    have := lenIpBody_le r.ip
    simp only [evpnBody, List.length_append, be_length, rdBody_length]
    omega
  | evpn4 r =>
    refine key _ rfl ?_
    have := lenIpBody_le r.ip
    simp only [evpnBody, List.length_append, rdBody_length, esiBody_length]
    omega
  | evpn5 r =>
    obtain ⟨q, g, h1, h2⟩ := evpn5_v4 h
    have h3 : r.labels.labels.length = 1 := h.1.2.1
    refine key (evpnBody (.evpn5 r)) (by simp only [evpnSentBody, h1, h2]) ?_
    simp only [evpnBody, List.length_append, be_length, rdBody_length, esiBody_length, List.length_cons, labelsBody_len, h3]
    have := ipBody_le r.pfx
    have := ipBody_le r.gwIp
    omega

theorem evpn_back (v : List BgpEVPN) :
    (∃ w, Fate.all evpnFate v = .octets w ∧ ((∃ n, ItemsRead 0 WrapEvpnItem w v n) ↔ ∀ x ∈ v, EvpnBack x)) ∨
      (Fate.all evpnFate v = .refused ∧ ¬ ∀ x ∈ v, EvpnBack x) := by
  have key := items_key (lim := 0) (R := WrapEvpnItem) (B := EvpnBack) (form := evpnForm) (fate := evpnFate) (bad := .refused)
    (.inr rfl) (fun x => by
      unfold evpnFate evpnForm
      cases evpnSentBody x with
      | none => rfl
      | some b =>
        by_cases hl : b.length ≤ 255
        · simp only [if_pos hl]
        · simp only [if_neg hl]) (fun x => evpnBack_sent) (fun x w hw => by
      obtain ⟨b, -, -, rfl⟩ := evpnForm_some hw
      simp) (fun x w rest n hw => by
      obtain ⟨b, h1, h2, rfl⟩ := evpnForm_some hw
      exact evpn_item_back h1 h2) v
  rcases key with ⟨w, h1, h2⟩ | h
  · refine .inl ⟨w, h1, ?_, ?_⟩
    · rintro ⟨n, h⟩
      exact ((h2 n).1 h).1
    · intro h
      exact ⟨_, (h2 _).2 ⟨h, rfl⟩⟩
  · exact .inr h

/-! ## FlowSpec and MVPN -/

theorem fsItem_congr {T : Type} (A B : FsPrefixReads T) (h : ∀ b x n, A.Read b x n ↔ B.Read b x n) (b : Bytes)
    (x : BgpFlowSpec T) (n : Nat) : @FsItemRead T A b x n ↔ @FsItemRead T B b x n := by
  have one : ∀ (A B : FsPrefixReads T), (∀ b x n, A.Read b x n → B.Read b x n) → ∀ code b x n,
      @FsComponentRead T A code b x n → @FsComponentRead T B code b x n := by
    intro A B h code b x n hc
    cases hc
    case prefixDst n hr => exact @FsComponentRead.prefixDst T B _ _ _ (h _ _ _ hr)
    case prefixSrc n hr => exact @FsComponentRead.prefixSrc T B _ _ _ (h _ _ _ hr)
    case proto v hr => exact @FsComponentRead.proto T B _ _ hr
    case portAny v hr => exact @FsComponentRead.portAny T B _ _ hr
    case portDst v hr => exact @FsComponentRead.portDst T B _ _ hr
    case portSrc v hr => exact @FsComponentRead.portSrc T B _ _ hr
    case icmpType v hr => exact @FsComponentRead.icmpType T B _ _ hr
    case icmpCode v hr => exact @FsComponentRead.icmpCode T B _ _ hr
    case tcpFlags v hr => exact @FsComponentRead.tcpFlags T B _ _ hr
    case packetLength v hr => exact @FsComponentRead.packetLength T B _ _ hr
    case dscp v hr => exact @FsComponentRead.dscp T B _ _ hr
    case fragment v hr => exact @FsComponentRead.fragment T B _ _ hr
    case flowLabel v hr => exact @FsComponentRead.flowLabel T B _ _ hr
  constructor
  · rintro ⟨pre, l, code, body, t, k, h1, h2, h3, h4, h5⟩
    exact ⟨pre, l, code, body, t, k, h1, h2, h3, one A B (fun b x n => (h b x n).1) _ _ _ _ h4, h5⟩
  · rintro ⟨pre, l, code, body, t, k, h1, h2, h3, h4, h5⟩
    exact ⟨pre, l, code, body, t, k, h1, h2, h3, one B A (fun b x n => (h b x n).2) _ _ _ _ h4, h5⟩

theorem fsV4_same : (@FsItemRead BgpAddrV4 wrapFsV4) = FsItemRead := by
  funext b x n
  refine propext (fsItem_congr wrapFsV4 _ (fun b x n => ?_) b x n)
  exact Iff.rfl

theorem fsV6_same : (@FsItemRead FS6 wrapFsV6) = FsItemRead := by
  funext b x n
  refine propext (fsItem_congr wrapFsV6 _ (fun b x n => ?_) b x n)
  exact Iff.rfl

theorem fsVpn_same : (@FsItemRead FSV4U wrapFsVpn) = FsItemRead := by
  funext b x n
  refine propext (fsItem_congr wrapFsVpn _ (fun b x n => ?_) b x n)
  constructor
  · rintro ⟨bits, t, m, rfl, ⟨t', m', h1, h2, h3⟩, rfl⟩
    have hb := bits.isLt
    have h4 : wrapSub bits.toNat 64 ≤ 32 := h2.1
    have h5 : 64 ≤ bits.toNat := by unfold wrapSub at h4; omega
    have h6 : wrapSub bits.toNat 64 = bits.toNat - 64 := by unfold wrapSub; omega
    rw [h6] at h2
    exact ⟨bits, t, m, rfl, ⟨t', m', h5, h1, h2, h3⟩, rfl⟩
  · rintro ⟨bits, t, m, rfl, ⟨t', m', h5, h1, h2, h3⟩, rfl⟩
    have hb := bits.isLt
    have h6 : wrapSub bits.toNat 64 = bits.toNat - 64 := by unfold wrapSub; omega
    rw [← h6] at h2
    exact ⟨bits, t, m, rfl, ⟨t', m', h1, h2, h3⟩, rfl⟩

/-- kinds of prefix components that are sent the same way in both builds, if at all with overflow checks -/
class FsAlike (T : Type) [FsPrefix T] [FsSendable T] [FsUnchecked T] [FsPrefixReads T] : Prop where
  sends : ∀ a : T, FsSendable.sendable a = true →
    FsUnchecked.written a = some (FsPrefix.body a) ∧ FsUnchecked.given a = (FsPrefix.body a).length ∧ (FsPrefix.body a).length ≤ 18
  seen : ∀ (b : Bytes) (a : T) (n : Nat), FsPrefixReads.Read b a n → FsSendable.sendable a = true
  wf : ∀ a : T, FsPrefix.WF a → FsSendable.sendable a = true

instance : FsAlike BgpAddrV4 where
  sends a h := by
    have h : a.prefixlen.toNat ≤ 32 := by simpa [FsSendable.sendable] using h
    have e : uncheckedOctets 4 a.addr.toNat a.prefixlen.toNat = some (prefixBody 4 a.addr.toNat a.prefixlen.toNat) := if_pos (by omega)
    have e2 : (octets a.prefixlen.toNat) ≤ 4 := by unfold octets; omega
    refine ⟨by simp only [FsUnchecked.written, e, FsPrefix.body, Option.map_some], ?_, ?_⟩ <;>
      simp [FsUnchecked.given, FsPrefix.body, prefixBody] <;> omega
  seen b a n h := by
    have : a.prefixlen.toNat ≤ 32 := (nlriRead_normal h).1
    simpa [FsSendable.sendable] using this
  wf a h := by
    have h : a.prefixlen.toNat ≤ 32 := h
    simpa [FsSendable.sendable] using h

instance : FsAlike FS6 where
  sends a h := by
    have h : a.ipv6.prefixlen.toNat ≤ 128 := by simpa [FsSendable.sendable] using h
    have e : uncheckedOctets 16 a.ipv6.addr.toNat a.ipv6.prefixlen.toNat =
      some (prefixBody 16 a.ipv6.addr.toNat a.ipv6.prefixlen.toNat) := if_pos (by omega)
    have e2 : (octets a.ipv6.prefixlen.toNat) ≤ 16 := by unfold octets; omega
    refine ⟨by simp only [FsUnchecked.written, e, FsPrefix.body, Option.map_some], ?_, ?_⟩ <;>
      simp [FsUnchecked.given, FsPrefix.body, prefixBody] <;> omega
  seen b a n h := by
    obtain ⟨bits, t, m, rfl, h, rfl⟩ := h
    have : a.ipv6.prefixlen.toNat ≤ 128 := (Normal.normal bits.isLt h).1
    simpa [FsSendable.sendable] using this
  wf a h := by
    have h : a.ipv6.prefixlen.toNat ≤ 128 := h
    simpa [FsSendable.sendable] using h

instance : FsAlike FSV4U where
  sends a h := by
    have h : a.pfx.pfx.prefixlen.toNat ≤ 32 := by simpa [FsSendable.sendable] using h
    have e : uncheckedOctets 4 a.pfx.pfx.addr.toNat a.pfx.pfx.prefixlen.toNat =
      some (prefixBody 4 a.pfx.pfx.addr.toNat a.pfx.pfx.prefixlen.toNat) := if_pos (by omega)
    have e2 : (octets a.pfx.pfx.prefixlen.toNat) ≤ 4 := by unfold octets; omega
    refine ⟨by simp only [FsUnchecked.written, e, FsPrefix.body, Option.map_some], ?_, ?_⟩ <;>
      simp [FsUnchecked.given, FsPrefix.body, prefixBody] <;> omega
  seen b a n h := by
    have : a.pfx.pfx.prefixlen.toNat ≤ 32 := (nlriRead_normal h).1.1
    simpa [FsSendable.sendable] using this
  wf a h := h.elim

section fs
variable {T : Type} [FsPrefix T] [FsSendable T] [FsUnchecked T] [FsPrefixReads T] [FsAlike T]

/-- its prefix, if it has one, can be sent -/
def FsCan : BgpFlowSpec T → Prop
  | .prefixDst a => FsSendable.sendable a = true
  | .prefixSrc a => FsSendable.sendable a = true
  | _ => True

theorem fs_can_sent {x : BgpFlowSpec T} (h : FsCan x) : fsFate .release x = fsFate .checked x := by
  have key : ∀ (c : U8) (a : T), FsSendable.sendable a = true → fsPrefixFate .release c a = fsPrefixFate .checked c a := by
    intro c a h
    obtain ⟨h1, h2, h3⟩ := FsAlike.sends a h
    simp only [fsPrefixFate, h1, h2, h, Spec.fsSent, if_true]
    rw [if_pos (by omega)]
    simp [Fate.octets]
  cases x
  case prefixDst a => exact key _ _ h
  case prefixSrc a => exact key _ _ h
  all_goals rfl

omit [FsUnchecked T] [FsPrefixReads T] [FsAlike T] in
theorem fs_solid [FsUnchecked T] (x : BgpFlowSpec T) : Solid (fsFate .checked x) := by
  have key : ∀ n b, Solid (Spec.fsSent n b) := by
    intro n b
    unfold Spec.fsSent
    split
    · exact solid_octets _
    · exact solid_refused
  have key2 : ∀ (c : U8) (a : T), Solid (fsPrefixFate .checked c a) := by
    intro c a
    unfold fsPrefixFate
    simp only
    split
    · exact key _ _
    · exact solid_crash
  cases x
  case prefixDst a => exact key2 _ _
  case prefixSrc a => exact key2 _ _
  all_goals exact key _ _

theorem all_congr {α : Type} {f g : α → Fate} (v : List α) (h : ∀ x ∈ v, f x = g x) : Fate.all f v = Fate.all g v := by
  induction v with
  | nil => rfl
  | cons x v ih => rw [Fate.all, Fate.all, h x (by simp), ih fun y hy => h y (List.mem_cons_of_mem _ hy)]

theorem fs_can_read {b : Bytes} {v : List (BgpFlowSpec T)} {n : Nat} (h : ItemsRead 0 FsItemRead b v n) : ∀ x ∈ v, FsCan x := by
  induction h with
  | done b h => simp
  | item b x n xs m hlt hx hr ih =>
    intro y hy
    rcases List.mem_cons.1 hy with rfl | hy
    · have := fs_seen hx
      cases y
      case prefixDst a => obtain ⟨b, n, h⟩ := this; exact FsAlike.seen b a n h
      case prefixSrc a => obtain ⟨b, n, h⟩ := this; exact FsAlike.seen b a n h
      all_goals trivial
    · exact ih y hy

theorem fs_can_ok {v : List (BgpFlowSpec T)} (h : FsListOk v) : ∀ x ∈ v, FsCan x := by
  intro x hx
  have := (h.1 x hx).1
  cases x
  case prefixDst a => exact this.elim False.elim fun h => FsAlike.wf a h
  case prefixSrc a => exact this.elim False.elim fun h => FsAlike.wf a h
  all_goals trivial

end fs

/-- collections sent with overflow checks -/
theorem steady {p : BgpSessionParams} {f : Family} {x : BgpAddrs} {w : Bytes} (hw : nlriFate .checked x = .octets w) :
    (∃ n, AddrsRead p f w x n) ↔ (∃ ap, kindOf x = some (f, ap)) ∧ AddrsWF x ∧ addrsReceived x = x ∧ FormExpected p x := by
  obtain ⟨room, he⟩ := ends_nlri .checked x p
  rw [hw, addrsEncFn_checked] at he
  constructor
  · rintro ⟨n, hr⟩
    obtain ⟨v, rest, h1, h2, -⟩ := he (List.replicate room 0) (by simp)
    obtain rfl := fits_some_eq h1
    have ht : (w ++ rest).take w.length = w := List.take_left' rfl
    rw [← ht] at hr
    obtain ⟨h3, h4, h5⟩ := addrs_normal hr (relay_needed h2 hr)
    exact ⟨addrsRead_kind hr, h3, h4, h5⟩
  · rintro ⟨⟨ap, hk⟩, h1, h2, h3⟩
    have hd := addrs_reads x p h1 h3
    rw [addrs_code x hk, h2] at hd
    obtain ⟨v, rest, h4, h5, -⟩ := he (List.replicate (room + (addrsWire x).length) 0) (by simp)
    obtain rfl := fits_some_eq h4
    rw [addrs_writes x p h1 _ (by simp)] at h5
    simp only [Res.ok.injEq, Prod.mk.injEq] at h5
    obtain ⟨e1, e2⟩ := h5
    obtain ⟨rfl, -⟩ := List.append_inj e1 e2
    exact ⟨_, ((addrs_exactly p f _).ok _).1 hd⟩

/-! ## Collections -/

/-- what is to be shown of each collection -/
structure Coll (p : BgpSessionParams) (f : Family) (x : BgpAddrs) : Prop where
  sent : ItemsBack x → ∃ w, nlriFate .release x = .octets w
  back : ∀ pat w, nlriFate .release x = .sent pat → Fits pat w → ((∃ n, WrapAddrs p f w x n) ↔ CollectionBack p f x)
  full : ∀ pat w n, nlriFate .release x = .sent pat → Fits pat w → WrapAddrs p f w x n → pat = w.map some

theorem coll_field {p : BgpSessionParams} {f : Family} {x : BgpAddrs} {ap : Bool} (hk : kindOf x = some (f, ap))
    (ha : hasAddPath f = true)
    (h : (∃ w, nlriFate .release x = .octets w ∧
        ((∃ n, WrapAddrs p f w x n) ↔ ItemsBack x ∧ AddPathExpected p (familyCode f) w = ap)) ∨
      (nlriFate .release x = .crash ∧ ¬ ItemsBack x)) : Coll p f x := by
  rcases h with ⟨w, h1, h2⟩ | ⟨h1, h2⟩
  · refine ⟨fun _ => ⟨w, h1⟩, fun pat v h3 h4 => ?_, fun pat v n h3 h4 _ => ?_⟩
    · rw [h1] at h3
      cases h3
      obtain rfl := fits_some_eq h4
      rw [h2]
      constructor
      · rintro ⟨h5, h6⟩
        refine ⟨ap, hk, h5, fun _ u hu => ?_⟩
        rw [h1] at hu
        rw [← octets_inj hu]
        exact h6
      · rintro ⟨ap', hk', h5, h6⟩
        rw [hk] at hk'
        cases hk'
        exact ⟨h5, h6 ha _ h1⟩
    · rw [h1] at h3
      cases h3
      rw [fits_some_eq h4]
  · refine ⟨fun h => absurd h h2, fun pat v h3 => ?_, fun pat v n h3 => ?_⟩ <;>
      (rw [h1] at h3; cases h3)

theorem coll_other {p : BgpSessionParams} {f : Family} {x : BgpAddrs} (hk : kindOf x = some (f, false))
    (ha : hasAddPath f = false) {bad : Fate} (hbad : ∀ pat, bad ≠ .sent pat)
    (h : (∃ w, nlriFate .release x = .octets w ∧ ((∃ n, WrapAddrs p f w x n) ↔ ItemsBack x)) ∨
      (nlriFate .release x = bad ∧ ¬ ItemsBack x)) : Coll p f x := by
  rcases h with ⟨w, h1, h2⟩ | ⟨h1, h2⟩
  · refine ⟨fun _ => ⟨w, h1⟩, fun pat v h3 h4 => ?_, fun pat v n h3 h4 _ => ?_⟩
    · rw [h1] at h3
      cases h3
      obtain rfl := fits_some_eq h4
      rw [h2]
      constructor
      · intro h5
        refine ⟨false, hk, h5, fun h6 => ?_⟩
        rw [ha] at h6; cases h6
      · rintro ⟨ap', hk', h5, h6⟩
        exact h5
    · rw [h1] at h3
      cases h3
      rw [fits_some_eq h4]
  · refine ⟨fun h => absurd h h2, fun pat v h3 => ?_, fun pat v n h3 => ?_⟩ <;>
      (rw [h1] at h3; exact absurd h3 (hbad _))

/-- collections that are sent and read in the same way in both builds, where they come back in one of them -/
theorem coll_alike {p : BgpSessionParams} {f : Family} {x : BgpAddrs} (hk : kindOf x = some (f, false))
    (ha : hasAddPath f = false) (hr : ∀ b n, WrapAddrs p f b x n ↔ AddrsRead p f b x n)
    (h1 : ∀ b n, AddrsRead p f b x n → nlriFate .release x = nlriFate .checked x)
    (h2 : AddrsWF x → nlriFate .release x = nlriFate .checked x) (hs : Solid (nlriFate .checked x))
    (hi : ItemsBack x ↔ AddrsWF x ∧ addrsReceived x = x) : Coll p f x := by
  have hform : FormExpected p x := by
    intro g ap hk' ha'
    rw [hk] at hk'
    cases hk'
    rw [ha] at ha'; cases ha'
  have hc : CollectionBack p f x ↔ ItemsBack x := by
    constructor
    · rintro ⟨_, _, h, _⟩; exact h
    · intro h
      refine ⟨false, hk, h, fun h => ?_⟩
      rw [ha] at h; cases h
  have hsent : AddrsWF x → ∃ w, nlriFate .checked x = .octets w := by
    intro hw
    obtain ⟨room, he⟩ := ends_nlri .checked x p
    rw [addrsEncFn_checked] at he
    have := addrs_writes x p hw (List.replicate (room + (addrsWire x).length) 0) (by simp)
    cases hf : nlriFate .checked x with
    | sent pat =>
      obtain ⟨w, h⟩ := hs pat hf
      exact ⟨w, by rw [← hf]; exact h⟩
    | refused =>
      rw [hf] at he
      have := he (List.replicate (room + (addrsWire x).length) 0) (by simp)
      simp_all [Res.IsErr]
    | crash =>
      rw [hf] at he
      have := he (List.replicate (room + (addrsWire x).length) 0) (by simp)
      simp_all
  refine ⟨fun h => ?_, fun pat w h3 h4 => ?_, fun pat w n h3 h4 h5 => ?_⟩
  · obtain ⟨w, hw⟩ := hsent (hi.1 h).1
    exact ⟨w, by rw [h2 (hi.1 h).1]; exact hw⟩
  · rw [hc]
    constructor
    · rintro ⟨n, h5⟩
      have h5 := (hr _ _).1 h5
      rw [h1 _ _ h5] at h3
      obtain ⟨u, hu⟩ := hs _ h3
      rw [hu] at h3
      cases h3
      obtain rfl := fits_some_eq h4
      obtain ⟨-, h6, h7, -⟩ := (steady hu).1 ⟨n, h5⟩
      exact hi.2 ⟨h6, h7⟩
    · intro h
      obtain ⟨h6, h7⟩ := hi.1 h
      rw [h2 h6] at h3
      obtain ⟨u, hu⟩ := hs _ h3
      rw [hu] at h3
      cases h3
      obtain rfl := fits_some_eq h4
      obtain ⟨n, h8⟩ := (steady (p := p) (f := f) hu).2 ⟨⟨_, hk⟩, h6, h7, hform⟩
      exact ⟨n, (hr _ _).2 h8⟩
  · have h5 := (hr _ _).1 h5
    rw [h1 _ _ h5] at h3
    obtain ⟨u, hu⟩ := hs _ h3
    rw [hu] at h3
    cases h3
    rw [fits_some_eq h4]

theorem wrapAddrs_kind {p : BgpSessionParams} {f : Family} {b : Bytes} {x : BgpAddrs} {n : Nat} (h : WrapAddrs p f b x n) :
    ∃ ap, kindOf x = some (f, ap) := by
  cases f <;> simp only [WrapAddrs, WrapField] at h <;> (try split at h) <;> obtain ⟨v, rfl, -⟩ := h <;> exact ⟨_, rfl⟩

theorem coll_transfer {p : BgpSessionParams} {f g : Family} {x : BgpAddrs} {ap : Bool} (hk : kindOf x = some (g, ap))
    (h : Coll p g x) : Coll p f x := by
  by_cases e : f = g
  · rw [e]; exact h
  · refine ⟨h.sent, fun pat w h1 h2 => ⟨?_, ?_⟩, fun pat w n h1 h2 h3 => ?_⟩
    · rintro ⟨n, h3⟩
      obtain ⟨ap', h4⟩ := wrapAddrs_kind h3
      rw [hk] at h4
      cases h4
      exact absurd rfl e
    · rintro ⟨ap', h4, -⟩
      rw [hk] at h4
      cases h4
      exact absurd rfl e
    · obtain ⟨ap', h4⟩ := wrapAddrs_kind h3
      rw [hk] at h4
      cases h4
      exact absurd rfl e

macro "plain" v:ident : tactic => `(tactic| exact coll_transfer rfl (coll_field rfl rfl
  (plain_back $v (fun _ _ h => by injection h) (fun _ _ h => by cases h))))

macro "with_id" v:ident : tactic => `(tactic| exact coll_transfer rfl (coll_field rfl rfl
  (withId_back $v (fun _ _ h => by injection h) (fun _ _ h => by cases h))))

theorem coll (p : BgpSessionParams) (f : Family) (x : BgpAddrs) : Coll p f x := by
  cases x with
  | None =>
    refine ⟨False.elim, fun pat w h1 h2 => ⟨?_, ?_⟩, fun pat w n h1 h2 h3 => ?_⟩
    · rintro ⟨n, h3⟩
      obtain ⟨ap', h4⟩ := wrapAddrs_kind h3
      cases h4
    · rintro ⟨ap', h4, -⟩
      cases h4
    · obtain ⟨ap', h4⟩ := wrapAddrs_kind h3
      cases h4
  | IPV4U v => plain v
  | IPV4UP v => with_id v
  | IPV4M v => plain v
  | IPV4MP v => with_id v
  | IPV4LU v => plain v
  | IPV4LUP v => with_id v
  | VPNV4U v => plain v
  | VPNV4UP v => with_id v
  | VPNV4M v => plain v
  | VPNV4MP v => with_id v
  | IPV4MDT v => plain v
  | IPV4MDTP v => with_id v
  | IPV6U v => plain v
  | IPV6UP v => with_id v
  | IPV6M v => plain v
  | IPV6MP v => with_id v
  | IPV6LU v => plain v
  | IPV6LUP v => with_id v
  | VPNV6U v => plain v
  | VPNV6UP v => with_id v
  | VPNV6M v => plain v
  | VPNV6MP v => with_id v
  | IPV6MDT v => plain v
  | IPV6MDTP v => with_id v
  | L2VPLS v =>
    refine coll_transfer rfl (coll_other (bad := .crash) rfl rfl (fun _ h => by cases h) (.inl ?_))
    obtain ⟨w, h1, h2⟩ := vpls_back v
    refine ⟨w, h1, Iff.trans ?_ h2⟩
    constructor
    · rintro ⟨n, u, h3, h4⟩
      cases h3
      exact ⟨n, h4⟩
    · rintro ⟨n, h⟩
      exact ⟨n, v, rfl, h⟩
  | EVPN v =>
    refine coll_transfer rfl (coll_other (bad := .refused) rfl rfl (fun _ h => by cases h) ?_)
    rcases evpn_back v with ⟨w, h1, h2⟩ | h
    · refine .inl ⟨w, h1, Iff.trans ?_ h2⟩
      constructor
      · rintro ⟨n, u, h3, h4⟩
        cases h3
        exact ⟨n, h4⟩
      · rintro ⟨n, h⟩
        exact ⟨n, v, rfl, h⟩
    · exact .inr h
  | MVPN v =>
    refine coll_transfer rfl (coll_alike rfl rfl (fun b n => ?_) (fun _ _ _ => rfl) (fun _ => rfl)
      (solid_all v fun x _ => solid_octets _) ?_)
    · constructor
      · rintro ⟨u, h3, h4⟩
        cases h3
        exact .ipv4Mvpn _ _ _ h4
      · intro h
        cases h with
        | ipv4Mvpn _ _ _ h => exact ⟨v, rfl, h⟩
    · exact ⟨fun h => ⟨h, rfl⟩, fun h => h.1⟩
  | FS4U v =>
    refine coll_transfer rfl (coll_alike rfl rfl (fun b n => ?_) (fun b n h => ?_) (fun h => ?_)
      (solid_all v fun x _ => fs_solid x) Iff.rfl)
    · simp only [WrapAddrs, fsV4_same]
      constructor
      · rintro ⟨u, h3, h4⟩
        cases h3
        exact .ipv4FlowSpec _ _ _ h4
      · intro h
        cases h with
        | ipv4FlowSpec _ _ _ h => exact ⟨v, rfl, h⟩
    · cases h with
      | ipv4FlowSpec _ _ _ h => exact all_congr v fun x hx => fs_can_sent (fs_can_read h x hx)
    · exact all_congr v fun x hx => fs_can_sent (fs_can_ok h x hx)
  | FS6U v =>
    refine coll_transfer rfl (coll_alike rfl rfl (fun b n => ?_) (fun b n h => ?_) (fun h => ?_)
      (solid_all v fun x _ => fs_solid x) Iff.rfl)
    · simp only [WrapAddrs, fsV6_same]
      constructor
      · rintro ⟨u, h3, h4⟩
        cases h3
        exact .ipv6FlowSpec _ _ _ h4
      · intro h
        cases h with
        | ipv6FlowSpec _ _ _ h => exact ⟨v, rfl, h⟩
    · cases h with
      | ipv6FlowSpec _ _ _ h => exact all_congr v fun x hx => fs_can_sent (fs_can_read h x hx)
    · exact all_congr v fun x hx => fs_can_sent (fs_can_ok h x hx)
  | FSV4U v =>
    refine coll_transfer rfl (coll_alike rfl rfl (fun b n => ?_) (fun b n h => ?_) (fun h => ?_)
      (solid_all v fun x _ => fs_solid x) ⟨fun h => ⟨h, rfl⟩, fun h => h.1⟩)
    · simp only [WrapAddrs, fsVpn_same]
      constructor
      · rintro ⟨u, h3, h4⟩
        cases h3
        exact .ipv4VpnFlowSpec _ _ _ h4
      · intro h
        cases h with
        | ipv4VpnFlowSpec _ _ _ h => exact ⟨v, rfl, h⟩
    · cases h with
      | ipv4VpnFlowSpec _ _ _ h => exact all_congr v fun x hx => fs_can_sent (fs_can_read h x hx)
    · exact all_congr v fun x hx => fs_can_sent (fs_can_ok h x hx)

theorem collections_return (p : BgpSessionParams) (f : Family) (x : BgpAddrs) : ∃ room, ∀ buf : Bytes, room ≤ buf.length →
    (Returns (x.encodeToIn .release p) (BgpAddrs.decodeFromIn .release p (familyCode f).1 (familyCode f).2) x buf ↔
      CollectionBack p f x) := by
  refine returns_of (ends_nlri .release x p) (fun pat w h1 h2 => ?_) (fun h hc => ?_)
  · rw [← (coll p f x).back pat w h1 h2]
    exact exists_congr fun n => (w_addrs_exactly p f w).ok (x, n)
  · obtain ⟨_, _, hb, _⟩ := hc
    obtain ⟨w, hw⟩ := (coll p f x).sent hb
    exact h _ hw

end Zbgp
