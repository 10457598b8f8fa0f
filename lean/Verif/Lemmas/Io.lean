import Verif.Spec.Io
import Verif.Props.Dialogue

/-!
# `read_exact` and `write_all`
-/

namespace Zbgp

open Spec BgpSessionParams

/-- What is known of the result of reading `want` octets behind `acc`. -/
def ReadTo (ev : List IoEvent) (oct : Bytes) (want : Nat) (acc : Bytes) (x : Res Bytes × Incoming) : Prop :=
  ∃ used, oct = used ++ x.2.octets ∧ x.2.events <:+ ev ∧
    (x.1 = .ok (acc ++ used) ∧ used.length = want ∨
      x.1 = .err .other ∧ used.length < want ∧ (AllSteady ev → x.2.octets = []))

theorem steady_tail {e : IoEvent} {ev : List IoEvent} (h : AllSteady (e :: ev)) : AllSteady ev :=
  fun x hx => h x (List.mem_cons_of_mem _ hx)

theorem steady_suffix {ev ev' : List IoEvent} (h : AllSteady ev) (hs : ev' <:+ ev) : AllSteady ev' :=
  fun x hx => h x (hs.subset hx)

theorem readLoop_spec : ∀ (fuel : Nat) (r : Incoming) (want : Nat) (acc : Bytes), want + r.events.length + 1 ≤ fuel →
    ReadTo r.events r.octets want acc (r.readLoop fuel want acc) := by
  intro fuel
  induction fuel with
  | zero => intro r want acc h; omega
  | succ fuel ih =>
    intro r want acc h
    rw [Incoming.readLoop]
    by_cases h0 : want = 0
    · rw [if_pos h0]
      exact ⟨[], by simp, List.suffix_refl _, .inl ⟨by simp, by simp [h0]⟩⟩
    rw [if_neg h0]
    obtain ⟨ev, oct⟩ := r
    -- one call that hands out octets
    have step : ∀ (ev' : List IoEvent) (k : Nat), 0 < k → k ≤ want → ev' <:+ ev → want + ev'.length ≤ fuel →
        ReadTo ev oct want acc (if (oct.take k).length = 0 then (Res.err BgpError.other, (⟨ev', oct.drop k⟩ : Incoming))
          else Incoming.readLoop fuel ⟨ev', oct.drop k⟩ (want - (oct.take k).length) (acc ++ oct.take k)) := by
      intro ev' k hk hkw hs hf
      by_cases hz : (oct.take k).length = 0
      · rw [if_pos hz]
        have : oct = [] := by
          rw [List.length_take] at hz
          exact List.length_eq_zero_iff.1 (by omega)
        subst this
        exact ⟨[], by simp, hs, .inr ⟨rfl, by simp; omega, fun _ => by simp⟩⟩
      · rw [if_neg hz]
        have hl : (oct.take k).length ≤ k := by rw [List.length_take]; omega
        obtain ⟨used, h1, h2, h3⟩ := ih ⟨ev', oct.drop k⟩ (want - (oct.take k).length) (acc ++ oct.take k)
          (by simp only; omega)
        refine ⟨oct.take k ++ used, ?_, h2.trans hs, ?_⟩
        · rw [List.append_assoc, ← h1, List.take_append_drop]
        · rcases h3 with ⟨h3, h4⟩ | ⟨h3, h4, h5⟩
          · exact .inl ⟨by rw [h3, List.append_assoc], by rw [List.length_append]; omega⟩
          · exact .inr ⟨h3, by rw [List.length_append]; omega, fun ha => h5 (steady_suffix ha hs)⟩
    simp only at h
    cases ev with
    | nil => exact step [] want (by omega) (Nat.le_refl _) (List.suffix_refl _) (by simp only [List.length_nil] at *; omega)
    | cons e ev =>
      simp only [List.length_cons] at h
      cases e with
      | some n => exact step ev (min (n + 1) want) (by omega) (by omega) (List.suffix_cons _ _) (by omega)
      | interrupted =>
        obtain ⟨used, h1, h2, h3⟩ := ih ⟨ev, oct⟩ want acc (by simp only; omega)
        refine ⟨used, h1, h2.trans (List.suffix_cons _ _), ?_⟩
        rcases h3 with h3 | ⟨h3, h4, h5⟩
        · exact .inl h3
        · exact .inr ⟨h3, h4, fun ha => h5 (steady_tail ha)⟩
      | nothing =>
        exact ⟨[], by simp [Incoming.read], List.suffix_cons _ _, .inr ⟨rfl, by simp; omega, fun ha => (ha .nothing (by simp)).elim⟩⟩
      | failed =>
        exact ⟨[], by simp [Incoming.read], List.suffix_cons _ _, .inr ⟨rfl, by simp; omega, fun ha => (ha .failed (by simp)).elim⟩⟩

theorem readExact_spec (r : Incoming) (want : Nat) : ReadTo r.events r.octets want [] (r.readExact want) :=
  readLoop_spec _ r want [] (Nat.le_refl _)

/-- On any connection: all the octets that were asked for, or an error. -/
theorem readExact_any (r : Incoming) (want : Nat) :
    (∃ ev, ev <:+ r.events ∧ want ≤ r.octets.length ∧ r.readExact want = (.ok (r.octets.take want), ⟨ev, r.octets.drop want⟩)) ∨
      (∃ r', r.readExact want = (.err .other, r') ∧ (AllSteady r.events → r.octets.length < want)) := by
  obtain ⟨used, h1, h2, h3⟩ := readExact_spec r want
  rcases h3 with ⟨h3, h4⟩ | ⟨h3, h4, h5⟩
  · refine .inl ⟨_, h2, ?_, ?_⟩
    · rw [h1, List.length_append]; omega
    · refine Prod.ext ?_ ?_
      · rw [h3, h1, List.take_left' h4]; rfl
      · have : r.octets.drop want = (r.readExact want).2.octets := by
          conv => lhs; rw [h1]
          rw [List.drop_left' h4]
        rw [this]
  · refine .inr ⟨_, Prod.ext h3 rfl, fun ha => ?_⟩
    rw [h1, h5 ha, List.append_nil]
    exact h4

/-- On a steady connection. -/
theorem readExact_steady (r : Incoming) (h : AllSteady r.events) (want : Nat) :
    (r.octets.length < want ∧ ∃ r', r.readExact want = (.err .other, r')) ∨
      (want ≤ r.octets.length ∧ ∃ ev, AllSteady ev ∧ r.readExact want = (.ok (r.octets.take want), ⟨ev, r.octets.drop want⟩)) := by
  rcases readExact_any r want with ⟨ev, h1, h2, h3⟩ | ⟨r', h1, h2⟩
  · exact .inr ⟨h2, ev, steady_suffix h h1, h3⟩
  · exact .inl ⟨h2 h, r', h1⟩

/-- What is known of the result of writing `b`. -/
theorem writeLoop_spec : ∀ (fuel : Nat) (w : Outgoing) (b : Bytes), b.length + w.events.length + 1 ≤ fuel →
    ∃ k ≤ b.length, (w.writeLoop fuel b).2.sent = w.sent ++ b.take k ∧ (w.writeLoop fuel b).2.events <:+ w.events ∧
      ((w.writeLoop fuel b).1 = .ok () ∧ k = b.length ∨
        (w.writeLoop fuel b).1 = .err .other ∧ k < b.length ∧ ¬ AllSteady w.events) := by
  intro fuel
  induction fuel with
  | zero => intro w b h; omega
  | succ fuel ih =>
    intro w b h
    rw [Outgoing.writeLoop]
    cases hb : b with
    | nil => exact ⟨0, by simp, by simp, List.suffix_refl _, .inl ⟨rfl, rfl⟩⟩
    | cons x t =>
    rw [← hb]
    have hpos : 0 < b.length := by rw [hb]; simp
    rw [if_neg (by rw [hb]; simp)]
    obtain ⟨ev, sent⟩ := w
    simp only at h
    have step : ∀ (ev' : List IoEvent) (n : Nat), 0 < n → ev' <:+ ev → b.length + ev'.length ≤ fuel →
        ∃ k ≤ b.length,
          (if (b.take n).length = 0 then (Res.err BgpError.other, (⟨ev', sent ++ b.take n⟩ : Outgoing))
            else Outgoing.writeLoop fuel ⟨ev', sent ++ b.take n⟩ (b.drop (b.take n).length)).2.sent = sent ++ b.take k ∧
          (if (b.take n).length = 0 then (Res.err BgpError.other, (⟨ev', sent ++ b.take n⟩ : Outgoing))
            else Outgoing.writeLoop fuel ⟨ev', sent ++ b.take n⟩ (b.drop (b.take n).length)).2.events <:+ ev ∧
          ((if (b.take n).length = 0 then (Res.err BgpError.other, (⟨ev', sent ++ b.take n⟩ : Outgoing))
            else Outgoing.writeLoop fuel ⟨ev', sent ++ b.take n⟩ (b.drop (b.take n).length)).1 = .ok () ∧ k = b.length ∨
           (if (b.take n).length = 0 then (Res.err BgpError.other, (⟨ev', sent ++ b.take n⟩ : Outgoing))
            else Outgoing.writeLoop fuel ⟨ev', sent ++ b.take n⟩ (b.drop (b.take n).length)).1 = .err .other ∧ k < b.length ∧
              ¬ AllSteady ev) := by
      intro ev' n hn hs hf
      have hl : (b.take n).length = min n b.length := List.length_take
      have hz : ¬ (b.take n).length = 0 := by omega
      simp only [if_neg hz]
      obtain ⟨k, h1, h2, h3, h4⟩ := ih ⟨ev', sent ++ b.take n⟩ (b.drop (b.take n).length) (by
        simp only [List.length_drop]; omega)
      rw [List.length_drop] at h1 h4
      have e : b.take n = b.take (b.take n).length := by
        rw [hl]
        rcases Nat.le_total n b.length with h | h
        · rw [Nat.min_eq_left h]
        · rw [Nat.min_eq_right h, List.take_of_length_le h, List.take_length]
      refine ⟨(b.take n).length + k, by omega, ?_, h3.trans hs, ?_⟩
      · rw [h2, List.append_assoc, List.take_add, ← e]
      · rcases h4 with ⟨h4, h5⟩ | ⟨h4, h5, h6⟩
        · exact .inl ⟨h4, by omega⟩
        · exact .inr ⟨h4, by omega, fun ha => h6 (steady_suffix ha hs)⟩
    cases ev with
    | nil =>
      have := step [] b.length hpos (List.suffix_refl _) (by simp only [List.length_nil] at *; omega)
      rw [List.take_length] at this
      exact this
    | cons e ev =>
      simp only [List.length_cons] at h
      cases e with
      | some n => exact step ev (n + 1) (by omega) (List.suffix_cons _ _) (by omega)
      | interrupted =>
        obtain ⟨k, h1, h2, h3, h4⟩ := ih ⟨ev, sent⟩ b (by simp only; omega)
        refine ⟨k, h1, h2, h3.trans (List.suffix_cons _ _), ?_⟩
        rcases h4 with h4 | ⟨h4, h5, h6⟩
        · exact .inl h4
        · exact .inr ⟨h4, h5, fun ha => h6 (steady_tail ha)⟩
      | nothing =>
        exact ⟨0, by simp, by simp [Outgoing.write], List.suffix_cons _ _, .inr ⟨rfl, hpos, fun ha => (ha .nothing (by simp)).elim⟩⟩
      | failed =>
        exact ⟨0, by simp, by simp [Outgoing.write], List.suffix_cons _ _, .inr ⟨rfl, hpos, fun ha => (ha .failed (by simp)).elim⟩⟩

theorem writeAll_spec (w : Outgoing) (b : Bytes) :
    ∃ k ≤ b.length, (w.writeAll b).2.sent = w.sent ++ b.take k ∧ (w.writeAll b).2.events <:+ w.events ∧
      ((w.writeAll b).1 = .ok () ∧ k = b.length ∨ (w.writeAll b).1 = .err .other ∧ k < b.length ∧ ¬ AllSteady w.events) :=
  writeLoop_spec _ w b (Nat.le_refl _)

theorem admits_nil (n : Nat) : Admits [] n := fun k h => by simp [room] at h

theorem admits_some (n : Nat) (ev : List IoEvent) (m : Nat) : Admits (.some n :: ev) m ↔ Admits ev (m - (n + 1)) := by
  unfold Admits
  simp only [room]
  cases room ev with
  | none => simp
  | some r => simp [Nat.sub_le_iff_le_add]

theorem admits_zero (ev : List IoEvent) : Admits ev 0 := fun _ _ => Nat.zero_le _

theorem admits_bad {e : IoEvent} {ev : List IoEvent} (he : ¬ Steady e) (m : Nat) : Admits (e :: ev) m ↔ m = 0 := by
  unfold Admits
  cases e <;> simp_all [room, Steady]

theorem readLoop_ok_iff : ∀ (fuel : Nat) (r : Incoming) (want : Nat) (acc : Bytes), want + r.events.length + 1 ≤ fuel →
    ((∃ x, (r.readLoop fuel want acc).1 = .ok x) ↔ want ≤ r.octets.length ∧ Admits r.events want) := by
  intro fuel
  induction fuel with
  | zero => intro r want acc h; omega
  | succ fuel ih =>
    intro r want acc h
    rw [Incoming.readLoop]
    by_cases h0 : want = 0
    · rw [if_pos h0]
      subst h0
      exact ⟨fun _ => ⟨Nat.zero_le _, admits_zero _⟩, fun _ => ⟨_, rfl⟩⟩
    rw [if_neg h0]
    obtain ⟨ev, oct⟩ := r
    have step : ∀ (ev' : List IoEvent) (k : Nat), 0 < k → k ≤ want → want + ev'.length ≤ fuel →
        ((∃ x, (if (oct.take k).length = 0 then (Res.err BgpError.other, (⟨ev', oct.drop k⟩ : Incoming))
          else Incoming.readLoop fuel ⟨ev', oct.drop k⟩ (want - (oct.take k).length) (acc ++ oct.take k)).1 = .ok x) ↔
          want ≤ oct.length ∧ Admits ev' (want - k)) := by
      intro ev' k hk hkw hf
      have hl : (oct.take k).length = min k oct.length := List.length_take
      by_cases hz : (oct.take k).length = 0
      · rw [if_pos hz]
        constructor
        · rintro ⟨x, hx⟩; simp at hx
        · rintro ⟨h1, -⟩; omega
      · rw [if_neg hz, ih _ _ _ (by simp only; omega)]
        simp only [List.length_drop]
        by_cases hc : k ≤ oct.length
        · rw [hl, Nat.min_eq_left hc]
          exact ⟨fun h => ⟨by omega, h.2⟩, fun h => ⟨by omega, h.2⟩⟩
        · constructor
          · rintro ⟨h1, -⟩; omega
          · rintro ⟨h1, -⟩; omega
    simp only at h
    cases ev with
    | nil =>
      have := step [] want (by omega) (Nat.le_refl _) (by simp only [List.length_nil] at *; omega)
      exact this.trans ⟨fun h => ⟨h.1, admits_nil _⟩, fun h => ⟨h.1, admits_nil _⟩⟩
    | cons e ev =>
      simp only [List.length_cons] at h
      cases e with
      | some n =>
        have := step ev (min (n + 1) want) (by omega) (by omega) (by omega)
        refine this.trans ?_
        simp only [admits_some]
        have e : want - min (n + 1) want = want - (n + 1) := by omega
        rw [e]
      | interrupted => exact ih ⟨ev, oct⟩ want acc (by simp only; omega)
      | nothing =>
        constructor
        · rintro ⟨x, hx⟩; simp [Incoming.read] at hx
        · rintro ⟨-, h2⟩; exact absurd ((admits_bad (by simp [Steady]) _).1 h2) h0
      | failed =>
        constructor
        · rintro ⟨x, hx⟩; simp [Incoming.read] at hx
        · rintro ⟨-, h2⟩; exact absurd ((admits_bad (by simp [Steady]) _).1 h2) h0

theorem writeLoop_sent : ∀ (fuel : Nat) (w : Outgoing) (b : Bytes), b.length + w.events.length + 1 ≤ fuel →
    (w.writeLoop fuel b).2.sent = w.sent ++ b.take ((room w.events).getD b.length) ∧
      ((w.writeLoop fuel b).1 = .ok () ↔ Admits w.events b.length) := by
  intro fuel
  induction fuel with
  | zero => intro w b h; omega
  | succ fuel ih =>
    intro w b h
    rw [Outgoing.writeLoop]
    cases hb : b with
    | nil => exact ⟨by simp, ⟨fun _ => admits_zero _, fun _ => rfl⟩⟩
    | cons x t =>
    rw [← hb]
    have hpos : 0 < b.length := by rw [hb]; simp
    rw [if_neg (by rw [hb]; simp)]
    obtain ⟨ev, sent⟩ := w
    simp only at h
    cases ev with
    | nil =>
      simp only [Outgoing.write]
      rw [if_neg (by omega)]
      obtain ⟨h1, h2⟩ := ih ⟨[], sent ++ b⟩ (b.drop b.length) (by simp only [List.length_drop, List.length_nil] at *; omega)
      refine ⟨by rw [h1]; simp [room], h2.trans ⟨fun _ => admits_nil _, fun _ => admits_nil _⟩⟩
    | cons e ev =>
      simp only [List.length_cons] at h
      cases e with
      | some n =>
        simp only [Outgoing.write]
        have hl : (b.take (n + 1)).length = min (n + 1) b.length := List.length_take
        rw [if_neg (by omega)]
        obtain ⟨h1, h2⟩ := ih ⟨ev, sent ++ b.take (n + 1)⟩ (b.drop (b.take (n + 1)).length) (by
          simp only [List.length_drop]; omega)
        refine ⟨?_, h2.trans ?_⟩
        · rw [h1, List.append_assoc]
          congr 1
          simp only [room]
          by_cases hc : n + 1 ≤ b.length
          · rw [hl, Nat.min_eq_left hc]
            cases hr : room ev with
            | none =>
              simp only [Option.map_none, Option.getD_none, List.take_length]
              rw [List.take_append_drop]
            | some r =>
              simp only [Option.map_some, Option.getD_some]
              rw [Nat.add_comm r, List.take_add (l := b) (i := n + 1) (j := r)]
          · rw [List.take_of_length_le (l := b) (i := n + 1) (by omega)]
            simp only [List.drop_length, List.take_nil, List.append_nil]
            cases hr : room ev with
            | none => simp
            | some r =>
              simp only [Option.map_some, Option.getD_some]
              rw [List.take_of_length_le (by omega)]
        · simp only [admits_some, List.length_drop, hl]
          have e : b.length - min (n + 1) b.length = b.length - (n + 1) := by omega
          rw [e]
      | interrupted => exact ih ⟨ev, sent⟩ b (by simp only; omega)
      | nothing =>
        refine ⟨by simp [Outgoing.write, room], ?_⟩
        rw [admits_bad (by simp [Steady])]
        simp only [Outgoing.write, List.length_nil, if_pos]
        constructor
        · intro h; cases h
        · intro h; omega
      | failed =>
        refine ⟨by simp [Outgoing.write, room], ?_⟩
        rw [admits_bad (by simp [Steady])]
        simp only [Outgoing.write]
        constructor
        · intro h; cases h
        · intro h; omega

end Zbgp
