import Verif.Lemmas.UpdateTotal
import Verif.Lemmas.ValueReads
import Verif.Spec.UpdateReads

/-! # UPDATE messages are read exactly as `UpdateRead` and `UpdateCrash` say -/

namespace Zbgp

open Spec

attribute [-simp] List.length_flatMap List.length_flatten

theorem nlriDec_iff (p : BgpSessionParams) (b : Bytes) (x : BgpAddrs) : NlriDec p b x ↔ NlriIs p b x :=
  exists_congr fun n => (addrs_exactly p (sessionFamily p) b).ok (x, n)

theorem update_read_iff (self : BgpUpdateMessage) (p : BgpSessionParams) (buf : Bytes) (m : BgpUpdateMessage) :
    self.decodeFrom p buf = .ok m ↔ ∃ l, UpdateRead p buf m.withdraws l m.updates ∧ m.attrs = self.attrs ++ l := by
  constructor
  · intro h
    obtain ⟨w, raws, u, l, e, hw, ha, hr, h1, h2, h3, h4⟩ := update_decode_inv h
    exact ⟨l, ⟨w, _, u, e, hw, ha, (nlriDec_iff p w _).1 h1, (attrs_read_iff p _ l).1 ⟨raws, rfl, hr, h2⟩,
      (nlriDec_iff p u _).1 h3⟩, h4⟩
  · rintro ⟨l, ⟨w, a, u, rfl, hw, ha, h1, h2, h3⟩, h4⟩
    obtain ⟨raws, rfl, hr, h2⟩ := (attrs_read_iff p a l).2 h2
    rw [update_decode self p w u raws hw ha hr ((nlriDec_iff p w _).2 h1) h2 ((nlriDec_iff p u _).2 h3)]
    obtain ⟨_, _, _⟩ := m
    simp only at h4
    rw [h4]

theorem Spec.Exactly.not_returns {α : Type} {r : Res α} {R : α → Prop} {C : Prop} (h : Exactly r R C) : ¬ r.Returns ↔ C := by
  rw [← h.crash]
  have := h.noHang
  cases hr : r
  · simp [Res.Returns]
  · simp [Res.Returns]
  · simp [Res.Returns]
  · exact absurd hr this

theorem updatePanics_iff (p : BgpSessionParams) (buf : Bytes) : UpdatePanics p buf ↔ UpdateCrash p buf := by
  have hc := fun b => (addrs_exactly p (sessionFamily p) b).not_returns
  constructor
  · rintro ⟨w, rest, e, hw, hr, h | ⟨wd, n, rest', h1, h2, h3, h4, raws, l, t, h5, h6, h7, h8⟩⟩
    · exact ⟨w, rest, e, hw, hr, .inl ((hc w).1 h)⟩
    · refine ⟨w, rest, e, hw, hr, .inr ⟨wd, n, rest', (nlriDec_iff p w wd).1 h1, h2, h3, h4, _, l, t, h5,
        (attrs_read_iff p _ l).1 ⟨raws, rfl, h6, h7⟩, ?_⟩⟩
      rcases h8 with ⟨h, h'⟩ | h | ⟨r, t', h, h', h'', h'''⟩
      · exact .inl ⟨h, (hc t).1 h'⟩
      · exact .inr (.inl h)
      · exact .inr (.inr ⟨r, t', h, h', h'', (value_exactly p r.code r.flags r.value).not_returns.1 h'''⟩)
  · rintro ⟨w, rest, e, hw, hr, h | ⟨wd, n, rest', h1, h2, h3, h4, a, l, t, h5, h6, h8⟩⟩
    · exact ⟨w, rest, e, hw, hr, .inl ((hc w).2 h)⟩
    · obtain ⟨raws, rfl, h6, h7⟩ := (attrs_read_iff p a l).2 h6
      refine ⟨w, rest, e, hw, hr, .inr ⟨wd, n, rest', (nlriDec_iff p w wd).2 h1, h2, h3, h4, raws, l, t, h5, h6, h7, ?_⟩⟩
      rcases h8 with ⟨h, h'⟩ | h | ⟨r, t', h, h', h'', h'''⟩
      · exact .inl ⟨h, (hc t).2 h'⟩
      · exact .inr (.inl h)
      · exact .inr (.inr ⟨r, t', h, h', h'', (value_exactly p r.code r.flags r.value).not_returns.2 h'''⟩)

/-- **UPDATE messages are read exactly as specified** -/
theorem update_exactly (self : BgpUpdateMessage) (p : BgpSessionParams) (buf : Bytes) :
    Exactly (self.decodeFrom p buf)
      (fun m => ∃ l, UpdateRead p buf m.withdraws l m.updates ∧ m.attrs = self.attrs ++ l) (UpdateCrash p buf) where
  ok m := update_read_iff self p buf m
  crash := by
    rw [← updatePanics_iff, ← update_crash_iff self p buf]
    have := nh_update self p buf
    cases hr : self.decodeFrom p buf
    · simp [Res.Returns]
    · simp [Res.Returns]
    · simp [Res.Returns]
    · exact absurd hr this
  noHang := nh_update self p buf

theorem nlriIs_inj {p : BgpSessionParams} {w : Bytes} {x y : BgpAddrs} (h1 : NlriIs p w x) (h2 : NlriIs p w y) :
    x = y := by
  obtain ⟨n, h1⟩ := h1
  obtain ⟨m, h2⟩ := h2
  have := (((addrs_exactly p _ w).ok (x, n)).2 h1).symm.trans (((addrs_exactly p _ w).ok (y, m)).2 h2)
  simp only [Res.ok.injEq, Prod.mk.injEq] at this
  exact this.1

theorem valueRead_inj {p : BgpSessionParams} {code flags : U8} {v : Bytes} {x y : BgpAttrItem}
    (h1 : ValueRead p code flags v x) (h2 : ValueRead p code flags v y) : x = y := by
  have := ((value_ok_iff p code flags v x).2 h1).symm.trans ((value_ok_iff p code flags v y).2 h2)
  exact Res.ok.inj this

theorem attrsRead_inj {p : BgpSessionParams} {b : Bytes} {l l' : List BgpAttrItem}
    (h1 : AttrsRead (ValueRead p) b l) (h2 : AttrsRead (ValueRead p) b l') : l = l' := by
  obtain ⟨raws, e, hr, ha⟩ := (attrs_read_iff p b l).2 h1
  obtain ⟨raws', e', hr', ha'⟩ := (attrs_read_iff p b l').2 h2
  have := raws_inj hr hr' (e.symm.trans e')
  subst this
  have h : l.map Res.ok = l'.map Res.ok := ha.symm.trans ha'
  clear ha ha' h1 h2 hr hr'
  induction l generalizing l' with
  | nil => cases l' <;> simp at h ⊢
  | cons a l ih =>
    cases l' with
    | nil => simp at h
    | cons b l' =>
      simp only [List.map_cons, List.cons.injEq, Res.ok.injEq] at h
      rw [h.1, ih h.2]

end Zbgp
