import Verif.Lemmas.Room
import Verif.Lemmas.MvpnSent
import Verif.Spec.Outcome

/-! # What comes of encoding any value -/

namespace Zbgp

open Spec

attribute [-simp] List.length_flatMap

/-! ## Patterns -/

theorem fits_length : ∀ {p : List (Option U8)} {w : Bytes}, Fits p w → p.length = w.length
  | [], [], _ => rfl
  | _ :: _, _ :: _, h => by simp only [List.length_cons, fits_length h.2]
  | [], _ :: _, h => h.elim
  | _ :: _, [], h => h.elim

theorem fits_append : ∀ {p q : List (Option U8)} {w v : Bytes}, Fits p w → Fits q v → Fits (p ++ q) (w ++ v)
  | [], _, [], _, _, h2 => h2
  | _ :: _, _, _ :: _, _, h1, h2 => ⟨h1.1, fits_append h1.2 h2⟩
  | [], _, _ :: _, _, h1, _ => h1.elim
  | _ :: _, _, [], _, h1, _ => h1.elim

theorem fits_some : ∀ w : Bytes, Fits (w.map some) w
  | [] => trivial
  | _ :: w => ⟨.inr rfl, fits_some w⟩

theorem fits_some_eq : ∀ {w v : Bytes}, Fits (w.map some) v → w = v
  | [], [], _ => rfl
  | a :: w, b :: v, h => by
    have h1 : a = b := by
      rcases h.1 with h | h
      · cases h
      · exact Option.some.inj h
    rw [h1, fits_some_eq h.2]
  | [], _ :: _, h => h.elim
  | _ :: _, [], h => h.elim

theorem fits_none : ∀ w : Bytes, Fits (List.replicate w.length none) w
  | [] => trivial
  | _ :: w => ⟨.inl rfl, fits_none w⟩

/-! ## Ends at a position -/

/-- the computation, started with `p` in front of `t`, comes to this end -/
def EndCase (r : Res (Bytes × Nat)) (p t : Bytes) : Fate → Prop
  | .sent pattern => ∃ w rest, Fits pattern w ∧ r = .ok (p ++ (w ++ rest), p.length + w.length) ∧ (w ++ rest).length = t.length
  | .refused => r.IsErr
  | .crash => r = .panic

theorem ends_of {f : Enc} {fate : Fate} (room : Nat) (h : ∀ buf : Bytes, room ≤ buf.length → EndCase (f buf) [] buf fate) :
    Ends f fate := by
  refine ⟨room, ?_⟩
  cases fate with
  | sent pattern =>
    intro buf hb
    obtain ⟨w, rest, h1, h2, h3⟩ := h buf hb
    exact ⟨w, rest, h1, by simpa using h2, h3⟩
  | refused => exact h
  | crash => exact h

theorem ends_case {f : Enc} {fate : Fate} (h : Ends f fate) : ∃ room, ∀ buf : Bytes, room ≤ buf.length → EndCase (f buf) [] buf fate := by
  obtain ⟨room, h⟩ := h
  refine ⟨room, fun buf hb => ?_⟩
  cases fate with
  | sent pattern =>
    obtain ⟨w, rest, h1, h2, h3⟩ := h buf hb
    exact ⟨w, rest, h1, by simpa using h2, h3⟩
  | refused => exact h buf hb
  | crash => exact h buf hb

theorem ends_writes {f : Enc} {w : Bytes} (h : Writes f w) : Ends f (.octets w) :=
  ends_of w.length fun buf hb => ⟨w, buf.drop w.length, fits_some w, by simpa using h buf hb, by simp; omega⟩

theorem err_bind {α β : Type} {r : Res α} {f : α → Res β} (h : r.IsErr) : (r >>= f).IsErr := errs_bind h

/-- the encoder, at a position behind `p`, comes to this end -/
def AtCase (r : Res (Bytes × Nat)) (p t : Bytes) : Fate → Prop
  | .sent pattern => ∃ w rest, Fits pattern w ∧ r = .ok ((p ++ w) ++ rest, w.length) ∧ (w ++ rest).length = t.length
  | .refused => r.IsErr
  | .crash => r = .panic

theorem endCase_onFrom {f : Enc} {p t : Bytes} {fate : Fate} (i : Nat) (hi : i = p.length) (h : EndCase (f t) [] t fate) :
    AtCase (onFrom (p ++ t) i f) p t fate := by
  rw [onFrom_append p t i f hi]
  cases fate with
  | sent pattern =>
    obtain ⟨w, rest, h1, h2, h3⟩ := h
    exact ⟨w, rest, h1, by rw [h2]; simp, h3⟩
  | refused => exact err_bind h
  | crash => simp only [EndCase] at h; simp only [AtCase, h]; rfl

/-- loops -/
theorem ends_loop {α : Type} {enc : α → Enc} {fate : α → Fate} (l : List α) (h : ∀ x ∈ l, Ends (enc x) (fate x)) :
    ∃ room, ∀ p t : Bytes, room ≤ t.length → EndCase (encLoop enc l (p ++ t) p.length) p t (Fate.all fate l) := by
  induction l with
  | nil => exact ⟨0, fun p t _ => ⟨[], t, trivial, by simp [encLoop], by simp⟩⟩
  | cons x l ih =>
    obtain ⟨r1, h1⟩ := ends_case (h x (by simp))
    obtain ⟨r2, h2⟩ := ih fun y hy => h y (by simp [hy])
    cases hx : fate x with
    | sent pat =>
      refine ⟨r1 + (pat.length + r2), fun p t ht => ?_⟩
      have h3 := endCase_onFrom (p := p) (f := enc x) p.length rfl (h1 t (by omega))
      rw [hx] at h3
      obtain ⟨w, rest, f1, e1, l1⟩ := h3
      have fl := fits_length f1
      simp only [List.length_append] at l1
      have h4 := h2 (p ++ w) rest (by omega)
      rw [encLoop, e1]
      simp only [Res.ok_bind, Fate.all, hx]
      rw [show p.length + w.length = (p ++ w).length by simp]
      cases hl : Fate.all fate l with
      | sent pat2 =>
        rw [hl] at h4
        obtain ⟨w2, rest2, f2, e2, l2⟩ := h4
        exact ⟨w ++ w2, rest2, fits_append f1 f2, by rw [e2]; simp [Nat.add_assoc], by simp only [List.length_append] at l2 ⊢; omega⟩
      | refused => rw [hl] at h4; exact h4
      | crash => rw [hl] at h4; exact h4
    | refused =>
      refine ⟨r1, fun p t ht => ?_⟩
      have h3 := endCase_onFrom (p := p) (f := enc x) p.length rfl (h1 t (by omega))
      rw [hx] at h3
      rw [encLoop]
      simp only [Fate.all, hx, Fate.andThen]
      exact err_bind h3
    | crash =>
      refine ⟨r1, fun p t ht => ?_⟩
      have h3 := endCase_onFrom (p := p) (f := enc x) p.length rfl (h1 t (by omega))
      rw [hx] at h3
      rw [encLoop]
      simp only [Fate.all, hx, Fate.andThen]
      simp only [AtCase] at h3
      simp only [EndCase, h3]; rfl

theorem ends_all {α : Type} {enc : α → Enc} {fate : α → Fate} (l : List α) (h : ∀ x ∈ l, Ends (enc x) (fate x)) :
    Ends (fun b => encLoop enc l b 0) (Fate.all fate l) := by
  obtain ⟨room, h⟩ := ends_loop l h
  exact ends_of room fun buf hb => by simpa using h [] buf hb

/-! ## Prefixes -/

/-- kinds of prefixes whose encoder does what `LengthOctet` says -/
class SendsItem (T : Type) [BgpItem T] [NlriKind T] [LengthOctet T] : Prop where
  lt : ∀ (x : T) n, LengthOctet.octet x = some n → n < 256
  sends : ∀ (x : T) n, LengthOctet.octet x = some n → ItemWrites x n (NlriKind.body x)
  fails : ∀ x : T, LengthOctet.octet x = none → ∃ room, ∀ buf : Bytes, room ≤ buf.length → BgpItem.setBits x buf = .panic

theorem addC_panic {w : Nat} {a b : BitVec w} (h : 2 ^ w ≤ a.toNat + b.toNat) : addC a b = .panic := by
  rw [addC, if_neg (by omega)]

theorem toBits_fails (n : Nat) (x : U8) (src buf : Bytes) (hn : 8 * n < x.toNat) (hs : src.length = n) :
    (do
      let bf ← copyAll (List.replicate n 0) src
      let bytes := (← addC x 7).toNat / 8
      let buf ← copyAt buf 0 bytes (← rslice bf 0 bytes)
      Res.ok (buf, (x, bytes)) : Res (Bytes × (U8 × Nat))) = .panic := by
  rw [copyAll_ok (by simp [hs])]
  simp only [Res.ok_bind]
  by_cases h : x.toNat + 7 < 256
  · rw [addC_ok (by simpa using h)]
    simp only [Res.ok_bind]
    have e : (x + 7).toNat = x.toNat + 7 := by rw [BitVec.toNat_add]; simp; omega
    rw [e]
    have : rslice src 0 ((x.toNat + 7) / 8) = .panic := by
      unfold rslice
      rw [if_neg (by omega)]
    rw [this]; rfl
  · rw [addC_panic (by simp; omega)]; rfl

theorem v4_fails (x : BgpAddrV4) (h : ¬ x.prefixlen.toNat ≤ 32) (buf : Bytes) : BgpItem.setBits x buf = .panic := by
  simp only [BgpItem.setBits, BgpAddrV4.toBits]
  rw [if_neg (by omega)]
  exact toBits_fails 4 x.prefixlen _ buf (by omega) (by simp [ipv4Octets])

theorem v6_fails (x : BgpAddrV6) (h : ¬ x.prefixlen.toNat ≤ 128) (buf : Bytes) : BgpItem.setBits x buf = .panic := by
  simp only [BgpItem.setBits, BgpAddrV6.toBits]
  rw [if_neg (by omega)]
  exact toBits_fails 16 x.prefixlen _ buf (by omega) (by simp [ipv6Octets])

instance : SendsItem BgpAddrV4 where
  lt x n h := by simp only [LengthOctet.octet] at h; split at h <;> simp at h; omega
  sends x n h := by
    simp only [LengthOctet.octet] at h
    split at h <;> simp at h
    subst h
    exact NlriLawful.writes x (by assumption)
  fails x h := by
    simp only [LengthOctet.octet] at h
    split at h <;> simp at h
    exact ⟨0, fun buf _ => v4_fails x (by assumption) buf⟩

instance : SendsItem BgpAddrV6 where
  lt x n h := by simp only [LengthOctet.octet] at h; split at h <;> simp at h; omega
  sends x n h := by
    simp only [LengthOctet.octet] at h
    split at h <;> simp at h
    subst h
    exact NlriLawful.writes x (by assumption)
  fails x h := by
    simp only [LengthOctet.octet] at h
    split at h <;> simp at h
    exact ⟨0, fun buf _ => v6_fails x (by assumption) buf⟩

instance : SendsItem BgpMdtV4 where
  lt x n h := by simp only [LengthOctet.octet] at h; split at h <;> simp at h; omega
  sends x n h := by
    simp only [LengthOctet.octet] at h
    split at h <;> simp at h
    subst h
    exact NlriLawful.writes x (by assumption)
  fails x h := by
    simp only [LengthOctet.octet] at h
    split at h <;> simp at h
    refine ⟨0, fun buf _ => ?_⟩
    rw [mdt4_set, v4_fails x.addr (by omega) buf]; rfl

instance : SendsItem BgpMdtV6 where
  lt x n h := by simp only [LengthOctet.octet] at h; split at h <;> simp at h; omega
  sends x n h := by
    simp only [LengthOctet.octet] at h
    split at h <;> simp at h
    subst h
    intro buf hb
    rename_i h
    simp only [NlriKind.body] at hb ⊢
    have hw := NlriLawful.writes x.addr (show x.addr.prefixlen.toNat ≤ 128 by omega)
    have hl := prefixBody_length 16 x.addr.addr.toNat x.addr.prefixlen.toNat (by omega)
    simp only [List.length_append, be_length] at hb
    rw [mdt6_set, hw buf (by simp only [NlriKind.body]; omega)]
    simp only [NlriKind.body, Res.ok_bind, NlriKind.bits]
    rw [cur_copyAt _ _ _ _ _ rfl (by simp [ipv6Octets]) (by simp [ipv6Octets]; omega),
      addC_ok (by simp; omega)]
    simp [ipv6Octets, BitVec.add_comm]
    congr 1
  fails x h := by
    simp only [LengthOctet.octet] at h
    split at h <;> simp at h
    rename_i h
    by_cases hx : x.addr.prefixlen.toNat ≤ 128
    · refine ⟨32, fun buf hb => ?_⟩
      have hw := NlriLawful.writes x.addr hx
      have hl := prefixBody_length 16 x.addr.addr.toNat x.addr.prefixlen.toNat (by omega)
      have ho := octets_le (n := 16) (p := x.addr.prefixlen.toNat) (by omega)
      rw [mdt6_set, hw buf (by simp only [NlriKind.body]; omega)]
      simp only [NlriKind.body, Res.ok_bind, NlriKind.bits]
      rw [cur_copyAt _ _ _ _ _ rfl (by simp [ipv6Octets]) (by simp [ipv6Octets]; omega),
        addC_panic (by simp; omega)]
      rfl
    · refine ⟨0, fun buf _ => ?_⟩
      rw [mdt6_set, v6_fails x.addr hx buf]; rfl

theorem labeled_set {T : Type} [BgpItem T] (x : Labeled T) (buf : Bytes) (hb : (labelsBody x.labels.labels).length ≤ buf.length) :
    BgpItem.setBits x buf = (do
      let (t, r) ← BgpItem.setBits x.pfx (buf.drop (labelsBody x.labels.labels).length)
      let bits ← addC (BitVec.ofNat 8 (24 * x.labels.labels.length)) r.1
      .ok (labelsBody x.labels.labels ++ t, (bits, (labelsBody x.labels.labels).length + r.2))) := by
  simp only [BgpItem.setBits]
  have h1 := labels_writes x.labels buf hb
  simp only [BgpItem.setBits] at h1
  rw [h1]
  simp only [Res.ok_bind]
  rw [onFrom_append _ _ _ _ rfl]
  simp [bind_assoc]

instance {T : Type} [BgpItem T] [NlriKind T] [LengthOctet T] [SendsItem T] : SendsItem (Labeled T) where
  lt x n h := by
    simp only [LengthOctet.octet] at h
    split at h
    · split at h <;> simp at h; omega
    · cases h
  sends x n h := by
    simp only [LengthOctet.octet] at h
    split at h
    · rename_i k hk
      split at h <;> simp at h
      subst h
      rename_i hlt
      intro buf hb
      simp only [NlriKind.body, List.length_append] at hb ⊢
      rw [labeled_set x buf (by omega), SendsItem.sends x.pfx k hk _ (by simp; omega)]
      have := SendsItem.lt x.pfx k hk
      simp only [Res.ok_bind]
      rw [addC_ok (by rw [ofNat8_toNat this, BitVec.toNat_ofNat]; omega)]
      simp only [Res.ok_bind, List.drop_drop, List.append_assoc, Res.ok.injEq, Prod.mk.injEq, true_and, and_true]
      apply BitVec.eq_of_toNat_eq
      simp only [BitVec.toNat_add, BitVec.toNat_ofNat]
      omega
    · cases h
  fails x h := by
    simp only [LengthOctet.octet] at h
    split at h
    · rename_i k hk
      split at h <;> simp at h
      refine ⟨(NlriKind.body x).length, fun buf hb => ?_⟩
      simp only [NlriKind.body, List.length_append] at hb
      rw [labeled_set x buf (by omega), SendsItem.sends x.pfx k hk _ (by simp; omega)]
      have := SendsItem.lt x.pfx k hk
      simp only [Res.ok_bind]
      rw [addC_panic (by rw [ofNat8_toNat this, BitVec.toNat_ofNat]; omega)]
      rfl
    · rename_i hk
      obtain ⟨room, hr⟩ := SendsItem.fails x.pfx hk
      refine ⟨(labelsBody x.labels.labels).length + room, fun buf hb => ?_⟩
      rw [labeled_set x buf (by omega), hr _ (by simp; omega)]
      rfl

theorem withRd_set {T : Type} [BgpItem T] (x : WithRd T) (buf : Bytes) (hb : 8 ≤ buf.length) :
    BgpItem.setBits x buf = (do
      let (t, r) ← BgpItem.setBits x.pfx (buf.drop 8)
      let bits ← addC (64 : U8) r.1
      .ok (rdBody x.rd ++ t, (bits, 8 + r.2))) := by
  simp only [BgpItem.setBits]
  rw [rd_writes x.rd buf (by simpa using hb)]
  simp only [Res.ok_bind, rdBody_length]
  rw [onFrom_append _ _ _ _ (by simp)]
  simp [bind_assoc]

instance {T : Type} [BgpItem T] [NlriKind T] [LengthOctet T] [SendsItem T] : SendsItem (WithRd T) where
  lt x n h := by
    simp only [LengthOctet.octet] at h
    split at h
    · split at h <;> simp at h; omega
    · cases h
  sends x n h := by
    simp only [LengthOctet.octet] at h
    split at h
    · rename_i k hk
      split at h <;> simp at h
      subst h
      rename_i hlt
      intro buf hb
      simp only [NlriKind.body, List.length_append, rdBody_length] at hb ⊢
      rw [withRd_set x buf (by omega), SendsItem.sends x.pfx k hk _ (by simp; omega)]
      have := SendsItem.lt x.pfx k hk
      simp only [Res.ok_bind]
      rw [addC_ok (by rw [ofNat8_toNat this]; simp; omega)]
      simp only [Res.ok_bind, List.drop_drop, List.append_assoc, Res.ok.injEq, Prod.mk.injEq, true_and, and_true]
      apply BitVec.eq_of_toNat_eq
      simp only [BitVec.toNat_add, BitVec.toNat_ofNat, show (64 : U8).toNat = 64 from rfl]
      omega
    · cases h
  fails x h := by
    simp only [LengthOctet.octet] at h
    split at h
    · rename_i k hk
      split at h <;> simp at h
      refine ⟨(NlriKind.body x).length, fun buf hb => ?_⟩
      simp only [NlriKind.body, List.length_append, rdBody_length] at hb
      rw [withRd_set x buf (by omega), SendsItem.sends x.pfx k hk _ (by simp; omega)]
      have := SendsItem.lt x.pfx k hk
      simp only [Res.ok_bind]
      rw [addC_panic (by rw [ofNat8_toNat this]; simp; omega)]
      rfl
    · rename_i hk
      obtain ⟨room, hr⟩ := SendsItem.fails x.pfx hk
      refine ⟨8 + room, fun buf hb => ?_⟩
      rw [withRd_set x buf (by omega), hr _ (by simp; omega)]
      rfl

section prefixes
variable {T : Type} [BgpItem T]

def formFate (head : Bytes) : Option (Nat × Bytes) → Fate
  | some (n, b) => .octets (head ++ BitVec.ofNat 8 n :: b)
  | none => .crash

theorem ends_form (form : Option (Nat × Bytes)) (x : T) (hs : ∀ n b, form = some (n, b) → ItemWrites x n b)
    (hf : form = none → ∃ room, ∀ buf : Bytes, room ≤ buf.length → BgpItem.setBits x buf = .panic) :
    Ends (encodeItem x) (formFate [] form) := by
  cases form with
  | some f => exact ends_writes (encodeItem_writes (hs f.1 f.2 rfl))
  | none =>
    obtain ⟨room, hr⟩ := hf rfl
    refine ends_of (1 + room) fun buf hb => ?_
    obtain ⟨a, t, rfl⟩ := List.exists_cons_of_length_pos (l := buf) (by omega)
    show encodeItem x (a :: t) = .panic
    unfold encodeItem
    rw [show a :: t = [a] ++ t from rfl, onFrom_append [a] t 1 _ rfl, hr t (by simp at hb; omega)]
    rfl

theorem ends_form_id (form : Option (Nat × Bytes)) (x : WithPathId T) (hs : ∀ n b, form = some (n, b) → ItemWrites x.nlri n b)
    (hf : form = none → ∃ room, ∀ buf : Bytes, room ≤ buf.length → BgpItem.setBits x.nlri buf = .panic) :
    Ends (encodePathIdItem x) (formFate (be 4 x.pathid.toNat) form) := by
  cases form with
  | some f => exact ends_writes (encodePathIdItem_writes (hs f.1 f.2 rfl))
  | none =>
    obtain ⟨room, hr⟩ := hf rfl
    refine ends_of (5 + room) fun buf hb => ?_
    show encodePathIdItem x buf = .panic
    unfold encodePathIdItem
    rw [setn32_ok _ (by omega)]
    simp only [Res.ok_bind]
    obtain ⟨m, t, rfl, hm, -⟩ := exists_split 5 (show 5 ≤ buf.length by omega)
    simp only [List.length_append] at hb
    rw [List.drop_append, show 4 - m.length = 0 by omega, List.drop_zero, ← List.append_assoc,
      onFrom_append _ t 5 _ (by simp; omega), hr t (by omega)]
    rfl

variable [NlriKind T] [LengthOctet T] [UncheckedForm T]

omit [BgpItem T] in
theorem prefixFate_eq (m : Build) (x : T) : prefixFate m x = formFate [] (prefixForm m x) := by
  unfold prefixFate formFate
  cases prefixForm m x <;> rfl

omit [BgpItem T] in
theorem pathIdFate_eq (m : Build) (x : WithPathId T) : pathIdFate m x = formFate (be 4 x.pathid.toNat) (prefixForm m x.nlri) := by
  unfold pathIdFate formFate
  cases prefixForm m x.nlri <;> rfl

variable [SendsItem T]

theorem form_sends (x : T) (n : Nat) (b : Bytes) (h : prefixForm .checked x = some (n, b)) : ItemWrites x n b := by
  simp only [prefixForm, Option.map_eq_some_iff, Prod.mk.injEq] at h
  obtain ⟨k, hk, rfl, rfl⟩ := h
  exact SendsItem.sends x k hk

theorem form_fails (x : T) (h : prefixForm .checked x = none) :
    ∃ room, ∀ buf : Bytes, room ≤ buf.length → BgpItem.setBits x buf = .panic :=
  SendsItem.fails x (by simpa [prefixForm] using h)

theorem ends_prefix (x : T) : Ends (encodeItem x) (prefixFate .checked x) := by
  rw [prefixFate_eq]
  exact ends_form _ x (form_sends x) (form_fails x)

theorem ends_pathId (x : WithPathId T) : Ends (encodePathIdItem x) (pathIdFate .checked x) := by
  rw [pathIdFate_eq]
  exact ends_form_id _ x (form_sends x.nlri) (form_fails x.nlri)

theorem ends_prefixes (l : List T) : Ends (encodeItems l) (.all (prefixFate .checked) l) := ends_all l fun x _ => ends_prefix x
theorem ends_pathIds (l : List (WithPathId T)) : Ends (encodePathIdItems l) (.all (pathIdFate .checked) l) :=
  ends_all l fun x _ => ends_pathId x

end prefixes

/-! ## VPLS -/

theorem vpls_pack_any (x : BgpAddrL2) (buf : Bytes) (h : 15 ≤ buf.length) (hb : (vplsBody x).length ≤ buf.length) :
    BgpItemLong.packTo x buf = .ok (vplsBody x ++ buf.drop (vplsBody x).length, (vplsBody x).length) := by
  have hb' : 14 + 3 * x.labels.labels.length ≤ buf.length := by rw [vplsBody_length] at hb; exact hb
  simp only [BgpItemLong.packTo]
  rw [if_neg (by omega), rd_writes _ buf (by simp; omega)]
  simp only [Res.ok_bind]
  rw [cur_modRange (fill16 _) _ _ _ _ (by simp) (by simp) (by lens)]
  simp only [Res.ok_bind]
  rw [cur_modRange (fill16 _) _ _ _ _ (by simp) (by simp) (by lens)]
  simp only [Res.ok_bind]
  rw [cur_modRange (fill16 _) _ _ _ _ (by simp) (by simp) (by lens)]
  simp only [Res.ok_bind]
  rw [cur_labels _ _ _ _ (by simp) (by lens)]
  simp [vplsBody, labelsBody_length, Nat.add_comm]
  omega

theorem ends_vpls (x : BgpAddrL2) : Ends (encodeLongItem x) (vplsFate x) := by
  have hl := vplsBody_length x
  refine ends_of (17 + (vplsBody x).length) fun buf hb => ?_
  obtain ⟨a, b, t, rfl⟩ := exists_cons2 (l := buf) (by omega)
  simp only [List.length_cons] at hb
  have e : encodeLongItem x (a :: b :: t) = .ok (vplsWire x ++ t.drop (vplsBody x).length, (vplsBody x).length) := by
    unfold encodeLongItem
    rw [show a :: b :: t = [a, b] ++ t from rfl, onFrom_append [a, b] t 2 _ rfl, vpls_pack_any x t (by omega) (by omega)]
    simp only [Res.ok_bind]
    have hm := modRange_append (f := setn16 (BitVec.ofNat 16 (vplsBody x).length)) [] [a, b]
      (vplsBody x ++ t.drop (vplsBody x).length) 0 2 rfl rfl
    rw [List.nil_append] at hm
    rw [hm]
    simp only [setn16_cons2, Res.ok_bind, vplsWire]
    rw [BitVec.toNat_ofNat, show (2 : Nat) ^ 16 = 256 ^ 2 from rfl, be_congr_mod 2]
    simp
  have ht : ((vplsWire x).take (vplsBody x).length).length = (vplsBody x).length := by
    simp [vplsWire]
  refine ⟨(vplsWire x).take (vplsBody x).length, (vplsWire x).drop (vplsBody x).length ++ t.drop (vplsBody x).length,
    fits_some _, ?_, ?_⟩
  · rw [e, ht, List.nil_append, ← List.append_assoc, List.take_append_drop]
    simp
  · rw [← List.append_assoc, List.take_append_drop]
    simp [vplsWire]; omega

/-! ## EVPN -/

theorem ends_octets_extra {f : Enc} (w : Bytes) (room : Nat) (h : ∀ buf : Bytes, room ≤ buf.length → ∃ rest,
    f buf = .ok (w ++ rest, w.length) ∧ (w ++ rest).length = buf.length) : Ends f (.octets w) :=
  ends_of room fun buf hb => by
    obtain ⟨rest, h1, h2⟩ := h buf hb
    exact ⟨w, rest, fits_some w, by simpa using h1, h2⟩

theorem evpn5_v6 (x : BgpEVPN5) (mode : BgpTransportMode) {p g : IPv6} (hp : x.pfx = .v6 p) (hg : x.gwIp = .v6 g) :
    Ends (BgpAddrItem.encodeTo x mode) (.octets (rdBody x.rd ++ esiBody x.esiType x.esi ++ be 4 x.etherTag.toNat ++
      x.len :: be 16 p.toNat ++ labelsBody x.labels.labels)) := by
  refine ends_octets_extra _ (55 + 3 * x.labels.labels.length) fun buf hb => ?_
  obtain ⟨rd, t, e, etag, len, pfx, gw, l⟩ := x
  simp only at hp hg
  subst hp hg
  simp only at hb ⊢
  refine ⟨(be 16 g.toNat ++ buf.drop 55).drop (3 * l.labels.length), ?_, ?_⟩
  · simp only [BgpAddrItem.encodeTo]
    rw [rd_writes _ buf (by lens)]
    simp only [Res.ok_bind]
    rw [cur_esi _ _ _ _ _ (by simp) (by lens)]
    simp only [Res.ok_bind]
    rw [cur_modRange (fill32 _) _ _ _ _ (by simp) (by simp) (by lens)]
    simp only [Res.ok_bind]
    rw [cur_setIdx _ _ _ _ (by simp) (by lens)]
    simp only [Res.ok_bind]
    rw [cur_onFrom (writes_encodeAddrV6 p) _ _ _ (by simp) (by lens)]
    simp only [Res.ok_bind]
    rw [cur_onFrom (writes_encodeAddrV6 g) _ _ _ (by simp) (by lens)]
    simp only [Res.ok_bind]
    rw [List.append_assoc _ (be 16 g.toNat) _]
    rw [cur_labels _ _ _ _ (by simp) (by lens)]
    simp [labelsBody_length]
    omega
  · simp [labelsBody_length]; omega

def tlvFate (t : U8) : Fate → Fate
  | .sent w => if w.length ≤ 255 then .sent (some t :: some (BitVec.ofNat 8 w.length) :: w) else .refused
  | .refused => .refused
  | .crash => .crash

theorem ends_tlv {f : Enc} {fate : Fate} (h : Ends f fate) (t : U8) :
    Ends (fun buf => do
      let (buf, pos) ← (do onFrom (← setIdx buf 0 t) 2 f : Res (Bytes × Nat))
      if pos ≤ 0xff then do
        let buf ← setIdx buf 1 (BitVec.ofNat 8 pos)
        .ok (buf, pos + 2)
      else .err .tooManyData)
      (tlvFate t fate) := by
  obtain ⟨room, h⟩ := ends_case h
  refine ends_of (2 + room) fun buf hb => ?_
  obtain ⟨a, b, r, rfl⟩ := exists_cons2 (l := buf) (by omega)
  simp only [List.length_cons] at hb
  simp only [setIdx_cons_zero, Res.ok_bind]
  have h3 := endCase_onFrom (p := [t, b]) (f := f) 2 rfl (h r (by omega))
  rw [show t :: b :: r = [t, b] ++ r from rfl]
  cases fate with
  | sent pat =>
    obtain ⟨w, rest, f1, e1, l1⟩ := h3
    rw [e1]
    simp only [Res.ok_bind, tlvFate]
    rw [fits_length f1]
    by_cases hl : w.length ≤ 255
    · rw [if_pos hl, if_pos hl]
      refine ⟨t :: BitVec.ofNat 8 w.length :: w, rest, ⟨.inr rfl, .inr rfl, f1⟩, ?_, by simp only [List.cons_append, List.length_cons, l1]⟩
      simp [setIdx_cons_succ]
    · rw [if_neg hl, if_neg hl]
      trivial
  | refused => exact err_bind h3
  | crash =>
    simp only [AtCase] at h3
    rw [h3]; rfl

theorem tlv_octets (t : U8) (b : Bytes) :
    tlvFate t (Fate.octets b) = if b.length ≤ 255 then .octets (t :: BitVec.ofNat 8 b.length :: b) else .refused := by
  simp [Fate.octets, tlvFate]

theorem ends_evpn (x : BgpEVPN) (mode : BgpTransportMode) : Ends (BgpAddrItem.encodeTo x mode) (evpnFate x) := by
  cases x with
  | evpn1 r =>
    have := ends_tlv (ends_writes (evpn1_writes r mode)) 1
    rwa [tlv_octets] at this
  | evpn2 r =>
    have := ends_tlv (ends_writes (evpn2_writes r mode)) 2
    rwa [tlv_octets] at this
  | evpn3 r =>
    have := ends_tlv (ends_writes (evpn3_writes r mode)) 3
    rwa [tlv_octets] at this
  | evpn4 r =>
    have := ends_tlv (ends_writes (evpn4_writes r mode)) 4
    rwa [tlv_octets] at this
  | evpn5 r =>
    unfold evpnFate evpnSentBody
    have mixed : (∀ p g, ¬ (r.pfx = .v4 p ∧ r.gwIp = .v4 g)) → (∀ p g, ¬ (r.pfx = .v6 p ∧ r.gwIp = .v6 g)) →
        Ends (BgpAddrItem.encodeTo r mode) .refused := by
      intro h1 h2
      refine ends_of 25 fun buf hb => ?_
      show (BgpAddrItem.encodeTo r mode buf).IsErr
      simp only [BgpAddrItem.encodeTo]
      rw [rd_writes _ buf (by lens)]
      simp only [Res.ok_bind]
      rw [cur_esi _ _ _ _ _ (by simp) (by lens)]
      simp only [Res.ok_bind]
      rw [cur_modRange (fill32 _) _ _ _ _ (by simp) (by simp) (by lens)]
      simp only [Res.ok_bind]
      rw [cur_setIdx _ _ _ _ (by simp) (by lens)]
      simp only [Res.ok_bind]
      cases hp : r.pfx <;> cases hg : r.gwIp
      · exact absurd ⟨hp, hg⟩ (h1 _ _)
      · exact trivial
      · exact trivial
      · exact absurd ⟨hp, hg⟩ (h2 _ _)
    cases hp : r.pfx <;> cases hg : r.gwIp
    · have := ends_tlv (ends_writes (evpn5_writes r mode hp hg)) 5
      rw [tlv_octets] at this
      simp only [hp, hg, evpnType]
      exact this
    · simp only [hp, hg]
      exact ends_tlv (mixed (by simp [hp, hg]) (by simp [hp, hg])) 5
    · simp only [hp, hg]
      exact ends_tlv (mixed (by simp [hp, hg]) (by simp [hp, hg])) 5
    · have := ends_tlv (evpn5_v6 r mode hp hg) 5
      rw [tlv_octets] at this
      simp only [hp, hg, evpnType]
      exact this

/-! ## FlowSpec -/

section fs
open BgpFlowSpec

class FsSends (T : Type) [FSItem T] [FsPrefix T] [FsSendable T] : Prop where
  enc : ∀ x : T, FsSendable.sendable x = true → ∀ m : Bytes, (FsPrefix.body x).length ≤ m.length →
    FSItem.encodeFs x m = .ok (FsPrefix.body x ++ m.drop (FsPrefix.body x).length)
  size : ∀ x : T, FsSendable.sendable x = true → FSItem.storeSize x = (FsPrefix.body x).length
  small : ∀ x : T, FSItem.storeSize x < 200
  fails : ∀ x : T, FsSendable.sendable x = false → ∃ room, ∀ m : Bytes, room ≤ m.length → FSItem.encodeFs x m = .panic

theorem onFrom_panic {α : Type} (p t : Bytes) (n : Nat) (f : Bytes → Res (Bytes × α)) (hn : n = p.length) (h : f t = .panic) :
    onFrom (p ++ t) n f = .panic := by
  rw [onFrom_append p t n f hn, h]; rfl

instance : FsSends BgpAddrV4 where
  enc x h := FsPrefixLawful.enc x (by simpa [FsSendable.sendable, FsPrefix.WF] using h)
  size x h := FsPrefixLawful.size x (by simpa [FsSendable.sendable, FsPrefix.WF] using h)
  small x := by have := x.prefixlen.isLt; simp only [FSItem.storeSize]; omega
  fails x h := by
    refine ⟨1, fun m hm => ?_⟩
    obtain ⟨a, r, rfl⟩ := List.exists_cons_of_length_pos (l := m) (by omega)
    simp only [FSItem.encodeFs, setIdx_cons_zero, Res.ok_bind]
    have := v4_fails x (by simpa [FsSendable.sendable] using h) r
    simp only [BgpItem.setBits] at this
    rw [show x.prefixlen :: r = [x.prefixlen] ++ r from rfl, onFrom_panic _ _ 1 _ rfl this]
    rfl

instance : FsSends FS6 where
  enc x h := FsPrefixLawful.enc x (by simpa [FsSendable.sendable, FsPrefix.WF] using h)
  size x h := FsPrefixLawful.size x (by simpa [FsSendable.sendable, FsPrefix.WF] using h)
  small x := by have := x.ipv6.prefixlen.isLt; simp only [FSItem.storeSize]; omega
  fails x h := by
    refine ⟨2, fun m hm => ?_⟩
    obtain ⟨a, b, r, rfl⟩ := exists_cons2 (l := m) (by omega)
    simp only [FSItem.encodeFs, setIdx_cons_zero, setIdx_cons_succ, Res.ok_bind]
    have := v6_fails x.ipv6 (by simpa [FsSendable.sendable] using h) r
    simp only [BgpItem.setBits] at this
    rw [show x.ipv6.prefixlen :: x.offset :: r = [x.ipv6.prefixlen, x.offset] ++ r from rfl, onFrom_panic _ _ 2 _ rfl this]
    rfl

instance : FsSends FSV4U where
  enc x h m hm := by
    have h : x.pfx.pfx.prefixlen.toNat ≤ 32 := by simpa [FsSendable.sendable] using h
    simp only [FsPrefix.body, List.length_append, List.length_cons, List.length_nil] at hm
    obtain ⟨a, b, r, rfl⟩ := exists_cons2 (l := m) (by omega)
    simp only [List.length_cons] at hm
    have hw := SendsItem.sends x.pfx (64 + x.pfx.pfx.prefixlen.toNat) (by
      simp only [LengthOctet.octet, if_pos h]
      rw [if_pos (by omega)]) r (by simp only [NlriKind.body, List.length_append]; omega)
    simp only [FSItem.encodeFs, setIdx_cons_zero, setIdx_cons_succ, Res.ok_bind]
    rw [show (0 : U8) :: 0 :: r = [0, 0] ++ r from rfl, onFrom_append _ _ 2 _ rfl, hw]
    simp [FsPrefix.body, NlriKind.body]
  size x h := by
    have h : x.pfx.pfx.prefixlen.toNat ≤ 32 := by simpa [FsSendable.sendable] using h
    simp [FSItem.storeSize, FsPrefix.body, prefixBody, octets, rdBody]; omega
  small x := by have := x.pfx.pfx.prefixlen.isLt; simp only [FSItem.storeSize]; omega
  fails x h := by
    have h : ¬ x.pfx.pfx.prefixlen.toNat ≤ 32 := by simpa [FsSendable.sendable] using h
    obtain ⟨room, hr⟩ := SendsItem.fails x.pfx (by simp only [LengthOctet.octet, if_neg h])
    refine ⟨2 + room, fun m hm => ?_⟩
    obtain ⟨a, b, r, rfl⟩ := exists_cons2 (l := m) (by omega)
    simp only [List.length_cons] at hm
    simp only [FSItem.encodeFs, setIdx_cons_zero, setIdx_cons_succ, Res.ok_bind]
    rw [show (0 : U8) :: 0 :: r = [0, 0] ++ r from rfl, onFrom_panic _ _ 2 _ rfl (hr r (by omega))]
    rfl

variable {T : Type} [FSItem T] [FsPrefix T] [FsSendable T] [FsSends T]

theorem putPrefix_sent (c : U8) (a : T) (h : FsSendable.sendable a = true) (p t : Bytes)
    (pos : Nat) (hp : pos = p.length) (ht : 1 + (FsPrefix.body a).length ≤ t.length) :
    putPrefix c a (p ++ t) pos = .ok ((p ++ c :: FsPrefix.body a) ++ t.drop (1 + (FsPrefix.body a).length),
      pos + (1 + (FsPrefix.body a).length)) := by
  unfold putPrefix
  rw [cur_setIdx _ _ _ _ hp (by omega)]
  simp only [Res.ok_bind]
  rw [cur_modFrom (FsSends.enc a h) _ _ _ (by simp [hp]) (by simp; omega), FsSends.size a h]
  simp
  omega

theorem putPrefix_fails (c : U8) (a : T) (h : FsSendable.sendable a = false) : ∃ room, ∀ p t : Bytes, room ≤ t.length →
    putPrefix c a (p ++ t) p.length = .panic := by
  obtain ⟨room, hr⟩ := FsSends.fails a h
  refine ⟨1 + room, fun p t ht => ?_⟩
  unfold putPrefix
  rw [cur_setIdx _ _ _ _ rfl (by omega)]
  simp only [Res.ok_bind, modFrom]
  rw [if_pos (by simp), hr _ (by simp; omega)]
  rfl

omit [FsSendable T] [FsSends T] in
theorem fs_frame (x : BgpFlowSpec T) (h : x.nlen ≤ 4094) (buf : Bytes) (hb : x.nlen + 2 ≤ buf.length) :
    x.encodeTo buf = putBody x (fsLen x.nlen ++ buf.drop (fsLen x.nlen).length) (fsLen x.nlen).length := by
  unfold BgpFlowSpec.encodeTo fsLen
  rw [if_neg (by omega)]
  by_cases h240 : x.nlen < 240
  · rw [if_pos h240, if_pos h240, if_neg (by omega)]
    have := cur_setIdx [] buf 0 (BitVec.ofNat 8 x.nlen) rfl (by omega)
    rw [List.nil_append] at this
    rw [this]
    rfl
  · rw [if_neg h240, if_neg h240]
    rw [if_neg (by omega), setn16_ok _ (by omega)]
    simp only [Res.ok_bind, BitVec.toNat_ofNat, be_two, List.cons_append, idx_cons_zero, setIdx_cons_zero, List.nil_append]
    rw [or_f0 _ (by omega)]
    have e1 : (240 + x.nlen % 2 ^ 16 / 256) = (0xf000 + x.nlen) / 256 := by omega
    have e2 : BitVec.ofNat 8 (x.nlen % 2 ^ 16) = BitVec.ofNat 8 (0xf000 + x.nlen) := by
      apply BitVec.eq_of_toNat_eq; simp; omega
    rw [e1, e2]
    rfl

omit [FsSendable T] [FsSends T] in
theorem ends_fs_of (x : BgpFlowSpec T) (announced : Nat) (component : Bytes) (hn : x.nlen = announced)
    (hput : ∀ p t : Bytes, component.length ≤ t.length → putBody x (p ++ t) p.length =
      .ok ((p ++ component) ++ t.drop component.length, p.length + component.length)) :
    Ends x.encodeTo (fsSent announced component) := by
  subst hn
  by_cases h : x.nlen ≤ 4094
  · rw [fsSent, if_pos h]
    refine ends_octets_extra _ (x.nlen + 2 + component.length) fun buf hb => ?_
    have hl : (fsLen x.nlen).length ≤ 2 := by unfold fsLen; split <;> simp
    refine ⟨(buf.drop (fsLen x.nlen).length).drop component.length, ?_, by simp; omega⟩
    rw [fs_frame x h buf (by omega), hput _ _ (by simp; omega)]
    simp
  · rw [fsSent, if_neg h]
    refine ends_of 0 fun buf _ => ?_
    show (x.encodeTo buf).IsErr
    unfold BgpFlowSpec.encodeTo
    rw [if_pos (by omega)]
    trivial

theorem vals_announced (v : FSOperVec FSOperValItem) : 2 + v.bytesLen = valsAnnounced v := by
  rw [FSOperVec.bytesLen, foldl_add_sum, valsAnnounced]
  have : (fun i : FSOperValItem => FSOperItem.bytesLen i) =
      fun i => if i.value.toNat < 2 ^ 8 then 1 else if i.value.toNat < 2 ^ 16 then 3 else 5 := by
    funext i
    simp only [FSOperItem.bytesLen]
    split <;> split <;> (try split) <;> (try split) <;> omega
  simp only [this]
  omega

theorem masks_announced (v : FSOperVec FSOperMaskItem) : 2 + v.bytesLen = masksAnnounced v := by
  rw [FSOperVec.bytesLen, foldl_add_sum, masksAnnounced]
  have : (fun i : FSOperMaskItem => FSOperItem.bytesLen i) =
      fun i => if i.value.toNat < 2 ^ 8 then 1 else if i.value.toNat < 2 ^ 16 then 2 else if i.value.toNat < 2 ^ 24 then 3 else 5 := by
    funext i
    simp only [FSOperItem.bytesLen]
    split <;> split <;> (try split) <;> (try split) <;> (try split) <;> omega
  simp only [this]
  omega

omit [FsSendable T] [FsSends T] in
theorem ends_fs_ops {I : Type} [FSOperItem I] [FsOperator I] [FsLawful I] (x : BgpFlowSpec T) (c : U8) (v : FSOperVec I) (n : Nat)
    (hn : x.nlen = n) (hc : fsComponent x = c :: fsOpsWire v.items) (hb : putBody x = putOps c v) :
    Ends x.encodeTo (fsSent n (fsComponent x)) := by
  refine ends_fs_of x n (fsComponent x) hn fun p t ht => ?_
  rw [hc] at ht ⊢
  simp only [List.length_cons] at ht
  rw [hb, putOps_ok c v p t _ rfl (by omega)]
  simp [Nat.add_comm]

theorem ends_fs_prefix (x : BgpFlowSpec T) (c : U8) (a : T)
    (hn : x.nlen = 1 + FSItem.storeSize a) (hb : putBody x = putPrefix c a) :
    Ends x.encodeTo (if FsSendable.sendable a then fsSent (1 + (FsPrefix.body a).length) (c :: FsPrefix.body a) else .crash) := by
  cases hs : FsSendable.sendable a
  · rw [if_neg (by simp)]
    obtain ⟨room, hr⟩ := putPrefix_fails c a hs
    have h2 := FsSends.small a
    refine ends_of (x.nlen + 2 + room) fun buf h => ?_
    have hl : (fsLen x.nlen).length ≤ 2 := by unfold fsLen; split <;> simp
    show x.encodeTo buf = .panic
    rw [fs_frame x (by omega) buf (by omega), hb]
    exact hr _ _ (by simp; omega)
  · rw [if_pos rfl]
    refine ends_fs_of x _ (c :: FsPrefix.body a) ?_ fun p t ht => ?_
    · rw [hn, FsSends.size a hs]
    · simp only [List.length_cons] at ht
      rw [hb, putPrefix_sent c a hs p t _ rfl (by omega)]
      simp [Nat.add_comm]

omit [FsSends T] in
theorem ends_fs_oper [FsUnchecked T] (m : Build) (x : BgpFlowSpec T) (h1 : ∀ a, x ≠ .prefixDst a) (h2 : ∀ a, x ≠ .prefixSrc a) :
    Ends x.encodeTo (fsFate m x) := by
  cases x with
  | prefixDst a => exact absurd rfl (h1 a)
  | prefixSrc a => exact absurd rfl (h2 a)
  | proto v => exact ends_fs_ops (.proto v) 3 v _ (vals_announced v) rfl rfl
  | portAny v => exact ends_fs_ops (.portAny v) 4 v _ (vals_announced v) rfl rfl
  | portDst v => exact ends_fs_ops (.portDst v) 5 v _ (vals_announced v) rfl rfl
  | portSrc v => exact ends_fs_ops (.portSrc v) 6 v _ (vals_announced v) rfl rfl
  | icmpType v => exact ends_fs_ops (.icmpType v) 7 v _ (vals_announced v) rfl rfl
  | icmpCode v => exact ends_fs_ops (.icmpCode v) 8 v _ (vals_announced v) rfl rfl
  | tcpFlags v => exact ends_fs_ops (.tcpFlags v) 9 v _ (masks_announced v) rfl rfl
  | packetLength v => exact ends_fs_ops (.packetLength v) 10 v _ (vals_announced v) rfl rfl
  | dscp v => exact ends_fs_ops (.dscp v) 11 v _ (vals_announced v) rfl rfl
  | fragment v => exact ends_fs_ops (.fragment v) 12 v _ (masks_announced v) rfl rfl
  | flowLabel v => exact ends_fs_ops (.flowLabel v) 13 v _ (vals_announced v) rfl rfl

theorem ends_fs [FsUnchecked T] (x : BgpFlowSpec T) : Ends x.encodeTo (fsFate .checked x) := by
  cases x with
  | prefixDst a => exact ends_fs_prefix (.prefixDst a) 1 a rfl rfl
  | prefixSrc a => exact ends_fs_prefix (.prefixSrc a) 2 a rfl rfl
  | _ => exact ends_fs_oper .checked _ (by simp) (by simp)

end fs

end Zbgp
