import Verif.Lemmas.Open
import Verif.Lemmas.Utf8
import Verif.Lemmas.Families

/-! # Helper lemmas: OPEN and NOTIFICATION messages are read as specified -/

namespace Zbgp

open Spec

attribute [-simp] List.length_flatMap

theorem be1_u8 (a : U8) : be 1 a.toNat = [a] := by simp [be]

theorem exists_two_u16 (x y : U8) : ∃ v : U16, be 2 v.toNat = [x, y] ∧ getn16 [x, y] = .ok v := by
  obtain ⟨v, hv, e⟩ := exists_be (l := [x, y]) 2 (by simp)
  refine ⟨BitVec.ofNat 16 v, ?_, ?_⟩
  · rw [be2_ofNat']
    simpa using e.symm
  · have := getn16_be v []
    rw [e]
    simpa using this
where
  be2_ofNat' {n : Nat} : be 2 (BitVec.ofNat 16 n).toNat = be 2 n := by
    rw [BitVec.toNat_ofNat]; exact be_congr_mod 2 _

/-! ## Entries -/

theorem gr_dec (x y z f : U8) : ∃ v : U16, be 2 v.toNat = [x, y] ∧
    BgpCapGR.decodeFrom [x, y, z, f] = .ok ⟨v, z, decide (128 ≤ f.toNat)⟩ := by
  obtain ⟨v, h1, h2⟩ := exists_two_u16 x y
  refine ⟨v, h1, ?_⟩
  unfold BgpCapGR.decodeFrom
  rw [if_neg (by simp)]
  have : rslice [x, y, z, f] 0 2 = .ok [x, y] := by simp [rslice]
  rw [this, Res.ok_bind, h2]
  simp only [Res.ok_bind, idx, List.length_cons, List.length_nil, List.getElem_cons_succ, List.getElem_cons_zero]
  have k : ∀ f : U8, (f &&& 128 != 0) = decide (128 ≤ f.toNat) := by decide
  rw [← k f]
  simp

theorem be2_cancel {v w : U16} {x y : U8} (h1 : be 2 v.toNat = [x, y]) (h2 : be 2 w.toNat = [x, y]) : v = w := by
  have := be_inj v.isLt w.isLt (h1.trans h2.symm)
  exact BitVec.eq_of_toNat_eq this

theorem gr_dec_iff (b : Bytes) (hb : b.length = 4) (g : BgpCapGR) : BgpCapGR.decodeFrom b = .ok g ↔ GrEntryRead b g := by
  match b, hb with
  | [x, y, z, f], _ =>
    obtain ⟨v, h1, h2⟩ := gr_dec x y z f
    rw [h2]
    constructor
    · rintro h
      cases h
      exact ⟨f, by rw [h1]; rfl, by simp⟩
    · rintro ⟨f', e, h⟩
      obtain ⟨afi, safi, fs⟩ := g
      simp only at e h
      have e1 := List.append_inj (s₁ := [x, y]) (t₁ := [z, f]) e (by simp)
      have := be2_cancel h1 e1.1.symm
      obtain ⟨rfl, rfl⟩ : z = safi ∧ f = f' := by simpa using e1.2
      subst this
      have : fs = decide (128 ≤ f.toNat) := by rw [Bool.eq_iff_iff, h]; simp
      rw [this]

theorem ap_dec (x y z f : U8) : ∃ v : U16, be 2 v.toNat = [x, y] ∧
    BgpCapAddPath.decodeFrom [x, y, z, f] = .ok ⟨v, z, decide (f.toNat / 2 % 2 = 1), decide (f.toNat % 2 = 1)⟩ := by
  obtain ⟨v, h1, h2⟩ := exists_two_u16 x y
  refine ⟨v, h1, ?_⟩
  unfold BgpCapAddPath.decodeFrom
  rw [if_neg (by simp)]
  have : rslice [x, y, z, f] 0 2 = .ok [x, y] := by simp [rslice]
  rw [this, Res.ok_bind, h2]
  have k1 : ∀ f : U8, (decide ((f &&& 2).toNat > 0)) = decide (f.toNat / 2 % 2 = 1) := by decide
  have k2 : ∀ f : U8, (decide ((f &&& 1).toNat > 0)) = decide (f.toNat % 2 = 1) := by decide
  simp only [Res.ok_bind, idx_cons_zero, idx_cons_succ, k1, k2]

theorem ap_dec_iff (b : Bytes) (hb : b.length = 4) (g : BgpCapAddPath) :
    BgpCapAddPath.decodeFrom b = .ok g ↔ AddPathEntryRead b g := by
  match b, hb with
  | [x, y, z, f], _ =>
    obtain ⟨v, h1, h2⟩ := ap_dec x y z f
    rw [h2]
    constructor
    · rintro h
      cases h
      exact ⟨f, by rw [h1]; rfl, by simp, by simp⟩
    · rintro ⟨f', e, h, h'⟩
      obtain ⟨afi, safi, sd, rc⟩ := g
      simp only at e h h'
      have e1 := List.append_inj (s₁ := [x, y]) (t₁ := [z, f]) e (by simp)
      have := be2_cancel h1 e1.1.symm
      obtain ⟨rfl, rfl⟩ : z = safi ∧ f = f' := by simpa using e1.2
      subst this
      have a1 : rc = decide (f.toNat % 2 = 1) := by rw [Bool.eq_iff_iff, h]; simp
      have a2 : sd = decide (f.toNat / 2 % 2 = 1) := by rw [Bool.eq_iff_iff, h']; simp
      rw [a1, a2]

theorem llgr_dec_iff (b : Bytes) (hb : b.length = 7) (g : BgpCapLLGR) :
    BgpCapLLGR.decodeFrom b = .ok g ↔ LlgrEntryRead b g := by
  constructor
  · intro h
    obtain ⟨v1, h1, e1⟩ := exists_be (l := b) 2 (by omega)
    obtain ⟨x, y, t, et⟩ : ∃ x y t, b.drop 2 = x :: y :: t := by
      match hd : b.drop 2, (show (b.drop 2).length = 5 by simp; omega) with
      | x :: y :: t, _ => exact ⟨x, y, t, rfl⟩
    have ht : t.length = 3 := by
      have := congrArg List.length et
      simp at this; omega
    obtain ⟨v3, h3, e3⟩ := exists_be (l := t) 3 (by omega)
    rw [List.drop_eq_nil_of_le (by omega), List.append_nil] at e3
    have key : b = llgrEntry ⟨BitVec.ofNat 16 v1, x, y, BitVec.ofNat 32 v3⟩ := by
      rw [e1, et, e3]
      simp only [llgrEntry]
      rw [show (BitVec.ofNat 16 v1).toNat = v1 by simp; omega, show (BitVec.ofNat 32 v3).toNat = v3 by simp; omega]
      rfl
    rw [key, llgr_decode _ (by simp; omega)] at h
    cases h
    exact ⟨key, by simp; omega⟩
  · rintro ⟨rfl, h⟩
    exact llgr_decode g h

theorem chunks_iff {α : Type} (k : Nat) (hk : 0 < k) (dec : Bytes → Res α) (R : Bytes → α → Prop)
    (h1 : ∀ b x, b.length = k → (dec b = .ok x ↔ R b x)) (h2 : ∀ b x, R b x → b.length = k)
    (fuel : Nat) (data : Bytes) (hf : data.length < fuel) (hd : data.length % k = 0) (xs : List α) :
    BgpCapability.decodeChunks k dec fuel data = .ok xs ↔ EntriesRead R data xs := by
  induction fuel generalizing data xs with
  | zero => omega
  | succ fuel ih =>
    rw [BgpCapability.decodeChunks]
    cases data with
    | nil =>
      simp only [List.isEmpty_nil, if_true]
      constructor
      · intro h; cases h; exact .done
      · intro h
        generalize hg : ([] : Bytes) = g at h
        cases h with
        | done => rfl
        | entry b rest x xs h hr =>
          have := h2 _ _ h
          have := congrArg List.length hg
          simp at this
          omega
    | cons a data =>
      simp only [List.isEmpty_cons, Bool.false_eq_true, if_false]
      have hl : k ≤ (a :: data).length := by
        have := Nat.le_of_dvd (by simp) (Nat.dvd_of_mod_eq_zero hd)
        exact this
      obtain ⟨m, t, e, hm, -⟩ := exists_split k hl
      rw [e, rslice_append_zero _ _ _ hm.symm, Res.ok_bind, List.drop_left' hm]
      have hlen : t.length + k = (a :: data).length := by rw [e, List.length_append]; omega
      have htd : t.length % k = 0 := by rw [← hlen] at hd; simpa using hd
      have htf : t.length < fuel := by omega
      constructor
      · intro h
        obtain ⟨x, hx, h⟩ := Res.bind_eq_ok.1 h
        obtain ⟨ys, hy, h⟩ := Res.bind_eq_ok.1 h
        cases h
        exact .entry _ _ _ _ ((h1 _ _ hm).1 hx) ((ih t htf htd ys).1 hy)
      · intro h
        generalize hg : m ++ t = g at h
        cases h with
        | done =>
          have := congrArg List.length hg
          simp at this
          simp [this.1] at hm
          omega
        | entry b rest x xs h hr =>
          have hb := h2 _ _ h
          obtain ⟨rfl, rfl⟩ := List.append_inj hg (by omega)
          rw [(h1 _ _ hm).2 h, Res.ok_bind, (ih _ htf htd xs).2 hr]
          rfl

theorem entries_mod {α : Type} {k : Nat} {R : Bytes → α → Prop} (h2 : ∀ b x, R b x → b.length = k) {data : Bytes}
    {xs : List α} (h : EntriesRead R data xs) : data.length % k = 0 := by
  induction h with
  | done => simp
  | entry b rest x xs h hr ih => rw [List.length_append, h2 _ _ h, Nat.add_mod_left]; exact ih

theorem gr_len {b : Bytes} {x : BgpCapGR} (h : GrEntryRead b x) : b.length = 4 := by
  obtain ⟨f, rfl, -⟩ := h; simp

theorem ap_len {b : Bytes} {x : BgpCapAddPath} (h : AddPathEntryRead b x) : b.length = 4 := by
  obtain ⟨f, rfl, -⟩ := h; simp

theorem llgr_len {b : Bytes} {x : BgpCapLLGR} (h : LlgrEntryRead b x) : b.length = 7 := by
  obtain ⟨rfl, -⟩ := h; simp [llgrEntry]

/-! ## Capabilities -/

theorem mpTable_sound : ∀ p ∈ BgpCapability.mpTable, capValue p.2 = some (1, p.1) := by decide

theorem lookup_mem {α β : Type} [BEq α] [LawfulBEq α] {l : List (α × β)} {a : α} {b : β} (h : l.lookup a = some b) : (a, b) ∈ l := by
  induction l with
  | nil => simp at h
  | cons p l ih =>
    obtain ⟨x, y⟩ := p
    rw [List.lookup_cons] at h
    split at h
    · rename_i hx
      cases h
      have := eq_of_beq hx
      simp [this]
    · exact List.mem_cons_of_mem _ (ih h)

theorem mp_iff (data : Bytes) (c : BgpCapability) : BgpCapability.mpTable.lookup data = some c ↔ capValue c = some (1, data) := by
  constructor
  · intro h
    exact mpTable_sound _ (lookup_mem h)
  · intro h
    cases c <;> simp only [capValue, Option.some.injEq, Prod.mk.injEq, reduceCtorEq, Nat.reduceEqDiff, false_and, true_and] at h <;>
      first | (subst h; rfl) | skip

theorem restartTime_and (w : Nat) (h : w < 65536) :
    (BitVec.ofNat 16 w) &&& 0x0fff = BitVec.ofNat 16 (w % 2 ^ 12) := by
  apply BitVec.eq_of_toNat_eq
  rw [BitVec.toNat_and, show (0x0fff : U16).toNat = 2 ^ 12 - 1 from rfl, Nat.and_two_pow_sub_one_eq_mod]
  simp
  omega

theorem cap_gr (data : Bytes) (o : Option BgpCapability) :
    BgpCapability.fromTypeAndData 64 data = .ok o ↔ CapRead 64 data o := by
  unfold BgpCapability.fromTypeAndData
  simp only [show (64 : U8).toNat = 64 from rfl]
  by_cases hc : data.length < 2 ∨ (data.length - 2) % 4 ≠ 0
  · rw [if_pos hc]
    constructor
    · intro h; cases h
    · intro h
      generalize hg : (64 : U8) = g at h
      cases h with
      | gr w b afis hw h =>
        have := entries_mod (fun b x => gr_len) h
        simp at hc
        omega
      | other code data h => subst hg; exact absurd (by decide) h
      | _ => exact absurd hg (by decide)
  rw [if_neg hc]
  obtain ⟨w, hw, e⟩ := exists_be (l := data) 2 (by omega)
  generalize data.drop 2 = t at e
  subst e
  simp only [List.length_append, be_length] at hc
  have hi : idx (be 2 w ++ t) 0 = .ok (BitVec.ofNat 8 (w / 256)) := by
    simp [be, idx]
  rw [hi, Res.ok_bind, rslice_be_hit, Res.ok_bind]
  have hg16 : getn16 (be 2 w) = .ok (BitVec.ofNat 16 w) := by have := getn16_be w []; rwa [List.append_nil] at this
  rw [hg16, Res.ok_bind, restartTime_and _ hw]
  have hb : ((BitVec.ofNat 8 (w / 256) : U8) &&& 128 != 0) = decide (2 ^ 15 ≤ w) := by
    have : ∀ f : U8, (f &&& 128 != 0) = decide (128 ≤ f.toNat) := by decide
    rw [this]
    have : (BitVec.ofNat 8 (w / 256) : U8).toNat = w / 256 := by simp; omega
    rw [this]
    congr 1
    simp
    omega
  rw [hb]
  have ch := chunks_iff 4 (by decide) BgpCapGR.decodeFrom GrEntryRead (fun b x hb => gr_dec_iff b hb x) (fun b x => gr_len)
    ((be 2 w ++ t).length + 1) t (by simp; omega) (by omega)
  constructor
  · intro h
    obtain ⟨afis, ha, h⟩ := Res.bind_eq_ok.1 h
    cases h
    exact .gr w t afis hw ((ch _).1 ha)
  · intro h
    generalize hg : (64 : U8) = g at h
    generalize hd : be 2 w ++ t = d at h
    cases h with
    | gr w' b afis hw' h =>
      have e := List.append_inj hd (by simp)
      have ew := be_inj hw hw' e.1
      rw [e.2, ew] at ch
      rw [e.2, ew, (ch _).2 h]
      rfl
    | other code data h => subst hg; exact absurd (by decide) h
    | _ => exact absurd hg (by decide)

theorem cap_fqdn (data : Bytes) (o : Option BgpCapability) :
    BgpCapability.fromTypeAndData 73 data = .ok o ↔ CapRead 73 data o := by
  unfold BgpCapability.fromTypeAndData
  simp only [show (73 : U8).toNat = 73 from rfl]
  constructor
  · intro h
    cases data with
    | nil => simp at h
    | cons a t =>
      simp only [List.isEmpty_cons, Bool.false_eq_true, if_false, idx_cons_zero, Res.ok_bind, rfrom_cons_succ, rfrom_zero] at h
      by_cases h1 : t.length < a.toNat
      · rw [if_pos h1] at h; cases h
      rw [if_neg h1] at h
      obtain ⟨host, t, rfl, hl, -⟩ := exists_split a.toNat (show a.toNat ≤ t.length by omega)
      have r1 : rslice (a :: (host ++ t)) 1 (1 + a.toNat) = .ok host :=
        rslice_append_mid [a] host t _ _ rfl (by simp; omega)
      have r2 : rfrom (a :: (host ++ t)) (1 + a.toNat) = .ok t :=
        rfrom_append (a :: host) t _ (by simp; omega)
      rw [r1, Res.ok_bind] at h
      unfold BgpCapability.fromUtf8 at h
      by_cases hu : BgpCapability.utf8Valid host = true
      swap
      · rw [if_neg hu] at h; cases h
      rw [if_pos hu, Res.ok_bind, r2, Res.ok_bind] at h
      cases t with
      | nil => simp at h
      | cons d t =>
        have r3 : rfrom (a :: (host ++ d :: t)) (2 + a.toNat) = .ok t := by
          have := rfrom_append (a :: (host ++ [d])) t (2 + a.toNat) (by simp; omega)
          simpa using this
        have r4 : idx (a :: (host ++ d :: t)) (1 + a.toNat) = .ok d := by
          simp [idx, hl, Nat.add_comm 1, List.getElem_append_right]
        rw [r3, r4] at h
        simp only [List.isEmpty_cons, Bool.false_eq_true, if_false, Res.ok_bind] at h
        split at h
        · cases h
        rename_i hd
        obtain ⟨v, hv, h⟩ := Res.bind_eq_ok.1 h
        obtain ⟨dn, hdn, h⟩ := Res.bind_eq_ok.1 h
        split at h
        swap
        · cases h
        rename_i ht
        have ht : t = [] := by simpa using ht
        subst ht
        simp only [List.isEmpty_nil, if_true] at *
        simp at hd
        have hd0 : d.toNat = 0 := by omega
        have hdz : d = 0 := BitVec.eq_of_toNat_eq hd0
        subst hdz
        have hvn : v = [] := by
          rw [rslice_eq_ok] at hv
          rw [hv.2.2]
          simp
        subst hvn
        have hdn' : dn = [] := by simpa [BgpCapability.utf8Valid, eq_comm] using hdn
        subst hdn'
        have := CapRead.fqdn host (by have := a.isLt; omega) ((utf8Valid_iff _).1 hu)
        have e : fqdnValue host [] = a :: (host ++ [0]) := by
          rw [fqdnValue, hl, be1_u8]
          simp [be]
        rw [e] at this
        cases h
        exact this
  · intro h
    generalize hg : (73 : U8) = g at h
    cases h with
    | fqdn host hl hu =>
      have hu := (utf8Valid_iff _).2 hu
      have e : fqdnValue host [] = BitVec.ofNat 8 host.length :: (host ++ [0]) := by
        simp [fqdnValue, be]
      have hn : (BitVec.ofNat 8 host.length).toNat = host.length := by simp; omega
      rw [e]
      simp only [List.isEmpty_cons, Bool.false_eq_true, if_false, idx_cons_zero, Res.ok_bind, rfrom_cons_succ, rfrom_zero, hn]
      have r1 : rslice (BitVec.ofNat 8 host.length :: (host ++ [0])) 1 (1 + host.length) = .ok host :=
        rslice_append_mid [BitVec.ofNat 8 host.length] host [0] _ _ rfl (by simp)
      have r2 : rfrom (BitVec.ofNat 8 host.length :: (host ++ [0])) (1 + host.length) = .ok [0] :=
        rfrom_append (BitVec.ofNat 8 host.length :: host) [0] _ (by simp; omega)
      have r3 : rfrom (BitVec.ofNat 8 host.length :: (host ++ [0])) (2 + host.length) = .ok [] := by
        rw [rfrom_eq_ok]
        simp
        omega
      have r4 : idx (BitVec.ofNat 8 host.length :: (host ++ [0])) (1 + host.length) = .ok 0 := by
        simp [idx, Nat.add_comm 1, List.getElem_append_right]
      have r5 : rslice (BitVec.ofNat 8 host.length :: (host ++ [0])) (2 + host.length) (2 + host.length + (0 : U8).toNat) = .ok [] := by
        rw [rslice_eq_ok]
        simp
        omega
      rw [if_neg (by simp), r1, Res.ok_bind]
      unfold BgpCapability.fromUtf8
      rw [if_pos hu, Res.ok_bind, r2, r3, r4]
      simp only [List.isEmpty_cons, Bool.false_eq_true, if_false, Res.ok_bind]
      rw [if_neg (by simp), r5]
      rfl
    | other code data h => subst hg; exact absurd (by decide) h
    | _ => exact absurd hg (by decide)

theorem cap_addPath (data : Bytes) (o : Option BgpCapability) :
    BgpCapability.fromTypeAndData 69 data = .ok o ↔ CapRead 69 data o := by
  unfold BgpCapability.fromTypeAndData
  simp only [show (69 : U8).toNat = 69 from rfl]
  have hand : data.length &&& 3 = data.length % 4 := by
    rw [show (3 : Nat) = 2 ^ 2 - 1 from rfl, Nat.and_two_pow_sub_one_eq_mod]
  rw [hand]
  by_cases hc : data.length % 4 ≠ 0
  · rw [if_pos hc]
    constructor
    · intro h; cases h
    · intro h
      generalize hg : (69 : U8) = g at h
      cases h with
      | addPath b v h => exact absurd (entries_mod (fun b x => ap_len) h) hc
      | other code data h => subst hg; exact absurd (by decide) h
      | _ => exact absurd hg (by decide)
  rw [if_neg hc]
  have ch := chunks_iff 4 (by decide) BgpCapAddPath.decodeFrom AddPathEntryRead (fun b x hb => ap_dec_iff b hb x) (fun b x => ap_len)
    (data.length + 1) data (by omega) (by omega)
  constructor
  · intro h
    obtain ⟨v, ha, h⟩ := Res.bind_eq_ok.1 h
    cases h
    exact .addPath data v ((ch _).1 ha)
  · intro h
    generalize hg : (69 : U8) = g at h
    cases h with
    | addPath b v h => rw [(ch _).2 h]; rfl
    | other code data h => subst hg; exact absurd (by decide) h
    | _ => exact absurd hg (by decide)

theorem cap_llgr (data : Bytes) (o : Option BgpCapability) :
    BgpCapability.fromTypeAndData 71 data = .ok o ↔ CapRead 71 data o := by
  unfold BgpCapability.fromTypeAndData
  simp only [show (71 : U8).toNat = 71 from rfl]
  by_cases hc : data.length % 7 ≠ 0
  · rw [if_pos hc]
    constructor
    · intro h; cases h
    · intro h
      generalize hg : (71 : U8) = g at h
      cases h with
      | llgr b v h => exact absurd (entries_mod (fun b x => llgr_len) h) hc
      | other code data h => subst hg; exact absurd (by decide) h
      | _ => exact absurd hg (by decide)
  rw [if_neg hc]
  have ch := chunks_iff 7 (by decide) BgpCapLLGR.decodeFrom LlgrEntryRead (fun b x hb => llgr_dec_iff b hb x) (fun b x => llgr_len)
    (data.length + 1) data (by omega) (by omega)
  constructor
  · intro h
    obtain ⟨v, ha, h⟩ := Res.bind_eq_ok.1 h
    cases h
    exact .llgr data v ((ch _).1 ha)
  · intro h
    generalize hg : (71 : U8) = g at h
    cases h with
    | llgr b v h => rw [(ch _).2 h]; rfl
    | other code data h => subst hg; exact absurd (by decide) h
    | _ => exact absurd hg (by decide)

theorem cap_asn (data : Bytes) (o : Option BgpCapability) :
    BgpCapability.fromTypeAndData 65 data = .ok o ↔ CapRead 65 data o := by
  unfold BgpCapability.fromTypeAndData
  simp only [show (65 : U8).toNat = 65 from rfl]
  constructor
  · intro h
    split at h
    · cases h
    rename_i hl
    obtain ⟨v, hv, e⟩ := exists_be (l := data) 4 (by omega)
    rw [List.drop_eq_nil_of_le (by omega), List.append_nil] at e
    have := getn32_be v []
    rw [List.append_nil, ← e] at this
    rw [this] at h
    cases h
    have hc := CapRead.asn32 (BitVec.ofNat 32 v)
    rwa [show (BitVec.ofNat 32 v).toNat = v by simp; omega, ← e] at hc
  · intro h
    generalize hg : (65 : U8) = g at h
    cases h with
    | asn32 n =>
      rw [if_neg (by simp)]
      have := getn32_be n.toNat []
      rw [List.append_nil] at this
      rw [this]
      simp
    | other code data h => subst hg; exact absurd (by decide) h
    | _ => exact absurd hg (by decide)

theorem cap_mp (data : Bytes) (o : Option BgpCapability) :
    BgpCapability.fromTypeAndData 1 data = .ok o ↔ CapRead 1 data o := by
  unfold BgpCapability.fromTypeAndData
  simp only [show (1 : U8).toNat = 1 from rfl]
  constructor
  · intro h
    split at h
    · cases h
    rename_i hl
    have h := Res.ok.inj h
    cases o with
    | some c => exact .mp data c ((mp_iff _ _).1 h)
    | none =>
      refine .mpOther data (by omega) fun c hc => ?_
      rw [(mp_iff _ _).2 hc] at h
      cases h
  · intro h
    generalize hg : (1 : U8) = g at h
    cases h with
    | mp data c h =>
      have hm := (mp_iff _ _).2 h
      have : data.length = 4 := by
        have := lookup_mem hm
        have all : ∀ p ∈ BgpCapability.mpTable, p.1.length = 4 := by decide
        exact all _ this
      rw [if_neg (by omega), hm]
    | mpOther data hl h =>
      rw [if_neg (by omega)]
      cases hm : BgpCapability.mpTable.lookup data with
      | none => rfl
      | some c => exact absurd ((mp_iff _ _).1 hm) (h c)
    | other code data h => subst hg; exact absurd (by decide) h
    | _ => exact absurd hg (by decide)

theorem cap_flag (k : U8) (hk : k = 2 ∨ k = 70 ∨ k = 74) (data : Bytes) (o : Option BgpCapability) :
    BgpCapability.fromTypeAndData k data = .ok o ↔ CapRead k data o := by
  constructor
  · intro h
    unfold BgpCapability.fromTypeAndData at h
    rcases hk with rfl | rfl | rfl
    · simp only [show (2 : U8).toNat = 2 from rfl] at h
      split at h
      · rename_i hd
        have : data = [] := by simpa using hd
        subst this
        cases h; exact .rr
      · cases h
    · simp only [show (70 : U8).toNat = 70 from rfl] at h
      split at h
      · rename_i hd
        have : data = [] := by simpa using hd
        subst this
        cases h; exact .err
      · cases h
    · simp only [show (74 : U8).toNat = 74 from rfl] at h
      split at h
      · rename_i hd
        have : data = [] := by simpa using hd
        subst this
        cases h; exact .bfd
      · cases h
  · intro h
    cases h with
    | rr => rfl
    | err => rfl
    | bfd => rfl
    | other code data h => rcases hk with rfl | rfl | rfl <;> exact absurd (by decide) h
    | _ => exact absurd hk (by decide)

theorem cap_iff (t : U8) (data : Bytes) (o : Option BgpCapability) :
    BgpCapability.fromTypeAndData t data = .ok o ↔ CapRead t data o := by
  by_cases hk : t.toNat ∈ knownCodes
  · have ht : ∀ k : U8, t.toNat = k.toNat → t = k := fun k h => BitVec.eq_of_toNat_eq h
    simp only [knownCodes, List.mem_cons, List.not_mem_nil, or_false] at hk
    rcases hk with h | h | h | h | h | h | h | h | h
    · rw [ht 1 h]; exact cap_mp _ _
    · rw [ht 2 h]; exact cap_flag _ (by simp) _ _
    · rw [ht 64 h]; exact cap_gr _ _
    · rw [ht 65 h]; exact cap_asn _ _
    · rw [ht 69 h]; exact cap_addPath _ _
    · rw [ht 70 h]; exact cap_flag _ (by simp) _ _
    · rw [ht 71 h]; exact cap_llgr _ _
    · rw [ht 73 h]; exact cap_fqdn _ _
    · rw [ht 74 h]; exact cap_flag _ (by simp) _ _
  · have := unknown_none (data := data) t.isLt hk
    rw [BitVec.ofNat_toNat, BitVec.setWidth_eq] at this
    rw [this]
    constructor
    · intro h; cases h; exact .other t data hk
    · intro h
      cases h with
      | other => rfl
      | _ => exact absurd (by decide) hk

/-! ## Parameters -/

theorem tlv_u8 (code : U8) (data : Bytes) : tlv code.toNat data = code :: BitVec.ofNat 8 data.length :: data := by
  simp [tlv, be]

theorem fromBuffer_dec (code : U8) (data r : Bytes) (hl : data.length ≤ 255) :
    BgpCapability.fromBuffer (tlv code.toNat data ++ r) =
      (BgpCapability.fromTypeAndData code data >>= fun o => .ok ((match o with
        | some cap => .inl cap
        | none => .inr (code, data)), 2 + data.length)) := by
  rw [fromBuffer_tlv _ _ _ hl, BitVec.ofNat_toNat, BitVec.setWidth_eq]
  cases BgpCapability.fromTypeAndData code data with
  | ok o => cases o <;> rfl
  | _ => rfl

theorem exists_tlv {b : Bytes} {c : BgpCapability ⊕ (U8 × Bytes)} {n : Nat} (h : BgpCapability.fromBuffer b = .ok (c, n)) :
    ∃ code data r, b = tlv (BitVec.toNat (w := 8) code) data ++ r ∧ data.length ≤ 255 ∧ n = 2 + data.length := by
  unfold BgpCapability.fromBuffer at h
  match b, h with
  | [], h => simp at h
  | [x], h => simp at h
  | code :: l :: t, h =>
    rw [if_neg (by simp)] at h
    simp only [idx_cons_zero, Res.ok_bind, show idx (code :: l :: t) 1 = .ok l from rfl] at h
    split at h
    · cases h
    rename_i hl
    simp at hl
    obtain ⟨d, r, rfl, hd, -⟩ := exists_split l.toNat (show l.toNat ≤ t.length by omega)
    refine ⟨code, d, r, ?_, by have := l.isLt; omega, ?_⟩
    · rw [tlv_u8, hd]; simp
    · obtain ⟨_, _, h⟩ := Res.bind_eq_ok.1 h
      obtain ⟨o, _, h⟩ := Res.bind_eq_ok.1 h
      cases o <;> (cases h; omega)

theorem capsRead_tlv {b : Bytes} {l : List BgpCapability} (h : CapsRead b l) (code : U8) (data rest : Bytes)
    (e : b = tlv code.toNat data ++ rest) (hl : data.length ≤ 255) :
    ∃ o l', CapRead code data o ∧ CapsRead rest l' ∧ l = o.toList ++ l' := by
  cases h with
  | done => have := congrArg List.length e; simp [tlv_length] at this; omega
  | cap code' data' rest' o l' hl' h hr =>
    rw [tlv_u8, tlv_u8] at e
    simp only [List.cons_append, List.cons.injEq] at e
    obtain ⟨rfl, e1, e2⟩ := e
    have : data'.length = data.length := by
      have := congrArg BitVec.toNat e1
      simp at this
      omega
    obtain ⟨rfl, rfl⟩ := List.append_inj e2 this
    exact ⟨o, l', h, hr, rfl⟩

theorem caps_iff (fuel : Nat) (body rest : Bytes) (hf : body.length < fuel) (cs : List BgpCapability) (r : Bytes) :
    BgpOpenMessage.decodeCaps fuel (body ++ rest) body.length = .ok (cs, r) ↔ CapsRead body cs ∧ r = rest := by
  induction fuel generalizing body cs r with
  | zero => omega
  | succ fuel ih =>
    rw [BgpOpenMessage.decodeCaps]
    cases body with
    | nil =>
      simp only [List.length_nil, if_true, List.nil_append]
      constructor
      · intro h; cases h; exact ⟨.done, rfl⟩
      · rintro ⟨h, rfl⟩
        generalize hg : ([] : Bytes) = g at h
        cases h with
        | done => rfl
        | cap code data rest o l hl h hr =>
          have := congrArg List.length hg
          simp [tlv_length] at this
          omega
    | cons x body =>
      rw [if_neg (by simp)]
      generalize hB : x :: body = B at *
      have hBl : 1 ≤ B.length := by rw [← hB]; simp
      clear hB
      have hs : sliceE (B ++ rest) 0 B.length = .ok B := by
        have := sliceE_append_mid [] B rest 0 B.length rfl (by simp)
        simpa using this
      rw [hs, Res.ok_bind]
      constructor
      · intro h
        obtain ⟨⟨c, n⟩, hc, h⟩ := Res.bind_eq_ok.1 h
        obtain ⟨code, data, B', rfl, hl, rfl⟩ := exists_tlv hc
        rw [fromBuffer_dec _ _ _ hl] at hc
        obtain ⟨o, ho, hc⟩ := Res.bind_eq_ok.1 hc
        have hsub : subN (tlv code.toNat data ++ B').length (2 + data.length) = .ok B'.length := by
          rw [List.length_append, tlv_length, subN, if_pos (by omega)]
          congr 1
          omega
        simp only [hsub, Res.ok_bind] at h
        rw [List.append_assoc, List.drop_left' (tlv_length _ _)] at h
        obtain ⟨⟨cs', r'⟩, hr, h'⟩ := Res.bind_eq_ok.1 h
        obtain ⟨h1, rfl⟩ := (ih B' (by simp [tlv_length] at hf; omega) _ _).1 hr
        have ho := (cap_iff _ _ _).1 ho
        cases o with
        | some cap => cases hc; cases h'; exact ⟨.cap code data B' _ _ hl ho h1, rfl⟩
        | none => cases hc; cases h'; exact ⟨.cap code data B' _ _ hl ho h1, rfl⟩
      · rintro ⟨h, rfl⟩
        cases h with
        | done => simp at hBl
        | cap code data B' o l hl h hr =>
          rw [fromBuffer_dec _ _ _ hl, (cap_iff _ _ _).2 h]
          have hsub : subN (tlv code.toNat data ++ B').length (2 + data.length) = .ok B'.length := by
            rw [List.length_append, tlv_length, subN, if_pos (by omega)]
            congr 1
            omega
          simp only [Res.ok_bind, hsub]
          rw [List.append_assoc, List.drop_left' (tlv_length _ _),
            (ih B' (by simp [tlv_length] at hf; omega) _ _).2 ⟨hr, rfl⟩]
          cases o <;> rfl

theorem decodeCaps_enough {fuel : Nat} {rest : Bytes} {optlen : Nat} {r : List BgpCapability × Bytes}
    (h : BgpOpenMessage.decodeCaps fuel rest optlen = .ok r) : optlen ≤ rest.length := by
  cases fuel with
  | zero => cases h
  | succ fuel =>
    rw [BgpOpenMessage.decodeCaps] at h
    split at h
    · omega
    obtain ⟨s, hs, h⟩ := Res.bind_eq_ok.1 h
    exact (sliceE_eq_ok.1 hs).2.1

theorem params_iff (fuel : Nat) (b : Bytes) (hf : b.length < fuel) (cs : List BgpCapability) :
    BgpOpenMessage.decodeParams fuel b = .ok cs ↔ ParamsRead b cs := by
  induction fuel generalizing b cs with
  | zero => omega
  | succ fuel ih =>
    rw [BgpOpenMessage.decodeParams]
    by_cases hb : 1 < b.length
    swap
    · rw [if_neg hb]
      constructor
      · intro h; cases h; exact .done _ (by omega)
      · intro h
        cases h with
        | done => rfl
        | param body rest l l' hl h hr => simp [capParam, tlv_length] at hb; omega
    rw [if_pos hb]
    match b, hb with
    | t :: n :: rest, _ =>
      simp only [idx_cons_zero, Res.ok_bind, show idx (t :: n :: rest) 1 = .ok n from rfl, List.drop_succ_cons, List.drop_zero]
      constructor
      · intro h
        split at h
        · cases h
        rename_i ht
        have ht : t = 2 := by simpa using ht
        subst ht
        obtain ⟨⟨cs', r⟩, hc, h2⟩ := Res.bind_eq_ok.1 h
        obtain ⟨body, rest, rfl, hn, -⟩ := exists_split n.toNat (decodeCaps_enough hc)
        simp only [← hn] at hc
        obtain ⟨h1, rfl⟩ := (caps_iff _ _ _ (by simp only [List.length_cons, List.length_append]; omega) _ _).1 hc
        obtain ⟨more, hm, h'⟩ := Res.bind_eq_ok.1 h2
        cases h'
        have := ParamsRead.param body r cs' more (by have := n.isLt; omega) h1
          ((ih _ (by simp at hf; omega) _).1 hm)
        have e : capParam body = 2 :: n :: body := by
          rw [capParam, show (2 : Nat) = (2 : U8).toNat from rfl, tlv_u8, hn]; simp
        rwa [e] at this
      · intro h
        generalize hg : t :: n :: rest = g at h
        cases h with
        | done b h => subst hg; simp at h
        | param body rest' l l' hl h hr =>
          have e : capParam body = 2 :: BitVec.ofNat 8 body.length :: body := by
            rw [capParam, show (2 : Nat) = (2 : U8).toNat from rfl, tlv_u8]
          rw [e] at hg
          simp only [List.cons_append, List.cons.injEq] at hg
          obtain ⟨rfl, rfl, rfl⟩ := hg
          have hn : (BitVec.ofNat 8 body.length).toNat = body.length := by simp; omega
          simp only [hn]
          have hfu : body.length < (capParam body ++ rest').length + 1 := by
            simp only [e, List.cons_append, List.length_cons, List.length_append]; omega
          rw [if_neg (by decide), (caps_iff _ body rest' hfu l rest').2 ⟨h, rfl⟩]
          simp only [Res.ok_bind]
          rw [(ih _ (by simp at hf; omega) _).2 hr]
          rfl

/-! ## OPEN -/

theorem open_dec (self : BgpOpenMessage) (as hold rid : Nat) (len : U8) (params : Bytes) (h1 : as < 65536)  :
    self.decodeFrom (be 1 4 ++ (be 2 as ++ (be 2 hold ++ (be 4 rid ++ (len :: params))))) =
      (BgpOpenMessage.decodeParams (params.length + 11) params >>= fun caps =>
        .ok ⟨BitVec.ofNat 32 as, BitVec.ofNat 16 hold, BitVec.ofNat 32 rid, caps⟩) := by
  have e : (be 1 4 ++ (be 2 as ++ (be 2 hold ++ (be 4 rid ++ (len :: params)))) : Bytes) =
      [4, BitVec.ofNat 8 (as / 256), BitVec.ofNat 8 as, BitVec.ofNat 8 (hold / 256), BitVec.ofNat 8 hold,
        BitVec.ofNat 8 (rid / 256 ^ 3), BitVec.ofNat 8 (rid / 256 ^ 2), BitVec.ofNat 8 (rid / 256), BitVec.ofNat 8 rid, len] ++ params := by
    simp [be]
  rw [e]
  unfold BgpOpenMessage.decodeFrom
  rw [if_neg (by simp)]
  have hs : ∀ (a : U8) (t : Bytes), sliceE (a :: t) 1 (a :: t).length = .ok t := by
    intro a t; simp [sliceE]
  simp only [List.cons_append, List.nil_append, idx_cons_zero, Res.ok_bind, idx_cons_succ, hs]
  rw [if_neg (by decide)]
  simp only [ntoh16_load]
  have u16 : ∀ n : Nat, BitVec.ofNat 16 (unbe [BitVec.ofNat 8 (n / 256), BitVec.ofNat 8 n]) = BitVec.ofNat 16 n := by
    intro n
    have := unbe_be 2 n
    simp only [be] at this
    apply BitVec.eq_of_toNat_eq
    rw [show ([BitVec.ofNat 8 (n / 256), BitVec.ofNat 8 n] : Bytes) = be 2 n by simp [be], unbe_be]
    simp
  have u32 : BitVec.ofNat 32 (unbe [BitVec.ofNat 8 (rid / 256 ^ 3), BitVec.ofNat 8 (rid / 256 ^ 2), BitVec.ofNat 8 (rid / 256), BitVec.ofNat 8 rid]) =
      BitVec.ofNat 32 rid := by
    apply BitVec.eq_of_toNat_eq
    rw [show ([BitVec.ofNat 8 (rid / 256 ^ 3), BitVec.ofNat 8 (rid / 256 ^ 2), BitVec.ofNat 8 (rid / 256), BitVec.ofNat 8 rid] : Bytes) = be 4 rid by
      simp [be], unbe_be]
    simp
  rw [u16, u16, u32]
  have ea : (BitVec.ofNat 16 as).setWidth 32 = BitVec.ofNat 32 as := by
    apply BitVec.eq_of_toNat_eq
    simp
    omega
  rw [ea]
  simp only [List.drop_succ_cons, List.drop_zero, List.length_cons, List.nil_append]

theorem exists_open {b : Bytes} (h : 10 ≤ b.length) : ∃ (v as hold rid : Nat) (len : U8) (params : Bytes),
    b = be 1 v ++ (be 2 as ++ (be 2 hold ++ (be 4 rid ++ (len :: params)))) ∧ v < 256 ∧ as < 65536 ∧ hold < 65536 ∧ rid < 2 ^ 32 := by
  obtain ⟨v, hv, e1⟩ := exists_be (l := b) 1 (by omega)
  obtain ⟨as, ha, e2⟩ := exists_be (l := b.drop 1) 2 (by simp; omega)
  obtain ⟨ho, hh, e3⟩ := exists_be (l := (b.drop 1).drop 2) 2 (by simp; omega)
  obtain ⟨rid, hr, e4⟩ := exists_be (l := ((b.drop 1).drop 2).drop 2) 4 (by simp; omega)
  have hl : 1 ≤ ((((b.drop 1).drop 2).drop 2).drop 4).length := by simp; omega
  match h5 : (((b.drop 1).drop 2).drop 2).drop 4, hl with
  | len :: params, _ =>
    rw [h5] at e4
    rw [e4] at e3
    rw [e3] at e2
    rw [e2] at e1
    exact ⟨v, as, ho, rid, len, params, e1, by simpa using hv, ha, hh, by omega⟩

theorem open_iff (self : BgpOpenMessage) (b : Bytes) (m : BgpOpenMessage) : self.decodeFrom b = .ok m ↔ OpenRead b m := by
  constructor
  · intro h
    by_cases hb : b.length < 10
    · rw [BgpOpenMessage.decodeFrom, if_pos hb] at h; cases h
    obtain ⟨v, as, ho, rid, len, params, rfl, hv, ha, hh, hr⟩ := exists_open (show 10 ≤ b.length by omega)
    have h4 : v = 4 := by
      apply Classical.byContradiction
      intro hne
      rw [BgpOpenMessage.decodeFrom, if_neg hb] at h
      have : idx (be 1 v ++ (be 2 as ++ (be 2 ho ++ (be 4 rid ++ (len :: params))))) 0 = .ok (BitVec.ofNat 8 v) := by simp [be, idx]
      rw [this, Res.ok_bind, if_pos ?_] at h
      · cases h
      · simp
        intro e
        have := congrArg BitVec.toNat e
        simp at this
        omega
    subst h4
    rw [open_dec _ _ _ _ _ _ ha] at h
    obtain ⟨caps, hc, h⟩ := Res.bind_eq_ok.1 h
    cases h
    refine ⟨BitVec.ofNat 16 as, len, params, ?_, ?_, (params_iff _ _ (by omega) _).1 hc⟩
    · simp only
      rw [show (BitVec.ofNat 16 as).toNat = as by simp; omega, show (BitVec.ofNat 16 ho).toNat = ho by simp; omega,
        show (BitVec.ofNat 32 rid).toNat = rid by simp; omega]
    · simp; omega
  · rintro ⟨as, len, params, rfl, ha, hp⟩
    obtain ⟨asn, hold, rid, caps⟩ := m
    rw [open_dec _ _ _ _ _ _ as.isLt, (params_iff _ _ (by omega) _).2 hp]
    have : BitVec.ofNat 32 as.toNat = asn := by
      apply BitVec.eq_of_toNat_eq
      simp only at ha
      rw [ha]
      simp
      omega
    simp [this]

/-! ## NOTIFICATION -/

theorem notification_iff (self : BgpNotificationMessage) (b : Bytes) (m : BgpNotificationMessage) :
    self.decodeFrom b = .ok m ↔ NotificationRead self.data b m := by
  obtain ⟨c, s, d⟩ := m
  unfold NotificationRead
  match b with
  | [] => simp [BgpNotificationMessage.decodeFrom]
  | [x] => simp [BgpNotificationMessage.decodeFrom]
  | [x, y] =>
    have e : self.decodeFrom [x, y] = .ok ⟨x, y, self.data⟩ := rfl
    rw [e]
    constructor
    · intro h; cases h; exact .inl ⟨rfl, rfl⟩
    · rintro (⟨h, h'⟩ | ⟨z, h, -⟩ | ⟨r, h⟩)
      · cases h; simp only at h'; rw [h']
      · cases h
      · have := congrArg List.length h; simp at this
  | [x, y, z] =>
    have e : self.decodeFrom [x, y, z] = .ok ⟨x, y, z.setWidth 16⟩ := rfl
    have hz := z.isLt
    rw [e]
    constructor
    · intro h; cases h; exact .inr (.inl ⟨z, rfl, by simp; omega⟩)
    · rintro (⟨h, h'⟩ | ⟨z, h, h'⟩ | ⟨r, h⟩)
      · cases h
      · cases h
        have : z.setWidth 16 = d := by
          apply BitVec.eq_of_toNat_eq
          simp only at h'
          rw [h']
          simp
          omega
        rw [this]
      · have := congrArg List.length h; simp at this; omega
  | x :: y :: z :: w :: t =>
    obtain ⟨v, h1, h2⟩ := exists_two_u16 z w
    have hv : ((z.setWidth 16 <<< 8) ||| w.setWidth 16 : U16) = v := by
      have : getn16 [z, w] = .ok ((z.setWidth 16 <<< 8) ||| w.setWidth 16) := rfl
      rw [this] at h2
      exact Res.ok.inj h2
    have e : self.decodeFrom (x :: y :: z :: w :: t) = .ok ⟨x, y, v⟩ := by
      unfold BgpNotificationMessage.decodeFrom
      rw [if_neg (by simp)]
      simp only [idx_cons_zero, idx_cons_succ, Res.ok_bind, hv]
      rw [if_neg (by simp), if_pos (by simp)]
    rw [e]
    constructor
    · intro h; cases h
      exact .inr (.inr ⟨t, by simp only; rw [h1]; rfl⟩)
    · rintro (⟨h, h'⟩ | ⟨z, h, h'⟩ | ⟨r, h⟩)
      · cases h
      · cases h
      · simp only [List.cons_append, List.nil_append, List.cons.injEq] at h
        obtain ⟨rfl, rfl, h⟩ := h
        have := List.append_inj (s₁ := [z, w]) (t₁ := t) h (by simp)
        rw [be2_cancel h1 this.1.symm]

end Zbgp
