import Verif.Lemmas.Families
import Verif.Lemmas.Reads

/-! # What is read and what crashes: VPLS, EVPN and MVPN -/

namespace Zbgp

open Spec

/-! ## Fields in front of a buffer -/

theorem Res.err_of_isErr {α : Type} {r : Res α} (h : r.IsErr) : ∃ e, r = .err e := by
  cases r with
  | err e => exact ⟨e, rfl⟩
  | _ => exact h.elim

theorem Res.isErr_bind {α β : Type} {r : Res α} {f : α → Res β} (h : r.IsErr) : (r >>= f).IsErr := by
  cases r <;> first | exact h.elim | trivial

theorem rd_reads8 (r : BgpRD) (t : Bytes) : BgpRD.decodeFrom (rdBody r ++ t) = .ok (r, 8) := by
  rw [rd_reads]; simp

theorem exists_rd {b : Bytes} (h : 8 ≤ b.length) : ∃ rd t, b = rdBody rd ++ t ∧ t.length = b.length - 8 := by
  obtain ⟨r, -, hr⟩ := rd_decode_eq h
  exact ⟨r, b.drop 8, by rw [← hr, List.take_append_drop], by simp⟩

theorem exists_esi {b : Bytes} (h : 10 ≤ b.length) :
    ∃ et e t, b = esiBody et e ++ t ∧ t.length = b.length - 10 := by
  obtain ⟨c, t, rfl⟩ : ∃ c t, b = c :: t := by
    cases b with
    | nil => simp at h
    | cons c t => exact ⟨c, t, rfl⟩
  have hl : (t.take 9).length = 9 := by simp at h ⊢; omega
  refine ⟨c, ⟨⟨(t.take 9).toArray, by simpa using hl⟩⟩, t.drop 9, ?_, by simp⟩
  simp [esiBody, List.take_append_drop]

theorem exists_u16 {b : Bytes} (h : 2 ≤ b.length) : ∃ v : U16, ∃ t, b = be 2 v.toNat ++ t ∧ t.length = b.length - 2 := by
  obtain ⟨v, hv, e⟩ := exists_be 2 h
  refine ⟨BitVec.ofNat 16 v, b.drop 2, ?_, by simp⟩
  rw [BitVec.toNat_ofNat, Nat.mod_eq_of_lt (by simpa using hv)]; exact e

theorem exists_u32 {b : Bytes} (h : 4 ≤ b.length) : ∃ v : U32, ∃ t, b = be 4 v.toNat ++ t ∧ t.length = b.length - 4 := by
  obtain ⟨v, hv, e⟩ := exists_be 4 h
  refine ⟨BitVec.ofNat 32 v, b.drop 4, ?_, by simp⟩
  rw [BitVec.toNat_ofNat, Nat.mod_eq_of_lt (by simpa using hv)]; exact e

theorem exists_u128 {b : Bytes} (h : 16 ≤ b.length) :
    ∃ v : IPv6, ∃ t, b = be 16 v.toNat ++ t ∧ t.length = b.length - 16 := by
  obtain ⟨v, hv, e⟩ := exists_be 16 h
  refine ⟨BitVec.ofNat 128 v, b.drop 16, ?_, by simp⟩
  rw [BitVec.toNat_ofNat, Nat.mod_eq_of_lt (by simpa using hv)]; exact e

theorem exists_octet {b : Bytes} (h : 1 ≤ b.length) : ∃ c t, b = [c] ++ t ∧ t.length = b.length - 1 := by
  cases b with
  | nil => simp at h
  | cons c t => exact ⟨c, t, rfl, by simp⟩

theorem exists_mac {b : Bytes} (h : 6 ≤ b.length) : ∃ m t, b = macBody m ++ t ∧ t.length = b.length - 6 := by
  match b, h with
  | a :: b :: c :: d :: e :: f :: t, _ => exact ⟨⟨f, e, d, c, b, a⟩, t, rfl, by simp⟩

theorem exists_take {α : Type} (n : Nat) {b : List α} (h : n ≤ b.length) :
    ∃ p t, b = p ++ t ∧ p.length = n ∧ t.length = b.length - n :=
  ⟨b.take n, b.drop n, (List.take_append_drop n b).symm, by simp; omega, by simp⟩

theorem esi_short {b : Bytes} (h : b.length < 10) : EVPNESI.read b = .panic := by
  unfold EVPNESI.read
  cases b with
  | nil => simp
  | cons c t =>
    rw [idx_cons_zero, Res.ok_bind, show rslice (c :: t) 1 10 = .panic by simp [rslice]; simp at h; omega]
    rfl

theorem rslice_panic {α : Type} {b : List α} {s e : Nat} (h : b.length < e) : rslice b s e = .panic := by
  rw [rslice, if_neg (by omega)]

theorem rfrom_panic {α : Type} {b : List α} {s : Nat} (h : b.length < s) : rfrom b s = .panic := by
  rw [rfrom, if_neg (by omega)]

theorem idx_panic {α : Type} {b : List α} {i : Nat} (h : b.length ≤ i) : idx b i = .panic := by
  rw [idx, List.getElem?_eq_none h]

theorem leftBits_eq (lab : Bytes) : (BitVec.ofNat 8 (8 * lab.length)).toNat = leftBits lab := by
  simp [leftBits]

theorem field_exactly (lab : Bytes) :
    Exactly (MplsLabels.extractBits (BitVec.ofNat 8 (8 * lab.length)) lab)
      (fun y => LabelsRead (leftBits lab) lab y.1.labels y.2) (LabelsCrash (leftBits lab) lab) := by
  rw [← leftBits_eq]; exact labels_exactly _ _

theorem field_ok {lab : Bytes} {ls : List U32} {k : Nat} (h : LabelsRead (leftBits lab) lab ls k) :
    MplsLabels.extractBits (BitVec.ofNat 8 (8 * lab.length)) lab = .ok (⟨ls⟩, k) :=
  ((field_exactly lab).ok (⟨ls⟩, k)).2 h

theorem field_panic {lab : Bytes} (h : LabelsCrash (leftBits lab) lab) :
    MplsLabels.extractBits (BitVec.ofNat 8 (8 * lab.length)) lab = .panic :=
  (field_exactly lab).crash.2 h

theorem field_total (lab : Bytes) :
    (∃ ls k, LabelsRead (leftBits lab) lab ls k) ∨ LabelsCrash (leftBits lab) lab := by
  rcases (field_exactly lab).cases with ⟨⟨ls, k⟩, h⟩ | h | h
  · exact .inl ⟨_, _, h⟩
  · exact .inr h
  · exact absurd h (by
      have := fun e => (labels_exactly (BitVec.ofNat 8 (8 * lab.length)) lab).err_iff.1 e
      intro he
      obtain ⟨h1, h2⟩ := this he
      exact labels_total _ _ h1 h2)

/-! ## VPLS -/

theorem vpls_dec (rd : BgpRD) (s o r : U16) (lab : Bytes) (h : 3 ≤ lab.length) (n : Nat) (hn : n = 14 + lab.length) :
    BgpItemLong.extractFrom n
      (rdBody rd ++ (be 2 s.toNat ++ (be 2 o.toNat ++ (be 2 r.toNat ++ lab)))) = (do
        let y ← MplsLabels.extractBits (BitVec.ofNat 8 (8 * lab.length)) lab
        .ok (⟨rd, s, o, r, y.1⟩ : BgpAddrL2)) := by
  simp only [BgpItemLong.extractFrom]
  rw [if_neg (by omega), show (n - 14) * 8 = 8 * lab.length by omega, rd_reads]
  simp only [Res.ok_bind]
  rw [rfrom_skip _ _ _ (by simp), rfrom_skip _ _ _ (by simp), rfrom_skip _ _ _ (by simp),
    rfrom_append _ _ _ (by simp)]
  simp only [Res.ok_bind]
  cases MplsLabels.extractBits (BitVec.ofNat 8 (8 * lab.length)) lab with
  | ok y =>
    simp only [Res.ok_bind]
    rw [rslice_append_mid _ _ _ _ _ (by simp) (by simp)]
    simp only [Res.ok_bind, getn16_two]
    rw [rslice_append_right (by simp) (by omega), rslice_append_mid _ _ _ _ _ (by simp) (by simp)]
    simp only [Res.ok_bind, getn16_two]
    rw [rslice_append_right (by simp) (by omega), rslice_append_right (by simp) (by simp),
      rslice_append_mid _ _ _ _ _ (by simp) (by simp)]
    simp [getn16_two]
  | err e => rfl
  | panic => rfl
  | hang => rfl

theorem exists_vpls {b : Bytes} (h : 14 ≤ b.length) : ∃ rd, ∃ s o r : U16, ∃ lab,
    b = rdBody rd ++ (be 2 s.toNat ++ (be 2 o.toNat ++ (be 2 r.toNat ++ lab))) ∧ lab.length = b.length - 14 := by
  obtain ⟨rd, t1, rfl, h1⟩ := exists_rd (b := b) (by omega)
  obtain ⟨s, t2, rfl, h2⟩ := exists_u16 (b := t1) (by omega)
  obtain ⟨o, t3, rfl, h3⟩ := exists_u16 (b := t2) (by omega)
  obtain ⟨r, t4, rfl, h4⟩ := exists_u16 (b := t3) (by omega)
  exact ⟨rd, s, o, r, t4, rfl, by omega⟩

theorem long_dec (l : Nat) (hl : l < 65536) (t : Bytes) :
    decodeLongItem (T := BgpAddrL2) (be 2 l ++ t) = (do
      let x ← BgpItemLong.extractFrom l (← rslice t 0 l)
      .ok (x, l + 2)) := by
  unfold decodeLongItem
  rw [rslice_append_zero _ _ _ (by simp)]
  simp only [Res.ok_bind, getn16_two, BitVec.toNat_ofNat]
  rw [Nat.mod_eq_of_lt (by omega), rslice_append_right (by simp) (by omega)]
  simp

theorem vpls_exactly (b : Bytes) :
    Exactly (decodeLongItem (T := BgpAddrL2) b) (fun y => VplsRead b y.1 y.2) (VplsCrash b) := by
  by_cases h2 : b.length < 2
  · refine .of_cases ?_ (fun _ => ?_) (.inr (.inl (.inl h2)))
    · rintro y ⟨body, lab, t, k, hb, -⟩
      rw [hb] at h2; simp at h2
    · unfold decodeLongItem; rw [rslice_panic h2]; rfl
  · obtain ⟨l, hl, e⟩ := exists_be 2 (l := b) (by omega)
    have hl : l < 65536 := by simpa using hl
    refine .of_cases ?_ ?_ ?_
    · rintro ⟨x, n⟩ ⟨body, lab, t, k, hb, hl, h17, hbody, hlab, hn⟩
      simp only at hbody hlab hn
      rw [hb, List.append_assoc, long_dec _ hl, rslice_append_zero _ _ _ rfl, Res.ok_bind]
      have hlen : body.length = 14 + lab.length := by rw [hbody]; simp; omega
      conv => lhs; rw [hbody]
      simp only [List.append_assoc]
      rw [vpls_dec _ _ _ _ _ (by omega) _ (by simp; omega), field_ok hlab]
      simp only [Res.ok_bind]
      rw [hn, hlen]
      simp; omega
    · rintro (h | ⟨l', t, hl', hb, hc⟩)
      · exact absurd h h2
      · rw [hb, long_dec _ hl']
        rcases hc with hc | ⟨h17, hc⟩
        · rw [rslice_panic hc]; rfl
        · by_cases hlen : t.length < l'
          · rw [rslice_panic hlen]; rfl
          · obtain ⟨p, q, rfl, hp, -⟩ := exists_take l' (b := t) (by omega)
            rw [rslice_append_zero _ _ _ hp.symm, Res.ok_bind]
            rw [List.take_left' hp] at hc
            obtain ⟨rd, s, o, r, lab, rfl, hlab⟩ := exists_vpls (b := p) (by omega)
            rw [vpls_dec _ _ _ _ _ (by omega) _ (by simp at hp; omega)]
            rw [show (rdBody rd ++ (be 2 s.toNat ++ (be 2 o.toNat ++ (be 2 r.toNat ++ lab)))).drop 14 = lab by
              rw [← List.append_assoc, ← List.append_assoc, ← List.append_assoc, List.drop_left' (by simp)]] at hc
            rw [field_panic hc]; rfl
    · by_cases hlen : (b.drop 2).length < l
      · exact .inr (.inl (.inr ⟨l, b.drop 2, hl, e, .inl hlen⟩))
      · obtain ⟨p, q, hpq, hp, -⟩ := exists_take l (b := b.drop 2) (by omega)
        by_cases h17 : 17 ≤ l
        · obtain ⟨rd, s, o, r, lab, hp2, hlab⟩ := exists_vpls (b := p) (by omega)
          rcases field_total lab with ⟨ls, k, hk⟩ | hk
          · refine .inl ⟨(⟨rd, s, o, r, ⟨ls⟩⟩, l + 2), p, lab, q, k, ?_, by omega, by omega, ?_, hk, by rw [hp]⟩
            · rw [hp, List.append_assoc, ← hpq]; exact e
            · rw [hp2]; simp
          · refine .inr (.inl (.inr ⟨l, b.drop 2, hl, e, .inr ⟨h17, ?_⟩⟩))
            rw [hpq, List.take_left' hp]
            rw [show p.drop 14 = lab by
              rw [hp2, ← List.append_assoc, ← List.append_assoc, ← List.append_assoc, List.drop_left' (by simp)]]
            exact hk
        · refine .inr (.inr ?_)
          rw [e, long_dec _ hl, hpq, rslice_append_zero _ _ _ hp.symm, Res.ok_bind]
          simp only [BgpItemLong.extractFrom]
          rw [if_pos (by omega)]; trivial

/-! ## EVPN -/

theorem evpn1_dec (mode : BgpTransportMode) (rd : BgpRD) (et : U8) (esi : EVPNESI) (tag : U32) (lab : Bytes) :
    BgpAddrItem.decodeFrom mode (rdBody rd ++ (esiBody et esi ++ (be 4 tag.toNat ++ lab))) = (do
      let y ← MplsLabels.extractBits (BitVec.ofNat 8 (8 * lab.length)) lab
      .ok ((⟨rd, et, esi, tag, y.1⟩ : BgpEVPN1), 22 + y.2)) := by
  simp only [BgpAddrItem.decodeFrom]
  rw [rd_reads8]
  simp only [Res.ok_bind]
  rw [rfrom_append _ _ _ (by simp)]
  simp only [Res.ok_bind, esi_read]
  rw [rslice_append_right (by simp) (by omega), rslice_append_mid _ _ _ _ _ (by simp) (by simp)]
  simp only [Res.ok_bind, getn32_four, ofNat_toNat32]
  rw [subN, if_pos (by simp)]
  simp only [Res.ok_bind]
  rw [subN, if_pos (by simp; omega)]
  simp only [Res.ok_bind]
  rw [rfrom_skip _ _ _ (by simp), rfrom_skip _ _ _ (by simp), rfrom_append _ _ _ (by simp)]
  simp only [Res.ok_bind]
  rw [show (rdBody rd ++ (esiBody et esi ++ (be 4 tag.toNat ++ lab))).length - 8 - 14 = lab.length by simp; omega]

theorem evpn2_dec (mode : BgpTransportMode) (rd : BgpRD) (et : U8) (esi : EVPNESI) (tag : U32) (mac : MacAddress)
    (ip : Option IpAddr) (lab : Bytes) :
    BgpAddrItem.decodeFrom mode (rdBody rd ++ (esiBody et esi ++ (be 4 tag.toNat ++ ([48] ++ (macBody mac ++
      ((match ip with | none => [0] | some a => lenIpBody a) ++ lab)))))) = (do
      let y ← MplsLabels.extractBits (BitVec.ofNat 8 (8 * lab.length)) lab
      .ok ((⟨rd, et, esi, tag, mac, ip, y.1⟩ : BgpEVPN2),
        29 + (match ip with | none => ([0] : Bytes) | some a => lenIpBody a).length + y.2)) := by
  have hrs : ∀ t : Bytes, rslice (rdBody rd ++ (esiBody et esi ++ (be 4 tag.toNat ++ t))) 18 22 = .ok (be 4 tag.toNat) := by
    intro t
    rw [rslice_append_right (by simp) (by omega), rslice_append_mid _ _ _ _ _ (by simp) (by simp)]
  have hm : ∀ t : Bytes, rslice (rdBody rd ++ (esiBody et esi ++ (be 4 tag.toNat ++ ([48] ++ (macBody mac ++ t))))) 23 29 =
      .ok (macBody mac) := by
    intro t
    rw [rslice_append_right (by simp) (by omega), rslice_append_right (by simp) (by simp),
      rslice_append_right (by simp) (by simp), rslice_append_mid _ _ _ _ _ (by simp) (by simp)]
  have hi : ∀ t : Bytes, idx (rdBody rd ++ (esiBody et esi ++ (be 4 tag.toNat ++ ([48] ++ t)))) 22 = .ok 48 := by
    intro t
    rw [idx_append_right (by simp), idx_append_right (by simp), idx_append_right (by simp)]
    simp
  have ht : ∀ (c : U8) (t : Bytes), idx (rdBody rd ++ (esiBody et esi ++ (be 4 tag.toNat ++ ([48] ++
      (macBody mac ++ (c :: t)))))) 29 = .ok c := by
    intro c t
    rw [idx_append_right (by simp), idx_append_right (by simp), idx_append_right (by simp), idx_append_right (by simp),
      idx_append_right (by simp)]
    simp
  have hf : ∀ (c : U8) (p t : Bytes) (k : Nat), k = 30 + p.length → rfrom (rdBody rd ++ (esiBody et esi ++
      (be 4 tag.toNat ++ ([48] ++ (macBody mac ++ (c :: (p ++ t))))))) k = .ok t := by
    intro c p t k hk
    rw [rfrom_skip _ _ _ (by simp; omega), rfrom_skip _ _ _ (by simp; omega), rfrom_skip _ _ _ (by simp; omega),
      rfrom_skip _ _ _ (by simp; omega), rfrom_skip _ _ _ (by simp; omega), ← List.cons_append,
      rfrom_append _ _ _ (by simp; omega)]
  have hlen : ∀ (c : U8) (p : Bytes) (k : Nat), k = 30 + p.length → subN (rdBody rd ++ (esiBody et esi ++
      (be 4 tag.toNat ++ ([48] ++ (macBody mac ++ (c :: (p ++ lab))))))).length k = .ok lab.length := by
    intro c p k hk
    rw [subN, if_pos (by simp; omega)]
    congr 1; simp; omega
  simp only [BgpAddrItem.decodeFrom]
  rw [rd_reads8]
  simp only [Res.ok_bind]
  rw [rfrom_append _ _ _ (by simp)]
  simp only [Res.ok_bind, esi_read, Nat.reduceAdd, hrs, getn32_four, ofNat_toNat32, hi, ne_eq, not_true_eq_false,
    ↓reduceIte, hm, mac_read]
  cases ip with
  | none =>
    simp only [List.cons_append, List.nil_append]
    have e1 := ht 0 lab
    have e2 := hf 0 [] lab 30 rfl
    have e3 := hlen 0 [] 30 rfl
    simp only [List.cons_append, List.nil_append] at e1 e2 e3
    rw [e1]
    simp only [Res.ok_bind, ↓reduceIte]
    rw [e3]
    simp only [Res.ok_bind]
    rw [e2]
    simp
  | some a =>
    cases a with
    | v4 a =>
      simp only [List.cons_append, List.nil_append, lenIpBody]
      have e1 := ht 32 (be 4 a.toNat ++ lab)
      have e2 := hf 32 [] (be 4 a.toNat ++ lab) 30 rfl
      have e3 := hlen 32 (be 4 a.toNat) 34 (by simp)
      have e4 := hf 32 (be 4 a.toNat) lab 34 (by simp)
      simp only [List.cons_append, List.nil_append] at e1 e2 e3 e4
      rw [e1]
      simp only [Res.ok_bind, BitVec.reduceEq, ↓reduceIte]
      rw [e2]
      simp only [Res.ok_bind, decodeAddrV4_be, BitVec.ofNat_toNat, BitVec.setWidth_eq]
      rw [e3]
      simp only [Res.ok_bind]
      rw [e4]
      simp
    | v6 a =>
      simp only [List.cons_append, List.nil_append, lenIpBody]
      have e1 := ht 128 (be 16 a.toNat ++ lab)
      have e2 := hf 128 [] (be 16 a.toNat ++ lab) 30 rfl
      have e3 := hlen 128 (be 16 a.toNat) 46 (by simp)
      have e4 := hf 128 (be 16 a.toNat) lab 46 (by simp)
      simp only [List.cons_append, List.nil_append] at e1 e2 e3 e4
      rw [e1]
      simp only [Res.ok_bind, BitVec.reduceEq, ↓reduceIte]
      rw [e2]
      simp only [Res.ok_bind, decodeAddrV6_be, BitVec.ofNat_toNat, BitVec.setWidth_eq]
      rw [e3]
      simp only [Res.ok_bind]
      rw [e4]
      simp

/-- what the type 2 decoder does behind the fixed part when nothing is read -/
theorem evpn2_dec_tag (mode : BgpTransportMode) (rd : BgpRD) (et : U8) (esi : EVPNESI) (tag : U32) (c : U8) (t : Bytes)
    (hc : c ≠ 48) :
    BgpAddrItem.decodeFrom (T := BgpEVPN2) mode (rdBody rd ++ (esiBody et esi ++ (be 4 tag.toNat ++ ([c] ++ t)))) =
      .err .dynStr := by
  simp only [BgpAddrItem.decodeFrom]
  rw [rd_reads8]
  simp only [Res.ok_bind]
  rw [rfrom_append _ _ _ (by simp)]
  simp only [Res.ok_bind, esi_read, Nat.reduceAdd]
  rw [rslice_append_right (by simp) (by omega), rslice_append_mid _ _ _ _ _ (by simp) (by simp)]
  simp only [Res.ok_bind, getn32_four]
  rw [idx_append_right (by simp), idx_append_right (by simp), idx_append_right (by simp)]
  simp only [rdBody_length, esiBody_length, be_length, Nat.reduceSub, List.cons_append, idx_cons_zero, Res.ok_bind]
  rw [if_pos hc]

theorem evpn2_dec_short (mode : BgpTransportMode) (rd : BgpRD) (et : U8) (esi : EVPNESI) (tag : U32) (t : Bytes)
    (ht : t.length < 7) :
    BgpAddrItem.decodeFrom (T := BgpEVPN2) mode (rdBody rd ++ (esiBody et esi ++ (be 4 tag.toNat ++ ([48] ++ t)))) =
      .panic := by
  simp only [BgpAddrItem.decodeFrom]
  rw [rd_reads8]
  simp only [Res.ok_bind]
  rw [rfrom_append _ _ _ (by simp)]
  simp only [Res.ok_bind, esi_read, Nat.reduceAdd]
  rw [rslice_append_right (by simp) (by omega), rslice_append_mid _ _ _ _ _ (by simp) (by simp)]
  simp only [Res.ok_bind, getn32_four]
  rw [show idx (rdBody rd ++ (esiBody et esi ++ (be 4 tag.toNat ++ ([48] ++ t)))) 22 = .ok (48 : U8) by
    rw [idx_append_right (by simp), idx_append_right (by simp), idx_append_right (by simp)]; simp]
  simp only [Res.ok_bind, ne_eq, not_true_eq_false, ↓reduceIte]
  by_cases h6 : t.length < 6
  · rw [rslice_panic (by simp; omega)]; rfl
  · obtain ⟨m, t', rfl, ht'⟩ := exists_mac (b := t) (by omega)
    rw [rslice_append_right (by simp) (by omega), rslice_append_right (by simp) (by simp),
      rslice_append_right (by simp) (by simp), rslice_append_mid _ _ _ _ _ (by simp) (by simp)]
    simp only [Res.ok_bind, mac_read]
    rw [idx_panic (by simp at ht ⊢; omega)]
    rfl

theorem evpn2_dec_ip (mode : BgpTransportMode) (rd : BgpRD) (et : U8) (esi : EVPNESI) (tag : U32) (mac : MacAddress)
    (c : U8) (t : Bytes) (h : c ≠ 0 ∧ (c = 32 → t.length < 4) ∧ (c = 128 → t.length < 16)) :
    (BgpAddrItem.decodeFrom (T := BgpEVPN2) mode (rdBody rd ++ (esiBody et esi ++ (be 4 tag.toNat ++ ([48] ++
      (macBody mac ++ ([c] ++ t))))))).IsErr := by
  simp only [BgpAddrItem.decodeFrom]
  rw [rd_reads8]
  simp only [Res.ok_bind]
  rw [rfrom_append _ _ _ (by simp)]
  simp only [Res.ok_bind, esi_read, Nat.reduceAdd]
  rw [rslice_append_right (by simp) (by omega), rslice_append_mid _ _ _ _ _ (by simp) (by simp)]
  simp only [Res.ok_bind, getn32_four]
  rw [show ∀ t : Bytes, idx (rdBody rd ++ (esiBody et esi ++ (be 4 tag.toNat ++ ([48] ++ t)))) 22 = .ok (48 : U8) by
    intro t
    rw [idx_append_right (by simp), idx_append_right (by simp), idx_append_right (by simp)]; simp]
  simp only [Res.ok_bind, ne_eq, not_true_eq_false, ↓reduceIte]
  rw [rslice_append_right (by simp) (by omega), rslice_append_right (by simp) (by simp),
    rslice_append_right (by simp) (by simp), rslice_append_mid _ _ _ _ _ (by simp) (by simp)]
  simp only [Res.ok_bind, mac_read]
  rw [show idx (rdBody rd ++ (esiBody et esi ++ (be 4 tag.toNat ++ ([48] ++ (macBody mac ++ ([c] ++ t)))))) 29 = .ok c by
    rw [idx_append_right (by simp), idx_append_right (by simp), idx_append_right (by simp), idx_append_right (by simp),
      idx_append_right (by simp)]; simp]
  simp only [Res.ok_bind]
  rw [show rfrom (rdBody rd ++ (esiBody et esi ++ (be 4 tag.toNat ++ ([48] ++ (macBody mac ++ ([c] ++ t)))))) 30 = .ok t by
    rw [rfrom_skip _ _ _ (by simp), rfrom_skip _ _ _ (by simp), rfrom_skip _ _ _ (by simp),
      rfrom_skip _ _ _ (by simp), rfrom_skip _ _ _ (by simp), rfrom_append _ _ _ (by simp)]]
  rw [if_neg h.1]
  by_cases h32 : c = 32
  · rw [if_pos h32]
    simp only [Res.ok_bind, decodeAddrV4_short (h.2.1 h32)]
    trivial
  · rw [if_neg h32]
    by_cases h128 : c = 128
    · rw [if_pos h128]
      simp only [Res.ok_bind, decodeAddrV6_short (h.2.2 h128)]
      trivial
    · rw [if_neg h128]
      trivial

theorem evpn3_dec (mode : BgpTransportMode) (rd : BgpRD) (tag : U32) (ip : IpAddr) (t : Bytes) :
    BgpAddrItem.decodeFrom mode (rdBody rd ++ (be 4 tag.toNat ++ (lenIpBody ip ++ t))) =
      .ok ((⟨rd, tag, ip⟩ : BgpEVPN3), 12 + (lenIpBody ip).length) := by
  simp only [BgpAddrItem.decodeFrom]
  rw [rd_reads8]
  simp only [Res.ok_bind]
  rw [rslice_append_mid _ _ _ _ _ (by simp) (by simp)]
  simp only [Res.ok_bind, getn32_four, ofNat_toNat32]
  rw [← List.append_assoc, evpnReadIp_ok _ _ _ _ (by simp)]
  simp

theorem evpn4_dec (mode : BgpTransportMode) (rd : BgpRD) (et : U8) (esi : EVPNESI) (ip : IpAddr) (t : Bytes) :
    BgpAddrItem.decodeFrom mode (rdBody rd ++ (esiBody et esi ++ (lenIpBody ip ++ t))) =
      .ok ((⟨rd, et, esi, ip⟩ : BgpEVPN4), 18 + (lenIpBody ip).length) := by
  simp only [BgpAddrItem.decodeFrom]
  rw [rd_reads8]
  simp only [Res.ok_bind]
  rw [rfrom_append _ _ _ (by simp)]
  simp only [Res.ok_bind, esi_read]
  rw [← List.append_assoc, evpnReadIp_ok _ _ _ _ (by simp)]
  simp

/-- an address with its length, or none -/
theorem lenIp_cases (b : Bytes) : b = [] ∨ (∃ ip t, b = lenIpBody ip ++ t) ∨
    ∃ c t, b = [c] ++ t ∧ (c = 32 → t.length < 4) ∧ (c = 128 → t.length < 16) := by
  cases b with
  | nil => exact .inl rfl
  | cons c t =>
    by_cases h1 : c = 32 ∧ 4 ≤ t.length
    · obtain ⟨v, t', rfl, -⟩ := exists_u32 h1.2
      exact .inr (.inl ⟨.v4 v, t', by simp [lenIpBody, h1.1]⟩)
    · by_cases h2 : c = 128 ∧ 16 ≤ t.length
      · obtain ⟨v, t', rfl, -⟩ := exists_u128 h2.2
        exact .inr (.inl ⟨.v6 v, t', by simp [lenIpBody, h2.1]⟩)
      · refine .inr (.inr ⟨c, t, rfl, fun h => ?_, fun h => ?_⟩)
        · exact Nat.lt_of_not_le fun h' => h1 ⟨h, h'⟩
        · exact Nat.lt_of_not_le fun h' => h2 ⟨h, h'⟩

theorem evpnReadIp_err (p : Bytes) (c : U8) (t : Bytes) (i : Nat) (hi : i = p.length)
    (h : (c = 32 → t.length < 4) ∧ (c = 128 → t.length < 16)) : (evpnReadIp (p ++ ([c] ++ t)) i).IsErr := by
  subst hi
  simp only [evpnReadIp]
  rw [idx_append_right (by simp)]
  simp only [Nat.sub_self, List.cons_append, List.nil_append, idx_cons_zero, Res.ok_bind]
  rw [show rfrom (p ++ c :: t) (p.length + 1) = .ok t by
    rw [rfrom_skip _ _ _ (by simp)]; simp]
  by_cases h32 : c = 32
  · rw [if_pos h32]
    simp only [Res.ok_bind, decodeAddrV4_short (h.1 h32)]
    trivial
  · rw [if_neg h32]
    by_cases h128 : c = 128
    · rw [if_pos h128]
      simp only [Res.ok_bind, decodeAddrV6_short (h.2 h128)]
      trivial
    · rw [if_neg h128]
      trivial

theorem evpn5_dec4 (mode : BgpTransportMode) (rd : BgpRD) (et : U8) (esi : EVPNESI) (tag : U32) (len : U8) (p g : IPv4)
    (lab : Bytes) (hl : lab.length = 3) :
    BgpAddrItem.decodeFrom mode (rdBody rd ++ (esiBody et esi ++ (be 4 tag.toNat ++ ([len] ++ (be 4 p.toNat ++
      (be 4 g.toNat ++ lab)))))) = (do
      let y ← MplsLabels.extractBits (BitVec.ofNat 8 (8 * lab.length)) lab
      .ok ((⟨rd, et, esi, tag, len, .v4 p, .v4 g, y.1⟩ : BgpEVPN5), 31 + y.2)) := by
  simp only [BgpAddrItem.decodeFrom]
  rw [rd_reads8]
  simp only [Res.ok_bind]
  rw [rfrom_append _ _ _ (by simp)]
  simp only [Res.ok_bind, esi_read, Nat.reduceAdd]
  rw [show ∀ t : Bytes, rfrom (rdBody rd ++ (esiBody et esi ++ t)) 18 = .ok t by
    intro t; rw [rfrom_skip _ _ _ (by simp), rfrom_append _ _ _ (by simp)]]
  simp only [Res.ok_bind, getn32_be, ofNat_toNat32]
  rw [show ∀ t : Bytes, idx (rdBody rd ++ (esiBody et esi ++ (be 4 tag.toNat ++ ([len] ++ t)))) 22 = .ok len by
    intro t
    rw [idx_append_right (by simp), idx_append_right (by simp), idx_append_right (by simp)]; simp]
  simp only [Res.ok_bind]
  rw [if_pos (by simp; omega)]
  rw [show ∀ t : Bytes, rfrom (rdBody rd ++ (esiBody et esi ++ (be 4 tag.toNat ++ ([len] ++ t)))) 23 = .ok t by
    intro t
    rw [rfrom_skip _ _ _ (by simp), rfrom_skip _ _ _ (by simp), rfrom_skip _ _ _ (by simp), rfrom_append _ _ _ (by simp)]]
  simp only [Res.ok_bind, decodeAddrV4_be, BitVec.ofNat_toNat, BitVec.setWidth_eq]
  rw [show ∀ t : Bytes, rfrom (rdBody rd ++ (esiBody et esi ++ (be 4 tag.toNat ++ ([len] ++ (be 4 p.toNat ++ t))))) 27 =
      .ok t by
    intro t
    rw [rfrom_skip _ _ _ (by simp), rfrom_skip _ _ _ (by simp), rfrom_skip _ _ _ (by simp), rfrom_skip _ _ _ (by simp),
      rfrom_append _ _ _ (by simp)]]
  simp only [Res.ok_bind, decodeAddrV4_be, BitVec.ofNat_toNat, BitVec.setWidth_eq]
  rw [show subN (rdBody rd ++ (esiBody et esi ++ (be 4 tag.toNat ++ ([len] ++ (be 4 p.toNat ++
      (be 4 g.toNat ++ lab)))))).length 31 = .ok lab.length by
    rw [subN, if_pos (by simp; omega)]; congr 1; simp; omega]
  simp only [Res.ok_bind]
  rw [rfrom_skip _ _ _ (by simp), rfrom_skip _ _ _ (by simp), rfrom_skip _ _ _ (by simp), rfrom_skip _ _ _ (by simp),
    rfrom_skip _ _ _ (by simp), rfrom_append _ _ _ (by simp)]
  simp only [Res.ok_bind]

theorem evpn5_dec6 (mode : BgpTransportMode) (rd : BgpRD) (et : U8) (esi : EVPNESI) (tag : U32) (len : U8) (p g : IPv4)
    (q r lab : Bytes) (hq : q.length = 12) (hr : r.length = 12) (hl : lab.length = 3) :
    BgpAddrItem.decodeFrom mode (rdBody rd ++ (esiBody et esi ++ (be 4 tag.toNat ++ ([len] ++ (be 4 p.toNat ++ (q ++
      (be 4 g.toNat ++ (r ++ lab)))))))) = (do
      let y ← MplsLabels.extractBits (BitVec.ofNat 8 (8 * lab.length)) lab
      .ok ((⟨rd, et, esi, tag, len, .v4 p, .v4 g, y.1⟩ : BgpEVPN5), 55 + y.2)) := by
  simp only [BgpAddrItem.decodeFrom]
  rw [rd_reads8]
  simp only [Res.ok_bind]
  rw [rfrom_append _ _ _ (by simp)]
  simp only [Res.ok_bind, esi_read, Nat.reduceAdd]
  rw [show ∀ t : Bytes, rfrom (rdBody rd ++ (esiBody et esi ++ t)) 18 = .ok t by
    intro t; rw [rfrom_skip _ _ _ (by simp), rfrom_append _ _ _ (by simp)]]
  simp only [Res.ok_bind, getn32_be, ofNat_toNat32]
  rw [show ∀ t : Bytes, idx (rdBody rd ++ (esiBody et esi ++ (be 4 tag.toNat ++ ([len] ++ t)))) 22 = .ok len by
    intro t
    rw [idx_append_right (by simp), idx_append_right (by simp), idx_append_right (by simp)]; simp]
  simp only [Res.ok_bind]
  rw [if_neg (by simp; omega), if_pos (by simp; omega)]
  rw [show ∀ t : Bytes, rfrom (rdBody rd ++ (esiBody et esi ++ (be 4 tag.toNat ++ ([len] ++ t)))) 23 = .ok t by
    intro t
    rw [rfrom_skip _ _ _ (by simp), rfrom_skip _ _ _ (by simp), rfrom_skip _ _ _ (by simp), rfrom_append _ _ _ (by simp)]]
  simp only [Res.ok_bind, decodeAddrV4_be, BitVec.ofNat_toNat, BitVec.setWidth_eq]
  rw [show ∀ t : Bytes, rfrom (rdBody rd ++ (esiBody et esi ++ (be 4 tag.toNat ++ ([len] ++ (be 4 p.toNat ++
      (q ++ t)))))) 39 = .ok t by
    intro t
    rw [rfrom_skip _ _ _ (by simp), rfrom_skip _ _ _ (by simp), rfrom_skip _ _ _ (by simp), rfrom_skip _ _ _ (by simp),
      rfrom_skip _ _ _ (by simp), rfrom_append _ _ _ (by simp [hq])]]
  simp only [Res.ok_bind, decodeAddrV4_be, BitVec.ofNat_toNat, BitVec.setWidth_eq]
  rw [show subN (rdBody rd ++ (esiBody et esi ++ (be 4 tag.toNat ++ ([len] ++ (be 4 p.toNat ++ (q ++
      (be 4 g.toNat ++ (r ++ lab)))))))).length 55 = .ok lab.length by
    rw [subN, if_pos (by simp; omega)]; congr 1; simp; omega]
  simp only [Res.ok_bind]
  rw [rfrom_skip _ _ _ (by simp), rfrom_skip _ _ _ (by simp), rfrom_skip _ _ _ (by simp), rfrom_skip _ _ _ (by simp),
    rfrom_skip _ _ _ (by simp), rfrom_skip _ _ _ (by simp; omega), rfrom_skip _ _ _ (by simp; omega),
    rfrom_append _ _ _ (by simp; omega)]
  simp only [Res.ok_bind]

/-- the decoder of one route without its two octets in front -/
def evpnBodyDec (mode : BgpTransportMode) (ty : U8) (body : Bytes) : Res (BgpEVPN × Nat) :=
  if ty = 1 then do
    let r ← BgpAddrItem.decodeFrom mode body
    .ok (.evpn1 r.1, r.2 + 2)
  else if ty = 2 then do
    let r ← BgpAddrItem.decodeFrom mode body
    .ok (.evpn2 r.1, r.2 + 2)
  else if ty = 3 then do
    let r ← BgpAddrItem.decodeFrom mode body
    .ok (.evpn3 r.1, r.2 + 2)
  else if ty = 4 then do
    let r ← BgpAddrItem.decodeFrom mode body
    .ok (.evpn4 r.1, r.2 + 2)
  else if ty = 5 then do
    let r ← BgpAddrItem.decodeFrom mode body
    .ok (.evpn5 r.1, r.2 + 2)
  else .err .dynStr

theorem evpn_dec (mode : BgpTransportMode) (ty l : U8) (body t : Bytes) (h : body.length = l.toNat) :
    BgpEVPN.decodeFrom mode (ty :: l :: body ++ t) = evpnBodyDec mode ty body := by
  unfold BgpEVPN.decodeFrom evpnBodyDec
  simp only [List.cons_append, idx_cons_zero, idx_cons_succ, Res.ok_bind]
  rw [if_neg (by simp; omega), show rslice (ty :: l :: (body ++ t)) 2 (2 + l.toNat) = .ok body by
    rw [show 2 + l.toNat = (l.toNat + 1) + 1 by omega, rslice_cons_succ, rslice_cons_succ]
    exact rslice_append_zero _ _ _ h.symm]
  simp only [Res.ok_bind]

theorem bodyDec1 (mode : BgpTransportMode) (b : Bytes) : evpnBodyDec mode 1 b = (do
    let r ← BgpAddrItem.decodeFrom mode b
    .ok (.evpn1 r.1, r.2 + 2)) := rfl
theorem bodyDec2 (mode : BgpTransportMode) (b : Bytes) : evpnBodyDec mode 2 b = (do
    let r ← BgpAddrItem.decodeFrom mode b
    .ok (.evpn2 r.1, r.2 + 2)) := rfl
theorem bodyDec3 (mode : BgpTransportMode) (b : Bytes) : evpnBodyDec mode 3 b = (do
    let r ← BgpAddrItem.decodeFrom mode b
    .ok (.evpn3 r.1, r.2 + 2)) := rfl
theorem bodyDec4 (mode : BgpTransportMode) (b : Bytes) : evpnBodyDec mode 4 b = (do
    let r ← BgpAddrItem.decodeFrom mode b
    .ok (.evpn4 r.1, r.2 + 2)) := rfl
theorem bodyDec5 (mode : BgpTransportMode) (b : Bytes) : evpnBodyDec mode 5 b = (do
    let r ← BgpAddrItem.decodeFrom mode b
    .ok (.evpn5 r.1, r.2 + 2)) := rfl

theorem evpn_ok {mode : BgpTransportMode} {b : Bytes} {x : BgpEVPN} {k : Nat} (h : EvpnRead b x k) :
    evpnBodyDec mode (evpnType x) b = .ok (x, k + 2) := by
  cases h with
  | t1 rd et esi tag ls lab k h =>
    simp only [evpnType, List.append_assoc]
    rw [bodyDec1, evpn1_dec, field_ok h]
    rfl
  | t2 rd et esi tag mac ip ls lab k h =>
    simp only [evpnType, List.append_assoc]
    have := evpn2_dec mode rd et esi tag mac ip lab
    rw [field_ok h] at this
    rw [bodyDec2]
    cases ip with
    | none => exact (congrArg (· >>= _) this).trans rfl
    | some a => exact (congrArg (· >>= _) this).trans rfl
  | t3 rd tag ip t =>
    simp only [evpnType, List.append_assoc]
    rw [bodyDec3, evpn3_dec]
    rfl
  | t4 rd et esi ip t =>
    simp only [evpnType, List.append_assoc]
    rw [bodyDec4, evpn4_dec]
    rfl
  | t5 rd et esi tag len p g ls lab k hl h =>
    simp only [evpnType, List.append_assoc]
    rw [bodyDec5, evpn5_dec4 _ _ _ _ _ _ _ _ _ hl, field_ok (by unfold leftBits; rw [hl]; exact h)]
    rfl
  | t5v6 rd et esi tag len p g q r ls lab k hq hr hl h =>
    simp only [evpnType, List.append_assoc]
    rw [bodyDec5, evpn5_dec6 _ _ _ _ _ _ _ _ _ _ _ hq hr hl, field_ok (by unfold leftBits; rw [hl]; exact h)]
    rfl

/-- a route distinguisher and the rest of the fixed part cut off -/
theorem evpn_short_esi (mode : BgpTransportMode) (rd : BgpRD) (t : Bytes) (h : t.length < 10) :
    BgpAddrItem.decodeFrom (T := BgpEVPN1) mode (rdBody rd ++ t) = .panic ∧
    BgpAddrItem.decodeFrom (T := BgpEVPN2) mode (rdBody rd ++ t) = .panic ∧
    BgpAddrItem.decodeFrom (T := BgpEVPN4) mode (rdBody rd ++ t) = .panic ∧
    BgpAddrItem.decodeFrom (T := BgpEVPN5) mode (rdBody rd ++ t) = .panic := by
  refine ⟨?_, ?_, ?_, ?_⟩ <;>
  · simp only [BgpAddrItem.decodeFrom]
    rw [rd_reads8]
    simp only [Res.ok_bind]
    rw [rfrom_append _ _ _ (by simp)]
    simp only [Res.ok_bind, esi_short h, Res.panic_bind]

theorem evpn_short_tag (mode : BgpTransportMode) (rd : BgpRD) (et : U8) (esi : EVPNESI) (t : Bytes) (h : t.length < 4) :
    BgpAddrItem.decodeFrom (T := BgpEVPN1) mode (rdBody rd ++ (esiBody et esi ++ t)) = .panic ∧
    BgpAddrItem.decodeFrom (T := BgpEVPN2) mode (rdBody rd ++ (esiBody et esi ++ t)) = .panic ∧
    BgpAddrItem.decodeFrom (T := BgpEVPN5) mode (rdBody rd ++ (esiBody et esi ++ t)) = .panic := by
  refine ⟨?_, ?_, ?_⟩
  · simp only [BgpAddrItem.decodeFrom]
    rw [rd_reads8]
    simp only [Res.ok_bind]
    rw [rfrom_append _ _ _ (by simp)]
    simp only [Res.ok_bind, esi_read, Nat.reduceAdd]
    rw [rslice_panic (by simp; omega)]; rfl
  · simp only [BgpAddrItem.decodeFrom]
    rw [rd_reads8]
    simp only [Res.ok_bind]
    rw [rfrom_append _ _ _ (by simp)]
    simp only [Res.ok_bind, esi_read, Nat.reduceAdd]
    rw [rslice_panic (by simp; omega)]; rfl
  · simp only [BgpAddrItem.decodeFrom]
    rw [rd_reads8]
    simp only [Res.ok_bind]
    rw [rfrom_append _ _ _ (by simp)]
    simp only [Res.ok_bind, esi_read, Nat.reduceAdd]
    rw [rfrom_skip _ _ _ (by simp), rfrom_append _ _ _ (by simp)]
    simp only [Res.ok_bind, getn32_short h, Res.panic_bind]

theorem evpn2_drop (rd : BgpRD) (et : U8) (esi : EVPNESI) (tag : U32) (mac : MacAddress) (d : U8) (p lab : Bytes) (k : Nat)
    (hp : p.length = k) : List.drop (30 + k) (rdBody rd ++ (esiBody et esi ++ (be 4 tag.toNat ++ ([48] ++
      (macBody mac ++ ([d] ++ (p ++ lab))))))) = lab := by
  rw [show rdBody rd ++ (esiBody et esi ++ (be 4 tag.toNat ++ ([48] ++ (macBody mac ++ ([d] ++ (p ++ lab)))))) =
    (rdBody rd ++ esiBody et esi ++ be 4 tag.toNat ++ [48] ++ macBody mac ++ [d] ++ p) ++ lab by simp]
  exact List.drop_left' (by simp; omega)

theorem evpn_panic {mode : BgpTransportMode} {ty : U8} {b : Bytes} (h : EvpnCrash ty b) :
    evpnBodyDec mode ty b = .panic := by
  cases h with
  | t1 _ h8 h =>
    rw [bodyDec1]
    obtain ⟨rd, t, rfl, ht⟩ := exists_rd h8
    by_cases h10 : t.length < 10
    · rw [(evpn_short_esi mode rd t h10).1]; rfl
    · obtain ⟨et, esi, t', rfl, ht'⟩ := exists_esi (b := t) (by omega)
      rw [(evpn_short_tag mode rd et esi t' (by omega)).1]; rfl
  | t1labels _ h hl =>
    rw [bodyDec1]
    obtain ⟨rd, t1, rfl, h1⟩ := exists_rd (b := b) (by omega)
    obtain ⟨et, esi, t2, rfl, h2⟩ := exists_esi (b := t1) (by omega)
    obtain ⟨tag, lab, rfl, h3⟩ := exists_u32 (b := t2) (by omega)
    rw [show (rdBody rd ++ (esiBody et esi ++ (be 4 tag.toNat ++ lab))).drop 22 = lab by
      rw [← List.append_assoc, ← List.append_assoc, List.drop_left' (by simp)]] at hl
    rw [evpn1_dec, field_panic hl]; rfl
  | t2 _ h8 h =>
    rw [bodyDec2]
    obtain ⟨rd, t, rfl, ht⟩ := exists_rd h8
    by_cases h10 : t.length < 10
    · rw [(evpn_short_esi mode rd t h10).2.1]; rfl
    · obtain ⟨et, esi, t', rfl, ht'⟩ := exists_esi (b := t) (by omega)
      by_cases h4 : t'.length < 4
      · rw [(evpn_short_tag mode rd et esi t' h4).2.1]; rfl
      · obtain ⟨tag, t2, rfl, ht2⟩ := exists_u32 (b := t') (by omega)
        obtain rfl : t2 = [] := List.length_eq_zero_iff.1 (by omega)
        simp only [BgpAddrItem.decodeFrom]
        rw [rd_reads8]
        simp only [Res.ok_bind]
        rw [rfrom_append _ _ _ (by simp)]
        simp only [Res.ok_bind, esi_read, Nat.reduceAdd]
        rw [rslice_append_right (by simp) (by omega), rslice_append_mid _ _ _ _ _ (by simp) (by simp)]
        simp only [Res.ok_bind, getn32_four]
        rw [idx_panic (by simp)]
        rfl
  | t2mac _ h h48 =>
    rw [bodyDec2]
    have h22 : 22 < b.length := by
      by_contra hc
      rw [List.getElem?_eq_none (by omega)] at h48; cases h48
    obtain ⟨rd, t1, rfl, h1⟩ := exists_rd (b := b) (by omega)
    obtain ⟨et, esi, t2, rfl, h2⟩ := exists_esi (b := t1) (by omega)
    obtain ⟨tag, t3, rfl, h3⟩ := exists_u32 (b := t2) (by omega)
    obtain ⟨c, t4, rfl, h4⟩ := exists_octet (b := t3) (by omega)
    rw [← idx_eq_ok, idx_append_right (by simp), idx_append_right (by simp), idx_append_right (by simp)] at h48
    simp only [rdBody_length, esiBody_length, be_length, Nat.reduceSub, List.cons_append, idx_cons_zero, Res.ok.injEq] at h48
    subst h48
    rw [evpn2_dec_short _ _ _ _ _ _ (by omega)]; rfl
  | t2labels _ l k h48 hl hk h hc =>
    rw [bodyDec2]
    obtain ⟨rd, t1, rfl, h1⟩ := exists_rd (b := b) (by omega)
    obtain ⟨et, esi, t2, rfl, h2⟩ := exists_esi (b := t1) (by omega)
    obtain ⟨tag, t3, rfl, h3⟩ := exists_u32 (b := t2) (by omega)
    obtain ⟨c, t4, rfl, h4⟩ := exists_octet (b := t3) (by omega)
    obtain ⟨mac, t5, rfl, h5⟩ := exists_mac (b := t4) (by omega)
    obtain ⟨d, t6, rfl, h6⟩ := exists_octet (b := t5) (by omega)
    rw [← idx_eq_ok, idx_append_right (by simp), idx_append_right (by simp), idx_append_right (by simp)] at h48
    simp only [rdBody_length, esiBody_length, be_length, Nat.reduceSub, List.cons_append, idx_cons_zero, Res.ok.injEq] at h48
    subst h48
    rw [← idx_eq_ok, idx_append_right (by simp), idx_append_right (by simp), idx_append_right (by simp),
      idx_append_right (by simp), idx_append_right (by simp)] at hl
    simp only [rdBody_length, esiBody_length, be_length, macBody_length, List.length_cons, List.length_nil,
      Nat.reduceSub, Nat.reduceAdd, List.cons_append, idx_cons_zero, Res.ok.injEq] at hl
    subst hl
    obtain ⟨p, lab, rfl, hp, -⟩ := exists_take k (b := t6) (by omega)
    rw [evpn2_drop rd et esi tag mac d p lab k hp] at hc
    rcases hk with ⟨rfl, rfl⟩ | ⟨rfl, rfl⟩ | ⟨rfl, rfl⟩
    · obtain rfl : p = [] := List.length_eq_zero_iff.1 hp
      have := evpn2_dec mode rd et esi tag mac none lab
      simp only [List.nil_append] at this ⊢
      rw [this, field_panic hc]; rfl
    · obtain ⟨v, t7, rfl, h7⟩ := exists_u32 (b := p) (by omega)
      obtain rfl : t7 = [] := List.length_eq_zero_iff.1 (by omega)
      have := evpn2_dec mode rd et esi tag mac (some (.v4 v)) lab
      simp only [lenIpBody, List.append_nil, List.cons_append, List.nil_append] at this ⊢
      rw [this, field_panic hc]; rfl
    · obtain ⟨v, t7, rfl, h7⟩ := exists_u128 (b := p) (by omega)
      obtain rfl : t7 = [] := List.length_eq_zero_iff.1 (by omega)
      have := evpn2_dec mode rd et esi tag mac (some (.v6 v)) lab
      simp only [lenIpBody, List.append_nil, List.cons_append, List.nil_append] at this ⊢
      rw [this, field_panic hc]; rfl
  | t3 _ h8 h =>
    rw [bodyDec3]
    obtain ⟨rd, t, rfl, ht⟩ := exists_rd h8
    simp only [BgpAddrItem.decodeFrom]
    rw [rd_reads8]
    simp only [Res.ok_bind]
    by_cases h4 : t.length < 4
    · rw [rslice_panic (by simp; omega)]; rfl
    · obtain ⟨tag, t2, rfl, ht2⟩ := exists_u32 (b := t) (by omega)
      rw [rslice_append_mid _ _ _ _ _ (by simp) (by simp)]
      simp only [Res.ok_bind, getn32_four, evpnReadIp]
      rw [idx_panic (by omega)]; rfl
  | t4 _ h8 h =>
    rw [bodyDec4]
    obtain ⟨rd, t, rfl, ht⟩ := exists_rd h8
    by_cases h10 : t.length < 10
    · rw [(evpn_short_esi mode rd t h10).2.2.1]; rfl
    · obtain ⟨et, esi, t', rfl, ht'⟩ := exists_esi (b := t) (by omega)
      simp only [BgpAddrItem.decodeFrom]
      rw [rd_reads8]
      simp only [Res.ok_bind]
      rw [rfrom_append _ _ _ (by simp)]
      simp only [Res.ok_bind, esi_read, evpnReadIp]
      rw [idx_panic (by omega)]; rfl
  | t5 _ h8 h =>
    rw [bodyDec5]
    obtain ⟨rd, t, rfl, ht⟩ := exists_rd h8
    by_cases h10 : t.length < 10
    · rw [(evpn_short_esi mode rd t h10).2.2.2]; rfl
    · obtain ⟨et, esi, t', rfl, ht'⟩ := exists_esi (b := t) (by omega)
      by_cases h4 : t'.length < 4
      · rw [(evpn_short_tag mode rd et esi t' h4).2.2]; rfl
      · obtain ⟨tag, t2, rfl, ht2⟩ := exists_u32 (b := t') (by omega)
        simp only [BgpAddrItem.decodeFrom]
        rw [rd_reads8]
        simp only [Res.ok_bind]
        rw [rfrom_append _ _ _ (by simp)]
        simp only [Res.ok_bind, esi_read, Nat.reduceAdd]
        rw [rfrom_skip _ _ _ (by simp), rfrom_append _ _ _ (by simp)]
        simp only [Res.ok_bind, getn32_be]
        rw [idx_panic (by omega)]; rfl

theorem labels24_total {lab : Bytes} (h : lab.length = 3) : ∃ ls k, LabelsRead 24 lab ls k := by
  rcases extractLoop_total 24 lab with h1 | h1
  · exact h1
  · exfalso
    cases h1 with
    | short _ _ _ h => omega
    | more _ v b hv he hc =>
      cases hc with
      | short _ _ h0 _ => omega

theorem evpn_total (mode : BgpTransportMode) (ty : U8) (b : Bytes) :
    (∃ x k, evpnType x = ty ∧ EvpnRead b x k) ∨ EvpnCrash ty b ∨ (evpnBodyDec mode ty b).IsErr := by
  by_cases h8 : b.length < 8
  · refine .inr (.inr ?_)
    unfold evpnBodyDec
    simp only [BgpAddrItem.decodeFrom, rd_decode_short h8, Res.err_bind]
    split
    · trivial
    split
    · trivial
    split
    · trivial
    split
    · trivial
    split <;> trivial
  have h8 : 8 ≤ b.length := by omega
  by_cases e1 : ty = 1
  · subst e1
    by_cases h22 : b.length < 22
    · exact .inr (.inl (.t1 b h8 h22))
    obtain ⟨rd, t1, rfl, h1⟩ := exists_rd (b := b) (by omega)
    obtain ⟨et, esi, t2, rfl, h2⟩ := exists_esi (b := t1) (by omega)
    obtain ⟨tag, lab, rfl, h3⟩ := exists_u32 (b := t2) (by omega)
    rcases field_total lab with ⟨ls, k, hk⟩ | hk
    · refine .inl ⟨_, _, ?_, by rw [← List.append_assoc, ← List.append_assoc]; exact .t1 rd et esi tag ls lab k hk⟩
      rfl
    · refine .inr (.inl (.t1labels _ (by omega) ?_))
      rw [show (rdBody rd ++ (esiBody et esi ++ (be 4 tag.toNat ++ lab))).drop 22 = lab by
        rw [← List.append_assoc, ← List.append_assoc, List.drop_left' (by simp)]]
      exact hk
  by_cases e2 : ty = 2
  · subst e2
    by_cases h23 : b.length < 23
    · exact .inr (.inl (.t2 b h8 h23))
    obtain ⟨rd, t1, rfl, h1⟩ := exists_rd (b := b) (by omega)
    obtain ⟨et, esi, t2, rfl, h2⟩ := exists_esi (b := t1) (by omega)
    obtain ⟨tag, t3, rfl, h3⟩ := exists_u32 (b := t2) (by omega)
    obtain ⟨c, t4, rfl, h4⟩ := exists_octet (b := t3) (by omega)
    by_cases hc : c = 48
    · subst hc
      have h48 : (rdBody rd ++ (esiBody et esi ++ (be 4 tag.toNat ++ ([48] ++ t4))))[22]? = some 48 := by
        rw [← idx_eq_ok, idx_append_right (by simp), idx_append_right (by simp), idx_append_right (by simp)]; simp
      by_cases h30 : t4.length < 7
      · exact .inr (.inl (.t2mac _ (by omega) h48))
      obtain ⟨mac, t5, rfl, h5⟩ := exists_mac (b := t4) (by omega)
      obtain ⟨d, t6, rfl, h6⟩ := exists_octet (b := t5) (by omega)
      have hd : (rdBody rd ++ (esiBody et esi ++ (be 4 tag.toNat ++ ([48] ++ (macBody mac ++ ([d] ++ t6))))))[29]? =
          some d := by
        rw [← idx_eq_ok, idx_append_right (by simp), idx_append_right (by simp), idx_append_right (by simp),
          idx_append_right (by simp), idx_append_right (by simp)]; simp
      have key : ∀ (k : Nat) (p lab : Bytes) (ip : Option IpAddr), ((d = 0 ∧ k = 0) ∨ (d = 32 ∧ k = 4) ∨ (d = 128 ∧ k = 16)) →
          t6 = p ++ lab → p.length = k → [d] ++ p = (match ip with | none => [0] | some a => lenIpBody a) →
          (∃ x k, evpnType x = 2 ∧ EvpnRead (rdBody rd ++ (esiBody et esi ++ (be 4 tag.toNat ++ ([48] ++
            (macBody mac ++ ([d] ++ t6)))))) x k) ∨ EvpnCrash 2 (rdBody rd ++ (esiBody et esi ++ (be 4 tag.toNat ++ ([48] ++
            (macBody mac ++ ([d] ++ t6)))))) := by
        rintro k p lab ip hk rfl hp hip
        rcases field_total lab with ⟨ls, n, hn⟩ | hn
        · refine .inl ⟨.evpn2 ⟨rd, et, esi, tag, mac, ip, ⟨ls⟩⟩,
            29 + (match ip with | none => ([0] : Bytes) | some a => lenIpBody a).length + n, rfl, ?_⟩
          have := EvpnRead.t2 rd et esi tag mac ip ls lab n hn
          simp only [List.append_assoc] at this
          rw [← List.append_assoc [d], hip]
          exact this
        · refine .inr (.t2labels _ d k h48 hd hk (by simp; omega) ?_)
          rw [evpn2_drop rd et esi tag mac d p lab k hp]
          exact hn
      by_cases d0 : d = 0
      · rcases key 0 [] t6 none (.inl ⟨d0, rfl⟩) rfl rfl (by rw [d0]; rfl) with h | h
        · exact .inl h
        · exact .inr (.inl h)
      rcases lenIp_cases ([d] ++ t6) with h0 | ⟨ip, t, ht⟩ | ⟨c, t, ht, hcond⟩
      · simp at h0
      · cases ip with
        | v4 v =>
          simp only [lenIpBody, List.cons_append, List.nil_append, List.cons.injEq] at ht
          rcases key 4 (be 4 v.toNat) t (some (.v4 v)) (.inr (.inl ⟨ht.1, rfl⟩)) ht.2 (by simp)
            (by rw [ht.1]; rfl) with h | h
          · exact .inl h
          · exact .inr (.inl h)
        | v6 v =>
          simp only [lenIpBody, List.cons_append, List.nil_append, List.cons.injEq] at ht
          rcases key 16 (be 16 v.toNat) t (some (.v6 v)) (.inr (.inr ⟨ht.1, rfl⟩)) ht.2 (by simp)
            (by rw [ht.1]; rfl) with h | h
          · exact .inl h
          · exact .inr (.inl h)
      · simp only [List.cons_append, List.nil_append, List.cons.injEq] at ht
        obtain ⟨rfl, rfl⟩ := ht
        refine .inr (.inr ?_)
        rw [bodyDec2]
        exact Res.isErr_bind (evpn2_dec_ip mode rd et esi tag mac d t6 ⟨d0, hcond⟩)
    · refine .inr (.inr ?_)
      rw [bodyDec2, evpn2_dec_tag _ _ _ _ _ _ _ hc]
      trivial
  by_cases e3 : ty = 3
  · subst e3
    by_cases h13 : b.length < 13
    · exact .inr (.inl (.t3 b h8 h13))
    obtain ⟨rd, t1, rfl, h1⟩ := exists_rd (b := b) (by omega)
    obtain ⟨tag, t2, rfl, h2⟩ := exists_u32 (b := t1) (by omega)
    rcases lenIp_cases t2 with rfl | ⟨ip, t, rfl⟩ | ⟨c, t, rfl, hcond⟩
    · simp at h13
    · refine .inl ⟨_, _, ?_, by rw [← List.append_assoc, ← List.append_assoc]; exact .t3 rd tag ip t⟩
      rfl
    · refine .inr (.inr ?_)
      rw [bodyDec3]
      refine Res.isErr_bind ?_
      simp only [BgpAddrItem.decodeFrom]
      rw [rd_reads8]
      simp only [Res.ok_bind]
      rw [rslice_append_mid _ _ _ _ _ (by simp) (by simp)]
      simp only [Res.ok_bind, getn32_four]
      rw [← List.append_assoc]
      exact Res.isErr_bind (evpnReadIp_err _ _ _ _ (by simp) hcond)
  by_cases e4 : ty = 4
  · subst e4
    by_cases h19 : b.length < 19
    · exact .inr (.inl (.t4 b h8 h19))
    obtain ⟨rd, t1, rfl, h1⟩ := exists_rd (b := b) (by omega)
    obtain ⟨et, esi, t2, rfl, h2⟩ := exists_esi (b := t1) (by omega)
    rcases lenIp_cases t2 with rfl | ⟨ip, t, rfl⟩ | ⟨c, t, rfl, hcond⟩
    · simp at h19
    · refine .inl ⟨_, _, ?_, by rw [← List.append_assoc, ← List.append_assoc]; exact .t4 rd et esi ip t⟩
      rfl
    · refine .inr (.inr ?_)
      rw [bodyDec4]
      refine Res.isErr_bind ?_
      simp only [BgpAddrItem.decodeFrom]
      rw [rd_reads8]
      simp only [Res.ok_bind]
      rw [rfrom_append _ _ _ (by simp)]
      simp only [Res.ok_bind, esi_read]
      rw [← List.append_assoc]
      exact Res.isErr_bind (evpnReadIp_err _ _ _ _ (by simp) hcond)
  by_cases e5 : ty = 5
  · subst e5
    by_cases h23 : b.length < 23
    · exact .inr (.inl (.t5 b h8 h23))
    obtain ⟨rd, t1, rfl, h1⟩ := exists_rd (b := b) (by omega)
    obtain ⟨et, esi, t2, rfl, h2⟩ := exists_esi (b := t1) (by omega)
    obtain ⟨tag, t3, rfl, h3⟩ := exists_u32 (b := t2) (by omega)
    obtain ⟨len, t4, rfl, h4⟩ := exists_octet (b := t3) (by omega)
    by_cases h11 : t4.length = 11
    · obtain ⟨p, t5, rfl, h5⟩ := exists_u32 (b := t4) (by omega)
      obtain ⟨g, lab, rfl, h6⟩ := exists_u32 (b := t5) (by omega)
      obtain ⟨ls, k, hk⟩ := labels24_total (lab := lab) (by omega)
      refine .inl ⟨.evpn5 ⟨rd, et, esi, tag, len, .v4 p, .v4 g, ⟨ls⟩⟩, 31 + k, rfl, ?_⟩
      have := EvpnRead.t5 rd et esi tag len p g ls lab k (by omega) hk
      simp only [List.append_assoc] at this
      exact this
    by_cases h35 : t4.length = 35
    · obtain ⟨p, t5, rfl, h5⟩ := exists_u32 (b := t4) (by omega)
      obtain ⟨q, t6, rfl, h6, h6'⟩ := exists_take 12 (b := t5) (by omega)
      obtain ⟨g, t7, rfl, h7⟩ := exists_u32 (b := t6) (by omega)
      obtain ⟨r, lab, rfl, h8, h8'⟩ := exists_take 12 (b := t7) (by omega)
      obtain ⟨ls, k, hk⟩ := labels24_total (lab := lab) (by omega)
      refine .inl ⟨.evpn5 ⟨rd, et, esi, tag, len, .v4 p, .v4 g, ⟨ls⟩⟩, 55 + k, rfl, ?_⟩
      have := EvpnRead.t5v6 rd et esi tag len p g q r ls lab k h6 h8 (by omega) hk
      simp only [List.append_assoc] at this
      exact this
    refine .inr (.inr ?_)
    rw [bodyDec5]
    refine Res.isErr_bind ?_
    simp only [BgpAddrItem.decodeFrom]
    rw [rd_reads8]
    simp only [Res.ok_bind]
    rw [rfrom_append _ _ _ (by simp)]
    simp only [Res.ok_bind, esi_read, Nat.reduceAdd]
    rw [show ∀ t : Bytes, rfrom (rdBody rd ++ (esiBody et esi ++ t)) 18 = .ok t by
      intro t; rw [rfrom_skip _ _ _ (by simp), rfrom_append _ _ _ (by simp)]]
    simp only [Res.ok_bind, getn32_be]
    rw [show idx (rdBody rd ++ (esiBody et esi ++ (be 4 tag.toNat ++ ([len] ++ t4)))) 22 = .ok len by
      rw [idx_append_right (by simp), idx_append_right (by simp), idx_append_right (by simp)]; simp]
    simp only [Res.ok_bind]
    rw [if_neg (by simp; omega), if_neg (by simp; omega)]
    trivial
  refine .inr (.inr ?_)
  unfold evpnBodyDec
  rw [if_neg e1, if_neg e2, if_neg e3, if_neg e4, if_neg e5]
  trivial

theorem evpn_exactly (mode : BgpTransportMode) (b : Bytes) :
    Exactly (BgpAddrItem.decodeFrom (T := BgpEVPN) mode b) (fun y => EvpnItemRead b y.1 y.2) (EvpnItemCrash b) := by
  show Exactly (BgpEVPN.decodeFrom mode b) _ _
  refine .of_cases ?_ ?_ ?_
  · rintro ⟨x, n⟩ ⟨l, body, t, k, hb, hl, hr, hn⟩
    simp only at hb hn hr
    rw [hb, evpn_dec _ _ _ _ _ hl, evpn_ok hr, hn]
  · rintro (h | ⟨ty, l, body, t, hb, hl, hr⟩)
    · unfold BgpEVPN.decodeFrom
      match b, h with
      | [], _ => simp
      | [a], _ => simp
    · rw [hb, evpn_dec _ _ _ _ _ hl, evpn_panic hr]
  · by_cases h : b.length < 2
    · exact .inr (.inl (.inl h))
    obtain ⟨ty, l, t, rfl⟩ := exists_cons2 (l := b) (by omega)
    by_cases hl : t.length < l.toNat
    · refine .inr (.inr ?_)
      unfold BgpEVPN.decodeFrom
      simp only [idx_cons_zero, idx_cons_succ, Res.ok_bind]
      rw [if_pos (by simp; omega)]
      trivial
    · obtain ⟨body, t', rfl, hb, -⟩ := exists_take l.toNat (b := t) (by omega)
      rcases evpn_total mode ty body with ⟨x, k, rfl, hx⟩ | hc | he
      · exact .inl ⟨(x, k + 2), l, body, t', k, rfl, hb, hx, rfl⟩
      · exact .inr (.inl (.inr ⟨ty, l, body, t', rfl, hb, hc⟩))
      · refine .inr (.inr ?_)
        have := evpn_dec mode ty l body t' hb
        simp only [List.cons_append] at this
        rw [this]; exact he

/-! ## MVPN -/

theorem decodeAddr_four (a : IPv4) : decodeAddr (be 4 a.toNat) = .ok (.v4 a) := by
  simp [decodeAddr, decodeAddrV4_four]

theorem decodeAddr_sixteen (a : IPv6) : decodeAddr (be 16 a.toNat) = .ok (.v6 a) := by
  simp [decodeAddr, decodeAddrV6_sixteen]

theorem decodeAddr_exactly (b : Bytes) : Exactly (decodeAddr b) (fun a => b = ipBody a) False := by
  by_cases h4 : b.length = 4
  · obtain ⟨v, t, rfl, ht⟩ := exists_u32 (b := b) (by omega)
    obtain rfl : t = [] := List.length_eq_zero_iff.1 (by omega)
    refine .of_cases ?_ False.elim (.inl ⟨.v4 v, by simp [ipBody]⟩)
    intro a ha
    rw [ha]
    cases a with
    | v4 a => exact decodeAddr_four a
    | v6 a => rw [ha] at h4; simp [ipBody] at h4
  · by_cases h16 : b.length = 16
    · obtain ⟨v, t, rfl, ht⟩ := exists_u128 (b := b) (by omega)
      obtain rfl : t = [] := List.length_eq_zero_iff.1 (by omega)
      refine .of_cases ?_ False.elim (.inl ⟨.v6 v, by simp [ipBody]⟩)
      intro a ha
      rw [ha]
      cases a with
      | v4 a => rw [ha] at h16; simp [ipBody] at h16
      | v6 a => exact decodeAddr_sixteen a
    · refine .of_cases ?_ False.elim (.inr (.inr ?_))
      · intro a ha
        rw [ha] at h4 h16
        cases a <;> simp [ipBody] at h4 h16
      · unfold decodeAddr
        rw [if_neg h16, if_neg h4]; trivial

/-- skip fields in front and take the slice of a field -/
macro "fields" : tactic => `(tactic| simp only [rslice_append_right, rslice_append_zero, rfrom_skip, rfrom_zero,
  idx_append_right, idx_one, idx_cons_zero, idx_cons_succ, rfrom_cons_succ, rslice_cons_succ,
  List.length_append, List.length_cons, List.length_nil, be_length, rdBody_length, esiBody_length, macBody_length,
  Nat.reduceAdd, Nat.reduceSub, Nat.reduceLeDiff, Nat.zero_le, le_refl, eq_self, ne_eq, not_true_eq_false, or_self,
  ↓reduceIte, BitVec.reduceEq, List.cons_append, List.nil_append,
  Nat.le_add_right, Nat.add_sub_cancel_left, Res.ok_bind, getn32_four, decodeAddr_four, decodeAddr_sixteen,
  ofNat_toNat32])

theorem mvpn1_dec (mode : BgpTransportMode) (rd : BgpRD) (o : IpAddr) (t : Bytes) (h : addrFamily o = mode) :
    BgpAddrItem.decodeFrom mode (rdBody rd ++ (ipBody o ++ t)) =
      .ok ((⟨rd, o⟩ : BgpMVPN1), 8 + (ipBody o).length) := by
  subst h
  simp only [BgpAddrItem.decodeFrom]
  rw [rd_reads8]
  simp only [Res.ok_bind]
  cases o with
  | v4 a =>
    simp only [addrFamily, ipBody]
    rw [if_pos (by simp; try omega)]
    fields
  | v6 a =>
    simp only [addrFamily, ipBody]
    rw [if_neg (by simp), if_pos (by simp; try omega)]
    fields

theorem mvpn2_dec (mode : BgpTransportMode) (rd : BgpRD) (asn : U32) (t : Bytes) :
    BgpAddrItem.decodeFrom mode (rdBody rd ++ (be 4 asn.toNat ++ t)) = .ok ((⟨rd, asn⟩ : BgpMVPN2), 12) := by
  simp only [BgpAddrItem.decodeFrom]
  rw [if_pos (by simp; omega), rd_reads8]
  simp only [Res.ok_bind]
  fields

theorem mvpn3_dec (mode : BgpTransportMode) (rd : BgpRD) (s g o : IpAddr) (t : Bytes) (hs : addrFamily s = mode)
    (hg : addrFamily g = mode) (ho : addrFamily o = mode) :
    BgpAddrItem.decodeFrom mode (rdBody rd ++ (lenIpBody s ++ (lenIpBody g ++ (ipBody o ++ t)))) =
      .ok ((⟨rd, s, g, o⟩ : BgpMVPN3), 8 + (lenIpBody s).length + (lenIpBody g).length + (ipBody o).length) := by
  subst hs
  simp only [BgpAddrItem.decodeFrom]
  rw [rd_reads8]
  simp only [Res.ok_bind]
  cases s <;> cases g <;> (try cases hg) <;> cases o <;> (try cases ho)
  · simp only [addrFamily, ipBody, lenIpBody]
    rw [if_pos (by simp; try omega)]
    fields
  · simp only [addrFamily, ipBody, lenIpBody]
    rw [if_neg (by simp), if_pos (by simp; try omega)]
    fields

theorem mvpn5_dec (rd : BgpRD) (s g : IPv4) (t : Bytes) :
    BgpAddrItem.decodeFrom .IPv4 (rdBody rd ++ (lenIpBody (.v4 s) ++ (lenIpBody (.v4 g) ++ t))) =
      .ok ((⟨rd, .v4 s, .v4 g⟩ : BgpMVPN5), 18) := by
  simp only [BgpAddrItem.decodeFrom]
  rw [rd_reads8]
  simp only [Res.ok_bind, lenIpBody]
  rw [if_pos (by simp; try omega)]
  fields

theorem mvpn67_dec (mode : BgpTransportMode) (rd : BgpRD) (asn : U32) (s g : IpAddr) (t : Bytes) (hs : addrFamily s = mode)
    (hg : addrFamily g = mode) :
    BgpAddrItem.decodeFrom mode (rdBody rd ++ (be 4 asn.toNat ++ (lenIpBody s ++ (lenIpBody g ++ t)))) =
      .ok ((⟨rd, asn, s, g⟩ : BgpMVPN67), 12 + (lenIpBody s).length + (lenIpBody g).length) := by
  subst hs
  simp only [BgpAddrItem.decodeFrom]
  rw [rd_reads8]
  simp only [Res.ok_bind]
  cases s <;> cases g <;> (try cases hg)
  · simp only [addrFamily, lenIpBody]
    rw [if_pos (by simp; try omega)]
    fields
  · simp only [addrFamily, lenIpBody]
    rw [if_neg (by simp), if_pos (by simp; try omega)]
    fields

/-- the decoder of one route without its two octets in front -/
def mvpnBodyDec (mode : BgpTransportMode) (ty : U8) (body : Bytes) : Res (BgpMVPN × Nat) :=
  if ty = 1 then do
    let r ← BgpAddrItem.decodeFrom mode body
    .ok (.t1 r.1, r.2 + 2)
  else if ty = 2 then do
    let r ← BgpAddrItem.decodeFrom mode body
    .ok (.t2 r.1, r.2 + 2)
  else if ty = 3 then do
    let r ← BgpAddrItem.decodeFrom mode body
    .ok (.t3 r.1, r.2 + 2)
  else if ty = 4 then do
    let r ← BgpAddrItem.decodeFrom mode body
    .ok (.t4 r.1, r.2 + 2)
  else if ty = 5 then do
    let r ← BgpAddrItem.decodeFrom mode body
    .ok (.t5 r.1, r.2 + 2)
  else if ty = 6 then do
    let r ← BgpAddrItem.decodeFrom mode body
    .ok (.t6 r.1, r.2 + 2)
  else if ty = 7 then do
    let r ← BgpAddrItem.decodeFrom mode body
    .ok (.t7 r.1, r.2 + 2)
  else .err .dynStr

theorem mvpn_dec (mode : BgpTransportMode) (ty l : U8) (body t : Bytes) (h : body.length = l.toNat) :
    BgpMVPN.decodeFrom mode (ty :: l :: body ++ t) = mvpnBodyDec mode ty body := by
  unfold BgpMVPN.decodeFrom mvpnBodyDec
  simp only [List.cons_append, idx_cons_zero, idx_cons_succ, Res.ok_bind]
  rw [show rslice (ty :: l :: (body ++ t)) 2 (2 + l.toNat) = .ok body by
    rw [show 2 + l.toNat = (l.toNat + 1) + 1 by omega, rslice_cons_succ, rslice_cons_succ]
    exact rslice_append_zero _ _ _ h.symm]
  simp only [Res.ok_bind]

theorem mvpn4_dec (mode : BgpTransportMode) (rd : BgpRD) (s g o : IpAddr) (t : Bytes) (hs : addrFamily s = mode)
    (hg : addrFamily g = mode) (ho : addrFamily o = mode) :
    BgpAddrItem.decodeFrom (T := BgpMVPN4) mode
      ([3, 22] ++ (rdBody rd ++ (lenIpBody s ++ (lenIpBody g ++ (ipBody o ++ t))))) = (do
        let a ← decodeAddr t
        .ok (⟨⟨rd, s, g, o⟩, a⟩, 8 + (lenIpBody s).length + (lenIpBody g).length + (ipBody o).length + 6)) := by
  have h3 := mvpn3_dec mode rd s g o t hs hg ho
  have hf : rfrom ([3, 22] ++ (rdBody rd ++ (lenIpBody s ++ (lenIpBody g ++ (ipBody o ++ t)))))
      (2 + (8 + (lenIpBody s).length + (lenIpBody g).length + (ipBody o).length)) = .ok t := by
    rw [show [3, 22] ++ (rdBody rd ++ (lenIpBody s ++ (lenIpBody g ++ (ipBody o ++ t)))) =
      ([3, 22] ++ rdBody rd ++ lenIpBody s ++ lenIpBody g ++ ipBody o) ++ t by simp]
    exact rfrom_append _ _ _ (by simp; omega)
  conv => lhs; simp only [BgpAddrItem.decodeFrom]
  rw [show idx ([3, 22] ++ (rdBody rd ++ (lenIpBody s ++ (lenIpBody g ++ (ipBody o ++ t))))) 0 = .ok (3 : U8) from rfl,
    show idx ([3, 22] ++ (rdBody rd ++ (lenIpBody s ++ (lenIpBody g ++ (ipBody o ++ t))))) 1 = .ok (22 : U8) from rfl,
    show rfrom ([3, 22] ++ (rdBody rd ++ (lenIpBody s ++ (lenIpBody g ++ (ipBody o ++ t))))) 2 =
      .ok (rdBody rd ++ (lenIpBody s ++ (lenIpBody g ++ (ipBody o ++ t)))) from rfrom_append _ _ _ rfl]
  simp only [Res.ok_bind, ne_eq, not_true_eq_false, ↓reduceIte, decide_false, Bool.false_eq_true]
  simp only [BgpAddrItem.decodeFrom] at h3
  rw [h3]
  simp only
  rw [hf]
  simp only [Res.ok_bind]

theorem mvpn_ok {mode : BgpTransportMode} {b : Bytes} {x : BgpMVPN} {k : Nat} (h : MvpnRead mode b x k) :
    mvpnBodyDec mode (mvpnType x) b = .ok (x, k + 2) := by
  cases h with
  | plain x t h4 hw h5 =>
    cases x with
    | t1 r =>
      simp only [mvpnBody, mvpnType, List.append_assoc]
      show (do let r ← BgpAddrItem.decodeFrom mode _; _) = _
      rw [mvpn1_dec _ _ _ _ hw]
      simp
    | t2 r =>
      simp only [mvpnBody, mvpnType, List.append_assoc]
      show (do let r ← BgpAddrItem.decodeFrom mode _; _) = _
      rw [mvpn2_dec]
      simp
    | t3 r =>
      simp only [mvpnBody, mvpnType, mvpn3Body, List.append_assoc]
      show (do let r ← BgpAddrItem.decodeFrom mode _; _) = _
      rw [mvpn3_dec _ _ _ _ _ _ hw.1 hw.2.1 hw.2.2]
      simp; omega
    | t4 r => exact absurd rfl h4
    | t5 r =>
      obtain rfl := h5 rfl
      obtain ⟨rd, s, g⟩ := r
      obtain ⟨hs, hg⟩ := hw
      cases s <;> cases hs
      cases g <;> cases hg
      simp only [mvpnBody, mvpnType, List.append_assoc]
      show (do let r ← BgpAddrItem.decodeFrom .IPv4 _; _) = _
      rw [mvpn5_dec]
      simp [lenIpBody]
    | t6 r =>
      simp only [mvpnBody, mvpnType, List.append_assoc]
      show (do let r ← BgpAddrItem.decodeFrom mode _; _) = _
      rw [mvpn67_dec _ _ _ _ _ _ hw.1 hw.2]
      simp; omega
    | t7 r =>
      simp only [mvpnBody, mvpnType, List.append_assoc]
      show (do let r ← BgpAddrItem.decodeFrom mode _; _) = _
      rw [mvpn67_dec _ _ _ _ _ _ hw.1 hw.2]
      simp; omega
  | leaf s o hw =>
    simp only [mvpnType, mvpn3Body, List.append_assoc]
    show (do let r ← BgpAddrItem.decodeFrom mode _; _) = _
    rw [mvpn4_dec _ _ _ _ _ _ hw.1 hw.2.1 hw.2.2, ((decodeAddr_exactly _).ok o).2 rfl]
    simp; omega

/-- an address of a family with its length, or something else that long -/
theorem lenIp_split (mode : BgpTransportMode) (n : Nat) (hn : n = if mode = .IPv4 then 4 else 16) {b : Bytes}
    (h : n + 1 ≤ b.length) : ∃ c p t, b = [c] ++ (p ++ t) ∧ p.length = n ∧ t.length = b.length - (n + 1) ∧
      ((∃ a, addrFamily a = mode ∧ [c] ++ p = lenIpBody a) ∨ c ≠ (if mode = .IPv4 then 32 else 128)) := by
  obtain ⟨c, t1, rfl, h1⟩ := exists_octet (b := b) (by omega)
  obtain ⟨p, t, rfl, hp, ht⟩ := exists_take n (b := t1) (by omega)
  refine ⟨c, p, t, rfl, hp, by omega, ?_⟩
  by_cases hc : c = (if mode = .IPv4 then 32 else 128)
  · left
    cases mode with
    | IPv4 =>
      simp only [↓reduceIte] at hn hc
      obtain ⟨v, q, rfl, hq⟩ := exists_u32 (b := p) (by omega)
      obtain rfl : q = [] := List.length_eq_zero_iff.1 (by omega)
      exact ⟨.v4 v, rfl, by simp [lenIpBody, hc]⟩
    | IPv6 =>
      simp only [reduceCtorEq, ↓reduceIte] at hn hc
      obtain ⟨v, q, rfl, hq⟩ := exists_u128 (b := p) (by omega)
      obtain rfl : q = [] := List.length_eq_zero_iff.1 (by omega)
      exact ⟨.v6 v, rfl, by simp [lenIpBody, hc]⟩
  · exact .inr hc

theorem ip_split (mode : BgpTransportMode) (n : Nat) (hn : n = if mode = .IPv4 then 4 else 16) {b : Bytes}
    (h : n ≤ b.length) : ∃ a t, b = ipBody a ++ t ∧ addrFamily a = mode ∧ t.length = b.length - n := by
  cases mode with
  | IPv4 =>
    simp only [↓reduceIte] at hn
    obtain ⟨v, q, rfl, hq⟩ := exists_u32 (b := b) (by omega)
    exact ⟨.v4 v, q, rfl, rfl, by omega⟩
  | IPv6 =>
    simp only [reduceCtorEq, ↓reduceIte] at hn
    obtain ⟨v, q, rfl, hq⟩ := exists_u128 (b := b) (by omega)
    exact ⟨.v6 v, q, rfl, rfl, by omega⟩

/-- what the type 3 decoder does -/
theorem mvpn3_total (mode : BgpTransportMode) (b : Bytes) :
    (∃ rd s g o t, b = rdBody rd ++ (lenIpBody s ++ (lenIpBody g ++ (ipBody o ++ t))) ∧ addrFamily s = mode ∧
      addrFamily g = mode ∧ addrFamily o = mode) ∨ (BgpAddrItem.decodeFrom (T := BgpMVPN3) mode b).IsErr := by
  by_cases h8 : b.length < 8
  · right; simp only [BgpAddrItem.decodeFrom]; rw [rd_decode_short h8]; trivial
  obtain ⟨rd, t1, rfl, h1⟩ := exists_rd (b := b) (by omega)
  obtain ⟨n, hn⟩ : ∃ n, n = if mode = .IPv4 then 4 else 16 := ⟨_, rfl⟩
  by_cases hlen : t1.length < (n + 1) + (n + 1) + n
  · right
    simp only [BgpAddrItem.decodeFrom]
    rw [rd_reads8]
    simp only [Res.ok_bind]
    rw [if_neg (by rintro ⟨rfl, h⟩; simp at hn h; omega)]
    by_cases h6 : mode = .IPv6 ∧ (rdBody rd ++ t1).length ≥ 58
    · exfalso; obtain ⟨rfl, h⟩ := h6; simp at hn h; omega
    · rw [if_neg h6]; trivial
  obtain ⟨c, p, t2, rfl, hp, h2, hc⟩ := lenIp_split mode n hn (b := t1) (by omega)
  obtain ⟨d, q, t3, rfl, hq, h3, hd⟩ := lenIp_split mode n hn (b := t2) (by omega)
  obtain ⟨o, t, rfl, ho, h4⟩ := ip_split mode n hn (b := t3) (by omega)
  by_cases hcd : (∃ s, addrFamily s = mode ∧ [c] ++ p = lenIpBody s) ∧ (∃ g, addrFamily g = mode ∧ [d] ++ q = lenIpBody g)
  · obtain ⟨⟨s, hs, es⟩, g, hg, eg⟩ := hcd
    left
    refine ⟨rd, s, g, o, t, ?_, hs, hg, ho⟩
    rw [← es, ← eg]
    simp
  · right
    have hne : c ≠ (if mode = .IPv4 then 32 else 128) ∨ d ≠ (if mode = .IPv4 then 32 else 128) := by
      rcases hc with hc | hc
      · rcases hd with hd | hd
        · exact absurd ⟨hc, hd⟩ hcd
        · exact .inr hd
      · exact .inl hc
    simp only [BgpAddrItem.decodeFrom]
    rw [rd_reads8]
    simp only [Res.ok_bind]
    cases mode with
    | IPv4 =>
      simp only [↓reduceIte] at hn hne
      subst hn
      rw [if_pos ⟨rfl, by simp at hlen ⊢; omega⟩]
      rw [show idx (rdBody rd ++ ([c] ++ (p ++ ([d] ++ (q ++ (ipBody o ++ t)))))) 8 = .ok c by
        rw [idx_append_right (by simp)]; simp]
      rw [show idx (rdBody rd ++ ([c] ++ (p ++ ([d] ++ (q ++ (ipBody o ++ t)))))) 13 = .ok d by
        rw [idx_append_right (by simp), idx_append_right (by simp), idx_append_right (by simp [hp])]; simp [hp]]
      simp only [Res.ok_bind]
      rw [if_pos hne]; trivial
    | IPv6 =>
      simp only [reduceCtorEq, ↓reduceIte] at hn hne
      subst hn
      rw [if_neg (by simp), if_pos ⟨rfl, by simp at hlen ⊢; omega⟩]
      rw [show idx (rdBody rd ++ ([c] ++ (p ++ ([d] ++ (q ++ (ipBody o ++ t)))))) 8 = .ok c by
        rw [idx_append_right (by simp)]; simp]
      rw [show idx (rdBody rd ++ ([c] ++ (p ++ ([d] ++ (q ++ (ipBody o ++ t)))))) 25 = .ok d by
        rw [idx_append_right (by simp), idx_append_right (by simp), idx_append_right (by simp [hp])]; simp [hp]]
      simp only [Res.ok_bind]
      rw [if_pos hne]; trivial

theorem mvpn67_total (mode : BgpTransportMode) (b : Bytes) :
    (∃ rd, ∃ asn : U32, ∃ s g t, b = rdBody rd ++ (be 4 asn.toNat ++ (lenIpBody s ++ (lenIpBody g ++ t))) ∧
      addrFamily s = mode ∧ addrFamily g = mode) ∨ (BgpAddrItem.decodeFrom (T := BgpMVPN67) mode b).IsErr := by
  by_cases h8 : b.length < 8
  · right; simp only [BgpAddrItem.decodeFrom]; rw [rd_decode_short h8]; trivial
  obtain ⟨rd, t1, rfl, h1⟩ := exists_rd (b := b) (by omega)
  obtain ⟨n, hn⟩ : ∃ n, n = if mode = .IPv4 then 4 else 16 := ⟨_, rfl⟩
  by_cases hlen : t1.length < 4 + (n + 1) + (n + 1)
  · right
    simp only [BgpAddrItem.decodeFrom]
    rw [rd_reads8]
    simp only [Res.ok_bind]
    rw [if_neg (by rintro ⟨rfl, h⟩; simp at hn h; omega)]
    by_cases h6 : mode = .IPv6 ∧ (rdBody rd ++ t1).length ≥ 46
    · exfalso; obtain ⟨rfl, h⟩ := h6; simp at hn h; omega
    · rw [if_neg h6]; trivial
  obtain ⟨asn, t1, rfl, h1'⟩ := exists_u32 (b := t1) (by omega)
  obtain ⟨c, p, t2, rfl, hp, h2, hc⟩ := lenIp_split mode n hn (b := t1) (by omega)
  obtain ⟨d, q, t, rfl, hq, h3, hd⟩ := lenIp_split mode n hn (b := t2) (by omega)
  by_cases hcd : (∃ s, addrFamily s = mode ∧ [c] ++ p = lenIpBody s) ∧ (∃ g, addrFamily g = mode ∧ [d] ++ q = lenIpBody g)
  · obtain ⟨⟨s, hs, es⟩, g, hg, eg⟩ := hcd
    left
    refine ⟨rd, asn, s, g, t, ?_, hs, hg⟩
    rw [← es, ← eg]
    simp
  · right
    have hne : c ≠ (if mode = .IPv4 then 32 else 128) ∨ d ≠ (if mode = .IPv4 then 32 else 128) := by
      rcases hc with hc | hc
      · rcases hd with hd | hd
        · exact absurd ⟨hc, hd⟩ hcd
        · exact .inr hd
      · exact .inl hc
    simp only [BgpAddrItem.decodeFrom]
    rw [rd_reads8]
    simp only [Res.ok_bind]
    cases mode with
    | IPv4 =>
      simp only [↓reduceIte] at hn hne
      subst hn
      rw [if_pos ⟨rfl, by simp; omega⟩]
      rw [show idx (rdBody rd ++ (be 4 asn.toNat ++ ([c] ++ (p ++ ([d] ++ (q ++ t)))))) 12 = .ok c by
        rw [idx_append_right (by simp), idx_append_right (by simp)]; simp]
      rw [show idx (rdBody rd ++ (be 4 asn.toNat ++ ([c] ++ (p ++ ([d] ++ (q ++ t)))))) 17 = .ok d by
        rw [idx_append_right (by simp), idx_append_right (by simp), idx_append_right (by simp),
          idx_append_right (by simp [hp])]; simp [hp]]
      simp only [Res.ok_bind]
      rw [if_pos hne]; trivial
    | IPv6 =>
      simp only [reduceCtorEq, ↓reduceIte] at hn hne
      subst hn
      rw [if_neg (by simp), if_pos ⟨rfl, by simp; omega⟩]
      rw [show idx (rdBody rd ++ (be 4 asn.toNat ++ ([c] ++ (p ++ ([d] ++ (q ++ t)))))) 12 = .ok c by
        rw [idx_append_right (by simp), idx_append_right (by simp)]; simp]
      rw [show idx (rdBody rd ++ (be 4 asn.toNat ++ ([c] ++ (p ++ ([d] ++ (q ++ t)))))) 29 = .ok d by
        rw [idx_append_right (by simp), idx_append_right (by simp), idx_append_right (by simp),
          idx_append_right (by simp [hp])]; simp [hp]]
      simp only [Res.ok_bind]
      rw [if_pos hne]; trivial

theorem mvpn5_total (mode : BgpTransportMode) (b : Bytes) :
    (mode = .IPv4 ∧ ∃ rd s g t, b = rdBody rd ++ (lenIpBody (.v4 s) ++ (lenIpBody (.v4 g) ++ t))) ∨
      (BgpAddrItem.decodeFrom (T := BgpMVPN5) mode b).IsErr := by
  by_cases h8 : b.length < 8
  · right; simp only [BgpAddrItem.decodeFrom]; rw [rd_decode_short h8]; trivial
  obtain ⟨rd, t1, rfl, h1⟩ := exists_rd (b := b) (by omega)
  cases mode with
  | IPv4 =>
    by_cases hlen : t1.length < 10
    · right
      simp only [BgpAddrItem.decodeFrom]
      rw [rd_reads8]
      simp only [Res.ok_bind]
      rw [if_neg (by rintro ⟨-, h⟩; simp at h; omega), if_neg (by simp)]; trivial
    obtain ⟨c, p, t2, rfl, hp, h2, hc⟩ := lenIp_split .IPv4 4 rfl (b := t1) (by omega)
    obtain ⟨d, q, t, rfl, hq, h3, hd⟩ := lenIp_split .IPv4 4 rfl (b := t2) (by omega)
    by_cases hcd : (∃ s, addrFamily s = .IPv4 ∧ [c] ++ p = lenIpBody s) ∧ (∃ g, addrFamily g = .IPv4 ∧ [d] ++ q = lenIpBody g)
    · obtain ⟨⟨s, hs, es⟩, g, hg, eg⟩ := hcd
      left
      cases s with
      | v6 s => cases hs
      | v4 s => cases g with
        | v6 g => cases hg
        | v4 g =>
      refine ⟨rfl, rd, s, g, t, ?_⟩
      rw [← es, ← eg]
      simp
    · right
      have hne : c ≠ 32 ∨ d ≠ 32 := by
        rcases hc with hc | hc
        · rcases hd with hd | hd
          · exact absurd ⟨hc, hd⟩ hcd
          · exact .inr hd
        · exact .inl hc
      simp only [BgpAddrItem.decodeFrom]
      rw [rd_reads8]
      simp only [Res.ok_bind]
      rw [if_pos ⟨trivial, by simp; omega⟩]
      rw [show idx (rdBody rd ++ ([c] ++ (p ++ ([d] ++ (q ++ t))))) 8 = .ok c by
        rw [idx_append_right (by simp)]; simp]
      rw [show idx (rdBody rd ++ ([c] ++ (p ++ ([d] ++ (q ++ t))))) 13 = .ok d by
        rw [idx_append_right (by simp), idx_append_right (by simp), idx_append_right (by simp [hp])]; simp [hp]]
      simp only [Res.ok_bind]
      rw [if_pos hne]; trivial
  | IPv6 =>
    right
    simp only [BgpAddrItem.decodeFrom]
    rw [rd_reads8]
    simp only [Res.ok_bind]
    rw [if_neg (by simp)]
    by_cases hlen : t1.length < 34
    · rw [if_neg (by simp; omega)]; trivial
    rw [if_pos ⟨trivial, by simp; omega⟩]
    rw [idx_of_lt (by simp; omega), idx_of_lt (by simp; omega)]
    simp only [Res.ok_bind]
    split
    · trivial
    · rw [rslice_ok (by omega) (by simp; omega), Res.ok_bind]
      have : (decodeAddr ((List.take 15 (rdBody rd ++ t1)).drop 9)).IsErr := by
        unfold decodeAddr
        rw [if_neg (by simp; omega), if_neg (by simp; omega)]; trivial
      exact Res.isErr_bind this

theorem mvpn_total (mode : BgpTransportMode) (ty : U8) (b : Bytes) :
    (∃ x k, mvpnType x = ty ∧ MvpnRead mode b x k) ∨ (ty = 4 ∧ (b = [] ∨ b = [3])) ∨ (mvpnBodyDec mode ty b).IsErr := by
  by_cases e1 : ty = 1
  · subst e1
    by_cases h8 : b.length < 8
    · refine .inr (.inr (Res.isErr_bind ?_))
      simp only [BgpAddrItem.decodeFrom]; rw [rd_decode_short h8]; trivial
    obtain ⟨rd, t1, rfl, h1⟩ := exists_rd (b := b) (by omega)
    obtain ⟨n, hn⟩ : ∃ n, n = if mode = .IPv4 then 4 else 16 := ⟨_, rfl⟩
    by_cases hlen : t1.length < n
    · refine .inr (.inr (Res.isErr_bind ?_))
      simp only [BgpAddrItem.decodeFrom]
      rw [rd_reads8]
      simp only [Res.ok_bind]
      rw [if_neg (by rintro ⟨rfl, h⟩; simp at hn h; omega)]
      by_cases h6 : mode = .IPv6 ∧ (rdBody rd ++ t1).length ≥ 24
      · exfalso; obtain ⟨rfl, h⟩ := h6; simp at hn h; omega
      · rw [if_neg h6]; trivial
    obtain ⟨o, t, rfl, ho, h4⟩ := ip_split mode n hn (b := t1) (by omega)
    refine .inl ⟨.t1 ⟨rd, o⟩, (mvpnBody (.t1 ⟨rd, o⟩)).length, rfl, ?_⟩
    rw [← List.append_assoc]
    exact .plain (.t1 ⟨rd, o⟩) t (fun h => nomatch h) ho (fun h => nomatch h)
  by_cases e2 : ty = 2
  · subst e2
    by_cases h12 : b.length < 12
    · refine .inr (.inr (Res.isErr_bind ?_))
      simp only [BgpAddrItem.decodeFrom]
      rw [if_neg (by omega)]; trivial
    obtain ⟨rd, t1, rfl, h1⟩ := exists_rd (b := b) (by omega)
    obtain ⟨asn, t, rfl, h2⟩ := exists_u32 (b := t1) (by omega)
    refine .inl ⟨.t2 ⟨rd, asn⟩, (mvpnBody (.t2 ⟨rd, asn⟩)).length, rfl, ?_⟩
    rw [← List.append_assoc]
    exact .plain (.t2 ⟨rd, asn⟩) t (fun h => nomatch h) trivial (fun h => nomatch h)
  by_cases e3 : ty = 3
  · subst e3
    rcases mvpn3_total mode b with ⟨rd, s, g, o, t, rfl, hs, hg, ho⟩ | h
    · have := MvpnRead.plain (mode := mode) (.t3 ⟨rd, s, g, o⟩) t (fun h => nomatch h) ⟨hs, hg, ho⟩ (fun h => nomatch h)
      simp only [mvpnBody, mvpn3Body, List.append_assoc] at this
      exact .inl ⟨.t3 ⟨rd, s, g, o⟩, _, rfl, this⟩
    · exact .inr (.inr (Res.isErr_bind h))
  by_cases e4 : ty = 4
  · subst e4
    match b with
    | [] => exact .inr (.inl ⟨rfl, .inl rfl⟩)
    | [c] =>
      by_cases hc : c = 3
      · exact .inr (.inl ⟨rfl, .inr (by rw [hc])⟩)
      · refine .inr (.inr (Res.isErr_bind ?_))
        simp only [BgpAddrItem.decodeFrom, idx_cons_zero, Res.ok_bind]
        rw [if_pos hc]; trivial
    | c :: d :: t =>
      by_cases hcd : c = 3 ∧ d = 22
      · obtain ⟨rfl, rfl⟩ := hcd
        rcases mvpn3_total mode t with ⟨rd, s, g, o, t, rfl, hs, hg, ho⟩ | h
        · rcases (decodeAddr_exactly t).cases with ⟨a, rfl⟩ | hf | he
          · have := MvpnRead.leaf (mode := mode) ⟨rd, s, g, o⟩ a ⟨hs, hg, ho⟩
            simp only [mvpn3Body, List.append_assoc] at this
            exact .inl ⟨.t4 ⟨⟨rd, s, g, o⟩, a⟩, _, rfl, this⟩
          · exact hf.elim
          · refine .inr (.inr (Res.isErr_bind ?_))
            have := mvpn4_dec mode rd s g o t hs hg ho
            simp only [List.cons_append, List.nil_append] at this
            rw [this]
            exact Res.isErr_bind he
        · refine .inr (.inr (Res.isErr_bind ?_))
          simp only [BgpAddrItem.decodeFrom, idx_cons_zero, idx_cons_succ, Res.ok_bind, ne_eq, not_true_eq_false,
            ↓reduceIte, decide_false, Bool.false_eq_true, rfrom_cons_succ, rfrom_zero]
          simp only [BgpAddrItem.decodeFrom] at h
          obtain ⟨e, he⟩ := Res.err_of_isErr h
          rw [he]; trivial
      · refine .inr (.inr (Res.isErr_bind ?_))
        simp only [BgpAddrItem.decodeFrom, idx_cons_zero, idx_cons_succ, Res.ok_bind]
        by_cases hc : c = 3
        · rw [if_neg (by simpa using hc)]
          have hd : d ≠ 22 := fun hd => hcd ⟨hc, hd⟩
          rw [Res.ok_bind, if_pos (by simpa using hd)]; trivial
        · rw [if_pos hc]; trivial
  by_cases e5 : ty = 5
  · subst e5
    rcases mvpn5_total mode b with ⟨rfl, rd, s, g, t, rfl⟩ | h
    · have := MvpnRead.plain (mode := .IPv4) (.t5 ⟨rd, .v4 s, .v4 g⟩) t (fun h => nomatch h) ⟨rfl, rfl⟩ (fun _ => rfl)
      simp only [mvpnBody, List.append_assoc] at this
      exact .inl ⟨.t5 ⟨rd, .v4 s, .v4 g⟩, _, rfl, this⟩
    · exact .inr (.inr (Res.isErr_bind h))
  by_cases e6 : ty = 6
  · subst e6
    rcases mvpn67_total mode b with ⟨rd, asn, s, g, t, rfl, hs, hg⟩ | h
    · have := MvpnRead.plain (mode := mode) (.t6 ⟨rd, asn, s, g⟩) t (fun h => nomatch h) ⟨hs, hg⟩ (fun h => nomatch h)
      simp only [mvpnBody, List.append_assoc] at this
      exact .inl ⟨.t6 ⟨rd, asn, s, g⟩, _, rfl, this⟩
    · exact .inr (.inr (Res.isErr_bind h))
  by_cases e7 : ty = 7
  · subst e7
    rcases mvpn67_total mode b with ⟨rd, asn, s, g, t, rfl, hs, hg⟩ | h
    · have := MvpnRead.plain (mode := mode) (.t7 ⟨rd, asn, s, g⟩) t (fun h => nomatch h) ⟨hs, hg⟩ (fun h => nomatch h)
      simp only [mvpnBody, List.append_assoc] at this
      exact .inl ⟨.t7 ⟨rd, asn, s, g⟩, _, rfl, this⟩
    · exact .inr (.inr (Res.isErr_bind h))
  refine .inr (.inr ?_)
  unfold mvpnBodyDec
  rw [if_neg e1, if_neg e2, if_neg e3, if_neg e4, if_neg e5, if_neg e6, if_neg e7]
  trivial

theorem mvpn_cut (mode : BgpTransportMode) (ty l : U8) (t : Bytes) (h : t.length < l.toNat) :
    BgpMVPN.decodeFrom mode (ty :: l :: t) =
      if 1 ≤ ty.toNat ∧ ty.toNat ≤ 7 then .panic else .err .dynStr := by
  unfold BgpMVPN.decodeFrom
  simp only [idx_cons_zero, idx_cons_succ, Res.ok_bind]
  rw [rslice_panic (by simp; omega)]
  simp only [Res.panic_bind]
  have key : ∀ k : Nat, k < 256 → (ty = BitVec.ofNat 8 k ↔ ty.toNat = k) := by
    intro k hk
    constructor
    · intro h; rw [h]; simp; omega
    · intro h; apply BitVec.eq_of_toNat_eq; simp; omega
  have k1 := key 1 (by omega)
  have k2 := key 2 (by omega)
  have k3 := key 3 (by omega)
  have k4 := key 4 (by omega)
  have k5 := key 5 (by omega)
  have k6 := key 6 (by omega)
  have k7 := key 7 (by omega)
  by_cases hr : 1 ≤ ty.toNat ∧ ty.toNat ≤ 7
  · rw [if_pos hr]
    by_cases e1 : ty = 1
    · rw [if_pos e1]
    rw [if_neg e1]
    by_cases e2 : ty = 2
    · rw [if_pos e2]
    rw [if_neg e2]
    by_cases e3 : ty = 3
    · rw [if_pos e3]
    rw [if_neg e3]
    by_cases e4 : ty = 4
    · rw [if_pos e4]
    rw [if_neg e4]
    by_cases e5 : ty = 5
    · rw [if_pos e5]
    rw [if_neg e5]
    by_cases e6 : ty = 6
    · rw [if_pos e6]
    rw [if_neg e6]
    have e7 : ty = 7 := k7.2 (by
      have h1 := mt k1.2 e1; have h2 := mt k2.2 e2; have h3 := mt k3.2 e3; have h4 := mt k4.2 e4
      have h5 := mt k5.2 e5; have h6 := mt k6.2 e6
      omega)
    rw [if_pos e7]
  · rw [if_neg hr, if_neg (fun e => hr (by have := k1.1 e; omega)), if_neg (fun e => hr (by have := k2.1 e; omega)),
      if_neg (fun e => hr (by have := k3.1 e; omega)), if_neg (fun e => hr (by have := k4.1 e; omega)),
      if_neg (fun e => hr (by have := k5.1 e; omega)), if_neg (fun e => hr (by have := k6.1 e; omega)),
      if_neg (fun e => hr (by have := k7.1 e; omega))]

theorem mvpn_exactly (mode : BgpTransportMode) (b : Bytes) :
    Exactly (BgpAddrItem.decodeFrom (T := BgpMVPN) mode b) (fun y => MvpnItemRead mode b y.1 y.2) (MvpnItemCrash b) := by
  show Exactly (BgpMVPN.decodeFrom mode b) _ _
  refine .of_cases ?_ ?_ ?_
  · rintro ⟨x, n⟩ ⟨l, body, t, k, hb, hl, hr, hn⟩
    simp only at hb hn hr
    rw [hb, mvpn_dec _ _ _ _ _ hl, mvpn_ok hr, hn]
  · rintro (h | ⟨ty, l, t, hb, h1, h7, h⟩)
    · unfold BgpMVPN.decodeFrom
      match b, h with
      | [], _ => simp
      | [a], _ => simp
    · subst hb
      by_cases hl : t.length < l.toNat
      · rw [mvpn_cut _ _ _ _ hl, if_pos ⟨h1, h7⟩]
      · rcases h with h | ⟨rfl, rfl | ⟨rfl, h3⟩⟩
        · exact absurd h hl
        · have := mvpn_dec mode 4 0 [] t rfl
          simp only [List.cons_append, List.nil_append] at this
          rw [this]; rfl
        · cases t with
          | nil => cases h3
          | cons c t =>
            simp only [List.head?_cons, Option.some.injEq] at h3
            subst h3
            have := mvpn_dec mode 4 1 [3] t rfl
            simp only [List.cons_append, List.nil_append] at this
            rw [this]; rfl
  · by_cases h : b.length < 2
    · exact .inr (.inl (.inl h))
    obtain ⟨ty, l, t, rfl⟩ := exists_cons2 (l := b) (by omega)
    by_cases hl : t.length < l.toNat
    · by_cases hr : 1 ≤ ty.toNat ∧ ty.toNat ≤ 7
      · exact .inr (.inl (.inr ⟨ty, l, t, rfl, hr.1, hr.2, .inl hl⟩))
      · refine .inr (.inr ?_)
        rw [mvpn_cut _ _ _ _ hl, if_neg hr]; trivial
    · obtain ⟨body, t', rfl, hb, -⟩ := exists_take l.toNat (b := t) (by omega)
      rcases mvpn_total mode ty body with ⟨x, k, rfl, hx⟩ | ⟨rfl, hc⟩ | he
      · exact .inl ⟨(x, k + 2), l, body, t', k, rfl, hb, hx, rfl⟩
      · refine .inr (.inl (.inr ⟨4, l, _, rfl, by decide, by decide, .inr ⟨rfl, ?_⟩⟩))
        rcases hc with rfl | rfl
        · left; apply BitVec.eq_of_toNat_eq; exact hb.symm
        · right; exact ⟨by apply BitVec.eq_of_toNat_eq; exact hb.symm, rfl⟩
      · refine .inr (.inr ?_)
        have := mvpn_dec mode ty l body t' hb
        simp only [List.cons_append] at this
        rw [this]; exact he

end Zbgp
