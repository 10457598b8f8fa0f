import Verif.Lemmas.ReadsAll
import Verif.Lemmas.ReleaseNoHang
import Verif.Lemmas.ReleaseMsg
import Verif.Spec.ReleaseRoutes

/-! # What is read and what crashes without overflow checks: VPLS, EVPN, FlowSpec, all families -/

namespace Zbgp

open Spec BgpAddrs


theorem w_field_exactly (lab : Bytes) :
    Exactly (MplsLabels.extractBitsIn .release (BitVec.ofNat 8 (8 * lab.length)) lab)
      (fun y => WrapLabels (leftBits lab) lab y.1.labels y.2) (WrapLabelsCrash (leftBits lab) lab) := by
  rw [← leftBits_eq]; exact wrapLabels_exactly _ _

theorem w_field_ok {lab : Bytes} {ls : List U32} {k : Nat} (h : WrapLabels (leftBits lab) lab ls k) :
    MplsLabels.extractBitsIn .release (BitVec.ofNat 8 (8 * lab.length)) lab = .ok (⟨ls⟩, k) :=
  ((w_field_exactly lab).ok (⟨ls⟩, k)).2 h

theorem w_field_panic {lab : Bytes} (h : WrapLabelsCrash (leftBits lab) lab) :
    MplsLabels.extractBitsIn .release (BitVec.ofNat 8 (8 * lab.length)) lab = .panic :=
  (w_field_exactly lab).crash.2 h

theorem w_field_total (lab : Bytes) :
    (∃ ls k, WrapLabels (leftBits lab) lab ls k) ∨ WrapLabelsCrash (leftBits lab) lab :=
  wrapLabels_total lab _

theorem w_vpls_dec (rd : BgpRD) (s o r : U16) (lab : Bytes) (h : 3 ≤ lab.length) (n : Nat) (hn : n = 14 + lab.length) :
    (vplsIn .release).extractFrom n
      (rdBody rd ++ (be 2 s.toNat ++ (be 2 o.toNat ++ (be 2 r.toNat ++ lab)))) = (do
        let y ← MplsLabels.extractBitsIn .release (BitVec.ofNat 8 (8 * lab.length)) lab
        .ok (⟨rd, s, o, r, y.1⟩ : BgpAddrL2)) := by
  simp only [BgpItemLong.extractFrom]
  rw [if_neg (by omega), show (n - 14) * 8 = 8 * lab.length by omega, rd_reads]
  simp only [Res.ok_bind]
  rw [rfrom_skip _ _ _ (by simp), rfrom_skip _ _ _ (by simp), rfrom_skip _ _ _ (by simp),
    rfrom_append _ _ _ (by simp)]
  simp only [Res.ok_bind]
  cases MplsLabels.extractBitsIn .release (BitVec.ofNat 8 (8 * lab.length)) lab with
  | ok y =>
    simp only [Res.ok_bind]
    rw [rslice_append_mid _ _ _ _ _ (by simp) (by simp)]
    simp only [Res.ok_bind, getn16_two]
    rw [rslice_append_right (by simp) (by omega), rslice_append_mid _ _ _ _ _ (by simp) (by simp)]
    simp only [Res.ok_bind, getn16_two]
    rw [rslice_append_right (by simp) (by omega), rslice_append_right (by simp) (by simp),
      rslice_append_mid _ _ _ _ _ (by simp) (by simp)]
    simp [getn16_two]
  | err e => rfl
  | panic => rfl
  | hang => rfl

theorem w_long_dec (l : Nat) (hl : l < 65536) (t : Bytes) :
    @decodeLongItem BgpAddrL2 (vplsIn .release) (be 2 l ++ t) = (do
      let x ← (vplsIn .release).extractFrom l (← rslice t 0 l)
      .ok (x, l + 2)) := by
  unfold decodeLongItem
  rw [rslice_append_zero _ _ _ (by simp)]
  simp only [Res.ok_bind, getn16_two, BitVec.toNat_ofNat]
  rw [Nat.mod_eq_of_lt (by omega), rslice_append_right (by simp) (by omega)]
  simp

theorem w_vpls_exactly (b : Bytes) :
    Exactly (@decodeLongItem BgpAddrL2 (vplsIn .release) b) (fun y => WrapVpls b y.1 y.2) (WrapVplsCrash b) := by
  by_cases h2 : b.length < 2
  · refine .of_cases ?_ (fun _ => ?_) (.inr (.inl (.inl h2)))
    · rintro y ⟨body, lab, t, k, hb, -⟩
      rw [hb] at h2; simp at h2
    · unfold decodeLongItem; rw [rslice_panic h2]; rfl
  · obtain ⟨l, hl, e⟩ := exists_be 2 (l := b) (by omega)
    have hl : l < 65536 := by simpa using hl
    refine .of_cases ?_ ?_ ?_
    · rintro ⟨x, n⟩ ⟨body, lab, t, k, hb, hl, h17, hbody, hlab, hn⟩
      simp only at hbody hlab hn
      rw [hb, List.append_assoc, w_long_dec _ hl, rslice_append_zero _ _ _ rfl, Res.ok_bind]
      have hlen : body.length = 14 + lab.length := by rw [hbody]; simp; omega
      conv => lhs; rw [hbody]
      simp only [List.append_assoc]
      rw [w_vpls_dec _ _ _ _ _ (by omega) _ (by simp; omega), w_field_ok hlab]
      simp only [Res.ok_bind]
      rw [hn, hlen]
      simp; omega
    · rintro (h | ⟨l', t, hl', hb, hc⟩)
      · exact absurd h h2
      · rw [hb, w_long_dec _ hl']
        rcases hc with hc | ⟨h17, hc⟩
        · rw [rslice_panic hc]; rfl
        · by_cases hlen : t.length < l'
          · rw [rslice_panic hlen]; rfl
          · obtain ⟨p, q, rfl, hp, -⟩ := exists_take l' (b := t) (by omega)
            rw [rslice_append_zero _ _ _ hp.symm, Res.ok_bind]
            rw [List.take_left' hp] at hc
            obtain ⟨rd, s, o, r, lab, rfl, hlab⟩ := exists_vpls (b := p) (by omega)
            rw [w_vpls_dec _ _ _ _ _ (by omega) _ (by simp at hp; omega)]
            rw [show (rdBody rd ++ (be 2 s.toNat ++ (be 2 o.toNat ++ (be 2 r.toNat ++ lab)))).drop 14 = lab by
              rw [← List.append_assoc, ← List.append_assoc, ← List.append_assoc, List.drop_left' (by simp)]] at hc
            rw [w_field_panic hc]; rfl
    · by_cases hlen : (b.drop 2).length < l
      · exact .inr (.inl (.inr ⟨l, b.drop 2, hl, e, .inl hlen⟩))
      · obtain ⟨p, q, hpq, hp, -⟩ := exists_take l (b := b.drop 2) (by omega)
        by_cases h17 : 17 ≤ l
        · obtain ⟨rd, s, o, r, lab, hp2, hlab⟩ := exists_vpls (b := p) (by omega)
          rcases w_field_total lab with ⟨ls, k, hk⟩ | hk
          · refine .inl ⟨(⟨rd, s, o, r, ⟨ls⟩⟩, l + 2), p, lab, q, k, ?_, by omega, by omega, ?_, hk, by rw [hp]⟩
            · rw [hp, List.append_assoc, ← hpq]; exact e
            · rw [hp2]; simp
          · refine .inr (.inl (.inr ⟨l, b.drop 2, hl, e, .inr ⟨h17, ?_⟩⟩))
            rw [hpq, List.take_left' hp]
            rw [show p.drop 14 = lab by
              rw [hp2, ← List.append_assoc, ← List.append_assoc, ← List.append_assoc, List.drop_left' (by simp)]]
            exact hk
        · refine .inr (.inr ?_)
          rw [e, w_long_dec _ hl, hpq, rslice_append_zero _ _ _ hp.symm, Res.ok_bind]
          simp only [BgpItemLong.extractFrom]
          rw [if_pos (by omega)]; trivial

theorem w_evpn1_dec (mode : BgpTransportMode) (rd : BgpRD) (et : U8) (esi : EVPNESI) (tag : U32) (lab : Bytes) :
    (evpn1In .release).decodeFrom mode (rdBody rd ++ (esiBody et esi ++ (be 4 tag.toNat ++ lab))) = (do
      let y ← MplsLabels.extractBitsIn .release (BitVec.ofNat 8 (8 * lab.length)) lab
      .ok ((⟨rd, et, esi, tag, y.1⟩ : BgpEVPN1), 22 + y.2)) := by
  simp only [BgpAddrItem.decodeFrom]
  rw [rd_reads8]
  simp only [Res.ok_bind]
  rw [rfrom_append _ _ _ (by simp)]
  simp only [Res.ok_bind, esi_read]
  rw [rslice_append_right (by simp) (by omega), rslice_append_mid _ _ _ _ _ (by simp) (by simp)]
  simp only [Res.ok_bind, getn32_four, ofNat_toNat32]
  rw [Build.subN, if_pos (by simp)]
  simp only [Res.ok_bind]
  rw [Build.subN, if_pos (by simp; omega)]
  simp only [Res.ok_bind]
  rw [rfrom_skip _ _ _ (by simp), rfrom_skip _ _ _ (by simp), rfrom_append _ _ _ (by simp)]
  simp only [Res.ok_bind]
  rw [show (rdBody rd ++ (esiBody et esi ++ (be 4 tag.toNat ++ lab))).length - 8 - 14 = lab.length by simp; omega]

theorem w_evpn2_dec (mode : BgpTransportMode) (rd : BgpRD) (et : U8) (esi : EVPNESI) (tag : U32) (mac : MacAddress)
    (ip : Option IpAddr) (lab : Bytes) :
    (evpn2In .release).decodeFrom mode (rdBody rd ++ (esiBody et esi ++ (be 4 tag.toNat ++ ([48] ++ (macBody mac ++
      ((match ip with | none => [0] | some a => lenIpBody a) ++ lab)))))) = (do
      let y ← MplsLabels.extractBitsIn .release (BitVec.ofNat 8 (8 * lab.length)) lab
      .ok ((⟨rd, et, esi, tag, mac, ip, y.1⟩ : BgpEVPN2),
        29 + (match ip with | none => ([0] : Bytes) | some a => lenIpBody a).length + y.2)) := by
  have hrs : ∀ t : Bytes, rslice (rdBody rd ++ (esiBody et esi ++ (be 4 tag.toNat ++ t))) 18 22 = .ok (be 4 tag.toNat) := by
    intro t
    rw [rslice_append_right (by simp) (by omega), rslice_append_mid _ _ _ _ _ (by simp) (by simp)]
  have hm : ∀ t : Bytes, rslice (rdBody rd ++ (esiBody et esi ++ (be 4 tag.toNat ++ ([48] ++ (macBody mac ++ t))))) 23 29 =
      .ok (macBody mac) := by
    intro t
    rw [rslice_append_right (by simp) (by omega), rslice_append_right (by simp) (by simp),
      rslice_append_right (by simp) (by simp), rslice_append_mid _ _ _ _ _ (by simp) (by simp)]
  have hi : ∀ t : Bytes, idx (rdBody rd ++ (esiBody et esi ++ (be 4 tag.toNat ++ ([48] ++ t)))) 22 = .ok 48 := by
    intro t
    rw [idx_append_right (by simp), idx_append_right (by simp), idx_append_right (by simp)]
    simp
  have ht : ∀ (c : U8) (t : Bytes), idx (rdBody rd ++ (esiBody et esi ++ (be 4 tag.toNat ++ ([48] ++
      (macBody mac ++ (c :: t)))))) 29 = .ok c := by
    intro c t
    rw [idx_append_right (by simp), idx_append_right (by simp), idx_append_right (by simp), idx_append_right (by simp),
      idx_append_right (by simp)]
    simp
  have hf : ∀ (c : U8) (p t : Bytes) (k : Nat), k = 30 + p.length → rfrom (rdBody rd ++ (esiBody et esi ++
      (be 4 tag.toNat ++ ([48] ++ (macBody mac ++ (c :: (p ++ t))))))) k = .ok t := by
    intro c p t k hk
    rw [rfrom_skip _ _ _ (by simp; omega), rfrom_skip _ _ _ (by simp; omega), rfrom_skip _ _ _ (by simp; omega),
      rfrom_skip _ _ _ (by simp; omega), rfrom_skip _ _ _ (by simp; omega), ← List.cons_append,
      rfrom_append _ _ _ (by simp; omega)]
  have hlen : ∀ (c : U8) (p : Bytes) (k : Nat), k = 30 + p.length → Build.release.subN (rdBody rd ++ (esiBody et esi ++
      (be 4 tag.toNat ++ ([48] ++ (macBody mac ++ (c :: (p ++ lab))))))).length k = .ok lab.length := by
    intro c p k hk
    rw [Build.subN, if_pos (by simp; omega)]
    congr 1; simp; omega
  simp only [BgpAddrItem.decodeFrom]
  rw [rd_reads8]
  simp only [Res.ok_bind]
  rw [rfrom_append _ _ _ (by simp)]
  simp only [Res.ok_bind, esi_read, Nat.reduceAdd, hrs, getn32_four, ofNat_toNat32, hi, ne_eq, not_true_eq_false,
    ↓reduceIte, hm, mac_read]
  cases ip with
  | none =>
    simp only [List.cons_append, List.nil_append]
    have e1 := ht 0 lab
    have e2 := hf 0 [] lab 30 rfl
    have e3 := hlen 0 [] 30 rfl
    simp only [List.cons_append, List.nil_append] at e1 e2 e3
    rw [e1]
    simp only [Res.ok_bind, ↓reduceIte]
    rw [e3]
    simp only [Res.ok_bind]
    rw [e2]
    simp
  | some a =>
    cases a with
    | v4 a =>
      simp only [List.cons_append, List.nil_append, lenIpBody]
      have e1 := ht 32 (be 4 a.toNat ++ lab)
      have e2 := hf 32 [] (be 4 a.toNat ++ lab) 30 rfl
      have e3 := hlen 32 (be 4 a.toNat) 34 (by simp)
      have e4 := hf 32 (be 4 a.toNat) lab 34 (by simp)
      simp only [List.cons_append, List.nil_append] at e1 e2 e3 e4
      rw [e1]
      simp only [Res.ok_bind, BitVec.reduceEq, ↓reduceIte]
      rw [e2]
      simp only [Res.ok_bind, decodeAddrV4_be, BitVec.ofNat_toNat, BitVec.setWidth_eq]
      rw [e3]
      simp only [Res.ok_bind]
      rw [e4]
      simp
    | v6 a =>
      simp only [List.cons_append, List.nil_append, lenIpBody]
      have e1 := ht 128 (be 16 a.toNat ++ lab)
      have e2 := hf 128 [] (be 16 a.toNat ++ lab) 30 rfl
      have e3 := hlen 128 (be 16 a.toNat) 46 (by simp)
      have e4 := hf 128 (be 16 a.toNat) lab 46 (by simp)
      simp only [List.cons_append, List.nil_append] at e1 e2 e3 e4
      rw [e1]
      simp only [Res.ok_bind, BitVec.reduceEq, ↓reduceIte]
      rw [e2]
      simp only [Res.ok_bind, decodeAddrV6_be, BitVec.ofNat_toNat, BitVec.setWidth_eq]
      rw [e3]
      simp only [Res.ok_bind]
      rw [e4]
      simp

theorem w_evpn2_dec_short (mode : BgpTransportMode) (rd : BgpRD) (et : U8) (esi : EVPNESI) (tag : U32) (t : Bytes)
    (ht : t.length < 7) :
    (evpn2In .release).decodeFrom mode (rdBody rd ++ (esiBody et esi ++ (be 4 tag.toNat ++ ([48] ++ t)))) =
      .panic := by
  simp only [BgpAddrItem.decodeFrom]
  rw [rd_reads8]
  simp only [Res.ok_bind]
  rw [rfrom_append _ _ _ (by simp)]
  simp only [Res.ok_bind, esi_read, Nat.reduceAdd]
  rw [rslice_append_right (by simp) (by omega), rslice_append_mid _ _ _ _ _ (by simp) (by simp)]
  simp only [Res.ok_bind, getn32_four]
  rw [show idx (rdBody rd ++ (esiBody et esi ++ (be 4 tag.toNat ++ ([48] ++ t)))) 22 = .ok (48 : U8) by
    rw [idx_append_right (by simp), idx_append_right (by simp), idx_append_right (by simp)]; simp]
  simp only [Res.ok_bind, ne_eq, not_true_eq_false, ↓reduceIte]
  by_cases h6 : t.length < 6
  · rw [rslice_panic (by simp; omega)]; rfl
  · obtain ⟨m, t', rfl, ht'⟩ := exists_mac (b := t) (by omega)
    rw [rslice_append_right (by simp) (by omega), rslice_append_right (by simp) (by simp),
      rslice_append_right (by simp) (by simp), rslice_append_mid _ _ _ _ _ (by simp) (by simp)]
    simp only [Res.ok_bind, mac_read]
    rw [idx_panic (by simp at ht ⊢; omega)]
    rfl

theorem w_evpn_short_esi (mode : BgpTransportMode) (rd : BgpRD) (t : Bytes) (h : t.length < 10) :
    (evpn1In .release).decodeFrom mode (rdBody rd ++ t) = .panic ∧
    (evpn2In .release).decodeFrom mode (rdBody rd ++ t) = .panic ∧
    (evpn5In .release).decodeFrom mode (rdBody rd ++ t) = .panic := by
  refine ⟨?_, ?_, ?_⟩ <;>
  · simp only [BgpAddrItem.decodeFrom]
    rw [rd_reads8]
    simp only [Res.ok_bind]
    rw [rfrom_append _ _ _ (by simp)]
    simp only [Res.ok_bind, esi_short h, Res.panic_bind]

theorem w_evpn_short_tag (mode : BgpTransportMode) (rd : BgpRD) (et : U8) (esi : EVPNESI) (t : Bytes) (h : t.length < 4) :
    (evpn1In .release).decodeFrom mode (rdBody rd ++ (esiBody et esi ++ t)) = .panic ∧
    (evpn2In .release).decodeFrom mode (rdBody rd ++ (esiBody et esi ++ t)) = .panic ∧
    (evpn5In .release).decodeFrom mode (rdBody rd ++ (esiBody et esi ++ t)) = .panic := by
  refine ⟨?_, ?_, ?_⟩
  · simp only [BgpAddrItem.decodeFrom]
    rw [rd_reads8]
    simp only [Res.ok_bind]
    rw [rfrom_append _ _ _ (by simp)]
    simp only [Res.ok_bind, esi_read, Nat.reduceAdd]
    rw [rslice_panic (by simp; omega)]; rfl
  · simp only [BgpAddrItem.decodeFrom]
    rw [rd_reads8]
    simp only [Res.ok_bind]
    rw [rfrom_append _ _ _ (by simp)]
    simp only [Res.ok_bind, esi_read, Nat.reduceAdd]
    rw [rslice_panic (by simp; omega)]; rfl
  · simp only [BgpAddrItem.decodeFrom]
    rw [rd_reads8]
    simp only [Res.ok_bind]
    rw [rfrom_append _ _ _ (by simp)]
    simp only [Res.ok_bind, esi_read, Nat.reduceAdd]
    rw [rfrom_skip _ _ _ (by simp), rfrom_append _ _ _ (by simp)]
    simp only [Res.ok_bind, getn32_short h, Res.panic_bind]

/-! ## EVPN -/

/-- the decoder of one route without its two octets in front -/
def w_evpnBodyDec (mode : BgpTransportMode) (ty : U8) (body : Bytes) : Res (BgpEVPN × Nat) :=
  if ty = 1 then do
    let r ← (evpn1In .release).decodeFrom mode body
    .ok (.evpn1 r.1, r.2 + 2)
  else if ty = 2 then do
    let r ← (evpn2In .release).decodeFrom mode body
    .ok (.evpn2 r.1, r.2 + 2)
  else if ty = 3 then do
    let r ← BgpAddrItem.decodeFrom mode body
    .ok (.evpn3 r.1, r.2 + 2)
  else if ty = 4 then do
    let r ← BgpAddrItem.decodeFrom mode body
    .ok (.evpn4 r.1, r.2 + 2)
  else if ty = 5 then do
    let r ← (evpn5In .release).decodeFrom mode body
    .ok (.evpn5 r.1, r.2 + 2)
  else .err .dynStr

theorem w_evpn_dec (mode : BgpTransportMode) (ty l : U8) (body t : Bytes) (h : body.length = l.toNat) :
    (evpnIn .release).decodeFrom mode (ty :: l :: body ++ t) = w_evpnBodyDec mode ty body := by
  simp only [BgpAddrItem.decodeFrom]
  unfold w_evpnBodyDec
  simp only [List.cons_append, idx_cons_zero, idx_cons_succ, Res.ok_bind]
  rw [if_neg (by simp; omega), show rslice (ty :: l :: (body ++ t)) 2 (2 + l.toNat) = .ok body by
    rw [show 2 + l.toNat = (l.toNat + 1) + 1 by omega, rslice_cons_succ, rslice_cons_succ]
    exact rslice_append_zero _ _ _ h.symm]
  simp only [Res.ok_bind, BgpAddrItem.decodeFrom]

theorem w_bodyDec1 (mode : BgpTransportMode) (b : Bytes) : w_evpnBodyDec mode 1 b = (do
    let r ← (evpn1In .release).decodeFrom mode b
    .ok (.evpn1 r.1, r.2 + 2)) := rfl
theorem w_bodyDec2 (mode : BgpTransportMode) (b : Bytes) : w_evpnBodyDec mode 2 b = (do
    let r ← (evpn2In .release).decodeFrom mode b
    .ok (.evpn2 r.1, r.2 + 2)) := rfl
theorem w_bodyDec5 (mode : BgpTransportMode) (b : Bytes) : w_evpnBodyDec mode 5 b = (do
    let r ← (evpn5In .release).decodeFrom mode b
    .ok (.evpn5 r.1, r.2 + 2)) := rfl

theorem bsim_bodyDec (mode : BgpTransportMode) (ty : U8) (b : Bytes) :
    BSim (evpnBodyDec mode ty b) (w_evpnBodyDec mode ty b) := by
  unfold evpnBodyDec w_evpnBodyDec
  refine bsim_ite (bsim_bind (bsim_evpn1Dec _ _) fun _ => bsim_refl _)
    (bsim_ite (bsim_bind (bsim_evpn2Dec _ _) fun _ => bsim_refl _) (bsim_ite (bsim_refl _) (bsim_ite (bsim_refl _)
    (bsim_ite (bsim_bind (bsim_evpn5Dec _ _) fun _ => bsim_refl _) (bsim_refl _)))))

theorem w_err {mode : BgpTransportMode} {ty : U8} {b : Bytes} (h : (evpnBodyDec mode ty b).IsErr) :
    (w_evpnBodyDec mode ty b).IsErr := by
  rcases bsim_bodyDec mode ty b with h1 | h1
  · rw [h1] at h; exact h.elim
  · rw [h1]; exact h

/-- what types 3, 4 and 5 do is the same in both builds -/
theorem w_other {mode : BgpTransportMode} {ty : U8} {b : Bytes} (h : ty = 3 ∨ ty = 4 ∨ ty = 5) :
    w_evpnBodyDec mode ty b = evpnBodyDec mode ty b := by
  rcases bsim_bodyDec mode ty b with h1 | h1
  · rcases h with rfl | rfl | rfl
    · unfold w_evpnBodyDec evpnBodyDec
      simp only [BitVec.reduceEq, ↓reduceIte]
    · unfold w_evpnBodyDec evpnBodyDec
      simp only [BitVec.reduceEq, ↓reduceIte]
    · rw [h1, w_bodyDec5]
      rcases evpn_total mode 5 b with ⟨x, k, hx, hr⟩ | hc | he
      · have := evpn_ok (mode := mode) hr
        rw [hx, h1] at this; cases this
      · cases hc with
        | t5 _ h8 h =>
          obtain ⟨rd, t, rfl, ht⟩ := exists_rd h8
          by_cases h10 : t.length < 10
          · rw [(w_evpn_short_esi mode rd t h10).2.2]; rfl
          · obtain ⟨et, esi, t', rfl, ht'⟩ := exists_esi (b := t) (by omega)
            by_cases h4 : t'.length < 4
            · rw [(w_evpn_short_tag mode rd et esi t' h4).2.2]; rfl
            · obtain ⟨tag, t2, rfl, ht2⟩ := exists_u32 (b := t') (by omega)
              simp only [BgpAddrItem.decodeFrom]
              rw [rd_reads8]
              simp only [Res.ok_bind]
              rw [rfrom_append _ _ _ (by simp)]
              simp only [Res.ok_bind, esi_read, Nat.reduceAdd]
              rw [rfrom_skip _ _ _ (by simp), rfrom_append _ _ _ (by simp)]
              simp only [Res.ok_bind, getn32_be]
              rw [idx_panic (by omega)]; rfl
      · rw [h1] at he; exact he.elim
  · exact h1

theorem w_evpn_ok {mode : BgpTransportMode} {b : Bytes} {x : BgpEVPN} {k : Nat} (h : WrapEvpn b x k) :
    w_evpnBodyDec mode (evpnType x) b = .ok (x, k + 2) := by
  cases h with
  | t1 rd et esi tag ls lab k h =>
    simp only [evpnType, List.append_assoc]
    rw [w_bodyDec1, w_evpn1_dec, w_field_ok h]
    rfl
  | t2 rd et esi tag mac ip ls lab k h =>
    simp only [evpnType, List.append_assoc]
    have := w_evpn2_dec mode rd et esi tag mac ip lab
    rw [w_field_ok h] at this
    rw [w_bodyDec2]
    cases ip with
    | none => exact (congrArg (· >>= _) this).trans rfl
    | some a => exact (congrArg (· >>= _) this).trans rfl
  | other _ _ _ h hr => rw [w_other h, evpn_ok hr]

theorem w_evpn_panic {mode : BgpTransportMode} {ty : U8} {b : Bytes} (h : WrapEvpnCrash ty b) :
    w_evpnBodyDec mode ty b = .panic := by
  cases h with
  | t1 _ h8 h =>
    rw [w_bodyDec1]
    obtain ⟨rd, t, rfl, ht⟩ := exists_rd h8
    by_cases h10 : t.length < 10
    · rw [(w_evpn_short_esi mode rd t h10).1]; rfl
    · obtain ⟨et, esi, t', rfl, ht'⟩ := exists_esi (b := t) (by omega)
      rw [(w_evpn_short_tag mode rd et esi t' (by omega)).1]; rfl
  | t1labels _ h hl =>
    rw [w_bodyDec1]
    obtain ⟨rd, t1, rfl, h1⟩ := exists_rd (b := b) (by omega)
    obtain ⟨et, esi, t2, rfl, h2⟩ := exists_esi (b := t1) (by omega)
    obtain ⟨tag, lab, rfl, h3⟩ := exists_u32 (b := t2) (by omega)
    rw [show (rdBody rd ++ (esiBody et esi ++ (be 4 tag.toNat ++ lab))).drop 22 = lab by
      rw [← List.append_assoc, ← List.append_assoc, List.drop_left' (by simp)]] at hl
    rw [w_evpn1_dec, w_field_panic hl]; rfl
  | t2 _ h8 h =>
    rw [w_bodyDec2]
    obtain ⟨rd, t, rfl, ht⟩ := exists_rd h8
    by_cases h10 : t.length < 10
    · rw [(w_evpn_short_esi mode rd t h10).2.1]; rfl
    · obtain ⟨et, esi, t', rfl, ht'⟩ := exists_esi (b := t) (by omega)
      by_cases h4 : t'.length < 4
      · rw [(w_evpn_short_tag mode rd et esi t' h4).2.1]; rfl
      · obtain ⟨tag, t2, rfl, ht2⟩ := exists_u32 (b := t') (by omega)
        obtain rfl : t2 = [] := List.length_eq_zero_iff.1 (by omega)
        simp only [BgpAddrItem.decodeFrom]
        rw [rd_reads8]
        simp only [Res.ok_bind]
        rw [rfrom_append _ _ _ (by simp)]
        simp only [Res.ok_bind, esi_read, Nat.reduceAdd]
        rw [rslice_append_right (by simp) (by omega), rslice_append_mid _ _ _ _ _ (by simp) (by simp)]
        simp only [Res.ok_bind, getn32_four]
        rw [idx_panic (by simp)]
        rfl
  | t2mac _ h h48 =>
    rw [w_bodyDec2]
    have h22 : 22 < b.length := by
      by_contra hc
      rw [List.getElem?_eq_none (by omega)] at h48; cases h48
    obtain ⟨rd, t1, rfl, h1⟩ := exists_rd (b := b) (by omega)
    obtain ⟨et, esi, t2, rfl, h2⟩ := exists_esi (b := t1) (by omega)
    obtain ⟨tag, t3, rfl, h3⟩ := exists_u32 (b := t2) (by omega)
    obtain ⟨c, t4, rfl, h4⟩ := exists_octet (b := t3) (by omega)
    rw [← idx_eq_ok, idx_append_right (by simp), idx_append_right (by simp), idx_append_right (by simp)] at h48
    simp only [rdBody_length, esiBody_length, be_length, Nat.reduceSub, List.cons_append, idx_cons_zero, Res.ok.injEq] at h48
    subst h48
    rw [w_evpn2_dec_short _ _ _ _ _ _ (by omega)]; rfl
  | t2labels _ l k h48 hl hk h hc =>
    rw [w_bodyDec2]
    obtain ⟨rd, t1, rfl, h1⟩ := exists_rd (b := b) (by omega)
    obtain ⟨et, esi, t2, rfl, h2⟩ := exists_esi (b := t1) (by omega)
    obtain ⟨tag, t3, rfl, h3⟩ := exists_u32 (b := t2) (by omega)
    obtain ⟨c, t4, rfl, h4⟩ := exists_octet (b := t3) (by omega)
    obtain ⟨mac, t5, rfl, h5⟩ := exists_mac (b := t4) (by omega)
    obtain ⟨d, t6, rfl, h6⟩ := exists_octet (b := t5) (by omega)
    rw [← idx_eq_ok, idx_append_right (by simp), idx_append_right (by simp), idx_append_right (by simp)] at h48
    simp only [rdBody_length, esiBody_length, be_length, Nat.reduceSub, List.cons_append, idx_cons_zero, Res.ok.injEq] at h48
    subst h48
    rw [← idx_eq_ok, idx_append_right (by simp), idx_append_right (by simp), idx_append_right (by simp),
      idx_append_right (by simp), idx_append_right (by simp)] at hl
    simp only [rdBody_length, esiBody_length, be_length, macBody_length, List.length_cons, List.length_nil,
      Nat.reduceSub, Nat.reduceAdd, List.cons_append, idx_cons_zero, Res.ok.injEq] at hl
    subst hl
    obtain ⟨p, lab, rfl, hp, -⟩ := exists_take k (b := t6) (by omega)
    rw [evpn2_drop rd et esi tag mac d p lab k hp] at hc
    rcases hk with ⟨rfl, rfl⟩ | ⟨rfl, rfl⟩ | ⟨rfl, rfl⟩
    · obtain rfl : p = [] := List.length_eq_zero_iff.1 hp
      have := w_evpn2_dec mode rd et esi tag mac none lab
      simp only [List.nil_append] at this ⊢
      rw [this, w_field_panic hc]; rfl
    · obtain ⟨v, t7, rfl, h7⟩ := exists_u32 (b := p) (by omega)
      obtain rfl : t7 = [] := List.length_eq_zero_iff.1 (by omega)
      have := w_evpn2_dec mode rd et esi tag mac (some (.v4 v)) lab
      simp only [lenIpBody, List.append_nil, List.cons_append, List.nil_append] at this ⊢
      rw [this, w_field_panic hc]; rfl
    · obtain ⟨v, t7, rfl, h7⟩ := exists_u128 (b := p) (by omega)
      obtain rfl : t7 = [] := List.length_eq_zero_iff.1 (by omega)
      have := w_evpn2_dec mode rd et esi tag mac (some (.v6 v)) lab
      simp only [lenIpBody, List.append_nil, List.cons_append, List.nil_append] at this ⊢
      rw [this, w_field_panic hc]; rfl
  | other _ _ h hc => rw [w_other h, evpn_panic hc]

theorem w_evpn_total (mode : BgpTransportMode) (ty : U8) (b : Bytes) :
    (∃ x k, evpnType x = ty ∧ WrapEvpn b x k) ∨ WrapEvpnCrash ty b ∨ (w_evpnBodyDec mode ty b).IsErr := by
  by_cases h345 : ty = 3 ∨ ty = 4 ∨ ty = 5
  · rcases evpn_total mode ty b with ⟨x, k, hx, hr⟩ | hc | he
    · exact .inl ⟨x, k, hx, .other _ _ _ (by rw [hx]; exact h345) hr⟩
    · exact .inr (.inl (.other _ _ h345 hc))
    · exact .inr (.inr (w_err he))
  by_cases h8 : b.length < 8
  · rcases evpn_total mode ty b with ⟨x, k, hx, hr⟩ | hc | he
    · cases hr <;> simp at h8
    · cases hc <;> first | omega | (rename_i h48; rw [List.getElem?_eq_none (by omega)] at h48; cases h48)
    · exact .inr (.inr (w_err he))
  have h8 : 8 ≤ b.length := by omega
  by_cases e1 : ty = 1
  · subst e1
    by_cases h22 : b.length < 22
    · exact .inr (.inl (.t1 b h8 h22))
    obtain ⟨rd, t1, rfl, h1⟩ := exists_rd (b := b) (by omega)
    obtain ⟨et, esi, t2, rfl, h2⟩ := exists_esi (b := t1) (by omega)
    obtain ⟨tag, lab, rfl, h3⟩ := exists_u32 (b := t2) (by omega)
    rcases w_field_total lab with ⟨ls, k, hk⟩ | hk
    · refine .inl ⟨_, _, ?_, by rw [← List.append_assoc, ← List.append_assoc]; exact .t1 rd et esi tag ls lab k hk⟩
      rfl
    · refine .inr (.inl (.t1labels _ (by omega) ?_))
      rw [show (rdBody rd ++ (esiBody et esi ++ (be 4 tag.toNat ++ lab))).drop 22 = lab by
        rw [← List.append_assoc, ← List.append_assoc, List.drop_left' (by simp)]]
      exact hk
  by_cases e2 : ty = 2
  · subst e2
    by_cases h23 : b.length < 23
    · exact .inr (.inl (.t2 b h8 h23))
    obtain ⟨rd, t1, rfl, h1⟩ := exists_rd (b := b) (by omega)
    obtain ⟨et, esi, t2, rfl, h2⟩ := exists_esi (b := t1) (by omega)
    obtain ⟨tag, t3, rfl, h3⟩ := exists_u32 (b := t2) (by omega)
    obtain ⟨c, t4, rfl, h4⟩ := exists_octet (b := t3) (by omega)
    by_cases hc : c = 48
    · subst hc
      have h48 : (rdBody rd ++ (esiBody et esi ++ (be 4 tag.toNat ++ ([48] ++ t4))))[22]? = some 48 := by
        rw [← idx_eq_ok, idx_append_right (by simp), idx_append_right (by simp), idx_append_right (by simp)]; simp
      by_cases h30 : t4.length < 7
      · exact .inr (.inl (.t2mac _ (by omega) h48))
      obtain ⟨mac, t5, rfl, h5⟩ := exists_mac (b := t4) (by omega)
      obtain ⟨d, t6, rfl, h6⟩ := exists_octet (b := t5) (by omega)
      have hd : (rdBody rd ++ (esiBody et esi ++ (be 4 tag.toNat ++ ([48] ++ (macBody mac ++ ([d] ++ t6))))))[29]? =
          some d := by
        rw [← idx_eq_ok, idx_append_right (by simp), idx_append_right (by simp), idx_append_right (by simp),
          idx_append_right (by simp), idx_append_right (by simp)]; simp
      have key : ∀ (k : Nat) (p lab : Bytes) (ip : Option IpAddr), ((d = 0 ∧ k = 0) ∨ (d = 32 ∧ k = 4) ∨ (d = 128 ∧ k = 16)) →
          t6 = p ++ lab → p.length = k → [d] ++ p = (match ip with | none => [0] | some a => lenIpBody a) →
          (∃ x k, evpnType x = 2 ∧ WrapEvpn (rdBody rd ++ (esiBody et esi ++ (be 4 tag.toNat ++ ([48] ++
            (macBody mac ++ ([d] ++ t6)))))) x k) ∨ WrapEvpnCrash 2 (rdBody rd ++ (esiBody et esi ++ (be 4 tag.toNat ++ ([48] ++
            (macBody mac ++ ([d] ++ t6)))))) := by
        rintro k p lab ip hk rfl hp hip
        rcases w_field_total lab with ⟨ls, n, hn⟩ | hn
        · refine .inl ⟨.evpn2 ⟨rd, et, esi, tag, mac, ip, ⟨ls⟩⟩,
            29 + (match ip with | none => ([0] : Bytes) | some a => lenIpBody a).length + n, rfl, ?_⟩
          have := WrapEvpn.t2 rd et esi tag mac ip ls lab n hn
          simp only [List.append_assoc] at this
          rw [← List.append_assoc [d], hip]
          exact this
        · refine .inr (.t2labels _ d k h48 hd hk (by simp; omega) ?_)
          rw [evpn2_drop rd et esi tag mac d p lab k hp]
          exact hn
      by_cases d0 : d = 0
      · rcases key 0 [] t6 none (.inl ⟨d0, rfl⟩) rfl rfl (by rw [d0]; rfl) with h | h
        · exact .inl h
        · exact .inr (.inl h)
      rcases lenIp_cases ([d] ++ t6) with h0 | ⟨ip, t, ht⟩ | ⟨c, t, ht, hcond⟩
      · simp at h0
      · cases ip with
        | v4 v =>
          simp only [lenIpBody, List.cons_append, List.nil_append, List.cons.injEq] at ht
          rcases key 4 (be 4 v.toNat) t (some (.v4 v)) (.inr (.inl ⟨ht.1, rfl⟩)) ht.2 (by simp)
            (by rw [ht.1]; rfl) with h | h
          · exact .inl h
          · exact .inr (.inl h)
        | v6 v =>
          simp only [lenIpBody, List.cons_append, List.nil_append, List.cons.injEq] at ht
          rcases key 16 (be 16 v.toNat) t (some (.v6 v)) (.inr (.inr ⟨ht.1, rfl⟩)) ht.2 (by simp)
            (by rw [ht.1]; rfl) with h | h
          · exact .inl h
          · exact .inr (.inl h)
      · simp only [List.cons_append, List.nil_append, List.cons.injEq] at ht
        obtain ⟨rfl, rfl⟩ := ht
        refine .inr (.inr ?_)
        refine w_err ?_
        rw [bodyDec2]
        exact Res.isErr_bind (evpn2_dec_ip mode rd et esi tag mac d t6 ⟨d0, hcond⟩)
    · refine .inr (.inr ?_)
      refine w_err ?_
      rw [bodyDec2, evpn2_dec_tag _ _ _ _ _ _ _ hc]
      trivial
  refine .inr (.inr ?_)
  unfold w_evpnBodyDec
  rw [if_neg e1, if_neg e2, if_neg (fun h => h345 (.inl h)), if_neg (fun h => h345 (.inr (.inl h))),
    if_neg (fun h => h345 (.inr (.inr h)))]
  trivial

theorem w_evpn_exactly (mode : BgpTransportMode) (b : Bytes) :
    Exactly ((evpnIn .release).decodeFrom mode b) (fun y => WrapEvpnItem b y.1 y.2) (WrapEvpnItemCrash b) := by
  refine .of_cases ?_ ?_ ?_
  · rintro ⟨x, n⟩ ⟨l, body, t, k, hb, hl, hr, hn⟩
    simp only at hb hn hr
    rw [hb, w_evpn_dec _ _ _ _ _ hl, w_evpn_ok hr, hn]
  · rintro (h | ⟨ty, l, body, t, hb, hl, hr⟩)
    · simp only [BgpAddrItem.decodeFrom]
      match b, h with
      | [], _ => rfl
      | [a], _ => rfl
    · rw [hb, w_evpn_dec _ _ _ _ _ hl, w_evpn_panic hr]
  · by_cases h : b.length < 2
    · exact .inr (.inl (.inl h))
    obtain ⟨ty, l, t, rfl⟩ := exists_cons2 (l := b) (by omega)
    by_cases hl : t.length < l.toNat
    · refine .inr (.inr ?_)
      simp only [BgpAddrItem.decodeFrom]
      simp only [idx_cons_zero, idx_cons_succ, Res.ok_bind]
      rw [if_pos (by simp; omega)]
      trivial
    · obtain ⟨body, t', rfl, hb, -⟩ := exists_take l.toNat (b := t) (by omega)
      rcases w_evpn_total mode ty body with ⟨x, k, rfl, hx⟩ | hc | he
      · exact .inl ⟨(x, k + 2), l, body, t', k, rfl, hb, hx, rfl⟩
      · exact .inr (.inl (.inr ⟨ty, l, body, t', rfl, hb, hc⟩))
      · refine .inr (.inr ?_)
        have := w_evpn_dec mode ty l body t' hb
        simp only [List.cons_append] at this
        rw [this]; exact he

/-! ## FlowSpec -/

theorem wrapFsV4_exact : @FsPrefixExact BgpAddrV4 (fsV4In .release) wrapFsV4 :=
  @FsPrefixExact.mk BgpAddrV4 (fsV4In .release) wrapFsV4 fun b => by
    have h := wrapNlri_exactly (T := BgpAddrV4) b
    refine h.congr (fun _ => Iff.rfl) ⟨?_, fun h => .inl h⟩
    rintro (h | ⟨_, _, _, h⟩)
    · exact h
    · exact h.elim

theorem wrapFsV6_exact : @FsPrefixExact FS6 (fsV6In .release) wrapFsV6 :=
  @FsPrefixExact.mk FS6 (fsV6In .release) wrapFsV6 fun b => by
    match b with
    | [] =>
      refine .of_cases ?_ (fun _ => rfl) (.inr (.inl (Nat.lt_of_sub_eq_succ rfl)))
      rintro y ⟨_, _, _, h, _⟩; cases h
    | [l] =>
      refine .of_cases ?_ (fun _ => rfl) (.inr (.inl (Nat.lt_of_sub_eq_succ rfl)))
      rintro y ⟨_, _, _, h, _⟩; cases h
    | l :: o :: t =>
      have := (WrapExact.exact (T := BgpAddrV6) l t).map fun y => ((⟨y.1, o⟩ : FS6), y.2 + 2)
      have e : (fsV6In .release).decodeFs (l :: o :: t) =
          (BgpItemIn.extractBits (T := BgpAddrV6) .release l t >>= fun y => .ok ((⟨y.1, o⟩ : FS6), y.2 + 2)) := by
        simp only [FSItem.decodeFs, BgpItemIn.extractBits, idx_cons_zero, idx_cons_succ, rfrom_cons_succ, rfrom_zero,
          Res.ok_bind]
      rw [e]
      refine this.congr (fun y => ?_) ?_
      · obtain ⟨⟨a, o'⟩, n⟩ := y
        constructor
        · rintro ⟨⟨x, k⟩, h, e⟩
          simp only [Prod.mk.injEq, FS6.mk.injEq] at e
          obtain ⟨⟨rfl, rfl⟩, rfl⟩ := e
          exact ⟨l, t, k, rfl, h, rfl⟩
        · rintro ⟨l', t', k, e, h, rfl⟩
          simp only [List.cons.injEq] at e
          obtain ⟨rfl, rfl, rfl⟩ := e
          exact ⟨(a, k), h, rfl⟩
      · refine ⟨False.elim, fun h => ?_⟩
        exact absurd (show t.length + 2 < 2 from h) (by omega)

theorem wrapFsVpn_exact : @FsPrefixExact FSV4U (fsVpnIn .release) wrapFsVpn :=
  @FsPrefixExact.mk FSV4U (fsVpnIn .release) wrapFsVpn fun b => by
    have h := (wrapNlri_exactly (T := WithRd BgpAddrV4) b).map fun y => ((⟨y.1⟩ : FSV4U), y.2)
    have e : Exactly ((fsVpnIn .release).decodeFs b) (fun y => @NlriRead (WithRd BgpAddrV4) (wrapReads _) b y.1.pfx y.2)
        (@NlriCrash (WithRd BgpAddrV4) (wrapReads _) b) := by
      cases b with
      | nil =>
        refine .of_cases ?_ (fun _ => rfl) (.inr (.inl (.inl rfl)))
        rintro y ⟨_, _, _, h, _⟩; cases h
      | cons l t =>
        by_cases h8 : t.length < 8
        · have h1 : ((fsVpnIn .release).decodeFs (l :: t)).IsErr := by
            simp only [FSItem.decodeFs, rfrom_cons_succ, rfrom_zero, Res.ok_bind]
            rw [rd_decode_short h8]; trivial
          have h2 : (@decodeItem (WithRd BgpAddrV4) (itemIn _ .release) (l :: t)).IsErr := by
            simp only [decodeItem, BgpItem.extractBits, BgpItemIn.extractBits, idx_cons_zero, rfrom_cons_succ, rfrom_zero,
              Res.ok_bind]
            rw [if_pos h8]; trivial
          obtain ⟨k1, k2⟩ := (wrapNlri_exactly (T := WithRd BgpAddrV4) (l :: t)).err_iff.1 h2
          exact .of_cases (fun y hy => absurd hy (k1 (y.1.pfx, y.2))) (fun hc => absurd hc k2) (.inr (.inr h1))
        · obtain ⟨rd, t, rfl, -⟩ := exists_rd (b := t) (by omega)
          have e : (fsVpnIn .release).decodeFs (l :: (rdBody rd ++ t)) =
              (@decodeItem (WithRd BgpAddrV4) (itemIn _ .release) (l :: (rdBody rd ++ t)) >>= fun y =>
                .ok ((⟨y.1⟩ : FSV4U), y.2)) := by
            simp only [FSItem.decodeFs, decodeItem, BgpItem.extractBits, BgpItemIn.extractBits, idx_cons_zero,
              rfrom_cons_succ, rfrom_zero, Res.ok_bind, rd_reads8, Build.sub]
            rw [if_neg (by simp), rslice_append_zero _ _ _ (by simp)]
            have h0 := rd_reads8 rd []
            rw [List.append_nil] at h0
            simp only [Res.ok_bind, h0]
            rw [rfrom_append _ _ _ (by simp)]
            simp only [Res.ok_bind]
            cases BgpAddrV4.fromBitsIn .release (l - 64) t with
            | ok y => simp [Res.ok_bind]
            | err e => rfl
            | panic => rfl
            | hang => rfl
          rw [e]
          refine h.congr (fun y => ?_) Iff.rfl
          constructor
          · rintro ⟨a, ha, rfl⟩; exact ha
          · intro ha; exact ⟨(y.1.pfx, y.2), ha, rfl⟩
    refine e.congr (fun _ => Iff.rfl) ⟨?_, fun h => .inl h⟩
    rintro (h | ⟨_, _, _, _, h⟩)
    · exact h
    · exact h.elim

/-! ## All families -/

theorem w_addpath_exactly {T : Type} [BgpItemIn T] [WrapReads T] [WrapExact T] (p : BgpSessionParams) (f : Family)
    (withId : List (WithPathId T) → BgpAddrs) (plain : List T → BgpAddrs) (b : Bytes) :
    Exactly (decodeAddpathIn .release p (familyCode f).1 (familyCode f).2 withId plain b)
      (fun y => WrapField T p f plain withId b y.1 y.2) (WrapFieldCrash T p f b) := by
  have h := @addpath_exactly T (itemIn T .release) (wrapReads T) wrapExact p (familyCode f).1 (familyCode f).2 withId plain b
  refine h.congr (fun y => ?_) Iff.rfl
  unfold WrapField
  cases AddPathExpected p (familyCode f) b with
  | true =>
    rw [if_pos rfl]
    constructor
    · rintro (⟨-, v, h1, h2⟩ | ⟨h, -⟩)
      · exact ⟨v, h2, h1⟩
      · cases h
    · rintro ⟨v, h2, h1⟩; exact .inl ⟨rfl, v, h1, h2⟩
  | false =>
    rw [if_neg (by simp)]
    constructor
    · rintro (⟨h, -⟩ | ⟨-, v, h1, h2⟩)
      · cases h
      · exact ⟨v, h2, h1⟩
    · rintro ⟨v, h2, h1⟩; exact .inr ⟨rfl, v, h1, h2⟩

theorem w_wrap {α : Type} {r : Res (List α × Nat)} {R : List α → Nat → Prop} {C : Prop} (c : List α → BgpAddrs)
    (h : Exactly r (fun y => R y.1 y.2) C) :
    Exactly (do let (v, n) ← r; .ok (c v, n)) (fun y => ∃ v, y.1 = c v ∧ R v y.2) C :=
  (wrap_exactly c h).congr (fun y => ⟨fun ⟨v, a, b⟩ => ⟨v, b, a⟩, fun ⟨v, a, b⟩ => ⟨v, b, a⟩⟩) Iff.rfl

theorem w_evpn_progress (mode : BgpTransportMode) : Progress ((evpnIn .release).decodeFrom mode) :=
  progress_of_post fun b => by
    show Post ((evpnIn .release).decodeFrom mode b) _
    counts

theorem w_vpls_progress : Progress (@decodeLongItem BgpAddrL2 (vplsIn .release)) :=
  progress_of_post fun b => by unfold decodeLongItem; counts

theorem w_addrs_exactly (p : BgpSessionParams) (f : Family) (b : Bytes) :
    Exactly (BgpAddrs.decodeFromIn .release p (familyCode f).1 (familyCode f).2 b) (fun y => WrapAddrs p f b y.1 y.2)
      (WrapAddrsCrash p f b) := by
  cases f with
  | ipv4Mvpn =>
    exact w_wrap _ (items_exactly (mvpn_progress _) (fun b _ => mvpn_exactly _ b) b)
  | ipv4FlowSpec =>
    exact w_wrap _ (items_exactly (@fs_progress _ (fsV4In .release) p.peerMode)
      (fun b _ => @fs_exactly _ (fsV4In .release) wrapFsV4 wrapFsV4_exact p.peerMode b) b)
  | ipv4VpnFlowSpec =>
    exact w_wrap _ (items_exactly (@fs_progress _ (fsVpnIn .release) p.peerMode)
      (fun b _ => @fs_exactly _ (fsVpnIn .release) wrapFsVpn wrapFsVpn_exact p.peerMode b) b)
  | ipv6FlowSpec =>
    exact w_wrap _ (items_exactly (@fs_progress _ (fsV6In .release) p.peerMode)
      (fun b _ => @fs_exactly _ (fsV6In .release) wrapFsV6 wrapFsV6_exact p.peerMode b) b)
  | l2Vpls => exact w_wrap _ (items_exactly w_vpls_progress (fun b _ => w_vpls_exactly b) b)
  | l2Evpn =>
    exact w_wrap _ (items_exactly (w_evpn_progress p.peerMode) (fun b _ => w_evpn_exactly p.peerMode b) b)
  | ipv4Unicast => exact w_addpath_exactly p .ipv4Unicast _ _ b
  | ipv4Multicast => exact w_addpath_exactly p .ipv4Multicast _ _ b
  | ipv4Labeled => exact w_addpath_exactly p .ipv4Labeled _ _ b
  | ipv4Mdt => exact w_addpath_exactly p .ipv4Mdt _ _ b
  | ipv4Vpn => exact w_addpath_exactly p .ipv4Vpn _ _ b
  | ipv4VpnMulticast => exact w_addpath_exactly p .ipv4VpnMulticast _ _ b
  | ipv6Unicast => exact w_addpath_exactly p .ipv6Unicast _ _ b
  | ipv6Multicast => exact w_addpath_exactly p .ipv6Multicast _ _ b
  | ipv6Labeled => exact w_addpath_exactly p .ipv6Labeled _ _ b
  | ipv6Mdt => exact w_addpath_exactly p .ipv6Mdt _ _ b
  | ipv6Vpn => exact w_addpath_exactly p .ipv6Vpn _ _ b
  | ipv6VpnMulticast => exact w_addpath_exactly p .ipv6VpnMulticast _ _ b

end Zbgp
