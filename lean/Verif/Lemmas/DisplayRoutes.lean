import Verif.Lemmas.Display

namespace Zbgp

open Std

/-! ## EVPN routes -/

theorem flat_hex2_inj {l m : List U8} (h : l.flatMap (fun b => hex2 b.toNat) = m.flatMap fun b => hex2 b.toNat) : l = m := by
  have hl : ∀ x : U8, (hex2 x.toNat).length = 2 := fun x => by rw [hex2_eq _ x.isLt]; rfl
  induction l generalizing m with
  | nil => cases m with
    | nil => rfl
    | cons b m =>
      have := congrArg List.length h
      simp only [List.flatMap_nil, List.length_nil, List.flatMap_cons, List.length_append, hl] at this
      omega
  | cons a l ih => cases m with
    | nil =>
      have := congrArg List.length h
      simp only [List.flatMap_nil, List.length_nil, List.flatMap_cons, List.length_append, hl] at this
      omega
    | cons b m =>
      simp only [List.flatMap_cons] at h
      obtain ⟨h1, h2⟩ := List.append_inj h (by rw [hl, hl])
      rw [hex2_inj h1, ih h2]

theorem esi_zero {x : EVPNESI} (h : x.isZero = true) : x.v.toList = List.replicate 9 0 := by
  have hz : ∀ b ∈ x.v.toList, b = 0 := by
    intro b hb
    simp only [EVPNESI.isZero, Bool.not_eq_true', List.any_eq_false] at h
    simpa using h b hb
  have := List.eq_replicate_of_mem hz
  simpa using this

theorem esi_display_length (x : EVPNESI) : x.display.length = 0 ∨ x.display.length = 18 := by
  have hl : ∀ x : U8, (hex2 x.toNat).length = 2 := fun x => by rw [hex2_eq _ x.isLt]; rfl
  unfold EVPNESI.display
  split
  · exact .inl rfl
  · refine .inr ?_
    have : ∀ l : List U8, (l.flatMap fun b => hex2 b.toNat).length = 2 * l.length := by
      intro l
      induction l with
      | nil => rfl
      | cons a l ih => rw [List.flatMap_cons, List.length_append, hl, ih, List.length_cons]; omega
    rw [this]
    simp

theorem esi_inj {x y : EVPNESI} (h : x.display = y.display) : x = y := by
  obtain ⟨v⟩ := x
  obtain ⟨w⟩ := y
  suffices hs : v.toList = w.toList by
    rw [Vector.toList_inj.1 hs]
  have hl : ∀ x : U8, (hex2 x.toNat).length = 2 := fun x => by rw [hex2_eq _ x.isLt]; rfl
  have h' := h
  unfold EVPNESI.display at h
  split at h
  · rename_i hv
    split at h
    · rename_i hw
      rw [esi_zero hv, esi_zero hw]
    · rename_i hw
      exfalso
      have h1 := esi_display_length ⟨w⟩
      rw [← h'] at h1
      have h2 : (EVPNESI.display ⟨w⟩) ≠ [] := by
        unfold EVPNESI.display
        rw [if_neg hw]
        rcases w with ⟨⟨w⟩, hw'⟩
        cases w with
        | nil => simp at hw'
        | cons a w =>
          intro k
          have := congrArg List.length k
          simp only [Vector.toList, List.flatMap_cons, List.length_append, hl, List.length_nil] at this
          omega
      rw [← h'] at h2
      apply h2
      unfold EVPNESI.display
      rw [if_pos hv]
  · rename_i hv
    split at h
    · rename_i hw
      exfalso
      have h2 : (EVPNESI.display ⟨v⟩) ≠ [] := by
        unfold EVPNESI.display
        rw [if_neg hv]
        rcases v with ⟨⟨w⟩, hw'⟩
        cases w with
        | nil => simp at hw'
        | cons a w =>
          intro k
          have := congrArg List.length k
          simp only [Vector.toList, List.flatMap_cons, List.length_append, hl, List.length_nil] at this
          omega
      apply h2
      rw [h']
      unfold EVPNESI.display
      rw [if_pos hw]
    · exact flat_hex2_inj h

theorem nm_esi {c : Char} {x : EVPNESI} (h : c ∉ lowerHex) : c ∉ x.display := by
  unfold EVPNESI.display
  split
  · exact List.not_mem_nil
  · intro m
    obtain ⟨b, -, m⟩ := List.mem_flatMap.1 m
    exact nm_hex2 h m

theorem dec_u8_length (t : U8) : 1 ≤ (dec t.toNat).length ∧ (dec t.toNat).length ≤ 3 := by
  have ht := t.isLt
  refine ⟨Nat.length_toDigits_pos, ?_⟩
  unfold dec
  rw [Nat.toDigits_eq_if (by omega)]
  split
  · simp
  · rw [Nat.toDigits_eq_if (by omega)]
    split
    · simp
    · rw [Nat.toDigits_of_lt_base (by omega)]
      simp

theorem esi_sep {t u : U8} {e f : EVPNESI} {x y : Txt}
    (h : esiTypeText t ++ e.display ++ ':' :: x = esiTypeText u ++ f.display ++ ':' :: y) : t = u ∧ e = f ∧ x = y := by
  have ne : ∀ e : EVPNESI, ':' ∉ e.display := fun e => nm_esi (by decide)
  have nd : ∀ n, ':' ∉ dec n := fun n => nm_dec (by decide)
  unfold esiTypeText at h
  split at h
  · split at h
    · simp only [List.append_assoc, List.cons_append, List.nil_append] at h
      obtain ⟨h1, h⟩ := sep (nd _) (nd _) h
      obtain ⟨h2, h⟩ := sep (ne _) (ne _) h
      exact ⟨decU_inj h1, esi_inj h2, h⟩
    · exfalso
      simp only [List.append_assoc, List.cons_append, List.nil_append] at h
      obtain ⟨h1, -⟩ := sep (nd _) (ne _) h
      have h1 := congrArg List.length h1
      have := dec_u8_length t
      have := esi_display_length f
      omega
  · split at h
    · exfalso
      simp only [List.append_assoc, List.cons_append, List.nil_append] at h
      obtain ⟨h1, -⟩ := sep (ne _) (nd _) h
      have h1 := congrArg List.length h1
      have := dec_u8_length u
      have := esi_display_length e
      omega
    · rename_i h1 h2
      simp only [ne_eq, Decidable.not_not] at h1 h2
      simp only [List.nil_append] at h
      obtain ⟨h3, h⟩ := sep (ne _) (ne _) h
      exact ⟨by rw [h1, h2], esi_inj h3, h⟩

theorem evpn1_inj {x y : BgpEVPN1} (h : x.display = y.display) : x = y := by
  unfold BgpEVPN1.display at h
  simp only [List.append_assoc, List.cons_append] at h
  obtain ⟨h1, h⟩ := rd_sep h
  rw [← List.append_assoc, ← List.append_assoc] at h
  obtain ⟨h2, h3, h⟩ := esi_sep h
  obtain ⟨h4, h⟩ := sep (nm_hex8 (by decide)) (nm_hex8 (by decide)) h
  cases x; cases y
  simp only at h1 h2 h3 h4 h
  rw [h1, h2, h3, hex8_inj h4, labels_inj h]

theorem evpn2_inj {x y : BgpEVPN2} (h : x.display = y.display) : x = y := by
  obtain ⟨rd, t, e, tag, mac, ip, l⟩ := x
  obtain ⟨rd', t', e', tag', mac', ip', l'⟩ := y
  unfold BgpEVPN2.display at h
  simp only at h
  have hip : ∀ ip : Option IpAddr, ' ' ∉ (match ip with | some ip => showIp ip | none => []) := by
    intro ip
    cases ip with
    | none => exact List.not_mem_nil
    | some ip => exact nm_showIp (by decide)
  rw [show ∀ (a b c d i j k m : Txt), a ++ ':' :: b ++ c ++ ':' :: d ++ "::".toList ++ i ++ "::".toList ++ j ++ ' ' :: k =
    a ++ ':' :: (b ++ c ++ ':' :: (d ++ (':' :: ':' :: (i ++ (':' :: ':' :: (j ++ ' ' :: k)))))) from by simp,
    show ∀ (a b c d i j k m : Txt), a ++ ':' :: b ++ c ++ ':' :: d ++ "::".toList ++ i ++ "::".toList ++ j ++ ' ' :: k =
    a ++ ':' :: (b ++ c ++ ':' :: (d ++ (':' :: ':' :: (i ++ (':' :: ':' :: (j ++ ' ' :: k)))))) from by simp] at h
  · obtain ⟨h1, h⟩ := rd_sep h
    obtain ⟨h2, h3, h⟩ := esi_sep h
    obtain ⟨h4, h⟩ := sep (nm_hex8 (by decide)) (nm_hex8 (by decide)) h
    rw [List.cons.injEq] at h
    obtain ⟨h5, h⟩ := List.append_inj h.2 (by rw [mac_length, mac_length])
    simp only [List.cons.injEq, true_and] at h
    obtain ⟨h6, h⟩ := sep (hip ip) (hip ip') h
    have h7 : ip = ip' := by
      cases ip with
      | none => cases ip' with
        | none => rfl
        | some b => exact (showIp_ne_nil b h6.symm).elim
      | some a => cases ip' with
        | none => exact (showIp_ne_nil a h6).elim
        | some b => rw [showIp_inj h6]
    rw [h1, h2, h3, hex8_inj h4, mac_inj h5, h7, labels_inj h]
  · exact []
  · exact []

theorem evpn3_inj {x y : BgpEVPN3} (h : x.display = y.display) : x = y := by
  unfold BgpEVPN3.display at h
  simp only [List.append_assoc, List.cons_append] at h
  obtain ⟨h1, h⟩ := rd_sep h
  obtain ⟨h4, h⟩ := sep (nm_hex8 (by decide)) (nm_hex8 (by decide)) h
  cases x; cases y
  simp only at h1 h4 h
  rw [h1, hex8_inj h4, showIp_inj h]

theorem evpn4_inj {x y : BgpEVPN4} (h : x.display = y.display) : x = y := by
  unfold BgpEVPN4.display at h
  simp only [List.append_assoc, List.cons_append] at h
  obtain ⟨h1, h⟩ := rd_sep h
  obtain ⟨h2, h⟩ := sep (nm_dec (by decide)) (nm_dec (by decide)) h
  obtain ⟨h3, h⟩ := sep (nm_esi (by decide)) (nm_esi (by decide)) h
  cases x; cases y
  simp only at h1 h2 h3 h
  rw [h1, decU_inj h2, esi_inj h3, showIp_inj h]

theorem evpn5_inj {x y : BgpEVPN5} (h : x.display = y.display) : x = y := by
  unfold BgpEVPN5.display at h
  simp only [List.append_assoc, List.cons_append] at h
  obtain ⟨h1, h⟩ := rd_sep h
  rw [← List.append_assoc, ← List.append_assoc] at h
  obtain ⟨h2, h3, h⟩ := esi_sep h
  obtain ⟨h4, h⟩ := sep (nm_dec (by decide)) (nm_dec (by decide)) h
  obtain ⟨h5, h⟩ := sep (nm_showIp (by decide)) (nm_showIp (by decide)) h
  obtain ⟨h6, h⟩ := sep (nm_dec (by decide)) (nm_dec (by decide)) h
  obtain ⟨h7, h⟩ := sepR (nm_labels (by decide)) (nm_labels (by decide)) h
  cases x; cases y
  simp only at h1 h2 h3 h4 h5 h6 h7 h
  rw [h1, h2, h3, decU_inj h4, showIp_inj h5, decU_inj h6, showIp_inj h7, labels_inj h]

theorem cons2 {a b c : Char} {x y : Txt} (h : a :: c :: x = b :: c :: y) : a = b ∧ x = y := by simpa using h

theorem evpn_inj {x y : BgpEVPN} (h : x.display = y.display) : x = y := by
  cases x <;> cases y <;> simp only [BgpEVPN.display] at h <;> obtain ⟨h1, h2⟩ := cons2 h <;> clear h
  case evpn1.evpn1 => rw [evpn1_inj h2]
  case evpn2.evpn2 => rw [evpn2_inj h2]
  case evpn3.evpn3 => rw [evpn3_inj h2]
  case evpn4.evpn4 => rw [evpn4_inj h2]
  case evpn5.evpn5 => rw [evpn5_inj h2]
  all_goals exact absurd h1 (by decide)

/-! ## Multicast VPN routes -/

theorem mvpn1_inj {x y : BgpMVPN1} (h : x.display = y.display) : x = y := by
  unfold BgpMVPN1.display at h
  obtain ⟨h1, h⟩ := rd_sep h
  cases x; cases y
  simp only at h1 h
  rw [h1, showIp_inj h]

theorem mvpn2_inj {x y : BgpMVPN2} (h : x.display = y.display) : x = y := by
  unfold BgpMVPN2.display at h
  obtain ⟨h1, h⟩ := rd_sep h
  cases x; cases y
  simp only at h1 h
  rw [h1, decU_inj h]

theorem nc_v4 {a : IpAddr} (h : ∃ b, a = .v4 b) : ':' ∉ showIp a := by
  obtain ⟨b, rfl⟩ := h
  exact nm_showV4 (by decide)

theorem mvpn3_sep {x y : BgpMVPN3} {s t : Txt} (h : x.display ++ ':' :: s = y.display ++ ':' :: t)
    (h1 : ∃ b, x.source = .v4 b) (h2 : ∃ b, x.group = .v4 b) (h3 : ∃ b, x.originator = .v4 b)
    (h1' : ∃ b, y.source = .v4 b) (h2' : ∃ b, y.group = .v4 b) (h3' : ∃ b, y.originator = .v4 b) : x = y ∧ s = t := by
  unfold BgpMVPN3.display at h
  simp only [List.append_assoc, List.cons_append] at h
  obtain ⟨e1, h⟩ := rd_sep h
  obtain ⟨e2, h⟩ := sep (nc_v4 h1) (nc_v4 h1') h
  obtain ⟨e3, h⟩ := sep (nc_v4 h2) (nc_v4 h2') h
  obtain ⟨e4, hst⟩ := sep (nc_v4 h3) (nc_v4 h3') h
  cases x; cases y
  simp only at e1 e2 e3 e4
  rw [e1, showIp_inj e2, showIp_inj e3, showIp_inj e4]
  exact ⟨rfl, hst⟩

theorem mvpn5_inj {x y : BgpMVPN5} (h : x.display = y.display) (h1 : ∃ b, x.source = .v4 b) (h1' : ∃ b, y.source = .v4 b) : x = y := by
  unfold BgpMVPN5.display at h
  simp only [List.append_assoc, List.cons_append] at h
  obtain ⟨e1, h⟩ := rd_sep h
  obtain ⟨e2, h⟩ := sep (nc_v4 h1) (nc_v4 h1') h
  cases x; cases y
  simp only at e1 e2 h
  rw [e1, showIp_inj e2, showIp_inj h]

theorem mvpn67_inj {x y : BgpMVPN67} (h : x.display = y.display) (h1 : ∃ b, x.rp = .v4 b) (h1' : ∃ b, y.rp = .v4 b) : x = y := by
  unfold BgpMVPN67.display at h
  simp only [List.append_assoc, List.cons_append] at h
  obtain ⟨e1, h⟩ := rd_sep h
  obtain ⟨e3, h⟩ := sep (nm_dec (by decide)) (nm_dec (by decide)) h
  obtain ⟨e2, h⟩ := sep (nc_v4 h1) (nc_v4 h1') h
  cases x; cases y
  simp only at e1 e2 e3 h
  rw [e1, showIp_inj e2, decU_inj e3, showIp_inj h]

end Zbgp
