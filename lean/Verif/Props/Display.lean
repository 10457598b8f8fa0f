import Verif.Lemmas.DisplayRoutes
import Verif.Lemmas.DisplayCom
import Verif.Lemmas.DisplayNotif
import Verif.Props.Attrs

/-!
# Texts that are only shown

C74 (EVPN routes), C75 (multicast VPN routes), C76 (prefixes with labels, route distinguishers and path identifiers, VPN next
hops, VPLS routes, FlowSpec operators), C77 (AS numbers), C78 (notifications), C79 (extended and large communities).
-/

namespace Zbgp.Props

open Spec Std

private theorem repr_dec (n : Nat) : (toString n).toList = dec n := by
  show (Nat.repr n).toList = _
  simp [Nat.repr, dec]

private theorem cat3 (a b c : String) : a.toList ++ (b.toList ++ c.toList) = (a ++ b ++ c).toList := by
  rw [String.toList_append, String.toList_append, List.append_assoc]

/-! ## C74 -/

/-- C74: different EVPN routes, of any types, have different texts. -/
theorem C74_evpn_text_identifies : TextTellsApart BgpEVPN := fun _ _ h => evpn_inj h

example : RDisplay.display (BgpEVPN.evpn3 ⟨⟨1, 2⟩, 255, .v4 0x0a000001#32⟩) = "3:1:2:000000ff:10.0.0.1".toList := by decide

/-- C74: the text starts with the route type and the route distinguisher. -/
theorem C74_evpn_text_start (x : BgpEVPN) : ∃ rest, RDisplay.display x = match x with
    | .evpn1 r => "1:".toList ++ RDisplay.display r.rd ++ ':' :: rest
    | .evpn2 r => "2:".toList ++ RDisplay.display r.rd ++ ':' :: rest
    | .evpn3 r => "3:".toList ++ RDisplay.display r.rd ++ ':' :: rest
    | .evpn4 r => "4:".toList ++ RDisplay.display r.rd ++ ':' :: rest
    | .evpn5 r => "5:".toList ++ RDisplay.display r.rd ++ ':' :: rest := by
  cases x <;>
    simp only [RDisplay.display, BgpEVPN.display, BgpEVPN1.display, BgpEVPN2.display, BgpEVPN3.display, BgpEVPN4.display,
      BgpEVPN5.display, List.append_assoc, List.cons_append] <;> exact ⟨_, rfl⟩

/-! ## C75 -/

private theorem allV4 {l : List IpAddr} (h : ∀ a ∈ l, ∃ b, a = .v4 b) {a : IpAddr} (m : a ∈ l) : ∃ b, a = .v4 b := h a m

/-- C75, part: different multicast VPN routes that contain only IPv4 addresses have different texts. -/
theorem C75_mvpn_text_identifies_partial (x y : BgpMVPN) (hx : ∀ a ∈ mvpnAddrs x, ∃ b, a = .v4 b)
    (hy : ∀ a ∈ mvpnAddrs y, ∃ b, a = .v4 b) (h : RDisplay.display x = RDisplay.display y) : x = y := by
  cases x <;> cases y <;> obtain ⟨h0, h⟩ := cons2 h <;> first | exact absurd h0 (by decide) | skip
  · rw [mvpn1_inj h]
  · rw [mvpn2_inj h]
  · have g := congrArg (· ++ [':']) h
    rw [(mvpn3_sep g (allV4 hx (by simp [mvpnAddrs])) (allV4 hx (by simp [mvpnAddrs])) (allV4 hx (by simp [mvpnAddrs]))
      (allV4 hy (by simp [mvpnAddrs])) (allV4 hy (by simp [mvpnAddrs])) (allV4 hy (by simp [mvpnAddrs]))).1]
  · rename_i r s _
    unfold BgpMVPN4.display at h
    have g := mvpn3_sep h (allV4 hx (by simp [mvpnAddrs])) (allV4 hx (by simp [mvpnAddrs])) (allV4 hx (by simp [mvpnAddrs]))
      (allV4 hy (by simp [mvpnAddrs])) (allV4 hy (by simp [mvpnAddrs])) (allV4 hy (by simp [mvpnAddrs]))
    have e : r = s := by
      cases r; cases s
      rw [BgpMVPN4.mk.injEq]
      exact ⟨g.1, showIp_inj g.2⟩
    rw [e]
  · rw [mvpn5_inj h (allV4 hx (by simp [mvpnAddrs])) (allV4 hy (by simp [mvpnAddrs]))]
  · rw [mvpn67_inj h (allV4 hx (by simp [mvpnAddrs])) (allV4 hy (by simp [mvpnAddrs]))]
  · rw [mvpn67_inj h (allV4 hx (by simp [mvpnAddrs])) (allV4 hy (by simp [mvpnAddrs]))]

example : ∀ a ∈ mvpnAddrs (.t5 ⟨⟨1, 2⟩, .v4 0x0a000001#32, .v4 0xe0000001#32⟩), ∃ b, a = .v4 b := by
  intro a h; simp only [mvpnAddrs, List.mem_cons, List.not_mem_nil, or_false] at h; rcases h with rfl | rfl <;> exact ⟨_, rfl⟩

example : RDisplay.display (BgpMVPN.t5 ⟨⟨1, 2⟩, .v4 0x0a000001#32, .v4 0xe0000001#32⟩) = "5:1:2:10.0.0.1:224.0.0.1".toList := by
  decide

/-- C75, part: routes of the types 1 and 2 have different texts whatever the addresses. -/
theorem C75_mvpn_text_ad_partial (x y : BgpMVPN) (hx : (∃ r, x = .t1 r) ∨ ∃ r, x = .t2 r)
    (h : RDisplay.display x = RDisplay.display y) : x = y := by
  rcases hx with ⟨r, rfl⟩ | ⟨r, rfl⟩ <;> cases y <;> obtain ⟨h0, h⟩ := cons2 h <;> first | exact absurd h0 (by decide) | skip
  · rw [mvpn1_inj h]
  · rw [mvpn2_inj h]

/-- C75 fails with IPv6 addresses: the addresses and the colons between them run together, and two different source-active
routes are shown alike. -/
theorem C75_mvpn_text_fails : ¬ TextTellsApart BgpMVPN := by
  intro h
  have := h (.t5 ⟨⟨1, 2⟩, .v6 0x00010000000000000000000000020003#128, .v6 0x00040000000000000000000000000005#128⟩)
    (.t5 ⟨⟨1, 2⟩, .v6 0x00010000000000000000000000000002#128, .v6 0x00030004000000000000000000000005#128⟩) (by decide)
  exact absurd this (by decide)

/-! ## C76 -/

/-- C76: different route distinguishers, of any types, have different texts. -/
theorem C76_rd_text_identifies : TextTellsApart BgpRD := fun _ _ h => rd_inj h

/-- C76: different routes of each of the prefix families have different texts: plain, labelled, VPN and MDT, with and without a
path identifier. -/
theorem C76_prefix_text_identifies :
    TextTellsApart BgpAddrV4 ∧ TextTellsApart BgpAddrV6 ∧
    TextTellsApart (Labeled BgpAddrV4) ∧ TextTellsApart (Labeled BgpAddrV6) ∧
    TextTellsApart (Labeled (WithRd BgpAddrV4)) ∧ TextTellsApart (Labeled (WithRd BgpAddrV6)) ∧
    TextTellsApart (WithRd BgpMdtV4) ∧ TextTellsApart (WithRd BgpMdtV6) ∧
    TextTellsApart (WithPathId BgpAddrV4) ∧ TextTellsApart (WithPathId BgpAddrV6) ∧
    TextTellsApart (WithPathId (Labeled BgpAddrV4)) ∧ TextTellsApart (WithPathId (Labeled BgpAddrV6)) ∧
    TextTellsApart (WithPathId (Labeled (WithRd BgpAddrV4))) ∧ TextTellsApart (WithPathId (Labeled (WithRd BgpAddrV6))) := by
  have l4 := textOf_labeled textOf_v4 (by decide)
  have l6 := textOf_labeled textOf_v6 (by decide)
  have r4 := textOf_rd textOf_v4 (by decide)
  have r6 := textOf_rd textOf_v6 (by decide)
  have v4 := textOf_labeled r4 (by decide)
  have v6 := textOf_labeled r6 (by decide)
  exact ⟨textOf_v4.inj, textOf_v6.inj, l4.inj, l6.inj, v4.inj, v6.inj, (textOf_rd textOf_mdt4 (by decide)).inj,
    (textOf_rd textOf_mdt6 (by decide)).inj, (textOf_pathid textOf_v4 (by decide)).inj, (textOf_pathid textOf_v6 (by decide)).inj,
    (textOf_pathid l4 (by decide)).inj, (textOf_pathid l6 (by decide)).inj, (textOf_pathid v4 (by decide)).inj,
    (textOf_pathid v6 (by decide)).inj⟩

example : RDisplay.display (⟨7, ⟨⟨⟨0x0a000000#32, 8⟩, ⟨1, 2⟩⟩, ⟨[100, 200]⟩⟩⟩ : WithPathId (Labeled (WithRd BgpAddrV4))) =
    "<pathid:7> <l:100,200> <rd:1:2> 10.0.0.0/8".toList := by decide

/-- C76: different VPN next hops have different texts. -/
theorem C76_vpn_nexthop_text_identifies : TextTellsApart BgpIPv4RD ∧ TextTellsApart BgpIPv6RD := by
  constructor
  · intro x y h
    simp only [RDisplay.display] at h
    have z : ∀ (a : IPv4) (t : Txt), showV4 a ≠ '<' :: t := fun a t e =>
      nm_showV4 (c := '<') (a := a) (by decide) (by rw [e]; simp)
    obtain ⟨r, a⟩ := x
    obtain ⟨s, b⟩ := y
    simp only at h
    split at h <;> split at h
    · rename_i h1 h2
      simp only [BgpRD.isZero, Bool.and_eq_true, beq_iff_eq] at h1 h2
      rw [showV4_inj h, show r = s from by cases r; cases s; simp_all]
    · exact (z _ _ h).elim
    · exact (z _ _ h.symm).elim
    · have h := (List.cons.inj h).2
      obtain ⟨h1, h2⟩ := sep (nm_rd (by decide)) (nm_rd (by decide)) h
      rw [rd_inj h1, showV4_inj h2]
  · intro x y h
    simp only [RDisplay.display] at h
    have z : ∀ (a : IPv6) (t : Txt), showV6 a ≠ '<' :: t := fun a t e =>
      nm_showV6 (c := '<') (a := a) (by decide) (by rw [e]; simp)
    obtain ⟨r, a⟩ := x
    obtain ⟨s, b⟩ := y
    simp only at h
    split at h <;> split at h
    · rename_i h1 h2
      simp only [BgpRD.isZero, Bool.and_eq_true, beq_iff_eq] at h1 h2
      rw [showV6_inj h, show r = s from by cases r; cases s; simp_all]
    · exact (z _ _ h).elim
    · exact (z _ _ h.symm).elim
    · have h := (List.cons.inj h).2
      obtain ⟨h1, h2⟩ := sep (nm_rd (by decide)) (nm_rd (by decide)) h
      rw [rd_inj h1, showV6_inj h2]

/-- C76: the text of a VPLS route shows everything but the labels: two routes are shown alike exactly when they differ at most
in the labels. -/
theorem C76_vpls_text (x y : BgpAddrL2) :
    RDisplay.display x = RDisplay.display y ↔ x.rd = y.rd ∧ x.site = y.site ∧ x.offset = y.offset ∧ x.range = y.range := by
  constructor
  · intro h
    simp only [RDisplay.display] at h
    rw [show "> ".toList = ['>', ' '] from by decide, show "::".toList = [':', ':'] from by decide, show "..".toList = ['.', '.'] from by decide] at h
    simp only [List.append_assoc, List.cons_append, List.nil_append, List.cons.injEq, true_and] at h
    obtain ⟨h1, h⟩ := sep (nm_rd (by decide)) (nm_rd (by decide)) h
    simp only [List.cons.injEq, true_and] at h
    obtain ⟨h2, h⟩ := sep (nm_dec (by decide)) (nm_dec (by decide)) h
    simp only [List.cons.injEq, true_and] at h
    obtain ⟨h3, h⟩ := sep (nm_dec (by decide)) (nm_dec (by decide)) h
    simp only [List.cons.injEq, true_and] at h
    exact ⟨rd_inj h1, decU_inj h2, decU_inj h3, decU_inj h⟩
  · rintro ⟨h1, h2, h3, h4⟩
    simp only [RDisplay.display, h1, h2, h3, h4]

/-- C76: different VPLS sites have different texts. -/
theorem C76_vpls_site_text_identifies : TextTellsApart BgpL2 := by
  intro x y h
  simp only [RDisplay.display] at h
  rw [show ">site ".toList = '>' :: "site ".toList from by decide, show "..".toList = ['.', '.'] from by decide] at h
  simp only [List.append_assoc, List.cons_append, List.nil_append, List.cons.injEq, true_and] at h
  obtain ⟨h1, h⟩ := sep (nm_rd (by decide)) (nm_rd (by decide)) h
  have h := List.append_cancel_left h
  obtain ⟨h2, h⟩ := sep (nm_dec (by decide)) (nm_dec (by decide)) h
  obtain ⟨h3, h⟩ := sep (nm_dec (by decide)) (nm_dec (by decide)) h
  simp only [List.cons.injEq, true_and] at h
  cases x; cases y
  simp only at h1 h2 h3 h
  rw [rd_inj h1, decU_inj h2, decU_inj h3, decU_inj h]

/-- C76: different FlowSpec operators have different texts. -/
theorem C76_flowspec_operator_text_identifies : TextTellsApart FSOperValItem ∧ TextTellsApart FSOperMaskItem := by
  constructor
  · rintro ⟨a, b, c, d, e⟩ ⟨a', b', c', d', e'⟩ h
    simp only [RDisplay.display, FSOperValItem.display] at h
    have n : ∀ (a b c d : Bool), ' ' ∉ (if a then "&&" else "||").toList ++ (if b then "<" else "").toList ++
        (if d then "=" else "").toList ++ (if c then ">" else "").toList := by decide
    have i : ∀ (a b c d a' b' c' d' : Bool), (if a then "&&" else "||").toList ++ (if b then "<" else "").toList ++
        (if d then "=" else "").toList ++ (if c then ">" else "").toList = (if a' then "&&" else "||").toList ++
        (if b' then "<" else "").toList ++ (if d' then "=" else "").toList ++ (if c' then ">" else "").toList →
        a = a' ∧ b = b' ∧ c = c' ∧ d = d' := by decide
    obtain ⟨h1, h2⟩ := sep (n _ _ _ _) (n _ _ _ _) h
    obtain ⟨rfl, rfl, rfl, rfl⟩ := i _ _ _ _ _ _ _ _ h1
    rw [decU_inj h2]
  · rintro ⟨a, b, c, e⟩ ⟨a', b', c', e'⟩ h
    simp only [RDisplay.display, FSOperMaskItem.display] at h
    have n : ∀ (a b c : Bool), ' ' ∉ (if a then "&&" else "||").toList ++ (if b then "!" else "").toList ++
        (if c then "==" else "").toList := by decide
    have i : ∀ (a b c a' b' c' : Bool), (if a then "&&" else "||").toList ++ (if b then "!" else "").toList ++
        (if c then "==" else "").toList = (if a' then "&&" else "||").toList ++ (if b' then "!" else "").toList ++
        (if c' then "==" else "").toList → a = a' ∧ b = b' ∧ c = c' := by decide
    obtain ⟨h1, h2⟩ := sep (n _ _ _) (n _ _ _) h
    obtain ⟨rfl, rfl, rfl⟩ := i _ _ _ _ _ _ h1
    rw [decU_inj h2]

/-! ## C77 -/

private theorem as_value (v : U32) : (v &&& 0xffff = 0 ↔ v.toNat % 65536 = 0) ∧ (v >>> 16).toNat = v.toNat / 65536 := by
  constructor
  · rw [← BitVec.toNat_inj, BitVec.toNat_and, show BitVec.toNat (0xffff : U32) = 2 ^ 16 - 1 from rfl,
      Nat.and_two_pow_sub_one_eq_mod]
    rfl
  · rw [BitVec.toNat_ushiftRight, Nat.shiftRight_eq_div_pow]

/-- C77, part: an AS number that is not a multiple of 65536, and 0, is shown in decimal. -/
theorem C77_as_text_partial (x : BgpAS) (h : x.value.toNat % 65536 ≠ 0 ∨ x.value = 0) :
    x.display = (toString x.value.toNat).toList := by
  rw [repr_dec]
  unfold BgpAS.display
  rcases h with h | h
  · rw [if_neg (fun e => h ((as_value _).1.mp e))]
  · rw [h]; rfl

example : BgpAS.display ⟨4200000001⟩ = "4200000001".toList := by decide

/-- C77 fails exactly for the other AS numbers: `k · 65536` is shown as `k`, which is the text of AS `k`. -/
theorem C77_as_text_wrong (x : BgpAS) (h : x.value.toNat % 65536 = 0) :
    x.display = (toString (x.value.toNat / 65536)).toList ∧ x.display = BgpAS.display ⟨x.value >>> 16⟩ ∧
    (x.value ≠ 0 → x.display ≠ (toString x.value.toNat).toList) := by
  have e : x.display = dec (x.value.toNat / 65536) := by
    unfold BgpAS.display
    rw [if_pos ((as_value _).1.mpr h), (as_value _).2]
  refine ⟨by rw [repr_dec, e], ?_, ?_⟩
  · rw [e, ← (as_value _).2]
    unfold BgpAS.display
    have v := (as_value x.value).2
    have lt := x.value.isLt
    have w := as_value (x.value >>> 16)
    simp only
    split
    · rename_i z
      have := w.1.mp z
      rw [v, Nat.mod_eq_of_lt (by omega)] at this
      rw [w.2, v, this]
    · rfl
  · intro h0 he
    rw [repr_dec, e] at he
    have := dec_inj he
    have : x.value.toNat = 0 := by omega
    exact h0 (BitVec.eq_of_toNat_eq (by simpa using this))

example : BgpAS.display ⟨65536⟩ = "1".toList ∧ BgpAS.display ⟨1⟩ = "1".toList := by decide

/-- C77 fails: AS 65536 and AS 1 are shown alike. -/
theorem C77_as_text_fails : ¬ ∀ x : BgpAS, x.display = (toString x.value.toNat).toList := by
  intro h
  exact (C77_as_text_wrong ⟨65536⟩ (by decide)).2.2 (by decide) (h _)

/-! ## C78 -/

/-- C78: the text of a notification: the names of the code and the subcode where RFC 4271 gives names, and the numbers where it
does not. -/
theorem C78_notification_text (m : BgpNotificationMessage) :
    (∀ e s, (m.errorCode.toNat, e) ∈ errorNames → (m.errorSubcode.toNat, s) ∈ subcodeNames m.errorCode.toNat →
      m.errorText = (e ++ ": " ++ s).toList) ∧
    (∀ e, (m.errorCode.toNat, e) ∈ errorNames → m.errorCode.toNat ≤ 3 →
      (∀ s, (m.errorSubcode.toNat, s) ∉ subcodeNames m.errorCode.toNat) →
      m.errorText = (e ++ ":  subcode " ++ toString m.errorSubcode.toNat).toList) ∧
    (∀ e, (m.errorCode.toNat, e) ∈ errorNames → 3 < m.errorCode.toNat → m.errorSubcode ≠ 0 →
      m.errorText = (e ++ " subcode " ++ toString m.errorSubcode.toNat).toList) ∧
    (∀ e, (m.errorCode.toNat, e) ∈ errorNames → 3 < m.errorCode.toNat → m.errorSubcode = 0 →
      m.errorText = (e ++ "(0)").toList) ∧
    ((∀ e, (m.errorCode.toNat, e) ∉ errorNames) →
      m.errorText = ("Unknown code " ++ toString m.errorCode.toNat ++ " subcode " ++ toString m.errorSubcode.toNat).toList) := by
  have sub : ∀ {l}, (∀ s, (m.errorSubcode.toNat, s) ∉ l) →
      BgpNotificationMessage.named l m.errorSubcode = " subcode ".toList ++ (toString m.errorSubcode.toNat).toList := fun hs => by
    rw [BgpNotificationMessage.named_not_mem _ hs, repr_dec]; rfl
  have oth : m.errorSubcode ≠ 0 →
      BgpNotificationMessage.otherText m.errorSubcode = " subcode ".toList ++ (toString m.errorSubcode.toNat).toList := fun hs => by
    rw [BgpNotificationMessage.otherText, if_pos hs, repr_dec]; rfl
  refine ⟨?_, ?_, ?_, ?_, ?_⟩
  · intro e s he hs
    simp only [errorNames, List.mem_cons, Prod.mk.injEq, List.not_mem_nil, or_false] at he
    rcases he with ⟨h, rfl⟩ | ⟨h, rfl⟩ | ⟨h, rfl⟩ | ⟨h, rfl⟩ | ⟨h, rfl⟩ | ⟨h, rfl⟩
    · rw [BgpNotificationMessage.errorText_1 h, BgpNotificationMessage.named_mem _ (by rw [h]; decide) hs, ← String.toList_append]; rfl
    · rw [BgpNotificationMessage.errorText_2 h, BgpNotificationMessage.named_mem _ (by rw [h]; decide) hs, ← String.toList_append]; rfl
    · rw [BgpNotificationMessage.errorText_3 h, BgpNotificationMessage.named_mem _ (by rw [h]; decide) hs, ← String.toList_append]; rfl
    all_goals (rw [h] at hs; simp [subcodeNames] at hs)
  · intro e he h3 hs
    simp only [errorNames, List.mem_cons, Prod.mk.injEq, List.not_mem_nil, or_false] at he
    rcases he with ⟨h, rfl⟩ | ⟨h, rfl⟩ | ⟨h, rfl⟩ | ⟨h, rfl⟩ | ⟨h, rfl⟩ | ⟨h, rfl⟩
    · exact (BgpNotificationMessage.errorText_1 h).trans ((congrArg _ (sub hs)).trans ((cat3 _ _ _).trans
        (congrArg (fun s => (s ++ toString m.errorSubcode.toNat).toList)
          (by decide : "Message Header Error: " ++ " subcode " = "Message Header Error" ++ ":  subcode "))))
    · exact (BgpNotificationMessage.errorText_2 h).trans ((congrArg _ (sub hs)).trans ((cat3 _ _ _).trans
        (congrArg (fun s => (s ++ toString m.errorSubcode.toNat).toList)
          (by decide : "OPEN Message Error: " ++ " subcode " = "OPEN Message Error" ++ ":  subcode "))))
    · exact (BgpNotificationMessage.errorText_3 h).trans ((congrArg _ (sub hs)).trans ((cat3 _ _ _).trans
        (congrArg (fun s => (s ++ toString m.errorSubcode.toNat).toList)
          (by decide : "Update Message Error: " ++ " subcode " = "Update Message Error" ++ ":  subcode "))))
    all_goals omega
  · intro e he h3 hs
    simp only [errorNames, List.mem_cons, Prod.mk.injEq, List.not_mem_nil, or_false] at he
    rcases he with ⟨h, rfl⟩ | ⟨h, rfl⟩ | ⟨h, rfl⟩ | ⟨h, rfl⟩ | ⟨h, rfl⟩ | ⟨h, rfl⟩
    iterate 3 omega
    · exact (BgpNotificationMessage.errorText_4 h).trans ((congrArg _ (oth hs)).trans (cat3 _ _ _))
    · exact (BgpNotificationMessage.errorText_5 h).trans ((congrArg _ (oth hs)).trans (cat3 _ _ _))
    · exact (BgpNotificationMessage.errorText_6 h).trans ((congrArg _ (oth hs)).trans (cat3 _ _ _))
  · intro e he h3 hs
    simp only [errorNames, List.mem_cons, Prod.mk.injEq, List.not_mem_nil, or_false] at he
    rcases he with ⟨h, rfl⟩ | ⟨h, rfl⟩ | ⟨h, rfl⟩ | ⟨h, rfl⟩ | ⟨h, rfl⟩ | ⟨h, rfl⟩
    iterate 3 omega
    · rw [BgpNotificationMessage.errorText_4 h, BgpNotificationMessage.otherText, if_neg (not_not.mpr hs), ← String.toList_append]
    · rw [BgpNotificationMessage.errorText_5 h, BgpNotificationMessage.otherText, if_neg (not_not.mpr hs), ← String.toList_append]
    · rw [BgpNotificationMessage.errorText_6 h, BgpNotificationMessage.otherText, if_neg (not_not.mpr hs), ← String.toList_append]
  · intro he
    have n : ∀ k : U8, ∀ e, (k.toNat, e) ∈ errorNames → m.errorCode ≠ k := fun k e hk h => he e (h ▸ hk)
    rw [BgpNotificationMessage.errorText, if_neg (n 1 "Message Header Error" (by decide)), if_neg (n 2 "OPEN Message Error" (by decide)),
      if_neg (n 3 "Update Message Error" (by decide)), if_neg (n 4 "Hold Timer Expired" (by decide)),
      if_neg (n 5 "Finite State Machine Error" (by decide)), if_neg (n 6 "Cease" (by decide)), ← repr_dec, ← repr_dec,
      ← String.toList_append, ← String.toList_append, ← String.toList_append]

example : BgpNotificationMessage.errorText ⟨2, 6, 0⟩ = "OPEN Message Error: Unacceptable Hold Time".toList ∧
    BgpNotificationMessage.errorText ⟨6, 2, 0⟩ = "Cease subcode 2".toList ∧
    BgpNotificationMessage.errorText ⟨7, 1, 0⟩ = "Unknown code 7 subcode 1".toList := by decide

/-- C78: notifications with different codes or subcodes have different texts. -/
theorem C78_notification_text_identifies (m n : BgpNotificationMessage) (h : m.errorText = n.errorText) :
    m.errorCode = n.errorCode ∧ m.errorSubcode = n.errorSubcode := BgpNotificationMessage.errorText_inj h

/-! ## C79 -/

/-- C79: two extended communities are shown alike exactly when they are equal or one of the three listed pairs. -/
theorem C79_ext_community_text (x y : BgpExtCommunity) : x.display = y.display ↔ x = y ∨ SameExtText x y := by
  constructor
  · intro h0
    rcases BgpExtCommunity.display_inj h0 with h | h | h | h
    · exact .inl h
    · right
      obtain ⟨c, s, a, b⟩ := x
      obtain ⟨d, t, a', b'⟩ := y
      simp only at h
      obtain ⟨rfl, rfl, hc, hd, rfl, rfl⟩ := h
      exact .importRt c d a b (by simpa using hc) (by simpa using hd)
    · right
      obtain ⟨c, s, a, b⟩ := x
      obtain ⟨d, t, a', b'⟩ := y
      simp only at h
      obtain ⟨rfl, rfl, rfl, rfl, rfl⟩ := h
      exact .encapsulation a a' b
    · right
      obtain ⟨c, s, a, b⟩ := x
      obtain ⟨d, t, a', b'⟩ := y
      simp only at h
      obtain ⟨rfl, rfl, rfl, rfl, rfl, h1⟩ := h
      refine .l2info a b b' ?_
      have := congrArg BitVec.toNat h1
      simpa only [BitVec.toNat_ushiftRight, Nat.shiftRight_eq_div_pow] using this
  · rintro (rfl | h)
    · rfl
    · cases h with
      | importRt c d a b hc hd =>
        simp only [List.mem_cons, List.not_mem_nil, or_false] at hc hd
        rcases hc with rfl | rfl <;> rcases hd with rfl | rfl <;> rfl
      | encapsulation a a' b => rfl
      | l2info a b b' h =>
        have e : b >>> 16 = b' >>> 16 := BitVec.eq_of_toNat_eq (by simpa only [BitVec.toNat_ushiftRight, Nat.shiftRight_eq_div_pow] using h)
        have d : ∀ a b, BgpExtCommunity.display ⟨6, 4, a, b⟩ = "evpn-l2-info:cf=".toList ++ dec a.toNat ++ ":mtu=".toList ++ dec (b >>> 16).toNat :=
          fun _ _ => rfl
        rw [d, d, e]

example : SameExtText ⟨1, 10, 5, 6⟩ ⟨0x41, 10, 5, 6⟩ := .importRt _ _ _ _ (by decide) (by decide)

/-- C79 fails: two different extended communities are shown alike. -/
theorem C79_ext_community_text_fails : ¬ ∀ x y : BgpExtCommunity, x.display = y.display → x = y := fun h =>
  absurd (h ⟨1, 10, 5, 6⟩ ⟨0x41, 10, 5, 6⟩ ((C79_ext_community_text _ _).mpr (.inr (.importRt _ _ _ _ (by decide) (by decide))))) (by decide)

/-- C79: route targets. -/
theorem C79_route_target_text (asn : U16) (n : U32) (ip : IPv4) (k : U16) :
    (BgpExtCommunity.rtAsn asn n).display = ("ext-target:" ++ toString asn.toNat ++ ":" ++ toString n.toNat).toList ∧
    (BgpExtCommunity.rtIpn ip k).display = "ext-target:".toList ++ showV4 ip ++ (":" ++ toString k.toNat).toList := by
  constructor
  · have e : (BgpExtCommunity.rtAsn asn n).display = "ext-target:".toList ++ dec asn.toNat ++ ':' :: dec n.toNat := rfl
    rw [e, ← repr_dec, ← repr_dec]
    simp
  · have e : (BgpExtCommunity.rtIpn ip k).display = "ext-target:".toList ++ (BgpExtCommunity.rtIpn ip k).ipNum := rfl
    rw [e, BgpExtCommunity.ipNum, (C37_ext_community_helpers.2.2.1 ip k).1, (C37_ext_community_helpers.2.2.1 ip k).2.1, ← repr_dec]
    simp

example : (BgpExtCommunity.rtIpn 0x0a000001#32 100).display = "ext-target:10.0.0.1:100".toList := by decide

/-- C79: large communities: the three numbers in decimal. -/
theorem C79_large_community_text (x : BgpLargeCommunity) :
    x.display = (toString x.ga.toNat ++ ":" ++ toString x.ldp1.toNat ++ ":" ++ toString x.ldp2.toNat).toList := by
  simp [BgpLargeCommunity.display, ← repr_dec]

/-- C79: different large communities have different texts. -/
theorem C79_large_community_text_identifies (x y : BgpLargeCommunity) (h : x.display = y.display) : x = y := by
  unfold BgpLargeCommunity.display at h
  simp only [List.append_assoc, List.cons_append] at h
  obtain ⟨h1, h⟩ := sep (nm_dec (by decide)) (nm_dec (by decide)) h
  obtain ⟨h2, h⟩ := sep (nm_dec (by decide)) (nm_dec (by decide)) h
  cases x; cases y
  simp only at h1 h2 h
  rw [decU_inj h1, decU_inj h2, decU_inj h]

end Zbgp.Props
