import Verif.Lemmas.AttrDisplay
import Verif.Spec.Texts
import Verif.Props.Debug

/-!
# C98: what `{}` prints for attributes and next hops

As in C97, the theorems hold for any Unicode tables `u`.
-/

namespace Zbgp.Props

open Zbgp Spec

/-! ## Attributes -/

/-- **C98, attributes, exactly.** Two attributes, of any kinds, are printed alike if and only if they are equal or are mLDP
tunnels that differ only in the opaque value. -/
theorem C98_attribute_text_iff (u : UnicodeTables) (x y : BgpAttrItem) :
    x.display u = y.display u ↔ x = y ∨ SameTunnel x y := by
  constructor
  · intro h
    rcases attr_display_inj u h with h | ⟨f, t, l, r, o, o', rfl, rfl⟩
    · exact .inl h
    · exact .inr (.mldp f t l r o o')
  · rintro (rfl | ⟨f, t, l, r, o, o'⟩) <;> rfl

/-- **C98, attributes**, partial: attributes other than mLDP tunnels are told apart by their texts. Missing: mLDP tunnels,
see `C98_attribute_text_fails`. -/
theorem C98_attribute_text_partial (u : UnicodeTables) (x y : BgpAttrItem)
    (hx : ∀ f t l r o, x ≠ .PMSITunnel ⟨f, t, l, .MLDP r o⟩) (h : x.display u = y.display u) : x = y := by
  rcases (C98_attribute_text_iff u x y).1 h with h | ⟨f, t, l, r, o, o'⟩
  · exact h
  · exact absurd rfl (hx _ _ _ _ _)

/-- **C98 fails**: the opaque value, that is the number of the tunnel, is not printed; two tunnels with the same root are
printed alike, whatever their numbers are. -/
theorem C98_attribute_text_fails (u : UnicodeTables) (root : IpAddr) (o o' : Bytes) :
    BgpAttrItem.display u (.PMSITunnel ⟨0, 2, ⟨[]⟩, .MLDP root o⟩) = BgpAttrItem.display u (.PMSITunnel ⟨0, 2, ⟨[]⟩, .MLDP root o'⟩) := rfl

/-- tunnels with different numbers are different -/
example : BgpAttrItem.PMSITunnel ⟨0, 2, ⟨[]⟩, .MLDP (.v4 0x0a000001) [1, 0, 4, 0, 0, 0, 1]⟩ ≠
    .PMSITunnel ⟨0, 2, ⟨[]⟩, .MLDP (.v4 0x0a000001) [1, 0, 4, 0, 0, 0, 2]⟩ := by
  intro h; simp at h

/-- what is printed -/
example : String.ofList (BgpAttrItem.display plainTables (.PMSITunnel ⟨0, 2, ⟨[16]⟩, .MLDP (.v4 0x0a000001) [1, 0, 4, 0, 0, 0, 1]⟩)) =
    "BgpPMSITunnel flags=0 type=2 label=16 attribute=mLDP P2MP LSP:10.0.0.1" := by decide

example : String.ofList (BgpAttrItem.display plainTables (.MPUpdates ⟨.V4 0x0a000001, .IPV4UP [⟨1, ⟨0x0a000000, 8⟩⟩]⟩)) =
    "BgpMPUpdates (V4(10.0.0.1) IPV4UP([WithPathId { pathid: 1, nlri: BgpAddrV4 { addr: 10.0.0.0, prefixlen: 8 } }]))" := by decide

example : String.ofList (BgpAttrItem.display plainTables (.Unknown ⟨⟨99, 192⟩, [1, 2]⟩)) = "PA unknown(tc=99,flg=192 [1, 2])" := by decide

/-- non-vacuity of `C98_attribute_text_partial` -/
example : ∀ f t l r o, BgpAttrItem.Origin ⟨.Igp⟩ ≠ .PMSITunnel ⟨f, t, l, .MLDP r o⟩ := by intro f t l r o h; cases h

/-- **C98**: an attribute begins with the name of its kind, except ATOMIC_AGGREGATE, whose text is an address. -/
theorem C98_attribute_kinds (u : UnicodeTables) (x : BgpAttrItem) :
    ∃ rest, x.display u = (match x with
      | .Origin _ => "origin "
      | .ASPath _ => "ASPath "
      | .NextHop _ => "NextHop "
      | .MED _ => "BgpMED "
      | .LocalPref _ => "BgpLocalpref "
      | .AtomicAggregate _ => ""
      | .AggregatorAS _ => "BgpAggregatorAS "
      | .CommunityList _ => "BgpCommunityList "
      | .OriginatorID _ => "BgpOriginatorID "
      | .ClusterList _ => "BgpClusterList "
      | .MPUpdates _ => "BgpMPUpdates ("
      | .MPWithdraws _ => "BgpMPWithdraws ("
      | .ExtCommunityList _ => "BgpExtCommunityList "
      | .LargeCommunityList _ => "BgpLargeCommunityList "
      | .PMSITunnel _ => "BgpPMSITunnel flags="
      | .AttrSet _ _ => "BgpAttrSet AS"
      | .Connector _ => "BgpConnector("
      | .Unknown _ => "PA unknown(tc=").toList ++ rest := by
  cases x with
  | Origin x => obtain ⟨⟨⟩⟩ := x <;> exact ⟨_, rfl⟩
  | _ => exact ⟨_, rfl⟩

/-- **C98, routes.** Lists of routes of any families are told apart by their texts. -/
theorem C98_routes_text (u : UnicodeTables) (x y : BgpAddrs) (h : x.display u = y.display u) : x = y :=
  C97_routes u x y (List.append_cancel_left h)

/-! ## Next hops -/

theorem addr_form (x : BgpAddr) (h : ∀ m, x ≠ .MVPN m) : AddrForm (withoutZeroRd x) x.display := by
  cases x with
  | MVPN m => exact absurd rfl (h m)
  | None => exact .none
  | V4 a => exact .v4 a
  | V6 a => exact .v6 a
  | L2 a =>
    have : (BgpAddr.L2 a).display = '<' :: (a.rd.display ++ '>' :: ("site ".toList ++ (Std.dec a.site.toNat ++ '-' :: (Std.dec a.offset.toNat ++
      '.' :: ('.' :: Std.dec a.range.toNat))))) := by
      simp only [BgpAddr.display, RDisplay.display]
      rw [show ">site ".toList = '>' :: "site ".toList from by decide, show "..".toList = ['.', '.'] from by decide]
      simp only [List.append_assoc, List.cons_append, List.nil_append]
    rw [this]
    exact .l2 a
  | V4RD a =>
    obtain ⟨⟨p, q⟩, a⟩ := a
    have e : (BgpAddr.V4RD ⟨⟨p, q⟩, a⟩).display = if (⟨p, q⟩ : BgpRD).isZero then Std.showV4 a
      else '<' :: ((⟨p, q⟩ : BgpRD).display ++ '>' :: Std.showV4 a) := rfl
    rw [e]
    by_cases hz : (⟨p, q⟩ : BgpRD).isZero = true
    · rw [if_pos hz]
      simp only [BgpRD.isZero, Bool.and_eq_true, beq_iff_eq] at hz
      obtain ⟨rfl, rfl⟩ := hz
      exact .v4 a
    · rw [if_neg hz]
      have : withoutZeroRd (.V4RD ⟨⟨p, q⟩, a⟩) = .V4RD ⟨⟨p, q⟩, a⟩ := by
        unfold withoutZeroRd
        split
        · rename_i h; simp only [BgpAddr.V4RD.injEq, BgpIPv4RD.mk.injEq, BgpRD.mk.injEq] at h
          obtain ⟨⟨rfl, rfl⟩, -⟩ := h; exact absurd rfl hz
        · rename_i h; cases h
        · rfl
      rw [this]
      exact .v4rd ⟨p, q⟩ a
  | V6RD a =>
    obtain ⟨⟨p, q⟩, a⟩ := a
    have e : (BgpAddr.V6RD ⟨⟨p, q⟩, a⟩).display = if (⟨p, q⟩ : BgpRD).isZero then Std.showV6 a
      else '<' :: ((⟨p, q⟩ : BgpRD).display ++ '>' :: Std.showV6 a) := rfl
    rw [e]
    by_cases hz : (⟨p, q⟩ : BgpRD).isZero = true
    · rw [if_pos hz]
      simp only [BgpRD.isZero, Bool.and_eq_true, beq_iff_eq] at hz
      obtain ⟨rfl, rfl⟩ := hz
      exact .v6 a
    · rw [if_neg hz]
      have : withoutZeroRd (.V6RD ⟨⟨p, q⟩, a⟩) = .V6RD ⟨⟨p, q⟩, a⟩ := by
        unfold withoutZeroRd
        split
        · rename_i h; cases h
        · rename_i h; simp only [BgpAddr.V6RD.injEq, BgpIPv6RD.mk.injEq, BgpRD.mk.injEq] at h
          obtain ⟨⟨rfl, rfl⟩, -⟩ := h; exact absurd rfl hz
        · rfl
      rw [this]
      exact .v6rd ⟨p, q⟩ a

/-- **C98, next hops, exactly.** Two next hops (not multicast VPN routes) are printed alike if and only if they are equal up
to a route distinguisher of zero, which is not printed. -/
theorem C98_next_hop_text_iff (x y : BgpAddr) (hx : ∀ m, x ≠ .MVPN m) (hy : ∀ m, y ≠ .MVPN m) :
    x.display = y.display ↔ withoutZeroRd x = withoutZeroRd y := by
  constructor
  · intro h
    have h1 := addr_form x hx
    rw [h] at h1
    exact addrForm_inj h1 (addr_form y hy)
  · intro h
    have key : ∀ {x : BgpAddr} {t t' : Txt}, AddrForm x t → AddrForm x t' → t = t' := by
      intro x t t' h1 h2
      cases h1 <;> cases h2 <;> rfl
    have h1 := addr_form x hx
    rw [h] at h1
    exact key h1 (addr_form y hy)

/-- **C98 fails** for next hops: that of a VPN route with the route distinguisher 0:0 is printed as a plain address. -/
theorem C98_next_hop_text_fails (a : IPv4) : (BgpAddr.V4RD ⟨⟨0, 0⟩, a⟩).display = (BgpAddr.V4 a).display := rfl

example : String.ofList (BgpAddr.display (.V4RD ⟨⟨0, 7⟩, 0x0a000001⟩)) = "<0:7>10.0.0.1" := by decide

example : BgpAddr.V4RD ⟨⟨0, 0⟩, 0x0a000001⟩ ≠ .V4 0x0a000001 := by intro h; cases h

/-- non-vacuity of `C98_next_hop_text_iff` -/
example : (∀ m, BgpAddr.V4RD ⟨⟨0, 7⟩, 0x0a000001⟩ ≠ .MVPN m) ∧ withoutZeroRd (.V4RD ⟨⟨0, 7⟩, 0x0a000001⟩) ≠ .V4 0x0a000001 :=
  ⟨fun m h => (by cases h), by decide⟩

/-! ## Notifications and FlowSpec routes -/

/-- **C98, notifications**: two different NOTIFICATION messages are never displayed alike. -/
theorem C98_notification_text (u : UnicodeTables) (x y : BgpNotificationMessage) (h : x.display u = y.display u) : x = y := by
  have ne : ∀ (v : Nat) (t : Txt), '=' ∉ t → '=' ∉ Std.dec v ++ t := by
    intro v t ht hm
    rcases List.mem_append.1 hm with hm | hm
    · exact nm_dec (by decide) hm
    · exact ht hm
  have step : ∀ {a b t : Txt} {v w : Nat}, '=' ∉ t → a ++ '=' :: (Std.dec v ++ t) = b ++ '=' :: (Std.dec w ++ t) → a = b ∧ v = w := by
    intro a b t v w ht h
    obtain ⟨h1, h2⟩ := sepR (ne v t ht) (ne w t ht) h
    exact ⟨h1, dec_inj (List.append_cancel_right h2)⟩
  have form : ∀ m : BgpNotificationMessage, m.display u =
      ((("BgpNotificationMessage ".toList ++ (Dbg.render u (.str (m.errorText.map Char.toNat)) ++ " code".toList)) ++
        '=' :: (Std.dec m.errorCode.toNat ++ " subcode".toList)) ++
        '=' :: (Std.dec m.errorSubcode.toNat ++ " data".toList)) ++ '=' :: (Std.dec m.data.toNat ++ [')']) := by
    intro m
    have e1 : " code=".toList = " code".toList ++ ['='] := by decide
    have e2 : " subcode=".toList = " subcode".toList ++ ['='] := by decide
    have e3 : " data=".toList = " data".toList ++ ['='] := by decide
    have key : ∀ p r c1 d1 c2 d2 c3 d3 t k1 k2 k3 : Txt, k1 = c1 ++ ['='] → k2 = c2 ++ ['='] → k3 = c3 ++ ['='] →
        p ++ (r ++ (k1 ++ (d1 ++ (k2 ++ (d2 ++ (k3 ++ (d3 ++ t))))))) =
          (((p ++ (r ++ c1)) ++ '=' :: (d1 ++ c2)) ++ '=' :: (d2 ++ c3)) ++ '=' :: (d3 ++ t) := by
      rintro p r c1 d1 c2 d2 c3 d3 t _ _ _ rfl rfl rfl; simp
    exact key _ _ _ _ _ _ _ _ _ _ _ _ e1 e2 e3
  rw [form, form] at h
  obtain ⟨h, h3⟩ := step (by decide) h
  obtain ⟨h, h2⟩ := step (by decide) h
  obtain ⟨h, h1⟩ := step (by decide) h
  have h1 := BitVec.eq_of_toNat_eq h1
  have h2 := BitVec.eq_of_toNat_eq h2
  have h3 := BitVec.eq_of_toNat_eq h3
  cases x; cases y
  simp only at h1 h2 h3
  rw [h1, h2, h3]

/-- **C98, FlowSpec routes**: two different ones are never displayed alike. -/
theorem C98_flowspec_text (u : UnicodeTables) :
    (∀ x y : BgpFlowSpec BgpAddrV4, x.display u = y.display u → x = y) ∧
    (∀ x y : BgpFlowSpec FS6, x.display u = y.display u → x = y) ∧
    (∀ x y : BgpFlowSpec FSV4U, x.display u = y.display u → x = y) :=
  ⟨fun _ _ h => debugText_inj u h, fun _ _ h => debugText_inj u h, fun _ _ h => debugText_inj u h⟩

example : String.ofList (BgpNotificationMessage.display plainTables ⟨6, 2, 7⟩) =
    "BgpNotificationMessage \"Cease subcode 2\" code=6 subcode=2 data=7)" := by decide

example : String.ofList (BgpFlowSpec.display plainTables (.proto ⟨[⟨false, false, false, true, 6⟩]⟩ : BgpFlowSpec BgpAddrV4)) =
    "Proto(FSOperVec { items: [FSOperValItem { and_bit: false, lt_cmp: false, gt_cmp: false, eq_cmp: true, value: 6 }] })" := by decide

end Zbgp.Props
