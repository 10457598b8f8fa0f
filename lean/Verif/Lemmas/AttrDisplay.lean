import Verif.Model.AttrDisplay
import Verif.Lemmas.DebugMsg
import Verif.Lemmas.Display

/-! # The texts of attributes split in one way -/

namespace Zbgp

open Std

/-- The words attributes begin with. -/
def attrWords : List Txt :=
  ["origin ".toList, "ASPath ".toList, "NextHop ".toList, "BgpMED ".toList, "BgpLocalpref ".toList, "BgpAggregatorAS ".toList,
    "BgpCommunityList ".toList, "BgpOriginatorID ".toList, "BgpClusterList ".toList, "BgpMPUpdates (".toList,
    "BgpMPWithdraws (".toList, "BgpExtCommunityList ".toList, "BgpLargeCommunityList ".toList, "BgpPMSITunnel flags=".toList,
    "BgpAttrSet AS".toList, "BgpConnector(".toList, "PA unknown(tc=".toList]

/-- Which of them a text begins with. -/
def attrWordOf (t : Txt) : Nat := attrWords.findIdx (·.isPrefixOf t)

def attrWordIdx : BgpAttrItem → Nat
  | .Origin _ => 0
  | .ASPath _ => 1
  | .NextHop _ => 2
  | .MED _ => 3
  | .LocalPref _ => 4
  | .AggregatorAS _ => 5
  | .CommunityList _ => 6
  | .OriginatorID _ => 7
  | .ClusterList _ => 8
  | .MPUpdates _ => 9
  | .MPWithdraws _ => 10
  | .ExtCommunityList _ => 11
  | .LargeCommunityList _ => 12
  | .PMSITunnel _ => 13
  | .AttrSet _ _ => 14
  | .Connector _ => 15
  | .Unknown _ => 16
  | .AtomicAggregate _ => 17

theorem wordOf_ip (a : IpAddr) : attrWordOf (showIp a) = 17 := by
  have h : ∀ c ∈ ['o', 'A', 'N', 'B', 'P'], c ∉ showIp a := fun c hc => nm_showIp (by revert c; decide)
  cases e : showIp a with
  | nil => rfl
  | cons c s =>
    have hc : ∀ d ∈ ['o', 'A', 'N', 'B', 'P'], (d == c) = false := fun d hd => by
      have := h d hd
      rw [e] at this
      simp only [List.mem_cons, not_or] at this
      simpa using this.1
    have h1 := hc 'o' (by simp)
    have h2 := hc 'A' (by simp)
    have h3 := hc 'N' (by simp)
    have h4 := hc 'B' (by simp)
    have h5 := hc 'P' (by simp)
    simp [attrWordOf, attrWords, List.findIdx_cons, List.isPrefixOf, h1, h2, h3, h4, h5]

theorem wordOf_display (u : UnicodeTables) (x : BgpAttrItem) : attrWordOf (x.display u) = attrWordIdx x := by
  cases x with
  | Origin x => obtain ⟨⟨⟩⟩ := x <;> rfl
  | AtomicAggregate x => exact wordOf_ip x.value
  | _ => rfl

def pmsiHead : BgpPMSITunnelAttr → Option Char
  | .None => none
  | .RSVPTe _ _ _ _ => some 'R'
  | .IngressRepl _ => some 'I'
  | .MLDP _ _ => some 'm'

theorem pmsiHead_eq (x : BgpPMSITunnelAttr) : x.display[0]? = pmsiHead x := by cases x <;> rfl

theorem pmsiAttr_inj {x y : BgpPMSITunnelAttr} (h : x.display = y.display) :
    x = y ∨ ∃ r o o', x = .MLDP r o ∧ y = .MLDP r o' := by
  have hh : pmsiHead x = pmsiHead y := by rw [← pmsiHead_eq, ← pmsiHead_eq, h]
  cases x <;> cases y
  case MLDP.MLDP r o r' o' =>
    have h : showIp r = showIp r' := List.append_cancel_left h
    obtain rfl := showIp_inj h
    exact .inr ⟨r, o, o', rfl, rfl⟩
  case RSVPTe.RSVPTe e r t p e' r' t' p' =>
    have h : showV4 e ++ ':' :: (dec r.toNat ++ ':' :: (dec t.toNat ++ ':' :: showV4 p)) =
      showV4 e' ++ ':' :: (dec r'.toNat ++ ':' :: (dec t'.toNat ++ ':' :: showV4 p')) := List.append_cancel_left h
    obtain ⟨h1, h⟩ := sep (nm_showV4 (by decide)) (nm_showV4 (by decide)) h
    obtain ⟨h2, h⟩ := sep (nm_dec (by decide)) (nm_dec (by decide)) h
    obtain ⟨h3, h⟩ := sep (nm_dec (by decide)) (nm_dec (by decide)) h
    rw [showV4_inj h1, decU_inj h2, decU_inj h3, showV4_inj h]
    exact .inl rfl
  case IngressRepl.IngressRepl e e' =>
    have h : showV4 e = showV4 e' := List.append_cancel_left h
    rw [showV4_inj h]; exact .inl rfl
  case None.None => exact .inl rfl
  all_goals exact absurd hh (by simp [pmsiHead])

theorem mpUpdates_inj (u : UnicodeTables) {x y : BgpMPUpdates}
    (h : debugText u x.nexthop ++ ' ' :: (debugText u x.addrs ++ [')']) = debugText u y.nexthop ++ ' ' :: (debugText u y.addrs ++ [')'])) :
    x = y := by
  have stop : ∀ a : BgpAddrs, DbgStop (' ' :: (debugText u a ++ [')'])) := fun a => by
    obtain ⟨c, s, e, _⟩ := Dbg.render_head u (DebugOk.wf a) [')']
    have hc : c ≠ '{' := by
      rintro rfl
      cases a <;> simp [RDebug.dbg, Dbg.render, Dbg.unit, Dbg.addrs] at e
    exact .inr (.inr ⟨c, s, congrArg _ e, hc⟩)
  obtain ⟨h1, h2⟩ := Dbg.split u (DebugOk.wf _) (DebugOk.wf _) (stop _) (stop _) h
  simp only [List.cons.injEq, true_and] at h2
  obtain ⟨h3, -⟩ := Dbg.split u (DebugOk.wf _) (DebugOk.wf _) (DbgStop.cons (by simp)) (DbgStop.cons (by simp)) h2
  have e1 := DebugOk.inj _ _ h1
  have e2 := DebugOk.inj _ _ h3
  cases x; cases y
  simp only at e1 e2
  rw [e1, e2]

/-- Attributes with the same text. -/
theorem attr_display_inj (u : UnicodeTables) {x y : BgpAttrItem} (h : x.display u = y.display u) :
    x = y ∨ ∃ f t l r o o', x = .PMSITunnel ⟨f, t, l, .MLDP r o⟩ ∧ y = .PMSITunnel ⟨f, t, l, .MLDP r o'⟩ := by
  have hi : attrWordIdx x = attrWordIdx y := by rw [← wordOf_display u, ← wordOf_display u, h]
  cases x <;> cases y <;> first | (simp [attrWordIdx] at hi; done) | skip
  case Origin.Origin x y =>
    left
    have h : x.display = y.display := h
    have key : ∀ x y : BgpAttrOrigin, BgpOrigin.display ⟨x⟩ = BgpOrigin.display ⟨y⟩ → x = y := by
      intro x y h
      cases x <;> cases y <;> first | rfl | exact absurd h (by decide)
    exact congrArg (fun v => BgpAttrItem.Origin ⟨v⟩) (key x.value y.value h)
  case ASPath.ASPath x y =>
    have h := Dbg.vecd_iff.1 (render_inj u (Dbg.vecd_wf _) (Dbg.vecd_wf _) (List.append_cancel_left h))
    cases x; cases y; simp only at h; exact .inl (by rw [h])
  case NextHop.NextHop x y =>
    have h := showIp_inj (List.append_cancel_left h)
    cases x; cases y; simp only at h; exact .inl (by rw [h])
  case MED.MED x y =>
    have h := decU_inj (List.append_cancel_left h)
    cases x; cases y; simp only at h; exact .inl (by rw [h])
  case LocalPref.LocalPref x y =>
    have h := decU_inj (List.append_cancel_left h)
    cases x; cases y; simp only at h; exact .inl (by rw [h])
  case AtomicAggregate.AtomicAggregate x y =>
    have h := showIp_inj h
    cases x; cases y; simp only at h; exact .inl (by rw [h])
  case AggregatorAS.AggregatorAS x y =>
    obtain ⟨h1, h⟩ := sep (nm_dec (by decide)) (nm_dec (by decide)) (List.append_cancel_left h)
    have h1 := decU_inj h1
    have h := showV4_inj h
    cases x; cases y; simp only at h1 h; exact .inl (by rw [h1, h])
  case CommunityList.CommunityList x y =>
    have h := Dbg.bsetd_iff.1 (render_inj u (Dbg.bsetd_wf _) (Dbg.bsetd_wf _) (List.append_cancel_left h))
    cases x; cases y; simp only at h; exact .inl (by rw [h])
  case OriginatorID.OriginatorID x y =>
    have h := showIp_inj (List.append_cancel_left h)
    cases x; cases y; simp only at h; exact .inl (by rw [h])
  case ClusterList.ClusterList x y =>
    have h := Dbg.vecip_iff.1 (render_inj u (Dbg.vecip_wf _) (Dbg.vecip_wf _) (List.append_cancel_left h))
    cases x; cases y; simp only at h; exact .inl (by rw [h])
  case MPUpdates.MPUpdates x y => exact .inl (congrArg _ (mpUpdates_inj u (List.append_cancel_left h)))
  case MPWithdraws.MPWithdraws x y =>
    have h := (Dbg.split u (DebugOk.wf _) (DebugOk.wf _) (DbgStop.cons (by simp)) (DbgStop.cons (by simp)) (List.append_cancel_left h)).1
    have h := DebugOk.inj _ _ h
    cases x; cases y; simp only at h; exact .inl (by rw [h])
  case ExtCommunityList.ExtCommunityList x y =>
    have h := Dbg.bsetd_iff.1 (render_inj u (Dbg.bsetd_wf _) (Dbg.bsetd_wf _) (List.append_cancel_left h))
    cases x; cases y; simp only at h; exact .inl (by rw [h])
  case LargeCommunityList.LargeCommunityList x y =>
    have h := Dbg.bsetd_iff.1 (render_inj u (Dbg.bsetd_wf _) (Dbg.bsetd_wf _) (List.append_cancel_left h))
    cases x; cases y; simp only at h; exact .inl (by rw [h])
  case PMSITunnel.PMSITunnel x y =>
    have h : dec x.flags.toNat ++ ' ' :: ("type=".toList ++ (dec x.tunnelType.toNat ++ ' ' :: ("label=".toList ++ (x.label.display ++
        ' ' :: ("attribute=".toList ++ x.tunnelAttribute.display))))) =
      dec y.flags.toNat ++ ' ' :: ("type=".toList ++ (dec y.tunnelType.toNat ++ ' ' :: ("label=".toList ++ (y.label.display ++
        ' ' :: ("attribute=".toList ++ y.tunnelAttribute.display))))) := List.append_cancel_left h
    obtain ⟨h1, h⟩ := sep (nm_dec (by decide)) (nm_dec (by decide)) h
    obtain ⟨h2, h⟩ := sep (nm_dec (by decide)) (nm_dec (by decide)) (List.append_cancel_left h)
    obtain ⟨h3, h⟩ := sep (nm_labels (by decide)) (nm_labels (by decide)) (List.append_cancel_left h)
    have h4 := pmsiAttr_inj (List.append_cancel_left h)
    have k1 := decU_inj h1
    have k2 := decU_inj h2
    have k3 := labels_inj h3
    cases x; cases y
    simp only at k1 k2 k3 h4
    subst k1 k2 k3
    rcases h4 with rfl | ⟨r, o, o', rfl, rfl⟩
    · exact .inl rfl
    · exact .inr ⟨_, _, _, r, o, o', rfl, rfl⟩
  case AttrSet.AttrSet a l b m =>
    obtain ⟨h1, h⟩ := sep (nm_dec (by decide)) (nm_dec (by decide)) (List.append_cancel_left h)
    have h2 := render_inj u (t := .list _) (v := .list _) (attr_dbgs_wf l) (attr_dbgs_wf m) h
    simp only [Dbg.list.injEq] at h2
    rw [decU_inj h1, attr_dbgs_inj _ _ h2]
    exact .inl rfl
  case Connector.Connector x y =>
    have h : dec x.asn.toNat ++ ':' :: (showV4 x.addr ++ ' ' :: ('@' :: (showV4 x.orig ++ [')']))) =
      dec y.asn.toNat ++ ':' :: (showV4 y.addr ++ ' ' :: ('@' :: (showV4 y.orig ++ [')']))) := List.append_cancel_left h
    obtain ⟨h1, h⟩ := sep (nm_dec (by decide)) (nm_dec (by decide)) h
    obtain ⟨h2, h⟩ := sep (nm_showV4 (by decide)) (nm_showV4 (by decide)) h
    simp only [List.cons.injEq, true_and, List.append_cancel_right_eq] at h
    have h1 := decU_inj h1
    have h2 := showV4_inj h2
    have h3 := showV4_inj h
    cases x; cases y; simp only at h1 h2 h3; exact .inl (by rw [h1, h2, h3])
  case Unknown.Unknown x y =>
    have h : dec x.params.typecode.toNat ++ ',' :: ("flg=".toList ++ (dec x.params.flags.toNat ++ ' ' :: ((Dbg.vec .num x.value).render u ++ [')']))) =
      dec y.params.typecode.toNat ++ ',' :: ("flg=".toList ++ (dec y.params.flags.toNat ++ ' ' :: ((Dbg.vec .num y.value).render u ++ [')']))) :=
      List.append_cancel_left h
    obtain ⟨h1, h⟩ := sep (nm_dec (by decide)) (nm_dec (by decide)) h
    obtain ⟨h2, h⟩ := sep (nm_dec (by decide)) (nm_dec (by decide)) (List.append_cancel_left h)
    have h3 := Dbg.vecn_iff.1 (render_inj u (Dbg.vecn_wf _) (Dbg.vecn_wf _) (List.append_cancel_right h))
    have h1 := decU_inj h1
    have h2 := decU_inj h2
    obtain ⟨⟨_, _⟩, _⟩ := x
    obtain ⟨⟨_, _⟩, _⟩ := y
    simp only at h1 h2 h3
    exact .inl (by rw [h1, h2, h3])

/-! ## Next hops -/

/-- The text before and after the `>`, if it begins with `<`. -/
inductive AddrForm : BgpAddr → Txt → Prop
  | none : AddrForm .None ('<' :: ([] ++ '>' :: []))
  | v4 (a : IPv4) : AddrForm (.V4 a) (showIp (.v4 a))
  | v6 (a : IPv6) : AddrForm (.V6 a) (showIp (.v6 a))
  | v4rd (r : BgpRD) (a : IPv4) : AddrForm (.V4RD ⟨r, a⟩) ('<' :: (r.display ++ '>' :: showIp (.v4 a)))
  | v6rd (r : BgpRD) (a : IPv6) : AddrForm (.V6RD ⟨r, a⟩) ('<' :: (r.display ++ '>' :: showIp (.v6 a)))
  | l2 (x : BgpL2) : AddrForm (.L2 x) ('<' :: (x.rd.display ++ '>' :: ("site ".toList ++ (dec x.site.toNat ++ '-' :: (dec x.offset.toNat ++
      '.' :: ('.' :: dec x.range.toNat))))))

theorem ip_head {a : IpAddr} {t : Txt} : showIp a ≠ '<' :: t := fun e => nm_showIp (c := '<') (a := a) (by decide) (by rw [e]; simp)
theorem ip_site {a : IpAddr} {t : Txt} : showIp a ≠ "site ".toList ++ t := fun e => nm_showIp (c := 's') (a := a) (by decide) (by rw [e]; simp)
theorem rd_nonempty (r : BgpRD) : r.display ≠ [] := by
  obtain ⟨p, q, e, -⟩ := rd_parts r
  rw [e]; simp

theorem addrForm_inj {x y : BgpAddr} {t : Txt} (hx : AddrForm x t) (hy : AddrForm y t) : x = y := by
  generalize ht : t = t' at hy
  cases hx <;> cases hy <;> first
    | exact (ip_head ht).elim
    | exact (ip_head ht.symm).elim
    | rfl
    | (have h := showIp_inj ht; cases h; rfl)
    | (cases showIp_inj ht)
    | skip
  all_goals
    obtain ⟨h1, h2⟩ := sep (by first | exact List.not_mem_nil | exact nm_rd (by decide)) (by first | exact List.not_mem_nil | exact nm_rd (by decide))
      (List.cons.inj ht).2
    first
      | exact (rd_nonempty _ h1).elim
      | exact (rd_nonempty _ h1.symm).elim
      | exact (ip_site h2).elim
      | exact (ip_site h2.symm).elim
      | (have h := showIp_inj h2; cases h; rw [rd_inj h1])
      | (cases showIp_inj h2)
      | skip
  case l2.l2 x y =>
    obtain ⟨h3, h⟩ := sep (nm_dec (by decide)) (nm_dec (by decide)) (List.append_cancel_left h2)
    obtain ⟨h4, h⟩ := sep (nm_dec (by decide)) (nm_dec (by decide)) h
    simp only [List.cons.injEq, true_and] at h
    cases x; cases y
    simp only at h1 h3 h4 h
    rw [rd_inj h1, decU_inj h3, decU_inj h4, decU_inj h]

end Zbgp
