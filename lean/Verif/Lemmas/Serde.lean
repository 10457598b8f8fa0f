import Verif.Spec.Serde
import Verif.Lemmas.TextV6
import Verif.Lemmas.Sets

/-!
# Facts about serialisation
-/

namespace Zbgp

open _root_.Zbgp.Std Spec Ser

/-! ## The readers of `serde` -/

theorem uint_rt {w : Nat} (x : BitVec w) : (uint w).de ((uint w).ser x) = .ok x := by
  simp [uint, x.isLt]

@[simp] theorem u8_rt (x : U8) : u8.de (u8.ser x) = .ok x := uint_rt x
@[simp] theorem u16_rt (x : U16) : u16.de (u16.ser x) = .ok x := uint_rt x
@[simp] theorem u32_rt (x : U32) : u32.de (u32.ser x) = .ok x := uint_rt x
@[simp] theorem bool_rt (x : Bool) : Ser.bool.de (Ser.bool.ser x) = .ok x := rfl

theorem text_rt {α : Type} {shown : α → Txt} {parse : Txt → Option α} {x : α} (h : parse (shown x) = some x) :
    (text shown parse).de ((text shown parse).ser x) = .ok x := by
  simp [text, h]

@[simp] theorem ipv4_rt (x : IPv4) : ipv4.de (ipv4.ser x) = .ok x := text_rt (parseV4_show x)
@[simp] theorem ipv6_rt (x : IPv6) : ipv6.de (ipv6.ser x) = .ok x := text_rt (parseV6_show x)

theorem parseIp_show (x : IpAddr) : parseIp (showIp x) = some x := by
  cases x with
  | v4 a => simp [parseIp, showIp, parseV4_show]
  | v6 a =>
    have h : parseV4 (showV6 a) = none := by
      cases hp : parseV4 (showV6 a) with
      | none => rfl
      | some b =>
        have := parseV4_canonical hp
        exact absurd rfl (showV4_no_slash (this ▸ colon_mem_showV6 a)).2.2
    simp [parseIp, showIp, h, parseV6_show]

@[simp] theorem ipaddr_rt (x : IpAddr) : ipaddr.de (ipaddr.ser x) = .ok x := text_rt (parseIp_show x)

theorem option_rt {α : Type} {c : Codec α} (hc : ∀ x, c.de (c.ser x) = .ok x) (hn : ∀ x, c.ser x ≠ .null) (x : Option α) :
    (option c).de ((option c).ser x) = .ok x := by
  cases x with
  | none => rfl
  | some x =>
    have := hc x
    have hn := hn x
    simp only [option]
    rw [this]; rfl

@[simp] theorem optIp_rt (x : Option IpAddr) : (option ipaddr).de ((option ipaddr).ser x) = .ok x :=
  option_rt ipaddr_rt (fun x => by simp [ipaddr, text]) x

theorem mapM_rt {α : Type} {ser : α → Doc} {item : Doc → De α} : ∀ {l : List α}, (∀ x ∈ l, item (ser x) = .ok x) →
    (l.map ser).mapM item = .ok l
  | [], _ => rfl
  | x :: l, h => by
    rw [List.map_cons, List.mapM_cons, h x (by simp), mapM_rt fun y hy => h y (by simp [hy])]
    rfl

theorem vec_rt_of {α : Type} {c : Codec α} {l : List α} (h : ∀ x ∈ l, c.de (c.ser x) = .ok x) :
    (vec c).de ((vec c).ser l) = .ok l := mapM_rt h

@[simp] theorem vec_rt {α : Type} {c : Codec α} (h : ∀ x, c.de (c.ser x) = .ok x) (l : List α) :
    (vec c).de ((vec c).ser l) = .ok l := vec_rt_of fun x _ => h x

theorem btreeSet_rt {α : Type} {c : Codec α} {lt : α → α → Bool} {num : α → Nat} (h : ∀ x, c.de (c.ser x) = .ok x)
    (ho : OrderBy lt num) {l : List α} (hl : Ascending num l) : (btreeSet lt c).de ((btreeSet lt c).ser l) = .ok l := by
  have : seqOf c.de (.seq (l.map c.ser)) = .ok l := mapM_rt fun x _ => h x
  show (do .ok (setOf lt (← seqOf c.de (.seq (l.map c.ser))))) = _
  rw [this]
  exact congrArg Except.ok (setOf_self ho l hl)

/-! ## Derived readers -/

theorem entries_ok {names : List String} {es : List (String × Doc)} (h : es.map Prod.fst = names) (hn : names.Nodup) :
    structEntries names (.map es) = .ok es := by
  subst h
  have : (es.map Prod.fst).find? (fun n => decide (1 < (es.filter fun e => e.1 == n).length)) = none := by
    rw [List.find?_eq_none]
    intro n _
    simp only [decide_eq_true_eq, not_lt]
    rw [show (es.filter fun e => e.1 == n).length = (es.map Prod.fst).count n by
      rw [List.count, List.countP_map, List.countP_eq_length_filter]; rfl]
    exact List.nodup_iff_count_le_one.mp hn n
  simp only [structEntries, this]

/-- reads back a derived `struct` -/
macro "serde_struct " d:ident : tactic => `(tactic|
  (simp only [$d:ident]
   rw [entries_ok]
   rotate_left
   · rfl
   · decide
   simp [field, fieldOpt, fieldWith, List.lookup, bind, Except.bind]))

/-- reads back a derived `enum` -/
macro "serde_enum " d:ident : tactic => `(tactic|
  (simp [$d:ident, enumOf, asVariant, List.lookup, bind, Except.bind, unitVariant, newtypeVariant, contentOf]))

theorem BgpNet.rt (x : BgpNet) : BgpNet.codec.de (BgpNet.codec.ser x) = .ok x := by
  simp [BgpNet.codec, deserializeString, net_text]
@[simp] theorem BgpRD.rt (x : BgpRD) : BgpRD.codec.de (BgpRD.codec.ser x) = .ok x := by
  serde_struct BgpRD.codec

@[simp] theorem MplsLabels.rt (x : MplsLabels) : MplsLabels.codec.de (MplsLabels.codec.ser x) = .ok x := by
  simp [MplsLabels.codec, bind, Except.bind]

@[simp] theorem withRd_rt {T : Type} {c : Codec T} (h : ∀ x, c.de (c.ser x) = .ok x) (x : WithRd T) :
    (withRd c).de ((withRd c).ser x) = .ok x := by
  simp [withRd, deserializeStruct, pairVisitor, pairLoop, h, bind, Except.bind]

@[simp] theorem labeled_rt {T : Type} {c : Codec T} (h : ∀ x, c.de (c.ser x) = .ok x) (x : Labeled T) :
    (labeled c).de ((labeled c).ser x) = .ok x := by
  simp [labeled, deserializeStruct, pairVisitor, pairLoop, h, bind, Except.bind]

@[simp] theorem withPathId_rt {T : Type} {c : Codec T} (h : ∀ x, c.de (c.ser x) = .ok x) (x : WithPathId T) :
    (withPathId c).de ((withPathId c).ser x) = .ok x := by
  simp [withPathId, deserializeStruct, pairVisitor, pairLoop, h, bind, Except.bind]

@[simp] theorem BgpAddrV4.rt (x : BgpAddrV4) : BgpAddrV4.codec.de (BgpAddrV4.codec.ser x) = .ok x := by
  serde_struct BgpAddrV4.codec

@[simp] theorem BgpAddrV6.rt (x : BgpAddrV6) : BgpAddrV6.codec.de (BgpAddrV6.codec.ser x) = .ok x := by
  serde_struct BgpAddrV6.codec

@[simp] theorem BgpIPv4RD.rt (x : BgpIPv4RD) : BgpIPv4RD.codec.de (BgpIPv4RD.codec.ser x) = .ok x := by
  serde_struct BgpIPv4RD.codec

@[simp] theorem BgpIPv6RD.rt (x : BgpIPv6RD) : BgpIPv6RD.codec.de (BgpIPv6RD.codec.ser x) = .ok x := by
  serde_struct BgpIPv6RD.codec

@[simp] theorem BgpMdtV4.rt (x : BgpMdtV4) : BgpMdtV4.codec.de (BgpMdtV4.codec.ser x) = .ok x := by
  serde_struct BgpMdtV4.codec

@[simp] theorem BgpMdtV6.rt (x : BgpMdtV6) : BgpMdtV6.codec.de (BgpMdtV6.codec.ser x) = .ok x := by
  serde_struct BgpMdtV6.codec

@[simp] theorem BgpAddrL2.rt (x : BgpAddrL2) : BgpAddrL2.codec.de (BgpAddrL2.codec.ser x) = .ok x := by
  serde_struct BgpAddrL2.codec

@[simp] theorem BgpL2.rt (x : BgpL2) : BgpL2.codec.de (BgpL2.codec.ser x) = .ok x := by
  serde_struct BgpL2.codec

@[simp] theorem MacAddress.rt (x : MacAddress) : MacAddress.codec.de (MacAddress.codec.ser x) = .ok x := by
  simp [MacAddress.codec, bind, Except.bind]
@[simp] theorem EVPNESI.rt (x : EVPNESI) : EVPNESI.codec.de (EVPNESI.codec.ser x) = .ok x := by
  obtain ⟨⟨⟨l⟩, h⟩⟩ := x
  simp only [EVPNESI.codec, vec_rt u8_rt]
  have h : l.length = 9 := h
  simp [bind, Except.bind, h]

@[simp] theorem BgpEVPN1.rt (x : BgpEVPN1) : BgpEVPN1.codec.de (BgpEVPN1.codec.ser x) = .ok x := by
  serde_struct BgpEVPN1.codec

@[simp] theorem BgpEVPN2.rt (x : BgpEVPN2) : BgpEVPN2.codec.de (BgpEVPN2.codec.ser x) = .ok x := by
  serde_struct BgpEVPN2.codec

@[simp] theorem BgpEVPN3.rt (x : BgpEVPN3) : BgpEVPN3.codec.de (BgpEVPN3.codec.ser x) = .ok x := by
  serde_struct BgpEVPN3.codec

@[simp] theorem BgpEVPN4.rt (x : BgpEVPN4) : BgpEVPN4.codec.de (BgpEVPN4.codec.ser x) = .ok x := by
  serde_struct BgpEVPN4.codec

@[simp] theorem BgpEVPN5.rt (x : BgpEVPN5) : BgpEVPN5.codec.de (BgpEVPN5.codec.ser x) = .ok x := by
  serde_struct BgpEVPN5.codec

@[simp] theorem BgpEVPN.rt (x : BgpEVPN) : BgpEVPN.codec.de (BgpEVPN.codec.ser x) = .ok x := by
  cases x <;> serde_enum BgpEVPN.codec

@[simp] theorem BgpMVPN1.rt (x : BgpMVPN1) : BgpMVPN1.codec.de (BgpMVPN1.codec.ser x) = .ok x := by
  serde_struct BgpMVPN1.codec

@[simp] theorem BgpMVPN2.rt (x : BgpMVPN2) : BgpMVPN2.codec.de (BgpMVPN2.codec.ser x) = .ok x := by
  serde_struct BgpMVPN2.codec

@[simp] theorem BgpMVPN3.rt (x : BgpMVPN3) : BgpMVPN3.codec.de (BgpMVPN3.codec.ser x) = .ok x := by
  serde_struct BgpMVPN3.codec

@[simp] theorem BgpMVPN4.rt (x : BgpMVPN4) : BgpMVPN4.codec.de (BgpMVPN4.codec.ser x) = .ok x := by
  serde_struct BgpMVPN4.codec

@[simp] theorem BgpMVPN5.rt (x : BgpMVPN5) : BgpMVPN5.codec.de (BgpMVPN5.codec.ser x) = .ok x := by
  serde_struct BgpMVPN5.codec

@[simp] theorem BgpMVPN67.rt (x : BgpMVPN67) : BgpMVPN67.codec.de (BgpMVPN67.codec.ser x) = .ok x := by
  serde_struct BgpMVPN67.codec

@[simp] theorem BgpMVPN.rt (x : BgpMVPN) : BgpMVPN.codec.de (BgpMVPN.codec.ser x) = .ok x := by
  cases x <;> serde_enum BgpMVPN.codec

@[simp] theorem FS6.rt (x : FS6) : FS6.codec.de (FS6.codec.ser x) = .ok x := by
  serde_struct FS6.codec

@[simp] theorem FSV4U.rt (x : FSV4U) : FSV4U.codec.de (FSV4U.codec.ser x) = .ok x := by
  simp [FSV4U.codec, bind, Except.bind]

@[simp] theorem FSOperValItem.rt (x : FSOperValItem) : FSOperValItem.codec.de (FSOperValItem.codec.ser x) = .ok x := by
  serde_struct FSOperValItem.codec

@[simp] theorem FSOperMaskItem.rt (x : FSOperMaskItem) : FSOperMaskItem.codec.de (FSOperMaskItem.codec.ser x) = .ok x := by
  serde_struct FSOperMaskItem.codec

theorem operVec_rt {T : Type} {c : Codec T} (h : ∀ x, c.de (c.ser x) = .ok x) (x : FSOperVec T) :
    (operVec c).de ((operVec c).ser x) = .ok x := by
  simp [operVec, h, bind, Except.bind]

/-- A FlowSpec rule is never read: the visitor has no method for an `enum`. -/
theorem flowSpec_de {T : Type} (c : Codec T) (d : Doc) : ∃ e, (flowSpec c).de d = .error e := by
  show ∃ e, (do
    let (k, content) ← asVariant d
    (flowSpecVisitor c).visitEnum k content) = .error e
  cases h : asVariant d with
  | error e => exact ⟨e, rfl⟩
  | ok p => exact ⟨.invalidType, rfl⟩

theorem vec_flow_nil {T : Type} {c : Codec T} : (vec (flowSpec c)).de ((vec (flowSpec c)).ser []) = .ok [] := rfl

theorem vec_flow {T : Type} {c : Codec T} {l : List (BgpFlowSpec T)} (h : l ≠ []) :
    ∃ e, (vec (flowSpec c)).de ((vec (flowSpec c)).ser l) = .error e := by
  cases l with
  | nil => exact absurd rfl h
  | cons x l =>
    obtain ⟨e, he⟩ := flowSpec_de c ((flowSpec c).ser x)
    refine ⟨e, ?_⟩
    show ((x :: l).map (flowSpec c).ser).mapM (flowSpec c).de = _
    rw [List.map_cons, List.mapM_cons, he]
    rfl

theorem BgpAddrs.rt (x : BgpAddrs) (h : flowRules x = 0) : BgpAddrs.codec.de (BgpAddrs.codec.ser x) = .ok x := by
  cases x with
  | FS4U l => simp only [flowRules, List.length_eq_zero_iff] at h; subst h; serde_enum BgpAddrs.codec; simp [vec_flow_nil]
  | FS6U l => simp only [flowRules, List.length_eq_zero_iff] at h; subst h; serde_enum BgpAddrs.codec; simp [vec_flow_nil]
  | FSV4U l => simp only [flowRules, List.length_eq_zero_iff] at h; subst h; serde_enum BgpAddrs.codec; simp [vec_flow_nil]
  | _ =>
    clear h
    serde_enum BgpAddrs.codec
    try simp [vec_rt (labeled_rt (withRd_rt BgpAddrV4.rt)), vec_rt (labeled_rt (withRd_rt BgpAddrV6.rt)),
      vec_rt (withPathId_rt (withRd_rt BgpMdtV4.rt)), vec_rt (withPathId_rt (withRd_rt BgpMdtV6.rt)),
      vec_rt (withPathId_rt (labeled_rt BgpAddrV4.rt)), vec_rt (withPathId_rt (labeled_rt BgpAddrV6.rt)),
      vec_rt (withPathId_rt (labeled_rt (withRd_rt BgpAddrV4.rt))), vec_rt (withPathId_rt (labeled_rt (withRd_rt BgpAddrV6.rt)))]

theorem BgpAddrs.flow (x : BgpAddrs) (h : flowRules x ≠ 0) : ∃ e, BgpAddrs.codec.de (BgpAddrs.codec.ser x) = .error e := by
  cases x with
  | FS4U l =>
    obtain ⟨e, he⟩ := vec_flow (c := BgpAddrV4.codec) (l := l) (by rintro rfl; exact h rfl)
    exact ⟨e, by serde_enum BgpAddrs.codec; rw [he]⟩
  | FS6U l =>
    obtain ⟨e, he⟩ := vec_flow (c := FS6.codec) (l := l) (by rintro rfl; exact h rfl)
    exact ⟨e, by serde_enum BgpAddrs.codec; rw [he]⟩
  | FSV4U l =>
    obtain ⟨e, he⟩ := vec_flow (c := FSV4U.codec) (l := l) (by rintro rfl; exact h rfl)
    exact ⟨e, by serde_enum BgpAddrs.codec; rw [he]⟩
  | _ => exact absurd rfl h

@[simp] theorem BgpAddr.rt (x : BgpAddr) : BgpAddr.codec.de (BgpAddr.codec.ser x) = .ok x := by
  cases x <;> serde_enum BgpAddr.codec

@[simp] theorem BgpAttrParams.rt (x : BgpAttrParams) : BgpAttrParams.codec.de (BgpAttrParams.codec.ser x) = .ok x := by
  serde_struct BgpAttrParams.codec

@[simp] theorem BgpAttrOrigin.rt (x : BgpAttrOrigin) : BgpAttrOrigin.codec.de (BgpAttrOrigin.codec.ser x) = .ok x := by
  cases x <;> serde_enum BgpAttrOrigin.codec

@[simp] theorem BgpOrigin.rt (x : BgpOrigin) : BgpOrigin.codec.de (BgpOrigin.codec.ser x) = .ok x := by
  simp [BgpOrigin.codec, bind, Except.bind]

@[simp] theorem BgpAS.rt (x : BgpAS) : BgpAS.codec.de (BgpAS.codec.ser x) = .ok x := by
  simp [BgpAS.codec, bind, Except.bind]

@[simp] theorem BgpASpath.rt (x : BgpASpath) : BgpASpath.codec.de (BgpASpath.codec.ser x) = .ok x := by
  simp [BgpASpath.codec, bind, Except.bind]

@[simp] theorem BgpNextHop.rt (x : BgpNextHop) : BgpNextHop.codec.de (BgpNextHop.codec.ser x) = .ok x := by
  simp [BgpNextHop.codec, bind, Except.bind]

@[simp] theorem BgpMED.rt (x : BgpMED) : BgpMED.codec.de (BgpMED.codec.ser x) = .ok x := by
  simp [BgpMED.codec, bind, Except.bind]

@[simp] theorem BgpLocalpref.rt (x : BgpLocalpref) : BgpLocalpref.codec.de (BgpLocalpref.codec.ser x) = .ok x := by
  simp [BgpLocalpref.codec, bind, Except.bind]

@[simp] theorem BgpAtomicAggregate.rt (x : BgpAtomicAggregate) : BgpAtomicAggregate.codec.de (BgpAtomicAggregate.codec.ser x) = .ok x := by
  simp [BgpAtomicAggregate.codec, bind, Except.bind]

@[simp] theorem BgpAggregatorAS.rt (x : BgpAggregatorAS) : BgpAggregatorAS.codec.de (BgpAggregatorAS.codec.ser x) = .ok x := by
  serde_struct BgpAggregatorAS.codec

@[simp] theorem BgpOriginatorID.rt (x : BgpOriginatorID) : BgpOriginatorID.codec.de (BgpOriginatorID.codec.ser x) = .ok x := by
  simp [BgpOriginatorID.codec, bind, Except.bind]

@[simp] theorem BgpClusterList.rt (x : BgpClusterList) : BgpClusterList.codec.de (BgpClusterList.codec.ser x) = .ok x := by
  simp [BgpClusterList.codec, bind, Except.bind]

@[simp] theorem BgpConnector.rt (x : BgpConnector) : BgpConnector.codec.de (BgpConnector.codec.ser x) = .ok x := by
  serde_struct BgpConnector.codec

@[simp] theorem BgpAttrUnknown.rt (x : BgpAttrUnknown) : BgpAttrUnknown.codec.de (BgpAttrUnknown.codec.ser x) = .ok x := by
  serde_struct BgpAttrUnknown.codec

@[simp] theorem BgpCommunity.rt (x : BgpCommunity) : BgpCommunity.codec.de (BgpCommunity.codec.ser x) = .ok x := by
  simp [BgpCommunity.codec, bind, Except.bind]

theorem BgpCommunityList.rt (x : BgpCommunityList) (h : Ascending communityNumber x.value) : BgpCommunityList.codec.de (BgpCommunityList.codec.ser x) = .ok x := by
  simp [BgpCommunityList.codec, btreeSet_rt BgpCommunity.rt community_order h, bind, Except.bind]

@[simp] theorem BgpLargeCommunity.rt (x : BgpLargeCommunity) : BgpLargeCommunity.codec.de (BgpLargeCommunity.codec.ser x) = .ok x := by
  serde_struct BgpLargeCommunity.codec

theorem BgpLargeCommunityList.rt (x : BgpLargeCommunityList) (h : Ascending largeCommunityNumber x.value) : BgpLargeCommunityList.codec.de (BgpLargeCommunityList.codec.ser x) = .ok x := by
  simp [BgpLargeCommunityList.codec, btreeSet_rt BgpLargeCommunity.rt largeCommunity_order h, bind, Except.bind]

@[simp] theorem BgpExtCommunity.rt (x : BgpExtCommunity) : BgpExtCommunity.codec.de (BgpExtCommunity.codec.ser x) = .ok x := by
  serde_struct BgpExtCommunity.codec

theorem BgpExtCommunityList.rt (x : BgpExtCommunityList) (h : Ascending extCommunityNumber x.value) : BgpExtCommunityList.codec.de (BgpExtCommunityList.codec.ser x) = .ok x := by
  simp [BgpExtCommunityList.codec, btreeSet_rt BgpExtCommunity.rt extCommunity_order h, bind, Except.bind]

theorem BgpMPUpdates.rt (x : BgpMPUpdates) (h : flowRules x.addrs = 0) :
    BgpMPUpdates.codec.de (BgpMPUpdates.codec.ser x) = .ok x := by
  have := BgpAddrs.rt x.addrs h
  serde_struct BgpMPUpdates.codec
  rw [this]

theorem BgpMPUpdates.flow (x : BgpMPUpdates) (h : flowRules x.addrs ≠ 0) :
    ∃ e, BgpMPUpdates.codec.de (BgpMPUpdates.codec.ser x) = .error e := by
  obtain ⟨e, he⟩ := BgpAddrs.flow x.addrs h
  exact ⟨e, by serde_struct BgpMPUpdates.codec; rw [he]⟩

theorem BgpMPWithdraws.rt (x : BgpMPWithdraws) (h : flowRules x.addrs = 0) :
    BgpMPWithdraws.codec.de (BgpMPWithdraws.codec.ser x) = .ok x := by
  have := BgpAddrs.rt x.addrs h
  serde_struct BgpMPWithdraws.codec
  rw [this]

theorem BgpMPWithdraws.flow (x : BgpMPWithdraws) (h : flowRules x.addrs ≠ 0) :
    ∃ e, BgpMPWithdraws.codec.de (BgpMPWithdraws.codec.ser x) = .error e := by
  obtain ⟨e, he⟩ := BgpAddrs.flow x.addrs h
  exact ⟨e, by serde_struct BgpMPWithdraws.codec; rw [he]⟩

@[simp] theorem BgpPMSITunnelAttr.rt (x : BgpPMSITunnelAttr) :
    BgpPMSITunnelAttr.codec.de (BgpPMSITunnelAttr.codec.ser x) = .ok x := by
  cases x with
  | None => serde_enum BgpPMSITunnelAttr.codec
  | IngressRepl a => serde_enum BgpPMSITunnelAttr.codec
  | RSVPTe e r t p =>
    serde_enum BgpPMSITunnelAttr.codec
    rw [entries_ok]
    rotate_left
    · rfl
    · decide
    simp [field, fieldWith, List.lookup]
  | MLDP a o =>
    serde_enum BgpPMSITunnelAttr.codec
    rw [entries_ok]
    rotate_left
    · rfl
    · decide
    simp [field, fieldWith, List.lookup]
@[simp] theorem BgpPMSITunnel.rt (x : BgpPMSITunnel) : BgpPMSITunnel.codec.de (BgpPMSITunnel.codec.ser x) = .ok x := by
  serde_struct BgpPMSITunnel.codec










/-! ## Attributes -/

theorem depthMap_lookup {es : List (String × Doc)} {n : String} {d : Doc} (h : es.lookup n = some d) :
    d.depth ≤ Doc.depthMap es := by
  induction es with
  | nil => simp at h
  | cons e es ih =>
    obtain ⟨k, v⟩ := e
    rw [List.lookup_cons] at h
    simp only [Doc.depthMap]
    split at h
    · obtain rfl := Option.some.inj h; omega
    · have := ih h; omega

theorem depthAll_zip {names : List String} : ∀ {l : List Doc} {n : String} {d : Doc}, (names.zip l).lookup n = some d →
    d.depth ≤ Doc.depthAll l := by
  induction names with
  | nil => intro l n d h; simp at h
  | cons x names ih =>
    intro l n d h
    cases l with
    | nil => simp at h
    | cons v l =>
      rw [List.zip_cons_cons, List.lookup_cons] at h
      simp only [Doc.depthAll]
      split at h
      · obtain rfl := Option.some.inj h; omega
      · have := ih h; omega

theorem depthAll_mem {l : List Doc} {d : Doc} (h : d ∈ l) : d.depth ≤ Doc.depthAll l := by
  induction l with
  | nil => cases h
  | cons x l ih =>
    simp only [Doc.depthAll]
    cases h with
    | head => omega
    | tail _ h => have := ih h; omega

theorem entries_depth {names : List String} {d : Doc} {es : List (String × Doc)} (h : structEntries names d = .ok es)
    {n : String} {v : Doc} (hl : es.lookup n = some v) : v.depth < d.depth := by
  cases d with
  | map l =>
    simp only [structEntries] at h
    split at h
    · cases h
    · cases h
      have := depthMap_lookup hl
      simp only [Doc.depth]; omega
  | seq l =>
    simp only [structEntries] at h
    split at h
    · cases h
      have := depthAll_zip hl
      simp only [Doc.depth]; omega
    · cases h
  | _ => simp [structEntries] at h

theorem variant_depth {d : Doc} {k : String} {v : Doc} (h : asVariant d = .ok (k, some v)) : v.depth < d.depth := by
  unfold asVariant at h
  split at h
  · cases h
  · cases h; simp [Doc.depth, Doc.depthMap]
  · cases h

theorem mapM_congr {α : Type} {f g : Doc → De α} : ∀ {l : List Doc}, (∀ d ∈ l, f d = g d) → l.mapM f = l.mapM g
  | [], _ => rfl
  | d :: l, h => by
    rw [List.mapM_cons, List.mapM_cons, h d (by simp), mapM_congr fun y hy => h y (by simp [hy])]

theorem attrSet_congr {f g : Doc → De BgpAttrItem} {d : Doc} (h : ∀ v : Doc, v.depth < d.depth → f v = g v) :
    BgpAttrItem.attrSetDe f d = BgpAttrItem.attrSetDe g d := by
  unfold BgpAttrItem.attrSetDe
  cases he : structEntries ["asn", "attrs"] d with
  | error e => rfl
  | ok es =>
    have : fieldWith (seqOf f) es "attrs" = fieldWith (seqOf g) es "attrs" := by
      unfold fieldWith
      cases hl : es.lookup "attrs" with
      | none => rfl
      | some v =>
        have hd := entries_depth he hl
        cases v with
        | seq l =>
          refine mapM_congr fun w hw => h w ?_
          have := depthAll_mem hw
          simp only [Doc.depth] at hd
          omega
        | _ => rfl
    simp only [bind, Except.bind, this]

/-- The readers of the variants of an attribute, for a reader of attribute sets. -/
def itemVariants (set : Doc → De BgpAttrItem) : List (String × (Option Doc → De BgpAttrItem)) :=
    [("Origin", newtypeVariant BgpOrigin.codec .Origin),
     ("ASPath", newtypeVariant BgpASpath.codec .ASPath),
     ("NextHop", newtypeVariant BgpNextHop.codec .NextHop),
     ("MED", newtypeVariant BgpMED.codec .MED),
     ("LocalPref", newtypeVariant BgpLocalpref.codec .LocalPref),
     ("AtomicAggregate", newtypeVariant BgpAtomicAggregate.codec .AtomicAggregate),
     ("AggregatorAS", newtypeVariant BgpAggregatorAS.codec .AggregatorAS),
     ("CommunityList", newtypeVariant BgpCommunityList.codec .CommunityList),
     ("OriginatorID", newtypeVariant BgpOriginatorID.codec .OriginatorID),
     ("ClusterList", newtypeVariant BgpClusterList.codec .ClusterList),
     ("MPUpdates", newtypeVariant BgpMPUpdates.codec .MPUpdates),
     ("MPWithdraws", newtypeVariant BgpMPWithdraws.codec .MPWithdraws),
     ("ExtCommunityList", newtypeVariant BgpExtCommunityList.codec .ExtCommunityList),
     ("LargeCommunityList", newtypeVariant BgpLargeCommunityList.codec .LargeCommunityList),
     ("PMSITunnel", newtypeVariant BgpPMSITunnel.codec .PMSITunnel),
     ("AttrSet", contentOf set),
     ("Connector", newtypeVariant BgpConnector.codec .Connector),
     ("Unknown", newtypeVariant BgpAttrUnknown.codec .Unknown)]

theorem deN_succ (n : Nat) (d : Doc) : BgpAttrItem.deN (n + 1) d =
    enumOf d (itemVariants (BgpAttrItem.attrSetDe (BgpAttrItem.deN n))) := rfl

theorem itemVariants_congr {f g : Doc → De BgpAttrItem} {d : Doc} (h : ∀ k v, asVariant d = .ok (k, some v) → f v = g v) :
    enumOf d (itemVariants f) = enumOf d (itemVariants g) := by
  unfold enumOf
  cases hv : asVariant d with
  | error e => rfl
  | ok p =>
    obtain ⟨k, content⟩ := p
    simp only [bind, Except.bind]
    simp only [itemVariants, List.lookup_cons, List.lookup_nil]
    by_cases hk : k = "AttrSet"
    · subst hk
      cases content with
      | none => rfl
      | some v => simp [contentOf, h _ v hv]
    · have : (k == "AttrSet") = false := by simpa using hk
      simp only [this]

/-- The fuel is not observable: any amount above the nesting of the document gives the same result. -/
theorem deN_stable : ∀ (n m : Nat) (d : Doc), d.depth < n → d.depth < m → BgpAttrItem.deN n d = BgpAttrItem.deN m d
  | 0, _, _, h, _ => by omega
  | _, 0, _, _, h => by omega
  | n + 1, m + 1, d, hn, hm => by
    rw [deN_succ, deN_succ]
    refine itemVariants_congr fun k v hv => attrSet_congr fun w hw => ?_
    have := variant_depth hv
    exact deN_stable n m w (by omega) (by omega)

theorem set_read (n : Nat) (asn : U32) (docs : List Doc) :
    BgpAttrItem.deN (n + 1) (.map [("AttrSet", .map [("asn", u32.ser asn), ("attrs", .seq docs)])]) =
      (do .ok (.AttrSet asn (← docs.mapM (BgpAttrItem.deN n)))) := by
  rw [deN_succ]
  simp only [enumOf, asVariant, itemVariants, List.lookup, bind, Except.bind]
  simp only [show ("AttrSet" == "AttrSet") = true from rfl]
  simp [contentOf, BgpAttrItem.attrSetDe]
  rw [entries_ok]
  rotate_left
  · rfl
  · decide
  simp [field, fieldWith, List.lookup, seqOf, bind, Except.bind]

mutual
theorem item_rt : ∀ (x : BgpAttrItem) (n : Nat), x.ser.depth < n → rulesIn x = 0 → SetsListed x →
    BgpAttrItem.deN n x.ser = .ok x
  | x, 0, h, _, _ => by omega
  | .AttrSet asn l, n + 1, h, hr, hs => by
    have hd : Doc.depthAll (BgpAttrItem.serAll l) < n := by
      simp only [BgpAttrItem.ser, Doc.depth, Doc.depthMap] at h
      omega
    rw [BgpAttrItem.ser, set_read, items_rt l n hd hr hs]
    rfl
  | .CommunityList x, n + 1, h, hr, hs => by
    have := BgpCommunityList.rt x hs
    simp [BgpAttrItem.ser, BgpAttrItem.deN, enumOf, asVariant, List.lookup, bind, Except.bind, newtypeVariant, contentOf, this]
  | .LargeCommunityList x, n + 1, h, hr, hs => by
    have := BgpLargeCommunityList.rt x hs
    simp [BgpAttrItem.ser, BgpAttrItem.deN, enumOf, asVariant, List.lookup, bind, Except.bind, newtypeVariant, contentOf, this]
  | .ExtCommunityList x, n + 1, h, hr, hs => by
    have := BgpExtCommunityList.rt x hs
    simp [BgpAttrItem.ser, BgpAttrItem.deN, enumOf, asVariant, List.lookup, bind, Except.bind, newtypeVariant, contentOf, this]
  | .MPUpdates x, n + 1, h, hr, hs => by
    have := BgpMPUpdates.rt x hr
    simp [BgpAttrItem.ser, BgpAttrItem.deN, enumOf, asVariant, List.lookup, bind, Except.bind, newtypeVariant, contentOf, this]
  | .MPWithdraws x, n + 1, h, hr, hs => by
    have := BgpMPWithdraws.rt x hr
    simp [BgpAttrItem.ser, BgpAttrItem.deN, enumOf, asVariant, List.lookup, bind, Except.bind, newtypeVariant, contentOf, this]
  | .Origin x, n + 1, _, _, _ => by
    simp [BgpAttrItem.ser, BgpAttrItem.deN, enumOf, asVariant, List.lookup, bind, Except.bind, newtypeVariant, contentOf]
  | .ASPath x, n + 1, _, _, _ => by
    simp [BgpAttrItem.ser, BgpAttrItem.deN, enumOf, asVariant, List.lookup, bind, Except.bind, newtypeVariant, contentOf]
  | .NextHop x, n + 1, _, _, _ => by
    simp [BgpAttrItem.ser, BgpAttrItem.deN, enumOf, asVariant, List.lookup, bind, Except.bind, newtypeVariant, contentOf]
  | .MED x, n + 1, _, _, _ => by
    simp [BgpAttrItem.ser, BgpAttrItem.deN, enumOf, asVariant, List.lookup, bind, Except.bind, newtypeVariant, contentOf]
  | .LocalPref x, n + 1, _, _, _ => by
    simp [BgpAttrItem.ser, BgpAttrItem.deN, enumOf, asVariant, List.lookup, bind, Except.bind, newtypeVariant, contentOf]
  | .AtomicAggregate x, n + 1, _, _, _ => by
    simp [BgpAttrItem.ser, BgpAttrItem.deN, enumOf, asVariant, List.lookup, bind, Except.bind, newtypeVariant, contentOf]
  | .AggregatorAS x, n + 1, _, _, _ => by
    simp [BgpAttrItem.ser, BgpAttrItem.deN, enumOf, asVariant, List.lookup, bind, Except.bind, newtypeVariant, contentOf]
  | .OriginatorID x, n + 1, _, _, _ => by
    simp [BgpAttrItem.ser, BgpAttrItem.deN, enumOf, asVariant, List.lookup, bind, Except.bind, newtypeVariant, contentOf]
  | .ClusterList x, n + 1, _, _, _ => by
    simp [BgpAttrItem.ser, BgpAttrItem.deN, enumOf, asVariant, List.lookup, bind, Except.bind, newtypeVariant, contentOf]
  | .PMSITunnel x, n + 1, _, _, _ => by
    simp [BgpAttrItem.ser, BgpAttrItem.deN, enumOf, asVariant, List.lookup, bind, Except.bind, newtypeVariant, contentOf]
  | .Connector x, n + 1, _, _, _ => by
    simp [BgpAttrItem.ser, BgpAttrItem.deN, enumOf, asVariant, List.lookup, bind, Except.bind, newtypeVariant, contentOf]
  | .Unknown x, n + 1, _, _, _ => by
    simp [BgpAttrItem.ser, BgpAttrItem.deN, enumOf, asVariant, List.lookup, bind, Except.bind, newtypeVariant, contentOf]
theorem items_rt : ∀ (l : List BgpAttrItem) (n : Nat), Doc.depthAll (BgpAttrItem.serAll l) < n → rulesInAll l = 0 →
    AllSetsListed l → (BgpAttrItem.serAll l).mapM (BgpAttrItem.deN n) = .ok l
  | [], _, _, _, _ => rfl
  | x :: l, n, h, hr, hs => by
    simp only [BgpAttrItem.serAll, Doc.depthAll] at h
    simp only [rulesInAll] at hr
    simp only [AllSetsListed] at hs
    rw [BgpAttrItem.serAll, List.mapM_cons, item_rt x n (by omega) (by omega) hs.1, items_rt l n (by omega) (by omega) hs.2]
    rfl
end

mutual
theorem item_flow : ∀ (x : BgpAttrItem) (n : Nat), rulesIn x ≠ 0 → ∃ e, BgpAttrItem.deN n x.ser = .error e
  | _, 0, _ => ⟨_, rfl⟩
  | .AttrSet asn l, n + 1, hr => by
    obtain ⟨e, he⟩ := items_flow l n hr
    exact ⟨e, by rw [BgpAttrItem.ser, set_read, he]; rfl⟩
  | .MPUpdates x, n + 1, hr => by
    obtain ⟨e, he⟩ := BgpMPUpdates.flow x hr
    exact ⟨e, by simp [BgpAttrItem.ser, BgpAttrItem.deN, enumOf, asVariant, List.lookup, bind, Except.bind, newtypeVariant,
      contentOf, he]⟩
  | .MPWithdraws x, n + 1, hr => by
    obtain ⟨e, he⟩ := BgpMPWithdraws.flow x hr
    exact ⟨e, by simp [BgpAttrItem.ser, BgpAttrItem.deN, enumOf, asVariant, List.lookup, bind, Except.bind, newtypeVariant,
      contentOf, he]⟩
  | .Origin _, _ + 1, h => absurd rfl h
  | .ASPath _, _ + 1, h => absurd rfl h
  | .NextHop _, _ + 1, h => absurd rfl h
  | .MED _, _ + 1, h => absurd rfl h
  | .LocalPref _, _ + 1, h => absurd rfl h
  | .AtomicAggregate _, _ + 1, h => absurd rfl h
  | .AggregatorAS _, _ + 1, h => absurd rfl h
  | .OriginatorID _, _ + 1, h => absurd rfl h
  | .ClusterList _, _ + 1, h => absurd rfl h
  | .PMSITunnel _, _ + 1, h => absurd rfl h
  | .Connector _, _ + 1, h => absurd rfl h
  | .Unknown _, _ + 1, h => absurd rfl h
  | .CommunityList _, _ + 1, h => absurd rfl h
  | .LargeCommunityList _, _ + 1, h => absurd rfl h
  | .ExtCommunityList _, _ + 1, h => absurd rfl h
theorem items_flow : ∀ (l : List BgpAttrItem) (n : Nat), rulesInAll l ≠ 0 →
    ∃ e, (BgpAttrItem.serAll l).mapM (BgpAttrItem.deN n) = .error e
  | [], _, h => absurd rfl h
  | x :: l, n, h => by
    simp only [BgpAttrItem.serAll, List.mapM_cons]
    cases hx : BgpAttrItem.deN n x.ser with
    | error e => exact ⟨e, rfl⟩
    | ok y =>
      by_cases hr : rulesIn x = 0
      · obtain ⟨e, he⟩ := items_flow l n (by simp only [rulesInAll] at h; omega)
        exact ⟨e, by rw [he]; rfl⟩
      · obtain ⟨e, he⟩ := item_flow x n hr
        rw [he] at hx
        cases hx
end

/-! ## Documents determine values -/

theorem inj_of_rt {α : Type} {c : Codec α} (h : ∀ x, c.de (c.ser x) = .ok x) {x y : α} (he : c.ser x = c.ser y) : x = y := by
  have := h x
  rw [he, h y] at this
  exact (Except.ok.inj this).symm

theorem flowSpec_inj {T : Type} {c : Codec T} (hc : ∀ x, c.de (c.ser x) = .ok x) {x y : BgpFlowSpec T}
    (h : (flowSpec c).ser x = (flowSpec c).ser y) : x = y := by
  have h1 := operVec_rt FSOperValItem.rt
  have h2 := operVec_rt FSOperMaskItem.rt
  have key : ∀ z : BgpFlowSpec T, ∃ k d, (flowSpec c).ser z = .map [(k, d)] ∧ flowSpecVariant c k d = .ok z := by
    intro z
    cases z <;> exact ⟨_, _, rfl, by simp [flowSpecVariant, hc, h1, h2, bind, Except.bind]⟩
  obtain ⟨k, d, hx, hx'⟩ := key x
  obtain ⟨k', d', hy, hy'⟩ := key y
  rw [hx, hy] at h
  simp only [Doc.map.injEq, List.cons.injEq, Prod.mk.injEq, and_true] at h
  obtain ⟨rfl, rfl⟩ := h
  exact Except.ok.inj (hx'.symm.trans hy')

theorem vec_flow_inj {T : Type} {c : Codec T} (hc : ∀ x, c.de (c.ser x) = .ok x) {x y : List (BgpFlowSpec T)}
    (h : (vec (flowSpec c)).ser x = (vec (flowSpec c)).ser y) : x = y := by
  have h : x.map (flowSpec c).ser = y.map (flowSpec c).ser := by simpa [vec] using h
  exact List.map_injective_iff.mpr (fun _ _ he => flowSpec_inj hc he) h

theorem BgpAddrs.inj {x y : BgpAddrs} (h : BgpAddrs.codec.ser x = BgpAddrs.codec.ser y) : x = y := by
  by_cases hx : flowRules x = 0
  · by_cases hy : flowRules y = 0
    · have := BgpAddrs.rt x hx
      rw [h, BgpAddrs.rt y hy] at this
      exact (Except.ok.inj this).symm
    · obtain ⟨e, he⟩ := BgpAddrs.flow y hy
      rw [← h, BgpAddrs.rt x hx] at he
      cases he
  · by_cases hy : flowRules y = 0
    · obtain ⟨e, he⟩ := BgpAddrs.flow x hx
      rw [h, BgpAddrs.rt y hy] at he
      cases he
    · cases x <;> try exact absurd rfl hx
      all_goals (cases y <;> try exact absurd rfl hy)
      all_goals simp only [BgpAddrs.codec, Doc.map.injEq, List.cons.injEq, Prod.mk.injEq, and_true, true_and, String.reduceEq,
        false_and] at h
      · rw [vec_flow_inj BgpAddrV4.rt h]
      · rw [vec_flow_inj FS6.rt h]
      · rw [vec_flow_inj FSV4U.rt h]

theorem BgpMPUpdates.inj {x y : BgpMPUpdates} (h : BgpMPUpdates.codec.ser x = BgpMPUpdates.codec.ser y) : x = y := by
  obtain ⟨n, a⟩ := x
  obtain ⟨n', a'⟩ := y
  simp only [BgpMPUpdates.codec, Doc.map.injEq, List.cons.injEq, Prod.mk.injEq, and_true, true_and] at h
  rw [inj_of_rt BgpAddr.rt h.1, BgpAddrs.inj h.2]

theorem BgpMPWithdraws.inj {x y : BgpMPWithdraws} (h : BgpMPWithdraws.codec.ser x = BgpMPWithdraws.codec.ser y) : x = y := by
  obtain ⟨a⟩ := x
  obtain ⟨a'⟩ := y
  simp only [BgpMPWithdraws.codec, Doc.map.injEq, List.cons.injEq, Prod.mk.injEq, and_true, true_and] at h
  rw [BgpAddrs.inj h]

mutual
theorem item_inj : ∀ (x y : BgpAttrItem), SetsListed x → SetsListed y → x.ser = y.ser → x = y
  | x, y, hx, hy, h => by
    by_cases rx : rulesIn x = 0
    · by_cases ry : rulesIn y = 0
      · have h1 := item_rt x (x.ser.depth + 1) (Nat.lt_succ_self _) rx hx
        have h2 := item_rt y (y.ser.depth + 1) (Nat.lt_succ_self _) ry hy
        rw [h] at h1
        exact Except.ok.inj (h1.symm.trans h2)
      · obtain ⟨e, he⟩ := item_flow y (y.ser.depth + 1) ry
        have h1 := item_rt x (x.ser.depth + 1) (Nat.lt_succ_self _) rx hx
        rw [h, he] at h1
        cases h1
    · by_cases ry : rulesIn y = 0
      · obtain ⟨e, he⟩ := item_flow x (x.ser.depth + 1) rx
        have h1 := item_rt y (y.ser.depth + 1) (Nat.lt_succ_self _) ry hy
        rw [← h, he] at h1
        cases h1
      · match x, y, rx, ry, hx, hy, h with
        | .MPUpdates x, .MPUpdates y, _, _, _, _, h =>
          simp only [BgpAttrItem.ser, Doc.map.injEq, List.cons.injEq, Prod.mk.injEq, and_true, true_and] at h
          rw [BgpMPUpdates.inj h]
        | .MPWithdraws x, .MPWithdraws y, _, _, _, _, h =>
          simp only [BgpAttrItem.ser, Doc.map.injEq, List.cons.injEq, Prod.mk.injEq, and_true, true_and] at h
          rw [BgpMPWithdraws.inj h]
        | .AttrSet a l, .AttrSet b m, _, _, hx, hy, h =>
          simp only [BgpAttrItem.ser, Doc.map.injEq, List.cons.injEq, Prod.mk.injEq, and_true, true_and, Doc.seq.injEq] at h
          rw [inj_of_rt u32_rt h.1, items_inj l m hx hy h.2]
        | .MPUpdates x, .MPWithdraws y, _, _, _, _, h => simp [BgpAttrItem.ser] at h
        | .MPUpdates x, .AttrSet _ _, _, _, _, _, h => simp [BgpAttrItem.ser] at h
        | .MPWithdraws x, .MPUpdates y, _, _, _, _, h => simp [BgpAttrItem.ser] at h
        | .MPWithdraws x, .AttrSet _ _, _, _, _, _, h => simp [BgpAttrItem.ser] at h
        | .AttrSet _ _, .MPUpdates y, _, _, _, _, h => simp [BgpAttrItem.ser] at h
        | .AttrSet _ _, .MPWithdraws _, _, _, _, _, h => simp [BgpAttrItem.ser] at h
theorem items_inj : ∀ (l m : List BgpAttrItem), AllSetsListed l → AllSetsListed m →
    BgpAttrItem.serAll l = BgpAttrItem.serAll m → l = m
  | [], [], _, _, _ => rfl
  | [], _ :: _, _, _, h => by simp [BgpAttrItem.serAll] at h
  | _ :: _, [], _, _, h => by simp [BgpAttrItem.serAll] at h
  | x :: l, y :: m, hx, hy, h => by
    simp only [AllSetsListed] at hx hy
    simp only [BgpAttrItem.serAll, List.cons.injEq] at h
    rw [item_inj x y hx.1 hy.1 h.1, items_inj l m hx.2 hy.2 h.2]
end

end Zbgp
