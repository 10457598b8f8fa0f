import Verif.Lemmas.Mdt

/-!
# Codec lemmas of VPLS, EVPN and MVPN routes
-/

namespace Zbgp

open Spec

theorem cur_labels (m : MplsLabels) (p t : Bytes) (i : Nat) (hi : i = p.length)
    (ht : 3 * m.labels.length ≤ t.length) :
    onFrom (p ++ t) i (MplsLabels.setBits m) =
      .ok ((p ++ labelsBody m.labels) ++ t.drop (3 * m.labels.length),
        (BitVec.ofNat 8 (24 * m.labels.length), 3 * m.labels.length)) := by
  rw [onFrom_append p t i _ hi]
  by_cases h : m.labels = []
  · simp [MplsLabels.setBits, h, labelsBody]
  · have := labels_writes m t (by rw [labelsBody_length]; omega)
    change MplsLabels.setBits m t = _ at this
    rw [this]
    simp [labelsBody_length]

theorem labels_field_reads {ls : List U32} (h : EvpnLabels ls) :
    MplsLabels.extractBits (BitVec.ofNat 8 (8 * (labelsBody ls).length)) (labelsBody ls) =
      .ok (⟨ls⟩, 3 * ls.length) := by
  rw [labelsBody_length]
  rcases h with rfl | ⟨h, h2⟩
  · rfl
  · have := labels_reads ls h (BitVec.ofNat 8 (8 * (3 * ls.length)))
      (by rw [ofNat8_toNat (by omega)]; omega) []
    simpa using this

@[simp] theorem esi_length (e : EVPNESI) : e.v.toList.length = 9 := by simp

@[simp] theorem esiBody_length (t : U8) (e : EVPNESI) : (esiBody t e).length = 10 := by simp [esiBody]

@[simp] theorem macBody_length (m : MacAddress) : (macBody m).length = 6 := by simp [macBody]

theorem esi_ofSlice (e : EVPNESI) : EVPNESI.ofSlice e.v.toList = .ok e := by
  unfold EVPNESI.ofSlice
  rw [dif_pos (by simp)]
  congr 1

theorem esi_read (t : U8) (e : EVPNESI) (rest : Bytes) :
    EVPNESI.read (esiBody t e ++ rest) = .ok (t, e) := by
  unfold EVPNESI.read esiBody
  have : rslice (t :: e.v.toList ++ rest) 1 10 = .ok e.v.toList := by
    rw [show t :: e.v.toList ++ rest = [t] ++ (e.v.toList ++ rest) by simp]
    exact rslice_append_mid _ _ _ _ _ rfl (by simp)
  rw [this]
  simp [esi_ofSlice]

theorem cur_esi (t : U8) (e : EVPNESI) (p r : Bytes) (i : Nat) (hi : i = p.length) (hr : 10 ≤ r.length) :
    EVPNESI.write t e (p ++ r) i = .ok ((p ++ esiBody t e) ++ r.drop 10) := by
  unfold EVPNESI.write
  rw [cur_setIdx p r i t hi (by omega)]
  simp only [Res.ok_bind]
  rw [cur_copyAt _ _ _ _ _ (by simp [hi]) (by simp [hi]) (by simp; omega)]
  simp [esiBody]

theorem ipBody_length_v4 (a : IPv4) : (ipBody (.v4 a)).length = 4 := by simp [ipBody]
theorem ipBody_length_v6 (a : IPv6) : (ipBody (.v6 a)).length = 16 := by simp [ipBody]

theorem writes_ip (a : IpAddr) : Writes (encodeAddr a) (ipBody a) := by
  cases a with
  | v4 x => exact writes_encodeAddrV4 x
  | v6 x => exact writes_encodeAddrV6 x

theorem cur_evpnIp (a : IpAddr) (p t : Bytes) (i : Nat) (hi : i = p.length)
    (ht : (lenIpBody a).length ≤ t.length) :
    evpnWriteIp a (p ++ t) i =
      .ok ((p ++ lenIpBody a) ++ t.drop (lenIpBody a).length, i + (lenIpBody a).length) := by
  cases a with
  | v4 a =>
    simp only [lenIpBody, List.length_cons, be_length] at ht
    simp only [evpnWriteIp]
    rw [cur_setIdx _ _ _ _ hi (by omega)]
    simp only [Res.ok_bind]
    rw [cur_onFrom (writes_encodeAddrV4 a) _ _ _ (by simp [hi]) (by simp; omega)]
    simp [lenIpBody]
  | v6 a =>
    simp only [lenIpBody, List.length_cons, be_length] at ht
    simp only [evpnWriteIp]
    rw [cur_setIdx _ _ _ _ hi (by omega)]
    simp only [Res.ok_bind]
    rw [cur_onFrom (writes_encodeAddrV6 a) _ _ _ (by simp [hi]) (by simp; omega)]
    simp [lenIpBody]

theorem evpnReadIp_ok (a : IpAddr) (p t : Bytes) (i : Nat) (hi : i = p.length) :
    evpnReadIp (p ++ (lenIpBody a ++ t)) i = .ok (a, i + (lenIpBody a).length) := by
  subst hi
  cases a with
  | v4 a =>
    simp only [evpnReadIp, lenIpBody, idx_append_len]
    rw [show p ++ (32 :: be 4 a.toNat ++ t) = (p ++ [32]) ++ (be 4 a.toNat ++ t) by simp,
      rfrom_append _ _ _ (by simp)]
    simp [decodeAddrV4_be]
  | v6 a =>
    simp only [evpnReadIp, lenIpBody, idx_append_len]
    rw [show p ++ (128 :: be 16 a.toNat ++ t) = (p ++ [128]) ++ (be 16 a.toNat ++ t) by simp,
      rfrom_append _ _ _ (by simp)]
    simp [decodeAddrV6_be]

theorem mac_fill (m : MacAddress) : ∀ b : Bytes, b.length = (macBody m).length →
    m.writeToNetworkBytes b = .ok (macBody m) := by
  intro b hb
  simp only [MacAddress.writeToNetworkBytes]
  exact copyAll_ok hb

theorem mac_read (m : MacAddress) : MacAddress.fromNetworkBytes (macBody m) = .ok m := by
  simp [MacAddress.fromNetworkBytes, macBody]

/-- side conditions on lengths -/
macro "lens" : tactic => `(tactic| (
  simp only [List.length_append, List.length_cons, List.length_nil, List.length_drop, be_length, rdBody_length,
    esiBody_length, macBody_length, labelsBody_length, ipBody_length_v4, ipBody_length_v6] at * <;> omega))

/-- skip a field in front -/
theorem rfrom_skip {α : Type} (p t : List α) (s : Nat) (h : p.length ≤ s) :
    rfrom (p ++ t) s = rfrom t (s - p.length) := by
  unfold rfrom
  by_cases h2 : s ≤ (p ++ t).length
  · rw [if_pos h2, if_pos (by simp at h2; omega), List.drop_append, List.drop_of_length_le h]; simp
  · rw [if_neg h2, if_neg (by simp at h2; omega)]

theorem rslice_all {α : Type} (m : List α) (e : Nat) (he : e = m.length) : rslice m 0 e = .ok m := by
  subst he; simp [rslice]

theorem idx_one {α : Type} (a : α) (t : List α) : idx ([a] ++ t) 0 = .ok a := rfl

/-- evaluate reads at fixed positions of a buffer of known layout -/
macro "reads" : tactic => `(tactic| simp only [rslice_append_right, rslice_append_zero, rslice_all, rfrom_skip, rfrom_zero,
  idx_append_right, idx_one, idx_cons_zero, idx_cons_succ, rfrom_cons_succ, rslice_cons_succ,
  List.length_append, List.length_cons, List.length_nil, be_length, rdBody_length, esiBody_length, macBody_length,
  Nat.reduceAdd, Nat.reduceSub, Nat.reduceLeDiff, Nat.zero_le, le_refl, eq_self, ne_eq, not_true_eq_false, ↓reduceIte, BitVec.reduceEq, List.cons_append,
  Nat.le_add_right, Nat.add_sub_cancel_left, ←Nat.add_assoc, Res.ok_bind, getn16_two, getn32_four, getn16_be, getn32_be,
  decodeAddrV4_be, decodeAddrV6_be, decodeAddrV4_four, decodeAddrV6_sixteen, mac_read, esi_read,
  ofNat_toNat8, ofNat_toNat16, ofNat_toNat32, ofNat_toNat64, ofNat_toNat128])

/-! ## VPLS -/

theorem vpls_pack (x : BgpAddrL2) (h : x.labels.labels ≠ []) : Writes (BgpItemLong.packTo x) (vplsBody x) := by
  intro buf hb
  have hl : 1 ≤ x.labels.labels.length := List.length_pos_of_ne_nil h
  have hb' : 14 + 3 * x.labels.labels.length ≤ buf.length := by unfold vplsBody at hb; lens
  simp only [BgpItemLong.packTo]
  rw [if_neg (by omega), rd_writes _ buf (by simp; omega)]
  simp only [Res.ok_bind]
  rw [cur_modRange (fill16 _) _ _ _ _ (by simp) (by simp) (by lens)]
  simp only [Res.ok_bind]
  rw [cur_modRange (fill16 _) _ _ _ _ (by simp) (by simp) (by lens)]
  simp only [Res.ok_bind]
  rw [cur_modRange (fill16 _) _ _ _ _ (by simp) (by simp) (by lens)]
  simp only [Res.ok_bind]
  rw [cur_labels _ _ _ _ (by simp) (by lens)]
  simp [vplsBody, labelsBody_length, Nat.add_comm]
  omega

theorem vpls_extract (x : BgpAddrL2) (h : LabelStackWF x.labels.labels) (h2 : x.labels.labels.length ≤ 10) :
    BgpItemLong.extractFrom (vplsBody x).length (vplsBody x) = .ok x := by
  have hl : 1 ≤ x.labels.labels.length := List.length_pos_of_ne_nil h.1
  have hb : (vplsBody x).length = 14 + 3 * x.labels.labels.length := by unfold vplsBody; lens
  have hf : ((vplsBody x).length - 14) * 8 = 8 * (labelsBody x.labels.labels).length := by
    rw [hb, labelsBody_length]; omega
  simp only [BgpItemLong.extractFrom]
  rw [if_neg (by omega), hf]
  unfold vplsBody
  simp only [List.append_assoc]
  rw [rd_reads]
  simp only [Res.ok_bind]
  rw [rfrom_skip _ _ _ (by simp), rfrom_skip _ _ _ (by simp), rfrom_skip _ _ _ (by simp),
    rfrom_append _ _ _ (by simp)]
  simp only [Res.ok_bind]
  rw [labels_field_reads (.inr ⟨h, h2⟩)]
  simp only [Res.ok_bind]
  rw [rslice_append_mid _ _ _ _ _ (by simp) (by simp)]
  simp only [Res.ok_bind, getn16_two]
  rw [rslice_append_right (by simp) (by omega), rslice_append_mid _ _ _ _ _ (by simp) (by simp)]
  simp only [Res.ok_bind, getn16_two]
  rw [rslice_append_right (by simp) (by omega), rslice_append_right (by simp) (by simp),
    rslice_append_mid _ _ _ _ _ (by simp) (by simp)]
  simp [getn16_two]

theorem vplsBody_length (x : BgpAddrL2) : (vplsBody x).length = 14 + 3 * x.labels.labels.length := by
  unfold vplsBody; lens

theorem vpls_item_reads (x : BgpAddrL2) (h : LabelStackWF x.labels.labels) (h2 : x.labels.labels.length ≤ 10)
    (rest : Bytes) : decodeLongItem (vplsWire x ++ rest) = .ok (x, (vplsWire x).length) := by
  have hl := vplsBody_length x
  unfold decodeLongItem vplsWire
  rw [List.append_assoc, rslice_append_zero _ _ _ (by simp)]
  simp only [Res.ok_bind, getn16_two, BitVec.toNat_ofNat]
  rw [Nat.mod_eq_of_lt (by omega), rslice_append_mid _ _ _ _ _ (by simp) (by simp; omega)]
  simp only [Res.ok_bind, vpls_extract x h h2]
  simp [Nat.add_comm]

theorem vpls_items_single (x : BgpAddrL2) (h : x.labels.labels ≠ []) (h2 : x.labels.labels.length ≤ 10) (buf : Bytes)
    (hb : (vplsWire x).length ≤ buf.length) :
    encodeLongItems [x] buf = .ok (vplsWire x ++ buf.drop (vplsWire x).length, (vplsBody x).length) := by
  have hl := vplsBody_length x
  simp only [vplsWire, List.length_append, be_length] at hb
  obtain ⟨p, t, rfl, hp, -⟩ := exists_split (buf := buf) 2 (by omega)
  unfold encodeLongItems
  simp only [encLoop]
  rw [onFrom]
  simp only [Nat.zero_le, ↓reduceIte, List.take_zero, List.drop_zero, encodeLongItem]
  rw [cur_onFrom (vpls_pack x h) _ _ _ hp.symm (by simp at hb; omega)]
  simp only [Res.ok_bind]
  rw [List.append_assoc]
  have := cur_modRange (fill16 (BitVec.ofNat 16 (vplsBody x).length)) []
    (p ++ (vplsBody x ++ t.drop (vplsBody x).length)) 0 2 rfl (by simp) (by simp; omega)
  rw [List.nil_append] at this
  rw [this]
  simp only [Res.ok_bind, List.nil_append, BitVec.toNat_ofNat]
  rw [Nat.mod_eq_of_lt (by omega)]
  simp [vplsWire, ← hp]

/-! ## EVPN -/

theorem evpn1_writes (x : BgpEVPN1) (mode : BgpTransportMode) :
    Writes (BgpAddrItem.encodeTo x mode) (evpnBody (.evpn1 x)) := by
  intro buf hb
  simp only [evpnBody] at hb ⊢
  simp only [BgpAddrItem.encodeTo]
  rw [rd_writes _ buf (by lens)]
  simp only [Res.ok_bind]
  rw [cur_esi _ _ _ _ _ (by simp) (by lens)]
  simp only [Res.ok_bind]
  rw [cur_modRange (fill32 _) _ _ _ _ (by simp) (by simp) (by lens)]
  simp only [Res.ok_bind]
  rw [cur_labels _ _ _ _ (by simp) (by lens)]
  simp [labelsBody_length]
  omega

theorem evpn1_reads (x : BgpEVPN1) (mode : BgpTransportMode) (h : EvpnLabels x.labels.labels) :
    BgpAddrItem.decodeFrom mode (evpnBody (.evpn1 x)) = .ok (x, (evpnBody (.evpn1 x)).length) := by
  have hl : (evpnBody (.evpn1 x)).length - 8 - 14 = (labelsBody x.labels.labels).length := by
    simp only [evpnBody]; lens
  have hl2 : 22 ≤ (evpnBody (.evpn1 x)).length := by simp only [evpnBody]; lens
  simp only [BgpAddrItem.decodeFrom]
  have e : evpnBody (.evpn1 x) = rdBody x.rd ++ (esiBody x.esiType x.esi ++ (be 4 x.etherTag.toNat ++
    labelsBody x.labels.labels)) := by simp [evpnBody]
  rw [show BgpRD.decodeFrom (evpnBody (.evpn1 x)) = .ok (x.rd, (rdBody x.rd).length) by rw [e, rd_reads]]
  simp only [Res.ok_bind, rdBody_length, subN]
  rw [if_pos (by omega)]
  simp only [Res.ok_bind]
  rw [if_pos (by omega)]
  simp only [Res.ok_bind]
  rw [hl, e]
  rw [rfrom_append _ _ _ (by simp)]
  simp only [Res.ok_bind, esi_read]
  rw [rslice_append_right (by simp) (by omega), rslice_append_mid _ _ _ _ _ (by simp) (by simp)]
  simp only [Res.ok_bind, getn32_four]
  rw [rfrom_skip _ _ _ (by simp), rfrom_skip _ _ _ (by simp), rfrom_append _ _ _ (by simp)]
  simp only [Res.ok_bind]
  rw [labels_field_reads h]
  simp [labelsBody_length]
  omega

/-- the optional address of a type 2 route -/
def optIpBody : Option IpAddr → Bytes
  | none => [0]
  | some a => lenIpBody a

theorem evpn2_body (x : BgpEVPN2) : evpnBody (.evpn2 x) = rdBody x.rd ++ (esiBody x.esiType x.esi ++
    (be 4 x.etherTag.toNat ++ ([48] ++ (macBody x.mac ++ (optIpBody x.ip ++ labelsBody x.labels.labels))))) := by
  obtain ⟨rd, t, e, g, m, ip, l⟩ := x
  cases ip <;> simp [evpnBody, optIpBody]

theorem evpn2_writes (x : BgpEVPN2) (mode : BgpTransportMode) :
    Writes (BgpAddrItem.encodeTo x mode) (evpnBody (.evpn2 x)) := by
  intro buf hb
  rw [evpn2_body] at hb ⊢
  obtain ⟨rd, t, e, g, m, ip, l⟩ := x
  simp only [BgpAddrItem.encodeTo]
  simp only [List.length_append, List.length_cons, List.length_nil, be_length, rdBody_length, esiBody_length,
    macBody_length, labelsBody_length] at hb
  rw [rd_writes _ buf (by lens)]
  simp only [Res.ok_bind]
  rw [cur_esi _ _ _ _ _ (by simp) (by lens)]
  simp only [Res.ok_bind]
  rw [cur_modRange (fill32 _) _ _ _ _ (by simp) (by simp) (by lens)]
  simp only [Res.ok_bind]
  rw [cur_setIdx _ _ _ _ (by simp) (by lens)]
  simp only [Res.ok_bind]
  rw [cur_modRange (mac_fill _) _ _ _ _ (by simp) (by simp) (by lens)]
  simp only [Res.ok_bind]
  rcases ip with _ | ⟨a⟩ | ⟨a⟩
  · simp only [optIpBody, List.length_cons, List.length_nil] at hb
    simp only []
    rw [cur_setIdx _ _ _ _ (by simp) (by lens)]
    simp only [Res.ok_bind]
    rw [cur_labels _ _ _ _ (by simp) (by lens)]
    simp [labelsBody_length, optIpBody, List.drop_drop]
    omega
  · simp only [optIpBody, lenIpBody, List.length_cons, List.length_nil, be_length] at hb
    simp only []
    rw [cur_setIdx _ _ _ _ (by simp) (by lens)]
    simp only [Res.ok_bind]
    rw [cur_onRange (writes_encodeAddrV4 a) _ _ _ _ (by simp) (by simp) (by lens)]
    simp only [Res.ok_bind]
    rw [cur_labels _ _ _ _ (by simp) (by lens)]
    simp [labelsBody_length, optIpBody, lenIpBody, List.drop_drop]
    omega
  · simp only [optIpBody, lenIpBody, List.length_cons, List.length_nil, be_length] at hb
    simp only []
    rw [cur_setIdx _ _ _ _ (by simp) (by lens)]
    simp only [Res.ok_bind]
    rw [cur_onRange (writes_encodeAddrV6 a) _ _ _ _ (by simp) (by simp) (by lens)]
    simp only [Res.ok_bind]
    rw [cur_labels _ _ _ _ (by simp) (by lens)]
    simp [labelsBody_length, optIpBody, lenIpBody, List.drop_drop]
    omega

theorem evpn2_reads (x : BgpEVPN2) (mode : BgpTransportMode) (h : EvpnLabels x.labels.labels) :
    BgpAddrItem.decodeFrom mode (evpnBody (.evpn2 x)) = .ok (x, (evpnBody (.evpn2 x)).length) := by
  have hl := labels_field_reads h
  rw [evpn2_body]
  obtain ⟨rd, t, e, g, m, ip, l⟩ := x
  simp only [BgpAddrItem.decodeFrom, subN]
  simp only at hl ⊢
  rw [rd_reads]
  rcases ip with _ | ⟨a⟩ | ⟨a⟩ <;> simp only [optIpBody, lenIpBody] <;> reads
  · rw [show 28 + (labelsBody l.labels).length + 1 + 1 - 30 = (labelsBody l.labels).length by omega]
    rw [List.nil_append, hl]
    simp only [Res.ok_bind, labelsBody_length]
    congr 2; omega
  · rw [show 32 + (labelsBody l.labels).length + 1 + 1 - 34 = (labelsBody l.labels).length by omega]
    rw [hl]
    simp only [Res.ok_bind, labelsBody_length]
    congr 2; omega
  · rw [show 44 + (labelsBody l.labels).length + 1 + 1 - 46 = (labelsBody l.labels).length by omega]
    rw [hl]
    simp only [Res.ok_bind, labelsBody_length]
    congr 2; omega

theorem evpn3_writes (x : BgpEVPN3) (mode : BgpTransportMode) :
    Writes (BgpAddrItem.encodeTo x mode) (evpnBody (.evpn3 x)) := by
  intro buf hb
  simp only [evpnBody] at hb ⊢
  simp only [BgpAddrItem.encodeTo]
  simp only [List.length_append, be_length, rdBody_length] at hb
  rw [rd_writes _ buf (by lens)]
  simp only [Res.ok_bind]
  rw [cur_modRange (fill32 _) _ _ _ _ (by simp) (by simp) (by lens)]
  simp only [Res.ok_bind]
  rw [cur_evpnIp _ _ _ _ (by simp) (by lens)]
  simp
  omega

theorem evpn3_reads (x : BgpEVPN3) (mode : BgpTransportMode) :
    BgpAddrItem.decodeFrom mode (evpnBody (.evpn3 x)) = .ok (x, (evpnBody (.evpn3 x)).length) := by
  have e : evpnBody (.evpn3 x) = rdBody x.rd ++ (be 4 x.etherTag.toNat ++ (lenIpBody x.ip ++ [])) := by
    simp [evpnBody]
  have e2 : rdBody x.rd ++ (be 4 x.etherTag.toNat ++ (lenIpBody x.ip ++ [])) =
    (rdBody x.rd ++ be 4 x.etherTag.toNat) ++ (lenIpBody x.ip ++ []) := by simp
  simp only [BgpAddrItem.decodeFrom]
  rw [e, rd_reads]
  reads
  rw [e2, evpnReadIp_ok _ _ _ _ (by simp)]
  simp

theorem evpn4_writes (x : BgpEVPN4) (mode : BgpTransportMode) :
    Writes (BgpAddrItem.encodeTo x mode) (evpnBody (.evpn4 x)) := by
  intro buf hb
  simp only [evpnBody] at hb ⊢
  simp only [BgpAddrItem.encodeTo]
  simp only [List.length_append, esiBody_length, rdBody_length] at hb
  rw [rd_writes _ buf (by lens)]
  simp only [Res.ok_bind]
  rw [cur_esi _ _ _ _ _ (by simp) (by lens)]
  simp only [Res.ok_bind]
  rw [cur_evpnIp _ _ _ _ (by simp) (by lens)]
  simp
  omega

theorem evpn4_reads (x : BgpEVPN4) (mode : BgpTransportMode) :
    BgpAddrItem.decodeFrom mode (evpnBody (.evpn4 x)) = .ok (x, (evpnBody (.evpn4 x)).length) := by
  have e : evpnBody (.evpn4 x) = rdBody x.rd ++ (esiBody x.esiType x.esi ++ (lenIpBody x.ip ++ [])) := by
    simp [evpnBody]
  have e2 : rdBody x.rd ++ (esiBody x.esiType x.esi ++ (lenIpBody x.ip ++ [])) =
    (rdBody x.rd ++ esiBody x.esiType x.esi) ++ (lenIpBody x.ip ++ []) := by simp
  simp only [BgpAddrItem.decodeFrom]
  rw [e, rd_reads]
  reads
  rw [e2, evpnReadIp_ok _ _ _ _ (by simp)]
  simp

theorem evpn5_writes (x : BgpEVPN5) (mode : BgpTransportMode) {p g : IPv4} (hp : x.pfx = .v4 p) (hg : x.gwIp = .v4 g) :
    Writes (BgpAddrItem.encodeTo x mode) (evpnBody (.evpn5 x)) := by
  intro buf hb
  obtain ⟨rd, t, e, etag, len, pfx, gw, l⟩ := x
  simp only at hp hg
  subst hp hg
  simp only [evpnBody, ipBody] at hb ⊢
  simp only [BgpAddrItem.encodeTo]
  rw [rd_writes _ buf (by lens)]
  simp only [Res.ok_bind]
  rw [cur_esi _ _ _ _ _ (by simp) (by lens)]
  simp only [Res.ok_bind]
  rw [cur_modRange (fill32 _) _ _ _ _ (by simp) (by simp) (by lens)]
  simp only [Res.ok_bind]
  rw [cur_setIdx _ _ _ _ (by simp) (by lens)]
  simp only [Res.ok_bind]
  rw [cur_onFrom (writes_encodeAddrV4 p) _ _ _ (by simp) (by lens)]
  simp only [Res.ok_bind]
  rw [cur_onFrom (writes_encodeAddrV4 g) _ _ _ (by simp) (by lens)]
  simp only [Res.ok_bind]
  rw [cur_labels _ _ _ _ (by simp) (by lens)]
  simp [labelsBody_length]
  omega

theorem evpn5_reads (x : BgpEVPN5) (mode : BgpTransportMode) {p g : IPv4} (hp : x.pfx = .v4 p) (hg : x.gwIp = .v4 g)
    (h : LabelStackWF x.labels.labels) (h1 : x.labels.labels.length = 1) :
    BgpAddrItem.decodeFrom mode (evpnBody (.evpn5 x)) = .ok (x, (evpnBody (.evpn5 x)).length) := by
  have hl := labels_field_reads (.inr ⟨h, by omega⟩)
  have hlen : (labelsBody x.labels.labels).length = 3 := by rw [labelsBody_length]; omega
  obtain ⟨rd, t, e, etag, len, pfx, gw, l⟩ := x
  simp only at hp hg h1 hlen hl
  subst hp hg
  have e : evpnBody (.evpn5 ⟨rd, t, e, etag, len, .v4 p, .v4 g, l⟩) = rdBody rd ++ (esiBody t e ++
    (be 4 etag.toNat ++ (len :: (be 4 p.toNat ++ (be 4 g.toNat ++ labelsBody l.labels))))) := by
    simp [evpnBody, ipBody]
  simp only [BgpAddrItem.decodeFrom, subN]
  rw [e, rd_reads]
  reads
  simp only [hlen]
  reads
  rw [hlen] at hl
  simp only [hl, Res.ok_bind, h1]

/-- type octet, body behind the length octet, length octet -/
theorem tlv_writes {f : Enc} {w : Bytes} (hf : Writes f w) (t : U8) (buf : Bytes) (hb : 2 + w.length ≤ buf.length) :
    (do onFrom (← setIdx buf 0 t) 2 f : Res (Bytes × Nat)) =
      .ok (t :: buf.getD 1 0 :: (w ++ buf.drop (2 + w.length)), w.length) := by
  obtain ⟨a, b, r, rfl⟩ : ∃ a b r, buf = a :: b :: r := by
    match buf, hb with
    | a :: b :: r, _ => exact ⟨a, b, r, rfl⟩
    | [a], h => simp at h; omega
    | [], h => simp at h
  simp only [setIdx_cons_zero, Res.ok_bind]
  rw [show t :: b :: r = [t, b] ++ r by rfl, onFrom_append _ _ 2 _ rfl, hf r (by simp at hb; omega)]
  simp [Nat.add_comm 2]

theorem evpn_writes_of (x : BgpEVPN) (mode : BgpTransportMode) (hlen : (evpnBody x).length ≤ 255)
    (hw : match x with
      | .evpn1 r => Writes (BgpAddrItem.encodeTo r mode) (evpnBody x)
      | .evpn2 r => Writes (BgpAddrItem.encodeTo r mode) (evpnBody x)
      | .evpn3 r => Writes (BgpAddrItem.encodeTo r mode) (evpnBody x)
      | .evpn4 r => Writes (BgpAddrItem.encodeTo r mode) (evpnBody x)
      | .evpn5 r => Writes (BgpAddrItem.encodeTo r mode) (evpnBody x)) :
    Writes (BgpAddrItem.encodeTo x mode) (evpnWire x) := by
  intro buf hb
  have hb' : 2 + (evpnBody x).length ≤ buf.length := by simp [evpnWire] at hb; omega
  change BgpEVPN.encodeTo x mode buf = _
  cases x <;> simp only [BgpEVPN.encodeTo, evpnWire, evpnType] <;> simp only at hw <;>
    rw [tlv_writes hw _ _ hb'] <;> simp only [Res.ok_bind] <;> rw [if_pos hlen] <;>
    simp [setIdx_cons_succ, Nat.add_comm] <;> omega

theorem evpn_reads_of (x : BgpEVPN) (mode : BgpTransportMode) (hlen : (evpnBody x).length ≤ 255) (rest : Bytes)
    (hr : match x with
      | .evpn1 r => BgpAddrItem.decodeFrom mode (evpnBody x) = .ok (r, (evpnBody x).length)
      | .evpn2 r => BgpAddrItem.decodeFrom mode (evpnBody x) = .ok (r, (evpnBody x).length)
      | .evpn3 r => BgpAddrItem.decodeFrom mode (evpnBody x) = .ok (r, (evpnBody x).length)
      | .evpn4 r => BgpAddrItem.decodeFrom mode (evpnBody x) = .ok (r, (evpnBody x).length)
      | .evpn5 r => BgpAddrItem.decodeFrom mode (evpnBody x) = .ok (r, (evpnBody x).length)) :
    BgpAddrItem.decodeFrom mode (evpnWire x ++ rest) = .ok (x, (evpnWire x).length) := by
  have hn : (BitVec.ofNat 8 (evpnBody x).length).toNat = (evpnBody x).length := ofNat8_toNat (by omega)
  have hs : rslice (evpnBody x ++ rest) 0 (evpnBody x).length = .ok (evpnBody x) := rslice_append_zero _ _ _ rfl
  change BgpEVPN.decodeFrom mode _ = _
  cases x <;> simp only [BgpEVPN.decodeFrom, evpnWire, evpnType, List.cons_append, idx_cons_zero, idx_cons_succ,
      Res.ok_bind, hn] <;> simp only at hr <;>
    rw [if_neg (by simp)] <;>
    simp only [Nat.add_comm 2, rslice_cons_succ, hs, Res.ok_bind, BitVec.reduceEq, ↓reduceIte, hr] <;> simp

theorem evpnLabels_le {ls : List U32} (h : EvpnLabels ls) : ls.length ≤ 10 := by
  rcases h with rfl | ⟨_, h⟩ <;> simp_all

theorem lenIpBody_le (a : IpAddr) : (lenIpBody a).length ≤ 17 := by cases a <;> simp [lenIpBody]

/-- the routes the codec carries -/
def evpnOk (x : BgpEVPN) : Prop := EvpnWF x ∧ ¬ EvpnV6Prefix x

theorem evpn_body_le (x : BgpEVPN) (h : evpnOk x) : (evpnBody x).length ≤ 255 := by
  obtain ⟨h, h2⟩ := h
  cases x with
  | evpn1 r => have := evpnLabels_le h; simp [evpnBody, labelsBody_length]; omega
  | evpn2 r =>
    have := evpnLabels_le h
    rw [evpn2_body]
    have : (optIpBody r.ip).length ≤ 17 := by
      cases r.ip with
      | none => simp [optIpBody]
      | some a => exact lenIpBody_le a
    simp [labelsBody_length]; omega
  | evpn3 r => have := lenIpBody_le r.ip; simp [evpnBody]; omega
  | evpn4 r => have := lenIpBody_le r.ip; simp [evpnBody]; omega
  | evpn5 r =>
    obtain ⟨h, h1, h3⟩ := h
    have hi : ∀ a, (ipBody a).length ≤ 16 := by intro a; cases a <;> simp [ipBody]
    have := hi r.pfx
    have := hi r.gwIp
    simp [evpnBody, labelsBody_length]; omega

theorem evpn5_v4 {r : BgpEVPN5} (h : evpnOk (.evpn5 r)) : ∃ p g, r.pfx = .v4 p ∧ r.gwIp = .v4 g := by
  obtain ⟨⟨_, _, h⟩, h2⟩ := h
  simp only [EvpnV6Prefix] at h2
  cases hp : r.pfx <;> cases hg : r.gwIp <;> simp [hp, hg] at h h2 ⊢

theorem evpn_writes (x : BgpEVPN) (mode : BgpTransportMode) (h : evpnOk x) :
    Writes (BgpAddrItem.encodeTo x mode) (evpnWire x) := by
  refine evpn_writes_of x mode (evpn_body_le x h) ?_
  cases x with
  | evpn1 r => exact evpn1_writes r mode
  | evpn2 r => exact evpn2_writes r mode
  | evpn3 r => exact evpn3_writes r mode
  | evpn4 r => exact evpn4_writes r mode
  | evpn5 r => obtain ⟨p, g, hp, hg⟩ := evpn5_v4 h; exact evpn5_writes r mode hp hg

theorem evpn_reads (x : BgpEVPN) (mode : BgpTransportMode) (h : evpnOk x) (rest : Bytes) :
    BgpAddrItem.decodeFrom mode (evpnWire x ++ rest) = .ok (x, (evpnWire x).length) := by
  refine evpn_reads_of x mode (evpn_body_le x h) rest ?_
  cases x with
  | evpn1 r => exact evpn1_reads r mode h.1
  | evpn2 r => exact evpn2_reads r mode h.1
  | evpn3 r => exact evpn3_reads r mode
  | evpn4 r => exact evpn4_reads r mode
  | evpn5 r => obtain ⟨p, g, hp, hg⟩ := evpn5_v4 h; exact evpn5_reads r mode hp hg h.1.1 h.1.2.1

/-! ## MVPN -/

theorem mvpn1_writes (x : BgpMVPN1) (mode : BgpTransportMode) :
    Writes (BgpAddrItem.encodeTo x mode) (mvpnBody (.t1 x)) := by
  intro buf hb
  simp only [mvpnBody] at hb ⊢
  simp only [BgpAddrItem.encodeTo]
  simp only [List.length_append, rdBody_length] at hb
  rw [rd_writes _ buf (by lens)]
  simp only [Res.ok_bind]
  rw [cur_onFrom (writes_ip x.originator) _ _ _ (by simp) (by lens)]
  simp

theorem mvpn1_reads (x : BgpMVPN1) (mode : BgpTransportMode) (h : addrFamily x.originator = mode) :
    BgpAddrItem.decodeFrom mode (mvpnBody (.t1 x)) = .ok (x, (mvpnBody (.t1 x)).length) := by
  subst h
  obtain ⟨rd, a⟩ := x
  simp only [mvpnBody, BgpAddrItem.decodeFrom]
  rw [rd_reads]
  cases a with
  | v4 a =>
    simp only [addrFamily, ipBody]
    reads
    simp [decodeAddr, decodeAddrV4_four]
  | v6 a =>
    simp only [addrFamily, ipBody]
    reads
    simp [decodeAddr, decodeAddrV6_sixteen]

theorem mvpn2_writes (x : BgpMVPN2) (mode : BgpTransportMode) :
    Writes (BgpAddrItem.encodeTo x mode) (mvpnBody (.t2 x)) := by
  intro buf hb
  simp only [mvpnBody] at hb ⊢
  simp only [BgpAddrItem.encodeTo]
  simp only [List.length_append, rdBody_length] at hb
  rw [rd_writes _ buf (by lens)]
  simp only [Res.ok_bind]
  rw [cur_modFrom (put32 _) _ _ _ (by simp) (by lens)]
  simp

theorem mvpn2_reads (x : BgpMVPN2) (mode : BgpTransportMode) :
    BgpAddrItem.decodeFrom mode (mvpnBody (.t2 x)) = .ok (x, (mvpnBody (.t2 x)).length) := by
  have e : mvpnBody (.t2 x) = rdBody x.rd ++ be 4 x.asn.toNat := rfl
  simp only [BgpAddrItem.decodeFrom]
  rw [if_pos (by simp [e]), e, rd_reads]
  reads

/-- the routes whose codec is consistent: types 1 and 2 -/
def mvpnOk (mode : BgpTransportMode) : BgpMVPN → Prop
  | .t1 r => addrFamily r.originator = mode
  | .t2 _ => True
  | _ => False

theorem mvpn_body_le {mode : BgpTransportMode} (x : BgpMVPN) (h : mvpnOk mode x) : (mvpnBody x).length ≤ 255 := by
  cases x with
  | t1 r => cases ho : r.originator <;> simp [mvpnBody, ipBody, ho]
  | t2 r => simp [mvpnBody]
  | _ => exact absurd h (by simp [mvpnOk])

theorem mvpn_writes {m : BgpTransportMode} (x : BgpMVPN) (mode : BgpTransportMode) (h : mvpnOk m x) :
    Writes (BgpAddrItem.encodeTo x mode) (mvpnWire x) := by
  intro buf hb
  have hb' : 2 + (mvpnBody x).length ≤ buf.length := by simp [mvpnWire] at hb; omega
  change BgpMVPN.encodeTo x mode buf = _
  cases x with
  | t1 r =>
    simp only [BgpMVPN.encodeTo, mvpnWire, mvpnType]
    rw [tlv_writes (mvpn1_writes r mode) _ _ hb']
    simp [setIdx_cons_succ, Nat.add_comm]
    omega
  | t2 r =>
    simp only [BgpMVPN.encodeTo, mvpnWire, mvpnType]
    rw [tlv_writes (mvpn2_writes r mode) _ _ hb']
    simp [setIdx_cons_succ, Nat.add_comm]
    omega
  | _ => exact absurd h (by simp [mvpnOk])

theorem mvpn_reads (x : BgpMVPN) (mode : BgpTransportMode) (h : mvpnOk mode x) (rest : Bytes) :
    BgpAddrItem.decodeFrom mode (mvpnWire x ++ rest) = .ok (x, (mvpnWire x).length) := by
  have hn : (BitVec.ofNat 8 (mvpnBody x).length).toNat = (mvpnBody x).length :=
    ofNat8_toNat (by have := mvpn_body_le x h; omega)
  have hs : rslice (mvpnBody x ++ rest) 0 (mvpnBody x).length = .ok (mvpnBody x) := rslice_append_zero _ _ _ rfl
  change BgpMVPN.decodeFrom mode _ = _
  cases x with
  | t1 r =>
    simp only [BgpMVPN.decodeFrom, mvpnWire, mvpnType, List.cons_append, idx_cons_zero, idx_cons_succ, Res.ok_bind, hn,
      Nat.add_comm 2, rslice_cons_succ, hs, BitVec.reduceEq, ↓reduceIte, mvpn1_reads r mode h]
    simp
  | t2 r =>
    simp only [BgpMVPN.decodeFrom, mvpnWire, mvpnType, List.cons_append, idx_cons_zero, idx_cons_succ, Res.ok_bind, hn,
      Nat.add_comm 2, rslice_cons_succ, hs, BitVec.reduceEq, ↓reduceIte, mvpn2_reads r mode]
    simp
  | _ => exact absurd h (by simp [mvpnOk])

end Zbgp
