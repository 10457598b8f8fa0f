import Verif.Lemmas.ReadsRoutes
import Verif.Spec.MvpnSent

/-! # What is sent for MVPN routes, and what is read of it -/

namespace Zbgp

open Spec

theorem ipBody_le (a : IpAddr) : (ipBody a).length = 4 ∨ (ipBody a).length = 16 := by cases a <;> simp [ipBody]

theorem ipBody_family (a : IpAddr) : (ipBody a).length = if addrFamily a = .IPv4 then 4 else 16 := by
  cases a <;> simp [ipBody, addrFamily]

theorem lenIp_length (a : IpAddr) : (lenIpBody a).length = (ipBody a).length + 1 := by cases a <;> simp [lenIpBody, ipBody]

theorem mvpnSent_le (x : BgpMVPN) : (mvpnSentBody x).length ≤ 72 := by
  cases x with
  | t1 r => have := ipBody_le r.originator; simp only [mvpnSentBody, List.length_append, rdBody_length]; omega
  | t2 r => simp [mvpnSentBody]
  | t3 r =>
    have := ipBody_le r.source; have := ipBody_le r.group; have := ipBody_le r.originator
    simp only [mvpnSentBody, mvpn3Sent, List.length_append, rdBody_length]; omega
  | t4 r =>
    have := ipBody_le r.spmsi.source; have := ipBody_le r.spmsi.group; have := ipBody_le r.spmsi.originator
    have := ipBody_le r.originator
    simp only [mvpnSentBody, mvpn3Sent, List.length_append, rdBody_length]; omega
  | t5 r =>
    have := ipBody_le r.source; have := ipBody_le r.group
    simp only [mvpnSentBody, List.length_append, rdBody_length]; omega
  | t6 r =>
    have := ipBody_le r.rp; have := ipBody_le r.group
    simp only [mvpnSentBody, List.length_append, rdBody_length, be_length]; omega
  | t7 r =>
    have := ipBody_le r.rp; have := ipBody_le r.group
    simp only [mvpnSentBody, List.length_append, rdBody_length, be_length]; omega

theorem mvpn3_sent (x : BgpMVPN3) (mode : BgpTransportMode) : Writes (BgpAddrItem.encodeTo x mode) (mvpn3Sent x) := by
  intro buf hb
  simp only [mvpn3Sent] at hb ⊢
  simp only [BgpAddrItem.encodeTo]
  simp only [List.length_append, rdBody_length] at hb
  rw [rd_writes _ buf (by lens)]
  simp only [Res.ok_bind]
  rw [cur_onFrom (writes_ip x.source) _ _ _ (by simp) (by lens)]
  simp only [Res.ok_bind]
  rw [cur_onFrom (writes_ip x.group) _ _ _ (by simp) (by lens)]
  simp only [Res.ok_bind]
  rw [cur_onFrom (writes_ip x.originator) _ _ _ (by simp [Nat.add_assoc]) (by lens)]
  simp [Nat.add_assoc]

theorem mvpn4_sent (x : BgpMVPN4) (mode : BgpTransportMode) :
    Writes (BgpAddrItem.encodeTo x mode) (mvpnSentBody (.t4 x)) := by
  intro buf hb
  simp only [mvpnSentBody, List.length_append] at hb ⊢
  have h3 := mvpn3_sent x.spmsi mode buf (by omega)
  simp only [BgpAddrItem.encodeTo] at h3 ⊢
  rw [h3]
  simp only [Res.ok_bind]
  rw [cur_onFrom (writes_ip x.originator) _ _ _ (by simp) (by lens)]
  simp [Nat.add_assoc]

theorem mvpn5_sent (x : BgpMVPN5) (mode : BgpTransportMode) :
    Writes (BgpAddrItem.encodeTo x mode) (mvpnSentBody (.t5 x)) := by
  intro buf hb
  simp only [mvpnSentBody] at hb ⊢
  simp only [BgpAddrItem.encodeTo]
  simp only [List.length_append, rdBody_length] at hb
  rw [rd_writes _ buf (by lens)]
  simp only [Res.ok_bind]
  rw [cur_onFrom (writes_ip x.source) _ _ _ (by simp) (by lens)]
  simp only [Res.ok_bind]
  rw [cur_onFrom (writes_ip x.group) _ _ _ (by simp) (by lens)]
  simp [Nat.add_assoc]

theorem mvpn67_sent (x : BgpMVPN67) (mode : BgpTransportMode) :
    Writes (BgpAddrItem.encodeTo x mode) (rdBody x.rd ++ be 4 x.asn.toNat ++ ipBody x.rp ++ ipBody x.group) := by
  intro buf hb
  simp only [BgpAddrItem.encodeTo]
  simp only [List.length_append, rdBody_length] at hb
  rw [rd_writes _ buf (by lens)]
  simp only [Res.ok_bind]
  rw [cur_modFrom (put32 _) _ _ _ (by simp) (by lens)]
  simp only [Res.ok_bind]
  rw [cur_onFrom (writes_ip x.rp) _ _ _ (by simp) (by lens)]
  simp only [Res.ok_bind]
  rw [cur_onFrom (writes_ip x.group) _ _ _ (by simp; omega) (by lens)]
  simp [Nat.add_assoc]
  omega

theorem mvpn_sent (x : BgpMVPN) (mode : BgpTransportMode) : Writes (BgpAddrItem.encodeTo x mode) (mvpnSent x) := by
  intro buf hb
  have hb' : 2 + (mvpnSentBody x).length ≤ buf.length := by simp [mvpnSent] at hb; omega
  change BgpMVPN.encodeTo x mode buf = _
  cases x with
  | t1 r =>
    simp only [BgpMVPN.encodeTo, mvpnSent, mvpnType]
    rw [tlv_writes (mvpn1_writes r mode) _ _ hb']
    simp [setIdx_cons_succ, Nat.add_comm, mvpnSentBody, mvpnBody]; try omega
  | t2 r =>
    simp only [BgpMVPN.encodeTo, mvpnSent, mvpnType]
    rw [tlv_writes (mvpn2_writes r mode) _ _ hb']
    simp [setIdx_cons_succ, Nat.add_comm, mvpnSentBody, mvpnBody]; try omega
  | t3 r =>
    simp only [BgpMVPN.encodeTo, mvpnSent, mvpnType]
    rw [tlv_writes (mvpn3_sent r mode) _ _ hb']
    simp [setIdx_cons_succ, Nat.add_comm, mvpnSentBody]; try omega
  | t4 r =>
    simp only [BgpMVPN.encodeTo, mvpnSent, mvpnType]
    rw [tlv_writes (mvpn4_sent r mode) _ _ hb']
    simp [setIdx_cons_succ, Nat.add_comm]; try omega
  | t5 r =>
    simp only [BgpMVPN.encodeTo, mvpnSent, mvpnType]
    rw [tlv_writes (mvpn5_sent r mode) _ _ hb']
    simp [setIdx_cons_succ, Nat.add_comm]; try omega
  | t6 r =>
    simp only [BgpMVPN.encodeTo, mvpnSent, mvpnType]
    rw [tlv_writes (mvpn67_sent r mode) _ _ hb']
    simp [setIdx_cons_succ, Nat.add_comm, mvpnSentBody]; try omega
  | t7 r =>
    simp only [BgpMVPN.encodeTo, mvpnSent, mvpnType]
    rw [tlv_writes (mvpn67_sent r mode) _ _ hb']
    simp [setIdx_cons_succ, Nat.add_comm, mvpnSentBody]; try omega

/-- what is read from a sent route is read from its body -/
theorem sent_read {mode : BgpTransportMode} {x y : BgpMVPN} {rest : Bytes} {n : Nat}
    (h : MvpnItemRead mode (mvpnSent x ++ rest) y n) :
    mvpnType y = mvpnType x ∧ ∃ k, MvpnRead mode (mvpnSentBody x) y k := by
  obtain ⟨l, body, t, k, hb, hl, hr, -⟩ := h
  simp only [mvpnSent, List.cons_append, List.cons.injEq] at hb
  obtain ⟨h1, rfl, h2⟩ := hb
  have hx := mvpnSent_le x
  rw [BitVec.toNat_ofNat, Nat.mod_eq_of_lt (by omega)] at hl
  have : body = mvpnSentBody x := by
    have := congrArg (List.take (mvpnSentBody x).length) h2
    rwa [List.take_append_of_le_length (Nat.le_refl _), List.take_of_length_le (Nat.le_refl _), ← hl,
      List.take_append_of_le_length (Nat.le_refl _), List.take_of_length_le (Nat.le_refl _), eq_comm] at this
  subst this
  exact ⟨h1.symm, k, hr⟩

theorem mvpn3_lengths (r : BgpMVPN3) : (mvpn3Body r).length = (mvpn3Sent r).length + 2 := by
  simp only [mvpn3Body, mvpn3Sent, List.length_append, lenIp_length]; omega

theorem mvpnRead_length {mode : BgpTransportMode} {b : Bytes} {x : BgpMVPN} {k : Nat} (h : MvpnRead mode b x k) :
    (∃ r, x = .t4 r ∧ b.length = (mvpn3Body r.spmsi).length + 2 + (ipBody r.originator).length ∧
      MvpnWF mode (.t3 r.spmsi)) ∨
    (mvpnType x ≠ 4 ∧ MvpnWF mode x ∧ (mvpnBody x).length ≤ b.length) := by
  cases h with
  | plain x t h4 hw h5 => exact .inr ⟨h4, hw, by simp⟩
  | leaf s o hw => exact .inl ⟨⟨s, o⟩, rfl, by simp; omega, hw⟩

/-- a route of one of the types 3 to 7 is not read back from what is sent for it -/
theorem sent_not_read {mode : BgpTransportMode} {x : BgpMVPN} (hx : 3 ≤ (mvpnType x).toNat) {rest : Bytes} {n : Nat} :
    ¬ MvpnItemRead mode (mvpnSent x ++ rest) x n := by
  intro h
  obtain ⟨-, k, h⟩ := sent_read h
  rcases mvpnRead_length h with ⟨r, rfl, h, -⟩ | ⟨h4, -, h⟩
  · simp only [mvpnSentBody, List.length_append, mvpn3_lengths] at h; omega
  · cases x with
    | t1 r => exact absurd hx (by simp [mvpnType])
    | t2 r => exact absurd hx (by simp [mvpnType])
    | t3 r => simp only [mvpnBody, mvpnSentBody, mvpn3_lengths] at h; omega
    | t4 r => exact h4 rfl
    | t5 r => simp only [mvpnBody, mvpnSentBody, List.length_append, lenIp_length] at h; omega
    | t6 r => simp only [mvpnBody, mvpnSentBody, List.length_append, lenIp_length] at h; omega
    | t7 r => simp only [mvpnBody, mvpnSentBody, List.length_append, lenIp_length] at h; omega

/-- if its addresses are of the family of the session, nothing at all is read from it -/
theorem sent_refused {mode : BgpTransportMode} {x : BgpMVPN} (hx : 3 ≤ (mvpnType x).toNat) (hw : MvpnWF mode x)
    (rest : Bytes) : (BgpAddrItem.decodeFrom (T := BgpMVPN) mode (mvpnSent x ++ rest)).IsErr := by
  rw [(mvpn_exactly mode _).err_iff]
  obtain ⟨n, hn⟩ : ∃ n, n = if mode = .IPv4 then 4 else 16 := ⟨_, rfl⟩
  have hn' : n = 4 ∨ n = 16 := by rw [hn]; split <;> simp
  constructor
  · rintro ⟨y, m⟩ h
    obtain ⟨ht, k, h⟩ := sent_read h
    rcases mvpnRead_length h with ⟨r, rfl, h, h1, h2, h3⟩ | ⟨h4, hy, h⟩
    · cases x with
      | t4 s =>
        obtain ⟨w1, w2, w3, w4⟩ := hw
        have := ipBody_le r.originator
        simp only [mvpnSentBody, List.length_append, mvpn3_lengths] at h
        simp only [mvpn3Sent, List.length_append, ipBody_family s.originator, ipBody_family s.spmsi.source,
          ipBody_family s.spmsi.group, ipBody_family s.spmsi.originator, ipBody_family r.spmsi.source,
          ipBody_family r.spmsi.group, ipBody_family r.spmsi.originator, h1, h2, h3, w1, w2, w3, w4, ← hn,
          rdBody_length] at h
        omega
      | _ => exact absurd ht (by simp [mvpnType])
    · cases x with
      | t1 r => exact absurd hx (by simp [mvpnType])
      | t2 r => exact absurd hx (by simp [mvpnType])
      | t3 r =>
        cases y with
        | t3 s =>
          obtain ⟨h1, h2, h3⟩ := hy
          obtain ⟨w1, w2, w3⟩ := hw
          simp only [mvpnBody, mvpnSentBody, mvpn3_lengths] at h
          simp only [mvpn3Sent, List.length_append, ipBody_family r.source, ipBody_family r.group,
            ipBody_family r.originator, ipBody_family s.source, ipBody_family s.group, ipBody_family s.originator,
            h1, h2, h3, w1, w2, w3, ← hn, rdBody_length] at h
          omega
        | _ => exact absurd ht (by simp [mvpnType])
      | t4 r =>
        cases y with
        | t4 s => exact h4 rfl
        | _ => exact absurd ht (by simp [mvpnType])
      | t5 r =>
        cases y with
        | t5 s =>
          obtain ⟨h1, h2⟩ := hy
          obtain ⟨w1, w2⟩ := hw
          simp only [mvpnBody, mvpnSentBody, List.length_append, lenIp_length, ipBody_family r.source,
            ipBody_family r.group, ipBody_family s.source, ipBody_family s.group, h1, h2, w1, w2, ← hn,
            rdBody_length] at h
          omega
        | _ => exact absurd ht (by simp [mvpnType])
      | t6 r =>
        cases y with
        | t6 s =>
          obtain ⟨h1, h2⟩ := hy
          obtain ⟨w1, w2⟩ := hw
          simp only [mvpnBody, mvpnSentBody, List.length_append, lenIp_length, ipBody_family r.rp,
            ipBody_family r.group, ipBody_family s.rp, ipBody_family s.group, h1, h2, w1, w2, ← hn,
            rdBody_length, be_length] at h
          omega
        | _ => exact absurd ht (by simp [mvpnType])
      | t7 r =>
        cases y with
        | t7 s =>
          obtain ⟨h1, h2⟩ := hy
          obtain ⟨w1, w2⟩ := hw
          simp only [mvpnBody, mvpnSentBody, List.length_append, lenIp_length, ipBody_family r.rp,
            ipBody_family r.group, ipBody_family s.rp, ipBody_family s.group, h1, h2, w1, w2, ← hn,
            rdBody_length, be_length] at h
          omega
        | _ => exact absurd ht (by simp [mvpnType])
  · have hlen := mvpnSent_le x
    have hlo : 8 ≤ (mvpnSentBody x).length := by
      cases x <;> simp only [mvpnSentBody, mvpn3Sent, List.length_append, rdBody_length] <;> omega
    have hl : (BitVec.ofNat 8 (mvpnSentBody x).length : U8).toNat = (mvpnSentBody x).length := by
      rw [BitVec.toNat_ofNat, Nat.mod_eq_of_lt (by omega)]
    rintro (h | ⟨ty, l, t, e, -, -, h⟩)
    · simp [mvpnSent] at h; omega
    · simp only [mvpnSent, List.cons_append, List.cons.injEq] at e
      obtain ⟨rfl, rfl, rfl⟩ := e
      rw [hl] at h
      rcases h with h | ⟨-, h | ⟨h, -⟩⟩
      · simp at h
      · rw [h] at hl; simp at hl; omega
      · rw [h] at hl; simp at hl; omega

end Zbgp
