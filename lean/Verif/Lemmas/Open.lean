import Verif.Lemmas.Caps

/-! # Helper lemmas: OPEN message -/

namespace Zbgp

open Spec

attribute [-simp] List.length_flatMap

theorem ntoh16_toNat (x : U16) : (ntoh16 x).toNat = x.toNat / 256 + x.toNat % 256 * 256 := by
  unfold ntoh16
  have h : (x &&& 0xff).toNat = x.toNat % 256 := by
    rw [BitVec.toNat_and, show (0xff : U16).toNat = 2 ^ 8 - 1 from rfl,
      Nat.and_two_pow_sub_one_eq_mod]
  have h2 : (x >>> 8).toNat = x.toNat / 256 := by
    simp [Nat.shiftRight_eq_div_pow]
  have := x.isLt
  rw [BitVec.or_comm, toNat_shl_or _ _ _ (by omega) (by omega), h, h2]
  omega

theorem ntoh16_load (a b : U8) : ntoh16 (loadLe16 a b) = BitVec.ofNat 16 (unbe [a, b]) := by
  apply BitVec.eq_of_toNat_eq
  have ha := a.isLt
  have hb := b.isLt
  have e1 : (a.setWidth 16).toNat = a.toNat := by simp; omega
  have e2 : (b.setWidth 16).toNat = b.toNat := by simp; omega
  have h : (loadLe16 a b).toNat = b.toNat * 256 + a.toNat := by
    unfold loadLe16
    rw [BitVec.or_comm, toNat_shl_or _ _ _ (by omega) (by omega), e1, e2]
    rfl
  rw [ntoh16_toNat, h]
  have h3 : (b.toNat * 256 + a.toNat) / 256 = b.toNat := by omega
  have h4 : (b.toNat * 256 + a.toNat) % 256 = a.toNat := by omega
  rw [h3, h4]
  simp [unbe_cons]
  omega

theorem store_ntoh16 (v : U16) : storeLe16 (ntoh16 v) = be 2 v.toNat := by
  have := v.isLt
  have h := ntoh16_toNat v
  simp only [storeLe16, be]
  congr 1
  · apply BitVec.eq_of_toNat_eq
    simp [h]
  · congr 1
    apply BitVec.eq_of_toNat_eq
    simp only [BitVec.toNat_setWidth, BitVec.toNat_ushiftRight, h, Nat.shiftRight_eq_div_pow]
    rw [Nat.add_mul_div_right _ _ (by decide), Nat.div_eq_of_lt (by omega)]
    simp

theorem writes_encodeCaps (caps : List BgpCapability) (hc : ∀ c ∈ caps, CapEncodable c) :
    Writes (BgpOpenMessage.encodeCaps caps) (capsParams caps) := by
  induction caps with
  | nil => intro buf _; simp [BgpOpenMessage.encodeCaps, capsParams]
  | cons c cs ih =>
    have hc0 := hc c (by simp)
    have hl := capTlv_length c (encodable_notFQDN hc0)
    have ih := ih (fun x hx => hc x (by simp [hx]))
    intro buf hb
    have e : capsParams (c :: cs) = tlv 2 (capTlv c) ++ capsParams cs := by
      simp [capsParams, capParam]
    rw [e] at hb ⊢
    simp only [List.length_append, tlv_length, hl] at hb ⊢
    obtain ⟨x, y, t, rfl⟩ := exists_cons2 (by omega : 2 ≤ buf.length)
    simp only [List.length_cons] at hb
    obtain ⟨m, r, rfl, hm, -⟩ := exists_split c.bytesLen (by omega : c.bytesLen ≤ t.length)
    unfold BgpOpenMessage.encodeCaps
    simp only [setIdx_cons_zero, setIdx_cons_succ, Res.ok_bind]
    have h1 := onSliceE_append [2, BitVec.ofNat 8 c.bytesLen] m r 2 (c.bytesLen + 2)
      (fun b => do .ok (← c.fillBuffer b, ())) rfl (by simp; omega)
    simp only [List.cons_append, List.nil_append] at h1
    rw [h1, fillBuffer_ok c hc0 m hm]
    simp only [Res.ok_bind]
    have h2 := onFrom_append (2 :: BitVec.ofNat 8 c.bytesLen :: capTlv c) r (2 + c.bytesLen)
      (BgpOpenMessage.encodeCaps cs) (by simp; omega)
    simp only [List.cons_append] at h2
    rw [h2, ih r (by simp [hm] at hb; omega)]
    simp only [Res.ok_bind]
    have h3 : List.drop (2 + c.bytesLen + (capsParams cs).length) (x :: y :: (m ++ r)) =
        r.drop (capsParams cs).length := by
      rw [show 2 + c.bytesLen + (capsParams cs).length = (c.bytesLen + (capsParams cs).length) + 2 by omega]
      rw [List.drop_succ_cons, List.drop_succ_cons, ← hm, ← List.drop_drop]
      simp
    rw [h3]
    simp [tlv, hl]

theorem capsParams_length (caps : List BgpCapability) (hc : ∀ c ∈ caps, CapEncodable c) (k : Nat) :
    caps.foldl (fun sum i => sum + i.bytesLen + 2) k = k + (capsParams caps).length := by
  induction caps generalizing k with
  | nil => simp [capsParams]
  | cons c cs ih =>
    have hl := capTlv_length c (encodable_notFQDN (hc c (by simp)))
    have e : capsParams (c :: cs) = tlv 2 (capTlv c) ++ capsParams cs := by
      simp [capsParams, capParam]
    rw [List.foldl_cons, ih (fun x hx => hc x (by simp [hx])), e, List.length_append, tlv_length, hl]
    omega

theorem openWire_length (a h r : Nat) (p : Bytes) : (openWire a h r p).length = 10 + p.length := by
  simp [openWire]; omega

/-- The OPEN encoder writes the specified octets whenever the capabilities are encodable; the
parameter length octet is the length modulo 256. -/
theorem writes_open (m : BgpOpenMessage) (hc : ∀ c ∈ m.caps, CapEncodable c) :
    Writes m.encodeTo (openWire m.asNum.toNat m.holdTime.toNat m.routerId.toNat (capsParams m.caps)) := by
  intro buf hb
  rw [openWire_length] at hb ⊢
  unfold BgpOpenMessage.encodeTo
  rw [if_neg (by omega)]
  rcases buf with _ | ⟨b0, _ | ⟨b1, _ | ⟨b2, _ | ⟨b3, _ | ⟨b4, _ | ⟨b5, _ | ⟨b6, _ | ⟨b7, _ | ⟨b8, _ | ⟨b9, t⟩⟩⟩⟩⟩⟩⟩⟩⟩⟩
  case cons.cons.cons.cons.cons.cons.cons.cons.cons.cons =>
    have e1 : storeLe16 (ntoh16 (if m.asNum.toNat < 65536 then m.asNum.setWidth 16 else 23456)) =
        be 2 (as2 m.asNum.toNat) := by
      rw [store_ntoh16]
      unfold as2
      split
      · congr 1; simp; omega
      · rfl
    simp only [setIdx_cons_zero, Res.ok_bind, e1, store_ntoh16]
    have h1 := copyAt_append [4] [b1, b2] (b3 :: b4 :: b5 :: b6 :: b7 :: b8 :: b9 :: t)
      (be 2 (as2 m.asNum.toNat)) 1 3 rfl rfl (by simp)
    simp only [List.cons_append, List.nil_append] at h1
    rw [h1]
    simp only [Res.ok_bind]
    have h2 := copyAt_append (4 :: be 2 (as2 m.asNum.toNat)) [b3, b4] (b5 :: b6 :: b7 :: b8 :: b9 :: t)
      (be 2 m.holdTime.toNat) 3 5 (by simp) (by simp) (by simp)
    simp only [List.cons_append, List.nil_append] at h2
    rw [h2]
    simp only [Res.ok_bind]
    have h3 := copyAt_append (4 :: (be 2 (as2 m.asNum.toNat) ++ be 2 m.holdTime.toNat)) [b5, b6, b7, b8] (b9 :: t)
      (ipv4Octets m.routerId) 5 9 (by simp) (by simp) (by simp [ipv4Octets])
    simp only [List.cons_append, List.nil_append, List.append_assoc] at h3
    rw [h3]
    simp only [Res.ok_bind]
    have h4 := @setIdx_append _ (4 :: (be 2 (as2 m.asNum.toNat) ++ (be 2 m.holdTime.toNat ++
      ipv4Octets m.routerId))) (b9 :: t) 9
      (BitVec.ofNat 8 (m.caps.foldl (fun sum i => sum + i.bytesLen + 2) 0)) (by simp [ipv4Octets])
    simp only [List.cons_append, List.append_assoc] at h4
    rw [h4]
    simp only [ipv4Octets, List.length_cons, List.length_append, be_length, Nat.reduceAdd, Nat.sub_self,
      setIdx_cons_zero, Res.ok_bind]
    rw [capsParams_length _ hc, Nat.zero_add]
    have h5 := onFrom_append (4 :: (be 2 (as2 m.asNum.toNat) ++ (be 2 m.holdTime.toNat ++
      (be 4 m.routerId.toNat ++ [BitVec.ofNat 8 (capsParams m.caps).length])))) t 10
      (BgpOpenMessage.encodeCaps m.caps) (by simp)
    simp only [List.cons_append, List.append_assoc, List.nil_append] at h5
    rw [h5, writes_encodeCaps _ hc t (by simp at hb; omega)]
    simp only [Res.ok_bind, openWire]
    rw [show 10 + (capsParams m.caps).length = (capsParams m.caps).length + 10 by omega]
    simp
  all_goals (exfalso; simp at hb <;> omega)

/-! ## decoding -/

theorem unknown_none {code : Nat} {data : Bytes} (h : code < 256) (hk : code ∉ knownCodes) :
    BgpCapability.fromTypeAndData (BitVec.ofNat 8 code) data = .ok none := by
  have e : (BitVec.ofNat 8 code).toNat = code := by simp; omega
  simp only [knownCodes, List.mem_cons, List.not_mem_nil, or_false, not_or] at hk
  unfold BgpCapability.fromTypeAndData
  rw [e]
  split <;> first | omega | rfl

theorem capItem_length (i : CapItem) (h : i.WF) : 2 ≤ i.wire.length := by
  cases i with
  | known c =>
    simp only [CapItem.wire]
    rw [capTlv_length _ (encodable_notFQDN h)]
    cases c <;> simp [BgpCapability.bytesLen] <;> omega
  | unknown code data => simp [CapItem.wire, tlv_length]

theorem fromBuffer_item (i : CapItem) (h : i.WF) (r : Bytes) :
    BgpCapability.fromBuffer (i.wire ++ r) =
      .ok ((match i with
        | .known c => .inl c
        | .unknown code data => .inr (BitVec.ofNat 8 code, data)), i.wire.length) := by
  cases i with
  | known c => exact fromBuffer_cap c h r
  | unknown code data =>
    obtain ⟨h1, h2, h3⟩ := h
    simp only [CapItem.wire]
    rw [fromBuffer_tlv _ _ _ h3, unknown_none h1 h2, tlv_length]
    rfl

theorem decodeCaps_items (items : List CapItem) (h : ∀ i ∈ items, i.WF) (r : Bytes) (fuel : Nat)
    (hf : items.length < fuel) :
    BgpOpenMessage.decodeCaps fuel (items.flatMap CapItem.wire ++ r) (items.flatMap CapItem.wire).length
      = .ok (knownOf items, r) := by
  induction items generalizing fuel with
  | nil =>
    match fuel, hf with
    | f + 1, _ => simp [BgpOpenMessage.decodeCaps, knownOf]
  | cons i is ih =>
    match fuel, hf with
    | f + 1, hf =>
      have hi := h i (by simp)
      have hl := capItem_length i hi
      unfold BgpOpenMessage.decodeCaps
      simp only [List.flatMap_cons, List.length_append]
      rw [if_neg (by omega)]
      have h1 := sliceE_append_mid [] (i.wire ++ is.flatMap CapItem.wire) r 0
        (i.wire.length + (is.flatMap CapItem.wire).length) rfl (by simp)
      simp only [List.nil_append] at h1
      rw [h1]
      simp only [Res.ok_bind, fromBuffer_item i hi]
      have h2 : subN (i.wire.length + (is.flatMap CapItem.wire).length) i.wire.length =
          .ok (is.flatMap CapItem.wire).length := by simp [subN]
      rw [h2]
      simp only [Res.ok_bind, List.append_assoc]
      rw [List.drop_left' rfl]
      rw [ih (fun x hx => h x (by simp [hx])) f (by simp at hf; omega)]
      cases i <;> simp [knownOf]

theorem items_length_le (p : List CapItem) (hwf : ∀ i ∈ p, i.WF) :
    p.length ≤ (p.flatMap CapItem.wire).length := by
  induction p with
  | nil => simp
  | cons i is ih =>
    have := capItem_length i (hwf i (by simp))
    have := ih (fun x hx => hwf x (by simp [hx]))
    simp; omega

theorem decodeParams_items (ps : List (List CapItem)) (h : ∀ p ∈ ps, ∀ i ∈ p, i.WF)
    (hl : ∀ p ∈ ps, (p.flatMap CapItem.wire).length ≤ 255) (fuel : Nat) (hf : ps.length < fuel) :
    BgpOpenMessage.decodeParams fuel (ps.flatMap itemsParam) = .ok (ps.flatMap knownOf) := by
  induction ps generalizing fuel with
  | nil =>
    match fuel, hf with
    | f + 1, _ => simp [BgpOpenMessage.decodeParams]
  | cons p ps ih =>
    match fuel, hf with
    | f + 1, hf =>
      have hp := hl p (by simp)
      have hlen := items_length_le p (h p (by simp))
      unfold BgpOpenMessage.decodeParams
      simp only [List.flatMap_cons, itemsParam, tlv]
      have e : (BitVec.ofNat 8 (p.flatMap CapItem.wire).length).toNat =
          (p.flatMap CapItem.wire).length := by
        rw [BitVec.toNat_ofNat]; omega
      rw [if_pos (by simp)]
      simp only [be1_eq, List.cons_append, List.nil_append, idx_cons_zero, idx_cons_succ, Res.ok_bind, e,
        List.drop_succ_cons, List.drop_zero]
      rw [if_neg (by decide)]
      rw [decodeCaps_items p (h p (by simp)) _ _ (by simp; omega)]
      simp only [Res.ok_bind]
      have := ih (fun q hq => h q (by simp [hq])) (fun q hq => hl q (by simp [hq])) f
        (by simp at hf; omega)
      simp only [this, Res.ok_bind]

theorem decode_openWire (self : BgpOpenMessage) (a h r : Nat) (ha : as2 a < 65536) (ps : List (List CapItem))
    (hw : ∀ p ∈ ps, ∀ i ∈ p, i.WF) (hl : ∀ p ∈ ps, (p.flatMap CapItem.wire).length ≤ 255) :
    self.decodeFrom (openWire a h r (ps.flatMap itemsParam)) =
      .ok { asNum := BitVec.ofNat 32 (as2 a), holdTime := BitVec.ofNat 16 h, routerId := BitVec.ofNat 32 r,
            caps := ps.flatMap knownOf } := by
  unfold BgpOpenMessage.decodeFrom
  have hlen := openWire_length a h r (ps.flatMap itemsParam)
  rw [if_neg (by omega)]
  have hb : openWire a h r (ps.flatMap itemsParam) = 4 :: (be 2 (as2 a) ++ (be 2 h ++ (be 4 r ++
      (BitVec.ofNat 8 (ps.flatMap itemsParam).length :: ps.flatMap itemsParam)))) := by
    simp [openWire]
  have hps : ps.length ≤ (ps.flatMap itemsParam).length := by
    clear hw hl hb hlen
    induction ps with
    | nil => simp
    | cons p ps ih => simp [itemsParam, tlv_length]; omega
  rw [sliceE_ok (by omega) (Nat.le_refl _), List.take_length, hlen, hb]
  simp only [idx_cons_zero, Res.ok_bind, List.drop_succ_cons, List.drop_zero]
  rw [if_neg (by decide)]
  have h2 : ∀ v, be 2 v = [BitVec.ofNat 8 (v / 256 ^ 1), BitVec.ofNat 8 (v / 256 ^ 0)] := fun v => rfl
  have h4 : be 4 r = [BitVec.ofNat 8 (r / 256 ^ 3), BitVec.ofNat 8 (r / 256 ^ 2),
      BitVec.ofNat 8 (r / 256 ^ 1), BitVec.ofNat 8 (r / 256 ^ 0)] := rfl
  have u2 : ∀ v, BitVec.ofNat 16 (unbe [BitVec.ofNat 8 (v / 256 ^ 1), BitVec.ofNat 8 (v / 256 ^ 0)]) =
      BitVec.ofNat 16 v := by
    intro v
    rw [← h2, unbe_be]
    apply BitVec.eq_of_toNat_eq; simp
  have u4 : BitVec.ofNat 32 (unbe [BitVec.ofNat 8 (r / 256 ^ 3), BitVec.ofNat 8 (r / 256 ^ 2),
      BitVec.ofNat 8 (r / 256 ^ 1), BitVec.ofNat 8 (r / 256 ^ 0)]) = BitVec.ofNat 32 r := by
    rw [← h4, unbe_be]
    apply BitVec.eq_of_toNat_eq; simp
  simp only [h2, h4, List.cons_append, List.nil_append, idx_cons_zero, idx_cons_succ, Res.ok_bind,
    ntoh16_load, u2, u4, List.drop_succ_cons, List.drop_zero]
  rw [decodeParams_items ps hw hl _ (by omega)]
  simp only [Res.ok_bind]
  congr 2
  apply BitVec.eq_of_toNat_eq
  simp
  omega

/-! ## totality -/

theorem fromTypeAndData_returns (t : U8) (data : Bytes) :
    (BgpCapability.fromTypeAndData t data).Returns := by
  unfold BgpCapability.fromTypeAndData
  have hu : ∀ b, (BgpCapability.fromUtf8 b).Returns := by
    intro b; unfold BgpCapability.fromUtf8; split <;> simp
  split
  · split <;> simp
  · split <;> simp
  · split
    · simp
    · rename_i h
      rw [not_or] at h
      rw [idx_of_lt (by omega), rslice_ok (by omega) (by omega), Res.ok_bind, Res.ok_bind,
        getn16_ok (by simp; omega), Res.ok_bind]
      refine Res.returns_bind ?_ (by simp)
      refine decodeChunks_returns 4 (by omega) _ ?_ _ _ (by simp; omega) (by simp; omega)
      intro b hb
      match b, hb with
      | [x, y, z, w], _ => simp [BgpCapGR.decodeFrom, rslice, getn16_cons]
  · split
    · simp
    · rename_i h
      rw [getn32_ok (by omega)]; simp
  · split
    · simp
    · rename_i h
      refine Res.returns_bind ?_ (by simp)
      rw [show (3:Nat) = 2 ^ 2 - 1 from rfl, Nat.and_two_pow_sub_one_eq_mod] at h
      refine decodeChunks_returns 4 (by omega) _ ?_ _ _ (by omega) (by omega)
      intro b hb
      match b, hb with
      | [x, y, z, w], _ => simp [BgpCapAddPath.decodeFrom, rslice, getn16_cons]
  · split <;> simp
  · split
    · simp
    · rename_i h
      refine Res.returns_bind ?_ (by simp)
      refine decodeChunks_returns 7 (by omega) _ ?_ _ _ (by omega) (by omega)
      intro b hb
      match b, hb with
      | [x, y, z, w, p, q, r], _ =>
        simp only [BgpCapLLGR.decodeFrom, rslice, List.length_cons, List.length_nil]
        simp [getn16_cons]
        refine Res.returns_bind ?_ (by simp)
        unfold addC
        have := p.isLt
        have h2 := (BitVec.ofNat 16 (unbe [q, r])).isLt
        rw [if_pos]
        · simp
        · simp [Nat.shiftLeft_eq]; omega
  · split
    · simp
    · rename_i h
      have h0 : 0 < data.length := by
        rcases data with _ | ⟨a, t⟩ <;> simp at h ⊢
      rw [idx_of_lt h0, rfrom_ok (by omega)]
      simp only [Res.ok_bind]
      split
      · simp
      · rename_i h1
        simp at h1
        rw [rslice_ok (by omega) (by omega), Res.ok_bind]
        refine Res.returns_bind (hu _) fun _ _ => ?_
        rw [rfrom_ok (by omega), Res.ok_bind]
        split
        · simp
        · rename_i h2
          simp at h2
          rw [idx_of_lt (by omega), rfrom_ok (by omega)]
          simp only [Res.ok_bind]
          split
          · simp
          · rename_i h3
            simp at h3
            rw [rslice_ok (by omega) (by omega), Res.ok_bind]
            refine Res.returns_bind (hu _) fun _ _ => ?_
            split <;> simp
  · split <;> simp
  · simp

theorem fromBuffer_returns (b : Bytes) : (BgpCapability.fromBuffer b).Returns := by
  unfold BgpCapability.fromBuffer
  split
  · simp
  · rw [idx_of_lt (by omega), idx_of_lt (by omega)]
    simp only [Res.ok_bind]
    split
    · simp
    · rw [rslice_ok (by omega) (by omega), Res.ok_bind]
      refine Res.returns_bind (fromTypeAndData_returns _ _) fun x _ => ?_
      cases x <;> simp

theorem fromBuffer_consumed {b : Bytes} {c : BgpCapability ⊕ (U8 × Bytes)} {n : Nat}
    (h : BgpCapability.fromBuffer b = .ok (c, n)) : 2 ≤ n ∧ n ≤ b.length := by
  unfold BgpCapability.fromBuffer at h
  split at h
  · simp at h
  · rw [idx_of_lt (by omega), idx_of_lt (by omega)] at h
    simp only [Res.ok_bind] at h
    split at h
    · simp at h
    · rw [rslice_ok (by omega) (by omega), Res.ok_bind, Res.bind_eq_ok] at h
      obtain ⟨x, -, h⟩ := h
      cases x <;> simp at h <;> omega

theorem decodeCaps_returns (fuel : Nat) (rest : Bytes) (optlen : Nat) (hf : optlen < fuel) :
    (BgpOpenMessage.decodeCaps fuel rest optlen).Returns ∧
    ∀ cs r, BgpOpenMessage.decodeCaps fuel rest optlen = .ok (cs, r) → r.length + optlen ≤ rest.length := by
  induction fuel generalizing rest optlen with
  | zero => omega
  | succ f ih =>
    unfold BgpOpenMessage.decodeCaps
    split
    · rename_i h0; subst h0; simp
    · by_cases hs : optlen ≤ rest.length
      · rw [sliceE_ok (by omega) hs, Res.ok_bind, List.drop_zero]
        cases hfb : BgpCapability.fromBuffer (rest.take optlen) with
        | err e => simp
        | panic => have := fromBuffer_returns (rest.take optlen); simp [hfb] at this
        | hang => have := fromBuffer_returns (rest.take optlen); simp [hfb] at this
        | ok p =>
          obtain ⟨c, n⟩ := p
          obtain ⟨h1, h2⟩ := fromBuffer_consumed hfb
          simp at h2
          simp only [Res.ok_bind]
          rw [show subN optlen n = .ok (optlen - n) by simp [subN]; omega, Res.ok_bind]
          obtain ⟨ih1, ih2⟩ := ih (rest.drop n) (optlen - n) (by omega)
          constructor
          · refine Res.returns_bind ih1 fun p _ => ?_
            cases c <;> simp
          · intro cs r h
            rw [Res.bind_eq_ok] at h
            obtain ⟨⟨cs', r'⟩, h3, h4⟩ := h
            have := ih2 _ _ h3
            simp at this
            cases c <;> simp at h4 <;> (obtain ⟨-, rfl⟩ := h4; omega)
      · have : sliceE rest 0 optlen = .err .insufficientBufferSize := by
          unfold sliceE; rw [if_neg (by omega)]
        rw [this]
        simp

theorem decodeParams_returns (fuel : Nat) (rest : Bytes) (hf : rest.length < fuel) :
    (BgpOpenMessage.decodeParams fuel rest).Returns := by
  induction fuel generalizing rest with
  | zero => omega
  | succ f ih =>
    unfold BgpOpenMessage.decodeParams
    split
    · rename_i h1
      rw [idx_of_lt (by omega), Res.ok_bind]
      split
      · simp
      · rw [idx_of_lt (by omega), Res.ok_bind]
        have hd : (rest.drop 2).length = rest.length - 2 := by simp
        have hlt := (rest[1]).isLt
        by_cases hov : rest[1].toNat < rest.length + 1
        · obtain ⟨r1, r2⟩ := decodeCaps_returns (rest.length + 1) (rest.drop 2) rest[1].toNat hov
          refine Res.returns_bind r1 fun p hp => ?_
          obtain ⟨cs, r⟩ := p
          have := r2 _ _ hp
          exact Res.returns_bind (ih r (by omega)) (by simp)
        · have : BgpOpenMessage.decodeCaps (rest.length + 1) (rest.drop 2) rest[1].toNat =
              .err .insufficientBufferSize := by
            unfold BgpOpenMessage.decodeCaps
            rw [if_neg (by omega)]
            unfold sliceE
            rw [if_neg (by omega)]
            rfl
          simp [this]
    · simp

end Zbgp
