import Verif.Lemmas.BmpDecoded
import Verif.Lemmas.Utf8
import Verif.Props.Open
import Verif.Lemmas.Update
import Verif.Lemmas.UpdateTotal
import Verif.Lemmas.NoHang
import Verif.Lemmas.Order

/-! # Helper lemmas: BMP -/

namespace Zbgp

open Spec

attribute [-simp] List.length_flatMap List.length_flatten

/-! ## Addresses -/

theorem decodeBmpAddr_eq (buf : Bytes) (h : 16 ≤ buf.length) : decodeBmpAddr buf =
    if buf.take 12 = List.replicate 12 0 then .ok (.v4 (BitVec.ofNat 32 (unbe ((buf.drop 12).take 4))))
    else .ok (.v6 (BitVec.ofNat 128 (unbe (buf.take 16)))) := by
  obtain ⟨x0, x1, x2, x3, x4, x5, x6, x7, x8, x9, x10, x11, x12, x13, x14, x15, t, rfl⟩ := exists_cons16 h
  unfold decodeBmpAddr
  rw [if_neg (by omega)]
  simp only [idx_cons_zero, idx_cons_succ, Res.ok_bind]
  have e : (x0 == 0 && x1 == 0 && x2 == 0 && x3 == 0 && x4 == 0 && x5 == 0 && x6 == 0 && x7 == 0 && x8 == 0 && x9 == 0 &&
      x10 == 0 && x11 == 0) = decide (List.take 12
      (x0 :: x1 :: x2 :: x3 :: x4 :: x5 :: x6 :: x7 :: x8 :: x9 :: x10 :: x11 :: x12 :: x13 :: x14 :: x15 :: t) =
        List.replicate 12 0) := by
    simp only [List.take_succ_cons, List.take_zero, List.replicate, List.cons.injEq, and_true]
    rw [Bool.eq_iff_iff]
    simp [and_assoc]
  rw [e]
  simp only [decide_eq_true_eq]
  split
  · simp [decodeAddrV4_ok]
  · rw [decodeAddrV6_ok h]; rfl

theorem bmpAddr_length (a : IpAddr) : (bmpAddr a).length = 16 := by cases a <;> simp [bmpAddr]

theorem take12_v6 (v : Nat) (hv : v < 2 ^ 128) : (be 16 v).take 12 = List.replicate 12 0 ↔ v < 2 ^ 32 := by
  rw [take_be 16 12 v (by omega)]
  constructor
  · intro h
    have := congrArg unbe h
    rw [unbe_be, unbe_replicate_zero] at this
    have : v / 256 ^ (16 - 12) = 0 := by
      rw [← this, Nat.mod_eq_of_lt]
      simp only [Nat.reduceSub, Nat.reducePow] at *
      omega
    simp only [Nat.reduceSub, Nat.reducePow] at *
    omega
  · intro h
    have : v / 256 ^ (16 - 12) = 0 := by
      simp only [Nat.reduceSub, Nat.reducePow] at *
      omega
    rw [this]
    decide

theorem bmpAddr_reads (a : IpAddr) (rest : Bytes) : decodeBmpAddr (bmpAddr a ++ rest) = .ok (addrRead a) := by
  cases a with
  | v4 a =>
    simp only [bmpAddr, addrRead, List.append_assoc]
    rw [decodeBmpAddr_eq _ (by simp)]
    rw [if_pos (by rw [List.take_left' (by simp)]), List.drop_left' (by simp), List.take_left' (by simp), unbe_be]
    congr 2
    apply BitVec.eq_of_toNat_eq
    have := a.isLt
    simp only [BitVec.toNat_ofNat]
    omega
  | v6 a =>
    simp only [bmpAddr, addrRead]
    rw [decodeBmpAddr_eq _ (by simp)]
    have h1 := take12_v6 a.toNat a.isLt
    have e : List.take 12 (be 16 a.toNat ++ rest) = List.take 12 (be 16 a.toNat) := by
      rw [List.take_append_of_le_length (by simp)]
    by_cases hc : 2 ^ 32 ≤ a.toNat
    · rw [if_pos hc, if_neg (by rw [e, h1]; omega), List.take_left' (by simp), unbe_be]
      congr 2
      apply BitVec.eq_of_toNat_eq
      have := a.isLt
      simp only [BitVec.toNat_ofNat]
      omega
    · rw [if_neg hc, if_pos (by rw [e, h1]; omega)]
      have e2 : List.take 4 (List.drop 12 (be 16 a.toNat ++ rest)) = be 4 a.toNat := by
        have := be_split 12 4 a.toNat
        simp only [Nat.reduceAdd] at this
        rw [this, List.append_assoc, List.drop_left' (by simp), List.take_left' (by simp)]
      rw [e2, unbe_be]
      congr 2
      apply BitVec.eq_of_toNat_eq
      simp

/-- what is behind the address field afterwards -/
theorem encodeBmpAddr_eq (a : IpAddr) (m t : Bytes) (hm : m.length = 16) :
    encodeBmpAddr a (m ++ t) = .ok (bmpAddr a ++ behind (isV4 a) t, 16) := by
  unfold encodeBmpAddr
  rw [if_neg (by simp; omega)]
  cases a with
  | v4 a =>
    simp only [bmpAddr, isV4, behind, if_true]
    have e : List.map (fun _ => (0 : U8)) (m ++ t) = List.replicate 12 0 ++ (List.replicate 4 0 ++ List.replicate t.length 0) := by
      rw [List.map_const', List.length_append, hm]
      simp only [List.replicate_append_replicate]
      congr 1; omega
    rw [e, cur_onFrom (writes_encodeAddrV4 a) _ _ _ (by simp) (by simp)]
    simp only [Res.ok_bind, be_length]
    rw [List.drop_left' (by simp)]
  | v6 a =>
    simp only [bmpAddr, isV4, behind]
    rw [writes_encodeAddrV6 a _ (by simp; omega), be_length, List.drop_left' hm]
    rfl

/-- as `Writes`, but the rest may be cleared -/
def Clears (c : Bool) (f : Enc) (w : Bytes) : Prop :=
  ∀ buf : Bytes, w.length ≤ buf.length → f buf = .ok (w ++ behind c (buf.drop w.length), w.length)

theorem clears_false {f : Enc} {w : Bytes} : Clears false f w ↔ Writes f w := by
  simp [Clears, Writes, behind]

theorem behind_length (c : Bool) (t : Bytes) : (behind c t).length = t.length := by
  unfold behind; split <;> simp

theorem drop_behind (c : Bool) (t : Bytes) (n : Nat) : (behind c t).drop n = behind c (t.drop n) := by
  unfold behind; split <;> simp

theorem behind_behind (c d : Bool) (t : Bytes) : behind c (behind d t) = behind (d || c) t := by
  cases c <;> cases d <;> simp [behind]

theorem bmpAddr_clears (a : IpAddr) : Clears (isV4 a) (encodeBmpAddr a) (bmpAddr a) := by
  intro buf hb
  rw [bmpAddr_length] at *
  obtain ⟨m, t, rfl, hm, -⟩ := exists_split 16 hb
  rw [encodeBmpAddr_eq a m t hm, List.drop_left' hm]

theorem cur_clears {c : Bool} {f : Enc} {w : Bytes} (hf : Clears c f w) (p t : Bytes) (i : Nat) (hi : i = p.length)
    (ht : w.length ≤ t.length) :
    onFrom (p ++ t) i f = .ok ((p ++ w) ++ behind c (t.drop w.length), w.length) := by
  rw [onFrom_append p t i f hi, hf t ht]
  simp

/-! ## Headers -/

theorem peerHeaderWire_length (h : BmpMessagePeerHeader) : (peerHeaderWire h).length = 42 := by
  simp [peerHeaderWire, bmpAddr_length]

theorem peerHeader_clears (h : BmpMessagePeerHeader) : Clears (isV4 h.peeraddress) h.encodeTo (peerHeaderWire h) := by
  intro buf hb
  rw [peerHeaderWire_length] at *
  unfold BmpMessagePeerHeader.encodeTo
  rw [if_neg (by omega)]
  have e := cur_setIdx [] buf 0 h.peertype rfl (by omega)
  rw [List.nil_append] at e
  rw [e, Res.ok_bind, cur_setIdx _ _ _ _ (by simp) (by simp; omega), Res.ok_bind,
    cur_onFrom (rd_writes _) _ _ _ (by simp) (by simp; omega)]
  simp only [Res.ok_bind]
  rw [cur_clears (bmpAddr_clears _) _ _ _ (by simp) (by simp [bmpAddr_length]; omega)]
  simp only [Res.ok_bind]
  rw [cur_modFrom (put32 _) _ _ _ (by simp [bmpAddr_length]) (by simp [bmpAddr_length, behind_length]; omega), Res.ok_bind,
    cur_onFrom (writes_encodeAddrV4 _) _ _ _ (by simp [bmpAddr_length]) (by simp [bmpAddr_length, behind_length]; omega)]
  simp only [Res.ok_bind]
  rw [cur_modFrom (put64 _) _ _ _ (by simp [bmpAddr_length]) (by simp [bmpAddr_length, behind_length]; omega), Res.ok_bind]
  simp only [drop_behind, List.drop_drop, be_length, rdBody_length, bmpAddr_length]
  simp [peerHeaderWire, rdBody]

theorem peerHeader_reads (h : BmpMessagePeerHeader) :
    Reads BmpMessagePeerHeader.decodeFrom (peerHeaderWire h) { h with peeraddress := addrRead h.peeraddress } := by
  intro rest
  rw [BmpMessagePeerHeader.decodeFrom, if_neg (by simp [peerHeaderWire_length])]
  have hr := rd_reads h.peerdistinguisher
  simp only [Reads, rdBody, List.append_assoc] at hr
  have ha : ∀ (t : Bytes) (k : Nat), 16 ≤ k → rfrom (bmpAddr h.peeraddress ++ t) k = rfrom t (k - 16) := by
    intro t k hk
    have := bmpAddr_length h.peeraddress
    simp only [rfrom, List.length_append]
    split
    · rw [if_pos (by omega), List.drop_append, List.drop_eq_nil_of_le (by omega), this]; rfl
    · rw [if_neg (by omega)]
  simp only [peerHeaderWire, List.append_assoc]
  rw [idx_be1, Res.ok_bind, idx_be_skip (by omega), idx_be1, Res.ok_bind]
  simp [ha, hr, bmpAddr_reads, getn32_be, decodeAddrV4_be, getn64_be, bmpAddr_length, -be1_eq]

theorem commonHeader_writes (h : BmpMessageHeader) : Writes h.encodeTo (commonHeaderWire h) := by
  intro buf hb
  simp only [commonHeaderWire, List.length_append, be_length] at *
  unfold BmpMessageHeader.encodeTo
  rw [if_neg (by omega)]
  have e := cur_setIdx [] buf 0 h.version rfl (by omega)
  rw [List.nil_append] at e
  rw [e, Res.ok_bind, cur_modFrom (put32 _) _ _ _ (by simp) (by simp; omega), Res.ok_bind]
  have e2 : be 4 (BitVec.ofNat 32 h.msglength).toNat = be 4 h.msglength := by
    rw [BitVec.toNat_ofNat]; exact be_congr_mod 4 _
  rw [e2]
  simp

theorem commonHeader_reads (h : BmpMessageHeader) (hv : h.version = 3) (hl : h.msglength < 2 ^ 32) :
    Reads BmpMessageHeader.decodeFrom (commonHeaderWire h) h := by
  intro rest
  rw [BmpMessageHeader.decodeFrom, if_neg (by simp [commonHeaderWire])]
  simp only [commonHeaderWire, List.append_assoc]
  rw [idx_be1, Res.ok_bind, if_neg (by simp [hv]), rslice_be_skip (by omega) (by omega), rslice_be_hit, Res.ok_bind,
    getn32_four]
  simp only [Res.ok_bind]
  obtain ⟨v, n⟩ := h
  simp at *
  omega

/-! ## Information TLVs -/

theorem infoWire_length (ty : Nat) (s : Bytes) : (infoWire ty s).length = 4 + s.length := by
  simp [infoWire]; omega

theorem be2_ofNat (n : Nat) : be 2 (BitVec.ofNat 16 n).toNat = be 2 n := by
  rw [BitVec.toNat_ofNat]; exact be_congr_mod 2 _

theorem info_writes (x : BmpInfoVal) : Writes x.encodeTo (infoWire x.infotype.toNat x.info) := by
  intro buf hb
  rw [infoWire_length] at *
  unfold BmpInfoVal.encodeTo
  rw [if_neg (by omega)]
  have e := cur_modFrom (put16 x.infotype) [] buf 0 rfl (by simp; omega)
  simp only [List.nil_append] at e
  rw [e, Res.ok_bind, cur_modFrom (put16 _) _ _ _ (by simp) (by simp; omega), Res.ok_bind,
    cur_copyAt _ _ _ _ _ (by simp) (by simp) (by simp; omega)]
  simp only [Res.ok_bind, List.drop_drop, be_length, be2_ofNat]
  simp [infoWire]

theorem info_reads (ty : Nat) (s : Bytes) (ht : ty < 65536) (hs : InfoOk s) :
    Reads BmpInfoVal.decodeFrom (infoWire ty s) ⟨BitVec.ofNat 16 ty, s⟩ := by
  intro rest
  have hl : (BitVec.ofNat 16 s.length).toNat = s.length := by
    have := hs.2
    simp; omega
  rw [BmpInfoVal.decodeFrom, if_neg (by simp [infoWire_length]; omega)]
  simp only [infoWire, List.append_assoc]
  rw [getn16_be, Res.ok_bind, rslice_be_skip (by omega) (by omega), rslice_be_hit, Res.ok_bind, getn16_two]
  simp only [Res.ok_bind, hl]
  rw [if_neg (by simp; omega), rslice_be_skip (by omega) (by omega), rslice_be_skip (by omega) (by omega),
    rslice_append_zero _ _ _ (by omega)]
  simp [BgpCapability.fromUtf8, (utf8Valid_iff _).2 hs.1]
  omega

/-- what a TLV of an initiation message does -/
def initStep (ret : BmpMessageInitiation) (t : Nat × Bytes) : BmpMessageInitiation :=
  match t.1 with
  | 0 => { ret with str0 := some t.2 }
  | 1 => { ret with sysDescr := some t.2 }
  | 2 => { ret with sysName := some t.2 }
  | _ => ret

theorem initLoop_reads (l : List (Nat × Bytes)) (h : ∀ t ∈ l, t.1 < 65536 ∧ InfoOk t.2) (pre : Bytes) (fuel : Nat)
    (hf : (l.flatMap fun t => infoWire t.1 t.2).length ≤ fuel) (ret : BmpMessageInitiation) :
    BmpMessageInitiation.loop (pre ++ l.flatMap fun t => infoWire t.1 t.2) fuel pre.length ret =
      .ok (l.foldl initStep ret, pre.length + (l.flatMap fun t => infoWire t.1 t.2).length) := by
  induction l generalizing pre fuel ret with
  | nil =>
    cases fuel <;> rw [BmpMessageInitiation.loop] <;> simp
  | cons t l ih =>
    have h1 := h t (by simp)
    simp only [List.flatMap_cons, List.length_append, infoWire_length] at hf ⊢
    cases fuel with
    | zero => omega
    | succ fuel =>
      rw [BmpMessageInitiation.loop]
      rw [if_pos (by simp [infoWire_length])]
      simp only
      rw [rfrom_append _ _ _ rfl, Res.ok_bind, info_reads _ _ h1.1 h1.2]
      simp only [Res.ok_bind]
      have e : (BitVec.ofNat 16 t.1).toNat = t.1 := by simp; omega
      have := ih (fun t ht => h t (by simp [ht])) (pre ++ infoWire t.1 t.2) fuel (by omega) (initStep ret t)
      simp only [List.length_append, List.append_assoc] at this
      simp only [e, List.foldl_cons]
      rw [← infoWire_length t.1 t.2, ← Nat.add_assoc, ← this]
      rfl

theorem initStep_fields (l : List (Nat × Bytes)) (ret : BmpMessageInitiation) :
    l.foldl initStep ret =
      ⟨(lastOf 0 l).or ret.str0, (lastOf 1 l).or ret.sysDescr, (lastOf 2 l).or ret.sysName⟩ := by
  induction l generalizing ret with
  | nil => rfl
  | cons t l ih =>
    rw [List.foldl_cons, ih]
    have key : ∀ (ty : Nat), lastOf ty (t :: l) = (lastOf ty l).or (if t.1 = ty then some t.2 else none) := by
      intro ty
      unfold lastOf
      rw [List.filter_cons]
      by_cases hc : t.1 = ty
      · simp only [hc, beq_self_eq_true, if_true, List.getLast?_cons]
        cases h : (List.filter (fun t => t.1 == ty) l).getLast? <;> simp
      · have : (t.1 == ty) = false := by simp [hc]
        simp [this, hc]
    rw [key, key, key]
    obtain ⟨ty, s⟩ := t
    unfold initStep
    match ty with
    | 0 => simp
    | 1 => simp
    | 2 => simp
    | n + 3 => simp

/-- what a TLV of a termination message does; `rest` is what follows it -/
def termStep (ret : BmpMessageTermination) (ty : Nat) (v rest : Bytes) : Res BmpMessageTermination :=
  match ty with
  | 0 => do .ok { ret with str0 := some (← BgpCapability.fromUtf8 v) }
  | 1 => do .ok { ret with reason := some (← getn16 (v ++ rest)) }
  | _ => .ok ret

theorem termLoop_step (pre v rest : Bytes) (ty fuel : Nat) (ret : BmpMessageTermination) (ht : ty < 65536)
    (hv : v.length ≤ 65535) :
    BmpMessageTermination.loop (pre ++ (infoWire ty v ++ rest)) (fuel + 1) pre.length ret =
      (do let ret ← termStep ret ty v rest
          BmpMessageTermination.loop ((pre ++ infoWire ty v) ++ rest) fuel (pre ++ infoWire ty v).length ret) := by
  have hl : (BitVec.ofNat 16 v.length).toNat = v.length := by simp; omega
  have e : (BitVec.ofNat 16 ty).toNat = ty := by simp; omega
  rw [BmpMessageTermination.loop]
  have s1 : subN (pre ++ (infoWire ty v ++ rest)).length pre.length = .ok (4 + v.length + rest.length) := by
    unfold subN
    rw [if_pos (by simp)]
    congr 1
    simp [infoWire_length]
  have s2 : subN (pre ++ (infoWire ty v ++ rest)).length (pre.length + 4) = .ok (v.length + rest.length) := by
    unfold subN
    rw [if_pos (by simp [infoWire_length]; omega)]
    congr 1
    simp [infoWire_length]
    omega
  rw [s1, Res.ok_bind, if_pos (by omega)]
  simp only [s2]
  rw [rfrom_append _ _ _ rfl, Res.ok_bind]
  have w : pre ++ (infoWire ty v ++ rest) = (pre ++ be 2 ty) ++ (be 2 v.length ++ (v ++ rest)) := by
    simp [infoWire]
  have w2 : pre ++ (infoWire ty v ++ rest) = (pre ++ be 2 ty ++ be 2 v.length) ++ (v ++ rest) := by
    simp [infoWire]
  have g1 : getn16 (infoWire ty v ++ rest) = .ok (BitVec.ofNat 16 ty) := by
    simp only [infoWire, List.append_assoc]
    exact getn16_be _ _
  have r2 : rfrom (pre ++ (infoWire ty v ++ rest)) (pre.length + 2) = .ok (be 2 v.length ++ (v ++ rest)) := by
    rw [w]; exact rfrom_append _ _ _ (by simp)
  have r4 : rfrom (pre ++ (infoWire ty v ++ rest)) (pre.length + 4) = .ok (v ++ rest) := by
    rw [w2]; exact rfrom_append _ _ _ (by simp)
  have s4 : rslice (pre ++ (infoWire ty v ++ rest)) (pre.length + 4) (pre.length + 4 + v.length) = .ok v := by
    rw [w2]; exact rslice_append_mid _ _ _ _ _ (by simp) (by simp)
  rw [g1, Res.ok_bind, r2, Res.ok_bind, getn16_be]
  simp only [Res.ok_bind, hl, e, r4, s4]
  rw [if_neg (by omega)]
  have p : pre.length + 4 + v.length = (pre ++ infoWire ty v).length := by simp [infoWire_length]; omega
  rw [p, List.append_assoc]
  unfold termStep
  match ty with
  | 0 => simp only [bind_assoc, Res.ok_bind]
  | 1 => simp only [bind_assoc, Res.ok_bind]
  | n + 2 => rfl

theorem termLoop_stop (pre rest : Bytes) (fuel : Nat) (ret : BmpMessageTermination) (h : rest.length < 4) :
    BmpMessageTermination.loop (pre ++ rest) fuel pre.length ret = .ok (ret, pre.length) := by
  have s1 : subN (pre ++ rest).length pre.length = .ok rest.length := by
    unfold subN
    rw [if_pos (by simp)]
    congr 1
    simp
  cases fuel <;> rw [BmpMessageTermination.loop, s1, Res.ok_bind, if_neg (by omega)]

/-- a TLV whose value is cut off -/
theorem termLoop_short (pre v : Bytes) (ty n fuel : Nat) (ret : BmpMessageTermination)
    (hv : v.length < n) (hn : n < 65536) :
    BmpMessageTermination.loop (pre ++ (be 2 ty ++ (be 2 n ++ v))) (fuel + 1) pre.length ret =
      .err .insufficientBufferSize := by
  have hl : (BitVec.ofNat 16 n).toNat = n := by simp; omega
  rw [BmpMessageTermination.loop]
  have s1 : subN (pre ++ (be 2 ty ++ (be 2 n ++ v))).length pre.length = .ok (4 + v.length) := by
    unfold subN
    rw [if_pos (by simp)]
    congr 1
    simp
    omega
  have s2 : subN (pre ++ (be 2 ty ++ (be 2 n ++ v))).length (pre.length + 4) = .ok v.length := by
    unfold subN
    rw [if_pos (by simp; omega)]
    congr 1
    simp
    omega
  rw [s1, Res.ok_bind, if_pos (by omega)]
  simp only [s2]
  rw [rfrom_append _ _ _ rfl, Res.ok_bind, getn16_be, Res.ok_bind]
  have r2 : rfrom (pre ++ (be 2 ty ++ (be 2 n ++ v))) (pre.length + 2) = .ok (be 2 n ++ v) := by
    rw [← List.append_assoc]; exact rfrom_append _ _ _ (by simp)
  rw [r2, Res.ok_bind, getn16_be]
  simp only [Res.ok_bind, hl]
  rw [if_pos hv]

theorem encodeStr_writes (s : Option Bytes) (pre t : Bytes) (ht : (optInfo 0 s).length ≤ t.length) :
    BmpMessageTermination.encodeStr s (pre ++ t) pre.length =
      .ok ((pre ++ optInfo 0 s) ++ t.drop (optInfo 0 s).length, (pre ++ optInfo 0 s).length) := by
  cases s with
  | none => simp [BmpMessageTermination.encodeStr, optInfo]
  | some s =>
    simp only [optInfo, infoWire_length] at ht ⊢
    rw [BmpMessageTermination.encodeStr]
    have s1 : subN (pre ++ t).length pre.length = .ok t.length := by
      unfold subN
      rw [if_pos (by simp)]
      congr 1
      simp
    rw [s1, Res.ok_bind, if_neg (by omega), cur_modFrom (put16 0) _ _ _ rfl (by simp; omega), Res.ok_bind,
      cur_modFrom (put16 _) _ _ _ (by simp) (by simp; omega), Res.ok_bind,
      cur_copyAt _ _ _ _ _ (by simp) (by simp) (by simp; omega)]
    simp only [Res.ok_bind, be2_ofNat, List.drop_drop, be_length]
    simp only [infoWire, List.append_assoc, List.length_append, be_length]
    simp [Nat.add_assoc]
    omega

theorem encodeReason_writes (r : Option U16) (pre t : Bytes)
    (ht : (optInfo 1 (r.map fun r => be 2 r.toNat)).length ≤ t.length) :
    BmpMessageTermination.encodeReason r (pre ++ t) pre.length =
      .ok ((pre ++ optInfo 1 (r.map fun r => be 2 r.toNat)) ++ t.drop (optInfo 1 (r.map fun r => be 2 r.toNat)).length,
        (pre ++ optInfo 1 (r.map fun r => be 2 r.toNat)).length) := by
  cases r with
  | none => simp [BmpMessageTermination.encodeReason, optInfo]
  | some r =>
    simp only [Option.map_some, optInfo, infoWire_length, be_length] at ht ⊢
    rw [BmpMessageTermination.encodeReason]
    have s1 : subN (pre ++ t).length pre.length = .ok t.length := by
      unfold subN
      rw [if_pos (by simp)]
      congr 1
      simp
    rw [s1, Res.ok_bind, if_neg (by omega), cur_modFrom (put16 1) _ _ _ rfl (by simp; omega), Res.ok_bind,
      cur_modFrom (put16 2) _ _ _ (by simp) (by simp; omega), Res.ok_bind,
      cur_modFrom (put16 r) _ _ _ (by simp) (by simp; omega)]
    simp only [Res.ok_bind, List.drop_drop, be_length]
    simp only [infoWire, List.append_assoc, List.length_append, be_length]
    simp

theorem term_writes (x : BmpMessageTermination) : Writes x.encodeTo (terminationWire x) := by
  intro buf hb
  simp only [terminationWire, List.length_append] at *
  unfold BmpMessageTermination.encodeTo
  have e := encodeStr_writes x.str0 [] buf (by omega)
  simp only [List.nil_append, List.length_nil] at e
  rw [e]
  simp only [Res.ok_bind]
  rw [encodeReason_writes _ _ _ (by simp; omega)]
  simp [List.append_assoc]

theorem term_reads (x : BmpMessageTermination) (hs : ∀ s, x.str0 = some s → InfoOk s) (t : Bytes) (ht : t.length < 4) :
    BmpMessageTermination.decodeFrom (terminationWire x ++ t) = .ok (x, (terminationWire x).length) := by
  obtain ⟨s, r⟩ := x
  simp only at hs
  unfold BmpMessageTermination.decodeFrom
  have second : ∀ (pre : Bytes) (fuel : Nat), (optInfo 1 (r.map fun r => be 2 r.toNat)).length ≤ fuel →
      BmpMessageTermination.loop (pre ++ (optInfo 1 (r.map fun r => be 2 r.toNat) ++ t)) fuel pre.length ⟨s, none⟩ =
        .ok (⟨s, r⟩, (pre ++ optInfo 1 (r.map fun r => be 2 r.toNat)).length) := by
    intro pre fuel hf
    cases r with
    | none =>
      have := termLoop_stop pre t fuel ⟨s, none⟩ ht
      simpa [optInfo] using this
    | some r =>
      simp only [Option.map_some, optInfo, infoWire_length, be_length] at hf ⊢
      obtain ⟨fuel, rfl⟩ : ∃ f, fuel = f + 1 := ⟨fuel - 1, by omega⟩
      rw [termLoop_step pre (be 2 r.toNat) t 1 fuel _ (by omega) (by simp)]
      simp only [termStep, getn16_be, Res.ok_bind]
      rw [termLoop_stop _ _ _ _ ht]
      simp
  simp only [terminationWire, List.append_assoc, List.length_append]
  cases s with
  | none =>
    have := second [] (optInfo 1 (r.map fun r => be 2 r.toNat) ++ t).length (by simp)
    simpa [optInfo, BmpMessageTermination.new] using this
  | some s =>
    have e0 : optInfo 0 (some s) = infoWire 0 s := rfl
    rw [e0]
    have h0 := hs s rfl
    obtain ⟨fuel, hf⟩ : ∃ f, (infoWire 0 s).length + ((optInfo 1 (r.map fun r => be 2 r.toNat)).length + t.length) = f + 1 :=
      ⟨_, (by rw [infoWire_length]; omega : _ = (3 + s.length + (optInfo 1 (r.map fun r => be 2 r.toNat)).length + t.length) + 1)⟩
    rw [hf]
    have := termLoop_step [] s (optInfo 1 (r.map fun r => be 2 r.toNat) ++ t) 0 fuel .new (by omega) h0.2
    simp only [List.nil_append, List.length_nil] at this
    rw [this]
    simp only [termStep, BgpCapability.fromUtf8, (utf8Valid_iff _).2 h0.1, if_true, Res.ok_bind, BmpMessageTermination.new]
    rw [second _ _ (by rw [infoWire_length] at hf; omega)]
    simp

/-- every 42 octets are a per-peer header -/
theorem peerHeader_exists (b : Bytes) (h : 42 ≤ b.length) :
    ∃ x t, b = peerHeaderWire x ++ t ∧ Distinct x.peeraddress := by
  obtain ⟨v1, h1, e1⟩ := exists_be 1 (show 1 ≤ b.length by omega)
  obtain ⟨v2, h2, e2⟩ := exists_be 1 (show 1 ≤ (b.drop 1).length by simp; omega)
  obtain ⟨v3, h3, e3⟩ := exists_be 4 (show 4 ≤ (b.drop 2).length by simp; omega)
  obtain ⟨v4, h4, e4⟩ := exists_be 4 (show 4 ≤ (b.drop 6).length by simp; omega)
  obtain ⟨v5, h5, e5⟩ := exists_be 16 (show 16 ≤ (b.drop 10).length by simp; omega)
  obtain ⟨v6, h6, e6⟩ := exists_be 4 (show 4 ≤ (b.drop 26).length by simp; omega)
  obtain ⟨v7, h7, e7⟩ := exists_be 4 (show 4 ≤ (b.drop 30).length by simp; omega)
  obtain ⟨v8, h8, e8⟩ := exists_be 8 (show 8 ≤ (b.drop 34).length by simp; omega)
  simp only [List.drop_drop, Nat.reduceAdd, Nat.reducePow] at *
  let a : IpAddr := if v5 < 2 ^ 32 then .v4 (BitVec.ofNat 32 v5) else .v6 (BitVec.ofNat 128 v5)
  have ha : bmpAddr a = be 16 v5 ∧ Distinct a := by
    by_cases hc : v5 < 2 ^ 32
    · have : a = .v4 (BitVec.ofNat 32 v5) := if_pos hc
      rw [this]
      refine ⟨?_, trivial⟩
      have := be_split 12 4 v5
      simp only [Nat.reduceAdd, Nat.reducePow] at this
      rw [this, show v5 / 4294967296 = 0 by omega]
      simp only [bmpAddr, BitVec.toNat_ofNat]
      rw [Nat.mod_eq_of_lt (by omega)]
      rfl
    · have : a = .v6 (BitVec.ofNat 128 v5) := if_neg hc
      rw [this]
      simp only [bmpAddr, Distinct, BitVec.toNat_ofNat]
      rw [Nat.mod_eq_of_lt (by omega)]
      exact ⟨rfl, by omega⟩
  refine ⟨⟨BitVec.ofNat 8 v1, BitVec.ofNat 8 v2, ⟨BitVec.ofNat 32 v3, BitVec.ofNat 32 v4⟩, a, BitVec.ofNat 32 v6,
    BitVec.ofNat 32 v7, BitVec.ofNat 64 v8⟩, b.drop 42, ?_, ha.2⟩
  simp only [peerHeaderWire, ha.1, BitVec.toNat_ofNat, Nat.reducePow, List.append_assoc]
  rw [Nat.mod_eq_of_lt h1, Nat.mod_eq_of_lt h2, Nat.mod_eq_of_lt h3, Nat.mod_eq_of_lt h4, Nat.mod_eq_of_lt h6,
    Nat.mod_eq_of_lt h7, Nat.mod_eq_of_lt h8, ← e8, ← e7, ← e6, ← e5, ← e4, ← e3, ← e2, ← e1]

theorem addrRead_distinct {a : IpAddr} (h : Distinct a) : addrRead a = a := by
  cases a with
  | v4 a => rfl
  | v6 a => simp only [Distinct] at h; simp only [addrRead, if_pos h]

theorem addrRead_iff {a : IpAddr} : addrRead a = a ↔ Distinct a := by
  refine ⟨fun h => ?_, addrRead_distinct⟩
  cases a with
  | v4 a => trivial
  | v6 a =>
    apply Classical.byContradiction
    intro hc
    simp only [Distinct] at hc
    simp only [addrRead, if_neg hc] at h
    cases h

theorem peerHeader_reads' (x : BmpMessagePeerHeader) (h : Distinct x.peeraddress) (t : Bytes) :
    BmpMessagePeerHeader.decodeFrom (peerHeaderWire x ++ t) = .ok (x, 42) := by
  rw [peerHeader_reads x t, addrRead_distinct h, peerHeaderWire_length]

/-! ## Embedded BGP messages -/

theorem message_length (ty : BgpMessageType) (w : Bytes) : (message ty w).length = 19 + w.length := by
  simp [message, header_length]

theorem embedded_writes {enc : Enc} {w : Bytes} {c : Bool} (ty : BgpMessageType) (h : Clears c enc w) (hw : w.length ≤ 65516)
    (p t : Bytes) (ht : 19 + w.length ≤ t.length) :
    encodeEmbedded ty enc (p ++ t) p.length =
      .ok ((p ++ message ty w) ++ behind c (t.drop (message ty w).length), (p ++ message ty w).length) := by
  obtain ⟨m, t, rfl, hm, -⟩ := exists_split 19 (show 19 ≤ t.length by omega)
  unfold encodeEmbedded
  have e : p ++ (m ++ t) = (p ++ m) ++ t := by simp
  simp only [List.length_append, hm] at ht
  rw [e, cur_clears h _ _ _ (by simp [hm]) (by omega)]
  simp only [Res.ok_bind]
  rw [show p ++ m ++ w ++ behind c (t.drop w.length) = p ++ (m ++ (w ++ behind c (t.drop w.length))) by simp,
    onFrom_append _ _ _ _ rfl, prepare_ok _ _ _ hw (by simp [hm, behind_length]; omega)]
  simp only [Res.ok_bind]
  have ed : (m ++ t).drop (19 + w.length) = t.drop w.length := by
    rw [← List.drop_drop, List.drop_left' hm]
  rw [List.drop_left' hm, message_length, ed]
  simp only [message, List.append_assoc, List.length_append, header_length]
  congr 2
  omega

theorem embedded_reads {α : Type} {dec : Bytes → Res α} {w : Bytes} {m : α} (ty : BgpMessageType) (h : dec w = .ok m)
    (hw : w.length ≤ 65516) (p t : Bytes) :
    decodeEmbedded ty dec (p ++ (message ty w ++ t)) p.length = .ok (m, (p ++ message ty w).length) := by
  unfold decodeEmbedded
  rw [rfrom_append _ _ _ rfl, Res.ok_bind, show message ty w ++ t = header ty w.length ++ (w ++ t) by simp [message],
    decode_header _ _ hw]
  simp only [Res.ok_bind]
  rw [if_neg (by simp), ← List.append_assoc, rslice_append_mid _ w t _ _ (by simp [header_length]) (by simp [header_length]),
    Res.ok_bind, h]
  simp [message_length, Nat.add_assoc]

theorem embedded_dec {α : Type} (ty : BgpMessageType) (dec : Bytes → Res α) (w : Bytes)
    (hw : w.length ≤ 65516) (p t : Bytes) :
    decodeEmbedded ty dec (p ++ (message ty w ++ t)) p.length =
      (dec w >>= fun m => .ok (m, (p ++ message ty w).length)) := by
  unfold decodeEmbedded
  rw [rfrom_append _ _ _ rfl, Res.ok_bind, show message ty w ++ t = header ty w.length ++ (w ++ t) by simp [message],
    decode_header _ _ hw]
  simp only [Res.ok_bind]
  rw [if_neg (by simp), ← List.append_assoc, rslice_append_mid _ w t _ _ (by simp [header_length]) (by simp [header_length]),
    Res.ok_bind]
  simp [message_length, Nat.add_assoc]

theorem isErr_iff {α : Type} {r : Res α} : r.IsErr ↔ ∃ e, r = .err e := by
  cases r <;> simp [Res.IsErr]

theorem head_form (n : Nat) (t : BgpMessageType) (rest : Bytes) (hn : n < 65536) :
    BgpSessionParams.decodeMessageHead (List.replicate 16 255 ++ (be 2 n ++ (be 1 (typeCode t) ++ rest))) =
      if n < 19 then .panic else .ok (t, n - 19) := by
  by_cases h : n < 19
  · rw [if_pos h]
    unfold BgpSessionParams.decodeMessageHead
    rw [if_neg (by simp; omega), rslice_append_zero _ _ _ (by simp), Res.ok_bind,
      if_neg (by simp)]
    have e1 : idx (List.replicate 16 (255 : U8) ++ (be 2 n ++ (be 1 (typeCode t) ++ rest))) 18 =
        .ok (BitVec.ofNat 8 (typeCode t)) := by
      rw [show (List.replicate 16 (255 : U8) ++ (be 2 n ++ (be 1 (typeCode t) ++ rest))) =
        (List.replicate 16 (255 : U8) ++ be 2 n) ++ (BitVec.ofNat 8 (typeCode t) :: rest) by simp [be]]
      simp [idx, be_length]
    have e2 : rslice (List.replicate 16 (255 : U8) ++ (be 2 n ++ (be 1 (typeCode t) ++ rest))) 16 18 = .ok (be 2 n) :=
      rslice_append_mid _ _ _ _ _ (by simp) (by simp)
    rw [e1, Res.ok_bind, decode_typeCode, Res.ok_bind, e2, Res.ok_bind, getn16_two]
    simp only [Res.ok_bind]
    have : subC (BitVec.ofNat 16 n) (19 : U16) = .panic := by
      unfold subC
      rw [if_neg]
      have : (BitVec.ofNat 16 n).toNat = n := by simp; omega
      have h19 : (19 : U16).toNat = 19 := rfl
      rw [this, h19]
      omega
    rw [this]
    rfl
  · rw [if_neg h]
    have := decode_header t (n - 19) (by omega) rest
    rw [← this]
    simp only [header, List.append_assoc]
    rw [Nat.sub_add_cancel (by omega)]

theorem head_other (b : Bytes) : (BgpSessionParams.decodeMessageHead b).IsErr ∨
    ∃ n t rest, b = List.replicate 16 255 ++ (be 2 n ++ (be 1 (typeCode t) ++ rest)) ∧ n < 65536 := by
  by_cases h : b.length < 19
  · left; unfold BgpSessionParams.decodeMessageHead; rw [if_pos h]; trivial
  obtain ⟨m, t, rfl, hm, -⟩ := exists_split 16 (show 16 ≤ b.length by omega)
  simp only [List.length_append, hm] at h
  obtain ⟨v, hv, e⟩ := exists_be 2 (show 2 ≤ t.length by omega)
  match ht : t.drop 2, (show 0 < (t.drop 2).length by simp; omega) with
  | x :: rest, _ =>
    rw [ht] at e
    subst e
    unfold BgpSessionParams.decodeMessageHead
    rw [if_neg (by simp [hm]; omega), rslice_append_zero _ _ _ hm.symm, Res.ok_bind]
    by_cases hmark : m.any (fun q => q != 255) = true
    · left; rw [if_pos hmark]; trivial
    rw [if_neg hmark]
    have hm2 : m = List.replicate 16 255 := by
      rw [List.eq_replicate_iff]
      refine ⟨hm, fun b hb => ?_⟩
      simp only [List.any_eq_true, bne_iff_ne, ne_eq, not_exists, not_and, Classical.not_not] at hmark
      exact hmark b hb
    have e1 : idx (m ++ (be 2 v ++ x :: rest)) 18 = .ok x := by
      rw [show m ++ (be 2 v ++ x :: rest) = (m ++ be 2 v) ++ x :: rest by simp, idx,
        List.getElem?_append_right (by simp [hm])]
      simp [hm]
    rw [e1, Res.ok_bind]
    cases ht : BgpMessageType.decodeFrom x with
    | err e => left; trivial
    | panic => unfold BgpMessageType.decodeFrom at ht; split at ht <;> cases ht
    | hang => unfold BgpMessageType.decodeFrom at ht; split at ht <;> cases ht
    | ok t =>
      right
      refine ⟨v, t, rest, ?_, by simpa using hv⟩
      have : x = BitVec.ofNat 8 (typeCode t) := by
        apply BitVec.eq_of_toNat_eq
        unfold BgpMessageType.decodeFrom at ht
        split at ht <;> first | cases ht | skip
        all_goals (rename_i hx; rw [hx]; rfl)
      rw [hm2, this]
      simp [be]

theorem embedded_form {α : Type} (ty : BgpMessageType) (dec : Bytes → Res α) (p : Bytes) (n : Nat) (t : BgpMessageType)
    (rest : Bytes) (hn : n < 65536) :
    decodeEmbedded ty dec (p ++ (List.replicate 16 255 ++ (be 2 n ++ (be 1 (typeCode t) ++ rest)))) p.length =
      if n < 19 then .panic else if t ≠ ty then .err .static else if rest.length < n - 19 then .panic
      else dec (rest.take (n - 19)) >>= fun m => .ok (m, p.length + n) := by
  unfold decodeEmbedded
  rw [rfrom_append _ _ _ rfl, Res.ok_bind, head_form n t rest hn]
  by_cases h : n < 19
  · rw [if_pos h, if_pos h]; rfl
  rw [if_neg h, if_neg h]
  simp only [Res.ok_bind]
  by_cases ht : t = ty
  · rw [if_neg (by simp [ht]), if_neg (by simp [ht])]
    have e : p ++ (List.replicate 16 255 ++ (be 2 n ++ (be 1 (typeCode t) ++ rest))) =
      (p ++ (List.replicate 16 255 ++ (be 2 n ++ be 1 (typeCode t)))) ++ rest := by simp
    by_cases hr : rest.length < n - 19
    · rw [if_pos hr]
      have : rslice (p ++ (List.replicate 16 255 ++ (be 2 n ++ (be 1 (typeCode t) ++ rest)))) (p.length + 19)
          (p.length + 19 + (n - 19)) = .panic := by
        unfold rslice
        rw [if_neg]
        simp
        omega
      rw [this]
      rfl
    · rw [if_neg hr, e]
      have e2 : rest = rest.take (n - 19) ++ rest.drop (n - 19) := (List.take_append_drop _ _).symm
      rw [e2, rslice_append_mid _ _ _ _ _ (by simp) (by simp; omega), ← e2]
      simp only [Res.ok_bind]
      rw [show p.length + 19 + (n - 19) = p.length + n by omega]
  · rw [if_pos (by simpa using ht), if_pos ht]

theorem embedded_err {α : Type} (ty : BgpMessageType) (dec : Bytes → Res α) (p b : Bytes)
    (h : (BgpSessionParams.decodeMessageHead b).IsErr) : (decodeEmbedded ty dec (p ++ b) p.length).IsErr := by
  obtain ⟨e, he⟩ := isErr_iff.1 h
  unfold decodeEmbedded
  rw [rfrom_append _ _ _ rfl, Res.ok_bind, he]
  trivial

theorem form_inj {n n' : Nat} {t t' : BgpMessageType} {rest rest' : Bytes} (hn : n < 65536) (hn' : n' < 65536)
    (h : List.replicate 16 (255 : U8) ++ (be 2 n ++ (be 1 (typeCode t) ++ rest)) =
      List.replicate 16 255 ++ (be 2 n' ++ (be 1 (typeCode t') ++ rest'))) : n = n' ∧ t = t' ∧ rest = rest' := by
  have h := List.append_cancel_left h
  have h1 := List.append_inj h (by simp)
  have h2 := List.append_inj h1.2 (by simp)
  refine ⟨?_, ?_, h2.2⟩
  · have := congrArg unbe h1.1
    rw [unbe_be, unbe_be] at this
    omega
  · have := congrArg unbe h2.1
    rw [unbe_be, unbe_be] at this
    revert this
    cases t <;> cases t' <;> simp [typeCode]

theorem embedded_returns_iff {α : Type} (ty : BgpMessageType) (dec : Bytes → Res α) (p b : Bytes) :
    (decodeEmbedded ty dec (p ++ b) p.length).Returns ↔ ¬ EmbeddedDecCrash ty dec b := by
  rcases head_other b with he | ⟨n, t, rest, rfl, hn⟩
  · obtain ⟨e, h⟩ := isErr_iff.1 (embedded_err ty dec p b he)
    rw [h]
    simp only [Res.returns_err, true_iff]
    rintro ⟨n, t, rest, rfl, hn, hc⟩
    obtain ⟨e', he⟩ := isErr_iff.1 he
    rw [head_form _ _ _ hn] at he
    rcases hc with hc | ⟨rfl, hc⟩
    · rw [if_pos hc] at he; cases he
    · split at he <;> cases he
  · rw [embedded_form _ _ _ _ _ _ hn]
    have key : EmbeddedDecCrash ty dec (List.replicate 16 255 ++ (be 2 n ++ (be 1 (typeCode t) ++ rest))) ↔
        (n < 19 ∨ (t = ty ∧ (rest.length < n - 19 ∨ ¬ (dec (rest.take (n - 19))).Returns))) := by
      constructor
      · rintro ⟨n', t', rest', e, hn', hc⟩
        obtain ⟨rfl, rfl, rfl⟩ := form_inj hn hn' e
        exact hc
      · intro h; exact ⟨n, t, rest, rfl, hn, h⟩
    rw [key]
    by_cases h1 : n < 19
    · rw [if_pos h1]; simp [h1]
    rw [if_neg h1]
    by_cases h2 : t = ty
    · rw [if_neg (by simp [h2])]
      by_cases h3 : rest.length < n - 19
      · rw [if_pos h3]; simp [h2, h3]
      · rw [if_neg h3]
        simp only [h1, h2, h3, false_or, true_and, Classical.not_not]
        cases dec (rest.take (n - 19)) <;> simp
    · rw [if_pos h2]; simp [h1, h2]

theorem embedded_ok {α : Type} {ty : BgpMessageType} {dec : Bytes → Res α} {p b : Bytes} {m : α} {pos : Nat}
    (h : decodeEmbedded ty dec (p ++ b) p.length = .ok (m, pos)) :
    ∃ body rest, b = message ty body ++ rest ∧ body.length ≤ 65516 ∧ dec body = .ok m ∧
      pos = (p ++ message ty body).length := by
  rcases head_other b with he | ⟨n, t, rest, rfl, hn⟩
  · obtain ⟨e, he⟩ := isErr_iff.1 (embedded_err ty dec p b he)
    rw [he] at h; cases h
  · rw [embedded_form _ _ _ _ _ _ hn] at h
    split at h
    · cases h
    split at h
    · cases h
    split at h
    · cases h
    rename_i h1 h2 h3
    obtain ⟨m', hd, h⟩ := Res.bind_eq_ok.1 h
    cases h
    have h2 : t = ty := Classical.not_not.1 h2
    subst h2
    refine ⟨rest.take (n - 19), rest.drop (n - 19), ?_, by simp; omega, hd, ?_⟩
    · rw [show n = (rest.take (n - 19)).length + 19 by simp; omega]
      simp [message, header]
    · simp [message_length]; omega

theorem nh_head (b : Bytes) : NoHang (BgpSessionParams.decodeMessageHead b) := by
  unfold BgpSessionParams.decodeMessageHead
  nohang
  unfold BgpMessageType.decodeFrom
  nohang

theorem nh_embedded {α : Type} (ty : BgpMessageType) {dec : Bytes → Res α} (h : ∀ b, NoHang (dec b)) (b : Bytes) (pos : Nat) :
    NoHang (decodeEmbedded ty dec b pos) := by
  unfold decodeEmbedded
  refine nh_bind (nh_rfrom _ _) fun _ _ => nh_bind (nh_head _) fun _ _ => nh_ite nh_err ?_
  exact nh_bind (nh_rslice _ _ _) fun _ _ => nh_bind (h _) fun _ _ => nh_ok

/-! ## Initiation -/

theorem encodeInfo_writes (ty : U16) (s : Option Bytes) (pre t : Bytes) (ht : (optInfo ty.toNat s).length ≤ t.length) :
    BmpMessageInitiation.encodeInfo ty s (pre ++ t) pre.length =
      .ok ((pre ++ optInfo ty.toNat s) ++ t.drop (optInfo ty.toNat s).length, (pre ++ optInfo ty.toNat s).length) := by
  cases s with
  | none => simp [BmpMessageInitiation.encodeInfo, optInfo]
  | some s =>
    simp only [optInfo] at ht ⊢
    rw [BmpMessageInitiation.encodeInfo, cur_onFrom (info_writes ⟨ty, s⟩) _ _ _ rfl ht]
    simp

/-- what the encoder writes for an initiation message -/
theorem init_writes (x : BmpMessageInitiation) :
    Writes x.encodeTo (optInfo 0 x.str0 ++ (optInfo 0 x.sysDescr ++ optInfo 0 x.sysName)) := by
  intro buf hb
  simp only [List.length_append] at hb
  unfold BmpMessageInitiation.encodeTo
  have e := encodeInfo_writes 0 x.str0 [] buf (by simp; omega)
  simp only [List.nil_append, List.length_nil] at e
  rw [e]
  simp only [Res.ok_bind]
  rw [encodeInfo_writes 0 x.sysDescr _ _ (by simp; omega)]
  simp only [Res.ok_bind]
  rw [encodeInfo_writes 0 x.sysName _ _ (by simp; omega)]
  simp [List.append_assoc, Nat.add_assoc]

theorem init_decode (l : List (Nat × Bytes)) (h : ∀ t ∈ l, t.1 < 65536 ∧ InfoOk t.2) :
    BmpMessageInitiation.decodeFrom (l.flatMap fun t => infoWire t.1 t.2) =
      .ok (⟨lastOf 0 l, lastOf 1 l, lastOf 2 l⟩, (l.flatMap fun t => infoWire t.1 t.2).length) := by
  unfold BmpMessageInitiation.decodeFrom
  have := initLoop_reads l h [] _ (Nat.le_refl _) .new
  simp only [List.nil_append, List.length_nil, Nat.zero_add] at this
  rw [this, initStep_fields]
  simp [BmpMessageInitiation.new]

/-! ## Route monitoring, peer up, peer down -/

theorem rmon_clears (x : BmpMessageRouteMonitoring) (w : Bytes)
    (h : Writes (x.update.encodeTo (.ofPeerHeader x.peer)) w) (h0 : 1 ≤ w.length) (h1 : w.length ≤ 65516) :
    Clears (isV4 x.peer.peeraddress) x.encodeTo (peerHeaderWire x.peer ++ message .Update w) := by
  intro buf hb
  simp only [List.length_append, peerHeaderWire_length, message_length] at hb
  unfold BmpMessageRouteMonitoring.encodeTo
  rw [if_neg (by omega), peerHeader_clears x.peer buf (by simp [peerHeaderWire_length]; omega)]
  simp only [Res.ok_bind]
  rw [embedded_writes .Update (clears_false.2 h) h1 _ _ (by simp [behind_length, peerHeaderWire_length]; omega), drop_behind, behind_behind]
  simp

theorem rmon_reads (x : BmpMessageRouteMonitoring) (h : BmpMessagePeerHeader) (w rest : Bytes) (u : BgpUpdateMessage)
    (hh : h = { x.peer with peeraddress := addrRead x.peer.peeraddress })
    (hd : BgpUpdateMessage.new.decodeFrom (.ofPeerHeader h) w = .ok u) (h0 : 1 ≤ w.length) (h1 : w.length ≤ 65516) :
    BmpMessageRouteMonitoring.decodeFrom ((peerHeaderWire x.peer ++ message .Update w) ++ rest) =
      .ok (⟨h, u⟩, (peerHeaderWire x.peer ++ message .Update w).length) := by
  unfold BmpMessageRouteMonitoring.decodeFrom
  rw [if_neg (by simp [peerHeaderWire_length, message_length]; omega), List.append_assoc, peerHeader_reads, ← hh]
  simp only [Res.ok_bind]
  rw [embedded_reads .Update hd h1]
  rfl

theorem peerUpWire_length (x : BmpMessagePeerUp) (w1 w2 : Bytes) :
    (peerUpWire x w1 w2).length = 100 + w1.length + w2.length := by
  simp [peerUpWire, peerHeaderWire_length, bmpAddr_length, message_length]
  omega

theorem peerUp_clears (x : BmpMessagePeerUp) (w1 w2 : Bytes) (h1 : Writes x.msg1.encodeTo w1) (h2 : Writes x.msg2.encodeTo w2)
    (l1 : w1.length ≤ 65516) (l2 : w2.length ≤ 65516) :
    Clears (isV4 x.peer.peeraddress || isV4 x.localaddress) x.encodeTo (peerUpWire x w1 w2) := by
  intro buf hb
  rw [peerUpWire_length] at hb
  unfold BmpMessagePeerUp.encodeTo
  rw [if_neg (by omega), peerHeader_clears x.peer buf (by simp [peerHeaderWire_length]; omega)]
  simp only [Res.ok_bind]
  rw [cur_clears (bmpAddr_clears _) _ _ _ rfl (by simp [behind_length, peerHeaderWire_length, bmpAddr_length]; omega)]
  simp only [Res.ok_bind]
  rw [cur_modFrom (put16 _) _ _ _ (by simp [bmpAddr_length])
      (by simp [behind_length, peerHeaderWire_length, bmpAddr_length]; omega), Res.ok_bind,
    cur_modFrom (put16 _) _ _ _ (by simp [bmpAddr_length])
      (by simp [behind_length, peerHeaderWire_length, bmpAddr_length]; omega)]
  simp only [Res.ok_bind]
  have e : ∀ p : Bytes, p = peerHeaderWire x.peer ++ bmpAddr x.localaddress ++ be 2 x.localport.toNat ++
      be 2 x.remoteport.toNat → (peerHeaderWire x.peer).length + 16 + 2 + 2 = p.length := by
    intro p hp; subst hp; simp [bmpAddr_length]
  rw [e _ rfl, embedded_writes .Open (clears_false.2 h1) l1 _ _
    (by simp [behind_length, peerHeaderWire_length, bmpAddr_length]; omega)]
  simp only [Res.ok_bind]
  rw [embedded_writes .Open (clears_false.2 h2) l2 _ _
    (by simp [behind_length, peerHeaderWire_length, bmpAddr_length, message_length]; omega)]
  simp only [drop_behind, behind_behind, List.drop_drop]
  simp only [peerUpWire, List.append_assoc, Bool.or_false, be_length, List.length_append, Nat.add_assoc]

theorem bmpAddr_rfrom (a : IpAddr) (t : Bytes) (k : Nat) (hk : 16 ≤ k) : rfrom (bmpAddr a ++ t) k = rfrom t (k - 16) := by
  have := bmpAddr_length a
  simp only [rfrom, List.length_append]
  split
  · rw [if_pos (by omega), List.drop_append, List.drop_eq_nil_of_le (by omega), this]; rfl
  · rw [if_neg (by omega)]

theorem peerUp_reads (x : BmpMessagePeerUp) (w1 w2 rest : Bytes) (m1 m2 : BgpOpenMessage)
    (d1 : BgpOpenMessage.new.decodeFrom w1 = .ok m1) (d2 : BgpOpenMessage.new.decodeFrom w2 = .ok m2)
    (l1 : w1.length ≤ 65516) (l2 : w2.length ≤ 65516) :
    BmpMessagePeerUp.decodeFrom (peerUpWire x w1 w2 ++ rest) =
      .ok (⟨{ x.peer with peeraddress := addrRead x.peer.peeraddress }, addrRead x.localaddress, x.localport, x.remoteport,
        m1, m2⟩, (peerUpWire x w1 w2).length) := by
  unfold BmpMessagePeerUp.decodeFrom
  rw [if_neg (by simp [peerUpWire_length]; omega)]
  unfold peerUpWire
  simp only [List.append_assoc]
  rw [peerHeader_reads]
  simp only [Res.ok_bind, rfrom_append _ _ _ rfl]
  rw [bmpAddr_reads]
  have r1 : ∀ (k : Nat) (t : Bytes), rfrom (peerHeaderWire x.peer ++ t) ((peerHeaderWire x.peer).length + k) = rfrom t k := by
    intro k t
    simp only [rfrom, List.length_append]
    split
    · rw [if_pos (by omega)]; simp
    · rw [if_neg (by omega)]
  simp only [Res.ok_bind, r1]
  rw [bmpAddr_rfrom _ _ _ (by omega), bmpAddr_rfrom _ _ _ (by omega)]
  simp only [Nat.reduceSub]
  have r2 : ∀ t : Bytes, rfrom (be 2 x.localport.toNat ++ t) 2 = .ok t := by
    intro t; exact rfrom_append _ _ _ (by simp)
  have r0 : ∀ t : Bytes, rfrom t 0 = .ok t := by intro t; simp [rfrom]
  rw [r0, Res.ok_bind, getn16_be, Res.ok_bind, r2, Res.ok_bind, getn16_be]
  simp only [Res.ok_bind]
  have e : peerHeaderWire x.peer ++ (bmpAddr x.localaddress ++ (be 2 x.localport.toNat ++ (be 2 x.remoteport.toNat ++
      (message .Open w1 ++ (message .Open w2 ++ rest))))) =
    (peerHeaderWire x.peer ++ (bmpAddr x.localaddress ++ (be 2 x.localport.toNat ++ be 2 x.remoteport.toNat))) ++
      (message .Open w1 ++ (message .Open w2 ++ rest)) := by simp
  have el : (peerHeaderWire x.peer).length + 20 =
      (peerHeaderWire x.peer ++ (bmpAddr x.localaddress ++ (be 2 x.localport.toNat ++ be 2 x.remoteport.toNat))).length := by
    simp [bmpAddr_length]
  rw [e, el, embedded_reads .Open d1 l1]
  simp only [Res.ok_bind]
  rw [← List.append_assoc, embedded_reads .Open d2 l2]
  simp

theorem notif_writes (m : BgpNotificationMessage) : Writes m.encodeTo (notifWire m) := by
  intro buf hb
  have hl : (notifWire m).length = 4 := by simp [notifWire, notificationWire]
  rw [hl] at *
  exact (Props.C10_notification_round_trip m .new buf hb).1

theorem notif_reads (m : BgpNotificationMessage) : BgpNotificationMessage.new.decodeFrom (notifWire m) = .ok m :=
  (Props.C10_notification_round_trip m .new [0, 0, 0, 0] (by decide)).2.1

theorem peerDownWire_length (x : BmpMessagePeerDown) : (peerDownWire x).length = 42 + (reasonWire x.reason).length := by
  simp [peerDownWire, peerHeaderWire_length]

theorem encodeNotification_writes (code : U8) (m : BgpNotificationMessage) (p t : Bytes) (ht : 24 ≤ t.length) :
    BmpMessagePeerDown.encodeNotification code m (p ++ t) p.length =
      .ok ((p ++ (be 1 code.toNat ++ message .Notification (notifWire m))) ++ t.drop 24,
        (p ++ (be 1 code.toNat ++ message .Notification (notifWire m))).length) := by
  have hl : (notifWire m).length = 4 := by simp [notifWire, notificationWire]
  unfold BmpMessagePeerDown.encodeNotification
  rw [cur_setIdx _ _ _ _ rfl (by omega), Res.ok_bind]
  have e : ∀ q t' : Bytes, q = p ++ be 1 code.toNat → 
      subN (q ++ t').length (p.length + 1) = .ok t'.length := by
    intro q t' hq
    subst hq
    unfold subN
    rw [if_pos (by simp)]
    congr 1
    simp
    try omega
  have ec : p ++ [code] = p ++ be 1 code.toNat := by simp
  simp only [be1_eq, BitVec.ofNat_toNat, BitVec.setWidth_eq] at *
  rw [e _ _ rfl, Res.ok_bind, if_neg (by simp; omega)]
  have el : p.length + 1 = (p ++ [code]).length := by simp
  rw [el, embedded_writes .Notification (clears_false.2 (notif_writes m)) (by omega) _ _ (by simp; omega)]
  simp [behind, message_length, hl]

theorem peerDown_clears (x : BmpMessagePeerDown) : Clears (isV4 x.peer.peeraddress) x.encodeTo (peerDownWire x) := by
  intro buf hb
  rw [peerDownWire_length] at hb
  have hr : 1 ≤ (reasonWire x.reason).length := by cases x.reason <;> simp [reasonWire]
  have hn : ∀ m, (notifWire m).length = 4 := by intro m; simp [notifWire, notificationWire]
  unfold BmpMessagePeerDown.encodeTo
  rw [if_neg (by omega), peerHeader_clears x.peer buf (by simp [peerHeaderWire_length]; omega)]
  simp only [Res.ok_bind]
  have hlen : ∀ n, 42 + n ≤ buf.length → n ≤ (behind (isV4 x.peer.peeraddress) (buf.drop (peerHeaderWire x.peer).length)).length := by
    intro n h; simp [behind_length, peerHeaderWire_length]; omega
  obtain ⟨h, r⟩ := x
  simp only [peerDownWire, List.length_append] at *
  cases r with
  | AdministrativelyClosed m =>
    simp only [reasonWire, List.length_append, be_length, message_length, hn] at hb ⊢
    rw [encodeNotification_writes _ _ _ _ (hlen _ (by omega))]
    simp [drop_behind, message_length, hn, peerHeaderWire_length]
  | LocalSystemState s =>
    simp only [reasonWire, List.length_append, be_length] at hb ⊢
    rw [cur_setIdx _ _ _ _ rfl (hlen 1 (by omega)), Res.ok_bind]
    have hl := hlen 3 (by omega)
    obtain ⟨t, hx⟩ : ∃ t, t = (behind (isV4 h.peeraddress) (buf.drop (peerHeaderWire h).length)) := ⟨_, rfl⟩
    rw [← hx] at hl ⊢
    have e : subN (peerHeaderWire h ++ [2] ++ t.drop 1).length ((peerHeaderWire h).length + 1) = .ok (t.length - 1) := by
      unfold subN
      rw [if_pos (by simp)]
      congr 1
      simp
      omega
    rw [e, Res.ok_bind, if_neg (by omega), cur_modFrom (put16 _) _ _ _ (by simp) (by simp; omega), Res.ok_bind, hx]
    simp only [drop_behind, List.drop_drop, be_length]
    simp
  | RemoteNotification m =>
    simp only [reasonWire, List.length_append, be_length, message_length, hn] at hb ⊢
    rw [encodeNotification_writes _ _ _ _ (hlen _ (by omega))]
    simp [drop_behind, message_length, hn, peerHeaderWire_length]
  | Remote =>
    simp only [reasonWire, List.length_append, be_length] at hb ⊢
    rw [cur_setIdx _ _ _ _ rfl (hlen 1 (by omega)), Res.ok_bind, drop_behind]
    simp
  | BmpDisabled =>
    simp only [reasonWire, List.length_append, be_length] at hb ⊢
    rw [cur_setIdx _ _ _ _ rfl (hlen 1 (by omega)), Res.ok_bind, drop_behind]
    simp

theorem peerDown_reads (x : BmpMessagePeerDown) :
    Reads BmpMessagePeerDown.decodeFrom (peerDownWire x)
      { x with peer := { x.peer with peeraddress := addrRead x.peer.peeraddress } } := by
  intro rest
  have hn : ∀ m, (notifWire m).length = 4 := by intro m; simp [notifWire, notificationWire]
  have hr : 1 ≤ (reasonWire x.reason).length := by cases x.reason <;> simp [reasonWire]
  unfold BmpMessagePeerDown.decodeFrom
  rw [if_neg (by simp [peerDownWire_length]; omega)]
  obtain ⟨h, r⟩ := x
  simp only [peerDownWire, List.append_assoc]
  rw [peerHeader_reads]
  simp only [Res.ok_bind]
  have hi : ∀ (c : U8) (t : Bytes), idx (peerHeaderWire h ++ c :: t) (peerHeaderWire h).length = .ok c := by
    intro c t; simp [idx]
  have key : ∀ (c : U8) (m : BgpNotificationMessage),
      decodeEmbedded .Notification BgpNotificationMessage.new.decodeFrom
        (peerHeaderWire h ++ c :: (message .Notification (notifWire m) ++ rest)) ((peerHeaderWire h).length + 1) =
      .ok (m, (peerHeaderWire h ++ c :: message .Notification (notifWire m)).length) := by
    intro c m
    have := embedded_reads .Notification (notif_reads m) (by rw [hn]; omega) (peerHeaderWire h ++ [c]) rest
    simpa using this
  cases r with
  | AdministrativelyClosed m =>
    simp only [reasonWire, be1_eq, List.cons_append, List.nil_append, List.append_assoc]
    rw [hi, Res.ok_bind]
    have := key 1#8 m
    simp only [BmpMessagePeerDown.decodeReason]
    simp [this]
  | LocalSystemState s =>
    simp only [reasonWire, be1_eq, List.cons_append, List.nil_append, List.append_assoc]
    rw [hi, Res.ok_bind]
    simp only [BmpMessagePeerDown.decodeReason]
    have e : subN (peerHeaderWire h ++ BitVec.ofNat 8 2 :: (be 2 s.toNat ++ rest)).length ((peerHeaderWire h).length + 1) =
        .ok (2 + rest.length) := by
      unfold subN
      rw [if_pos (by simp)]
      congr 1
      simp
      omega
    have e2 : rslice (peerHeaderWire h ++ BitVec.ofNat 8 2 :: (be 2 s.toNat ++ rest)) ((peerHeaderWire h).length + 1)
        ((peerHeaderWire h).length + 1 + 2) = .ok (be 2 s.toNat) := by
      have := rslice_append_mid (peerHeaderWire h ++ [BitVec.ofNat 8 2]) (be 2 s.toNat) rest ((peerHeaderWire h).length + 1)
        ((peerHeaderWire h).length + 1 + 2) (by simp) (by simp)
      simpa using this
    simp only [show (BitVec.ofNat 8 2).toNat = 2 from rfl, e, e2, Res.ok_bind]
    rw [if_neg (by omega), unbe_be]
    have := s.isLt
    rw [Nat.mod_eq_of_lt (by omega)]
    simp
  | RemoteNotification m =>
    simp only [reasonWire, be1_eq, List.cons_append, List.nil_append, List.append_assoc]
    rw [hi, Res.ok_bind]
    have := key 3#8 m
    simp only [BmpMessagePeerDown.decodeReason]
    simp [this]
  | Remote =>
    simp only [reasonWire, be1_eq, List.cons_append, List.nil_append, List.append_assoc]
    rw [hi, Res.ok_bind]
    simp [BmpMessagePeerDown.decodeReason]
  | BmpDisabled =>
    simp only [reasonWire, be1_eq, List.cons_append, List.nil_append, List.append_assoc]
    rw [hi, Res.ok_bind]
    simp [BmpMessagePeerDown.decodeReason]

/-! ## Endless loops -/

theorem nh_getn64 (b : Bytes) : NoHang (getn64 b) := by unfold getn64; nohang
theorem nh_bmpAddr (b : Bytes) : NoHang (decodeBmpAddr b) := by unfold decodeBmpAddr; nohang
theorem nh_utf8 (b : Bytes) : NoHang (BgpCapability.fromUtf8 b) := by unfold BgpCapability.fromUtf8; nohang
macro_rules | `(tactic| nh_atom) => `(tactic| first | exact nh_getn64 _ | exact nh_bmpAddr _ | exact nh_utf8 _)

theorem nh_peerHeader (b : Bytes) : NoHang (BmpMessagePeerHeader.decodeFrom b) := by
  unfold BmpMessagePeerHeader.decodeFrom; nohang
theorem nh_info (b : Bytes) : NoHang (BmpInfoVal.decodeFrom b) := by unfold BmpInfoVal.decodeFrom; nohang
macro_rules | `(tactic| nh_atom) => `(tactic| first | exact nh_peerHeader _ | exact nh_info _)

theorem info_consumes {b : Bytes} {x : BmpInfoVal} {n : Nat} (h : BmpInfoVal.decodeFrom b = .ok (x, n)) : 4 ≤ n := by
  unfold BmpInfoVal.decodeFrom at h
  split at h
  · cases h
  obtain ⟨_, -, h⟩ := Res.bind_eq_ok.1 h
  obtain ⟨_, -, h⟩ := Res.bind_eq_ok.1 h
  obtain ⟨_, -, h⟩ := Res.bind_eq_ok.1 h
  simp only at h
  split at h
  · cases h
  obtain ⟨_, -, h⟩ := Res.bind_eq_ok.1 h
  obtain ⟨_, -, h⟩ := Res.bind_eq_ok.1 h
  cases h
  omega

theorem nh_initLoop (b : Bytes) (fuel pos : Nat) (hf : b.length ≤ fuel + pos) (ret : BmpMessageInitiation) :
    NoHang (BmpMessageInitiation.loop b fuel pos ret) := by
  induction fuel generalizing pos ret with
  | zero => rw [BmpMessageInitiation.loop, if_neg (by omega)]; exact nh_ok
  | succ fuel ih =>
    rw [BmpMessageInitiation.loop]
    split
    · refine nh_bind (nh_rfrom _ _) fun _ _ => nh_bind (nh_info _) fun r hr => ?_
      have := info_consumes (x := r.1) (n := r.2) hr
      exact ih _ (by omega) _
    · exact nh_ok

theorem nh_termLoop (b : Bytes) (fuel pos : Nat) (hf : b.length ≤ fuel + pos) (ret : BmpMessageTermination) :
    NoHang (BmpMessageTermination.loop b fuel pos ret) := by
  induction fuel generalizing pos ret with
  | zero =>
    rw [BmpMessageTermination.loop]
    refine nh_bind (nh_subN _ _) fun l hl => ?_
    unfold subN at hl
    split at hl
    · simp only [Res.ok.injEq] at hl
      rw [if_neg (by omega)]
      exact nh_ok
    · cases hl
  | succ fuel ih =>
    rw [BmpMessageTermination.loop]
    refine nh_bind (nh_subN _ _) fun l hl => ?_
    split
    · refine nh_bind (nh_rfrom _ _) fun _ _ => nh_bind (nh_getn16 _) fun _ _ => nh_bind (nh_rfrom _ _) fun _ _ =>
        nh_bind (nh_getn16 _) fun _ _ => nh_bind (nh_subN _ _) fun _ _ => ?_
      refine nh_ite nh_err ?_
      split
      · refine nh_bind (nh_rslice _ _ _) fun _ _ => nh_bind (nh_utf8 _) fun _ _ => nh_bind nh_ok fun _ _ => ?_
        exact ih _ (by omega) _
      · refine nh_bind (nh_rfrom _ _) fun _ _ => nh_bind (nh_getn16 _) fun _ _ => nh_bind nh_ok fun _ _ => ?_
        exact ih _ (by omega) _
      · refine nh_bind nh_ok fun _ _ => ?_
        exact ih _ (by omega) _
    · exact nh_ok

theorem nh_open (m : BgpOpenMessage) (b : Bytes) : NoHang (m.decodeFrom b) := nh_of_returns (Props.C06_open_decode_total m b)
theorem nh_notif (m : BgpNotificationMessage) (b : Bytes) : NoHang (m.decodeFrom b) :=
  nh_of_returns (Props.C10_notification_total m m b).1

theorem nh_rmon (b : Bytes) : NoHang (BmpMessageRouteMonitoring.decodeFrom b) := by
  unfold BmpMessageRouteMonitoring.decodeFrom
  refine nh_ite nh_err (nh_bind (nh_peerHeader _) fun _ _ => nh_bind (nh_embedded _ (fun _ => nh_update _ _ _) _ _) fun _ _ => nh_ok)
theorem nh_decodeRm (s : BMPSession) (b : Bytes) : NoHang (s.decodeRm b) := by
  unfold BMPSession.decodeRm
  refine nh_ite nh_err (nh_bind (nh_peerHeader _) fun _ _ => nh_bind (nh_embedded _ (fun _ => nh_update _ _ _) _ _) fun _ _ => nh_ok)
theorem nh_peerUp (b : Bytes) : NoHang (BmpMessagePeerUp.decodeFrom b) := by
  unfold BmpMessagePeerUp.decodeFrom
  refine nh_ite nh_err (nh_bind (nh_peerHeader _) fun _ _ => nh_bind (nh_rfrom _ _) fun _ _ => nh_bind (nh_bmpAddr _) fun _ _ =>
    nh_bind (nh_rfrom _ _) fun _ _ => nh_bind (nh_getn16 _) fun _ _ => nh_bind (nh_rfrom _ _) fun _ _ =>
    nh_bind (nh_getn16 _) fun _ _ => nh_bind (nh_embedded _ (fun _ => nh_open _ _) _ _) fun _ _ =>
    nh_bind (nh_embedded _ (fun _ => nh_open _ _) _ _) fun _ _ => nh_ok)
theorem nh_peerDown (b : Bytes) : NoHang (BmpMessagePeerDown.decodeFrom b) := by
  unfold BmpMessagePeerDown.decodeFrom
  refine nh_ite nh_err (nh_bind (nh_peerHeader _) fun _ _ => nh_bind (nh_idx _ _) fun _ _ => nh_bind ?_ fun _ _ => nh_ok)
  unfold BmpMessagePeerDown.decodeReason
  have := nh_embedded .Notification (nh_notif BgpNotificationMessage.new)
  split
  · exact nh_bind (this _ _) fun _ _ => nh_ok
  · nohang
  · exact nh_bind (this _ _) fun _ _ => nh_ok
  · exact nh_ok
  · exact nh_ok
  · exact nh_err

theorem nh_bmp (b : Bytes) : NoHang (BmpMessage.decodeFrom b) := by
  unfold BmpMessage.decodeFrom
  refine nh_bind (nh_idx _ _) fun _ _ => ?_
  split
  · exact nh_bind (nh_rfrom _ _) fun _ _ => nh_bind (nh_rmon _) fun _ _ => nh_ok
  · exact nh_ok
  · exact nh_bind (nh_rfrom _ _) fun _ _ => nh_bind (nh_peerDown _) fun _ _ => nh_ok
  · exact nh_bind (nh_rfrom _ _) fun _ _ => nh_bind (nh_peerUp _) fun _ _ => nh_ok
  · exact nh_bind (nh_rfrom _ _) fun _ _ => nh_bind (nh_initLoop _ _ _ (by omega) _) fun _ _ => nh_ok
  · exact nh_bind (nh_rfrom _ _) fun _ _ => nh_bind (nh_termLoop _ _ _ (by omega) _) fun _ _ => nh_ok
  · exact nh_ok
  · exact nh_err

/-! ## Crashes -/

theorem info_returns (b : Bytes) : (BmpInfoVal.decodeFrom b).Returns := by
  unfold BmpInfoVal.decodeFrom
  split
  · simp
  · rename_i h
    obtain ⟨ty, -, e⟩ := exists_be 2 (show 2 ≤ b.length by omega)
    obtain ⟨n, hn, e2⟩ := exists_be 2 (show 2 ≤ (b.drop 2).length by simp; omega)
    rw [e2] at e
    generalize (b.drop 2).drop 2 = v at *
    subst e
    rw [getn16_be, Res.ok_bind, rslice_be_skip (by omega) (by omega), rslice_be_hit, Res.ok_bind, getn16_two]
    simp only [Res.ok_bind]
    split
    · simp
    · rename_i h2
      rw [rslice_ok (by omega) (by simp at h2 ⊢; omega)]
      unfold BgpCapability.fromUtf8
      simp only [Res.ok_bind]
      split <;> simp

theorem initLoop_returns (b : Bytes) (fuel pos : Nat) (hf : b.length ≤ fuel + pos) (ret : BmpMessageInitiation) :
    (BmpMessageInitiation.loop b fuel pos ret).Returns := by
  induction fuel generalizing pos ret with
  | zero => rw [BmpMessageInitiation.loop, if_neg (by omega)]; simp
  | succ fuel ih =>
    rw [BmpMessageInitiation.loop]
    split
    · rw [rfrom_ok (by omega), Res.ok_bind]
      have := info_returns (b.drop pos)
      cases hr : BmpInfoVal.decodeFrom (b.drop pos) with
      | ok r =>
        have := info_consumes (x := r.1) (n := r.2) hr
        simp only [Res.ok_bind]
        exact ih _ (by omega) _
      | err e => simp
      | panic => rw [hr] at this; exact this
      | hang => rw [hr] at this; exact this
    · simp

theorem be2_inj {a b : Nat} (ha : a < 65536) (hb : b < 65536) (h : be 2 a = be 2 b) : a = b := by
  have := congrArg unbe h
  rw [unbe_be, unbe_be] at this
  omega

theorem termCrash_step (ty n : Nat) (v : Bytes) (ht : ty < 65536) (hn : n < 65536) :
    TermCrash (be 2 ty ++ (be 2 n ++ v)) ↔ (ty = 1 ∧ n ≤ v.length ∧ v.length < 2) ∨
      (n ≤ v.length ∧ (ty = 0 → Utf8 (v.take n)) ∧ TermCrash (v.drop n)) := by
  constructor
  · rintro ⟨l, n', r, e, h1, h2, h3⟩
    cases l with
    | nil =>
      left
      simp only [List.flatMap_nil, List.nil_append] at e
      have e1 := List.append_inj e (by simp)
      have e2 := List.append_inj e1.2 (by simp)
      have := be2_inj ht (by omega) e1.1
      have := be2_inj hn (by omega) e2.1
      rw [e2.2]
      omega
    | cons t l =>
      right
      have ht' := h3 t (by simp)
      simp only [List.flatMap_cons, infoWire, List.append_assoc] at e
      have e1 := List.append_inj e (by simp)
      have e2 := List.append_inj e1.2 (by simp)
      have a1 := be2_inj ht ht'.1 e1.1
      have a2 := be2_inj hn (by omega) e2.1
      rw [e2.2, a2, List.take_left' rfl, List.drop_left' rfl, a1]
      refine ⟨by simp, ht'.2.2, l, n', r, ?_, h1, h2, fun t ht => h3 t (by simp [ht])⟩
      simp [infoWire]
  · rintro (⟨rfl, h1, h2⟩ | ⟨h1, h2, l, n', r, e, h3, h4, h5⟩)
    · exact ⟨[], n, v, rfl, h1, h2, by simp⟩
    · refine ⟨(ty, v.take n) :: l, n', r, ?_, h3, h4, ?_⟩
      · have e3 : v = v.take n ++ v.drop n := (List.take_append_drop _ _).symm
        rw [e] at e3
        have hl : (v.take n).length = n := by simp; omega
        rw [List.flatMap_cons]
        show _ = ((be 2 ty ++ (be 2 (v.take n).length ++ v.take n)) ++ _) ++ _
        rw [hl]
        simp only [List.append_assoc]
        rw [← e3]
      · intro t ht
        simp only [List.mem_cons] at ht
        rcases ht with rfl | ht
        · exact ⟨by assumption, by simp; omega, h2⟩
        · exact h5 t ht

theorem termLoop_returns_iff (k : Nat) (pre rest : Bytes) (hk : rest.length ≤ k) (fuel : Nat) (hf : rest.length ≤ fuel)
    (ret : BmpMessageTermination) :
    (BmpMessageTermination.loop (pre ++ rest) fuel pre.length ret).Returns ↔ ¬ TermCrash rest := by
  induction k generalizing pre rest fuel ret with
  | zero =>
    rw [termLoop_stop _ _ _ _ (by omega)]
    simp only [Res.returns_ok, true_iff]
    rintro ⟨l, n, r, e, -⟩
    have := congrArg List.length e
    simp at this
    omega
  | succ k ih =>
    by_cases h4 : rest.length < 4
    · rw [termLoop_stop _ _ _ _ h4]
      simp only [Res.returns_ok, true_iff]
      rintro ⟨l, n, r, e, -⟩
      have := congrArg List.length e
      simp at this
      omega
    obtain ⟨ty, hty, e⟩ := exists_be 2 (show 2 ≤ rest.length by omega)
    obtain ⟨n, hn, e2⟩ := exists_be 2 (show 2 ≤ (rest.drop 2).length by simp; omega)
    rw [e2] at e
    generalize (rest.drop 2).drop 2 = v at *
    subst e
    simp only [Nat.reducePow] at hty hn
    rw [termCrash_step _ _ _ hty hn]
    simp only [List.length_append, be_length] at hk hf
    obtain ⟨fuel, rfl⟩ : ∃ f, fuel = f + 1 := ⟨fuel - 1, by omega⟩
    by_cases hv : v.length < n
    · rw [termLoop_short _ _ _ _ _ _ hv hn]
      simp only [Res.returns_err, true_iff]
      rintro (⟨-, h, -⟩ | ⟨h, -⟩) <;> omega
    have hl : (v.take n).length = n := by simp; omega
    have ev : be 2 ty ++ (be 2 n ++ v) = infoWire ty (v.take n) ++ v.drop n := by
      simp [infoWire, hl]
    rw [ev, termLoop_step _ _ _ _ _ _ hty (by omega)]
    have hrec : ∀ ret', (BmpMessageTermination.loop ((pre ++ infoWire ty (v.take n)) ++ v.drop n) fuel
        (pre ++ infoWire ty (v.take n)).length ret').Returns ↔ ¬ TermCrash (v.drop n) := by
      intro ret'
      exact ih _ _ (by simp; omega) _ (by simp; omega) _
    unfold termStep
    match ty, hty with
    | 0, _ =>
      simp only [BgpCapability.fromUtf8]
      split
      · rename_i hu
        have hu := (utf8Valid_iff _).1 hu
        simp only [Res.ok_bind, hrec]
        simp [hu]
        omega
      · rename_i hu
        have hu' : ¬ Utf8 (v.take n) := fun h => hu ((utf8Valid_iff _).2 h)
        simp [hu']
    | 1, _ =>
      simp only [List.take_append_drop]
      by_cases h2 : v.length < 2
      · have : getn16 v = .panic := by
          match v, h2 with
          | [], _ => rfl
          | [_], _ => rfl
        rw [this]
        simp [h2]
        intro h; omega
      · obtain ⟨r, -, er⟩ := exists_be 2 (show 2 ≤ v.length by omega)
        have : getn16 v = .ok (BitVec.ofNat 16 r) := by rw [er]; exact getn16_be _ _
        rw [this]
        simp only [Res.ok_bind, hrec]
        simp [h2]
        omega
    | ty + 2, _ =>
      simp only [Res.ok_bind, hrec]
      simp
      omega

theorem term_returns_iff (b : Bytes) : (BmpMessageTermination.decodeFrom b).Returns ↔ ¬ TermCrash b := by
  have := termLoop_returns_iff _ [] b (Nat.le_refl _) b.length (Nat.le_refl _) .new
  simpa [BmpMessageTermination.decodeFrom] using this

theorem returns_bind_ok {α β : Type} {r : Res α} {f : α → β} : (r >>= fun a => .ok (f a)).Returns ↔ r.Returns := by
  cases r <;> simp

/-- the decoder of route monitoring messages, for any choice of the session parameters -/
theorem rmon_returns_iff (params : BmpMessagePeerHeader → BgpSessionParams) (b : Bytes) :
    (if b.length < 62 then (.err .insufficientBufferSize : Res (BmpMessageRouteMonitoring × Nat)) else do
      let (peer, pos) ← BmpMessagePeerHeader.decodeFrom b
      let (update, pos) ← decodeEmbedded .Update (BgpUpdateMessage.new.decodeFrom (params peer)) b pos
      .ok (⟨peer, update⟩, pos)).Returns ↔
    ¬ ∃ h body, b = peerHeaderWire h ++ body ∧ Distinct h.peeraddress ∧ 20 ≤ body.length ∧
      EmbeddedDecCrash .Update (BgpUpdateMessage.new.decodeFrom (params h)) body := by
  by_cases hb : b.length < 62
  · rw [if_pos hb]
    simp only [Res.returns_err, true_iff]
    rintro ⟨h, body, rfl, -, h2, -⟩
    simp [peerHeaderWire_length] at hb
    omega
  rw [if_neg hb]
  obtain ⟨h, t, rfl, hd⟩ := peerHeader_exists b (by omega)
  rw [peerHeader_reads' h hd]
  simp only [Res.ok_bind]
  have := embedded_returns_iff .Update (BgpUpdateMessage.new.decodeFrom (params h)) (peerHeaderWire h) t
  rw [peerHeaderWire_length] at this
  rw [returns_bind_ok (f := fun u : BgpUpdateMessage × Nat => ((⟨h, u.1⟩ : BmpMessageRouteMonitoring), u.2)), this, not_iff_not]
  simp [peerHeaderWire_length] at hb
  constructor
  · intro hc
    exact ⟨h, t, rfl, hd, by omega, hc⟩
  · rintro ⟨h', t', e, hd', -, hc⟩
    have e1 := List.append_inj e (by simp [peerHeaderWire_length])
    have : h = h' := by
      have a := peerHeader_reads' h hd []
      have b := peerHeader_reads' h' hd' []
      rw [e1.1, b] at a
      cases a
      rfl
    subst this
    rw [e1.2]; exact hc

theorem rmon_message_returns_iff (b : Bytes) : (BmpMessageRouteMonitoring.decodeFrom b).Returns ↔
    ¬ ∃ h body, b = peerHeaderWire h ++ body ∧ Distinct h.peeraddress ∧ 20 ≤ body.length ∧
      EmbeddedDecCrash .Update (BgpUpdateMessage.new.decodeFrom (.ofPeerHeader h)) body :=
  rmon_returns_iff BgpSessionParams.ofPeerHeader b

theorem decodeRm_returns_iff (s : BMPSession) (b : Bytes) : (s.decodeRm b).Returns ↔
    ¬ ∃ h body, b = peerHeaderWire h ++ body ∧ Distinct h.peeraddress ∧ 20 ≤ body.length ∧
      EmbeddedDecCrash .Update (BgpUpdateMessage.new.decodeFrom (s.params h)) body := by
  rw [← rmon_returns_iff s.params b]
  unfold BMPSession.decodeRm
  split
  · simp
  cases BmpMessagePeerHeader.decodeFrom b with
  | ok r =>
    simp only [Res.ok_bind]
    cases decodeEmbedded .Update (BgpUpdateMessage.new.decodeFrom (s.params r.1)) b r.2 <;> simp
  | err e => simp
  | panic => simp
  | hang => simp

theorem peerDown_returns_iff (b : Bytes) : (BmpMessagePeerDown.decodeFrom b).Returns ↔
    ¬ ∃ h code body, b = peerHeaderWire h ++ code :: body ∧ (code = 1 ∨ code = 3) ∧
      EmbeddedDecCrash .Notification BgpNotificationMessage.new.decodeFrom body := by
  unfold BmpMessagePeerDown.decodeFrom
  by_cases hb : b.length < 43
  · rw [if_pos hb]
    simp only [Res.returns_err, true_iff]
    rintro ⟨h, c, body, rfl, -⟩
    simp [peerHeaderWire_length] at hb
    omega
  rw [if_neg hb]
  obtain ⟨h, t, rfl, hd⟩ := peerHeader_exists b (by omega)
  simp [peerHeaderWire_length] at hb
  match t, hb with
  | [], hb => simp at hb
  | c :: t, _ =>
    rw [peerHeader_reads' h hd]
    simp only [Res.ok_bind]
    have hi : idx (peerHeaderWire h ++ c :: t) 42 = .ok c := by simp [idx, peerHeaderWire_length]
    rw [hi, Res.ok_bind]
    have he := embedded_returns_iff .Notification BgpNotificationMessage.new.decodeFrom (peerHeaderWire h ++ [c]) t
    simp only [List.append_assoc, List.cons_append, List.nil_append, List.length_append, List.length_cons, List.length_nil,
      peerHeaderWire_length, Nat.reduceAdd] at he
    have key : (∃ h' code body, peerHeaderWire h ++ c :: t = peerHeaderWire h' ++ code :: body ∧ (code = 1 ∨ code = 3) ∧
        EmbeddedDecCrash .Notification BgpNotificationMessage.new.decodeFrom body) ↔
        (c = 1 ∨ c = 3) ∧ EmbeddedDecCrash .Notification BgpNotificationMessage.new.decodeFrom t := by
      constructor
      · rintro ⟨h', c', t', e, h1, h2⟩
        have e1 := List.append_inj e (by simp [peerHeaderWire_length])
        cases e1.2
        exact ⟨h1, h2⟩
      · rintro ⟨h1, h2⟩; exact ⟨h, c, t, rfl, h1, h2⟩
    rw [key]
    rw [returns_bind_ok (f := fun u : BmpMessagePeerDownReason × Nat => ((⟨h, u.1⟩ : BmpMessagePeerDown), u.2))]
    have hc : ∀ k : Nat, k < 256 → (c.toNat = k ↔ c = BitVec.ofNat 8 k) := by
      intro k hk
      constructor
      · intro h; apply BitVec.eq_of_toNat_eq; simp; omega
      · rintro rfl; simp; omega
    unfold BmpMessagePeerDown.decodeReason
    split
    · rename_i h1
      rw [hc 1 (by omega)] at h1
      subst h1
      rw [returns_bind_ok (f := fun u : BgpNotificationMessage × Nat => (BmpMessagePeerDownReason.AdministrativelyClosed u.1, u.2)), he]
      simp
    · rename_i h1
      rw [hc 2 (by omega)] at h1
      subst h1
      have : ∀ x : Bool, ¬ (((2#8 : U8) = 1 ∨ (2#8 : U8) = 3) ∧ EmbeddedDecCrash .Notification BgpNotificationMessage.new.decodeFrom t) := by
        intro _; rintro ⟨h | h, -⟩ <;> cases h
      have s1 : subN (peerHeaderWire h ++ (2#8 : U8) :: t).length (42 + 1) = .ok t.length := by
        unfold subN
        rw [if_pos (by simp [peerHeaderWire_length]; omega)]
        congr 1
        simp [peerHeaderWire_length]
        omega
      simp only [this true, not_false_eq_true, iff_true, s1, Res.ok_bind]
      split
      · simp
      · rw [rslice_ok (by omega) (by simp [peerHeaderWire_length]; omega)]
        simp
    · rename_i h1
      rw [hc 3 (by omega)] at h1
      subst h1
      rw [returns_bind_ok (f := fun u : BgpNotificationMessage × Nat => (BmpMessagePeerDownReason.RemoteNotification u.1, u.2)), he]
      simp
    · rename_i h1
      rw [hc 4 (by omega)] at h1
      subst h1
      simp
    · rename_i h1
      rw [hc 5 (by omega)] at h1
      subst h1
      simp
    · rename_i h1 _ h3 _ _
      simp only [Res.returns_err, true_iff]
      rintro ⟨rfl | rfl, -⟩
      · exact h1 rfl
      · exact h3 rfl

theorem peerUp_returns_iff (b : Bytes) : (BmpMessagePeerUp.decodeFrom b).Returns ↔
    ¬ ∃ h addr body, b = peerHeaderWire h ++ (addr ++ body) ∧ addr.length = 20 ∧
      (EmbeddedDecCrash .Open BgpOpenMessage.new.decodeFrom body ∨
        ∃ m rest, EmbeddedDec .Open BgpOpenMessage.new.decodeFrom body m rest ∧
          EmbeddedDecCrash .Open BgpOpenMessage.new.decodeFrom rest) := by
  unfold BmpMessagePeerUp.decodeFrom
  by_cases hb : b.length < 62
  · rw [if_pos hb]
    simp only [Res.returns_err, true_iff]
    rintro ⟨h, a, body, rfl, h1, -⟩
    simp [peerHeaderWire_length] at hb
    omega
  rw [if_neg hb]
  obtain ⟨h, t, rfl, hd⟩ := peerHeader_exists b (by omega)
  simp [peerHeaderWire_length] at hb
  obtain ⟨a, t, rfl, ha, -⟩ := exists_split 20 (show 20 ≤ t.length by omega)
  rw [peerHeader_reads' h hd]
  simp only [Res.ok_bind]
  have key : (∃ h' addr body, peerHeaderWire h ++ (a ++ t) = peerHeaderWire h' ++ (addr ++ body) ∧ addr.length = 20 ∧
      (EmbeddedDecCrash .Open BgpOpenMessage.new.decodeFrom body ∨
        ∃ m rest, EmbeddedDec .Open BgpOpenMessage.new.decodeFrom body m rest ∧
          EmbeddedDecCrash .Open BgpOpenMessage.new.decodeFrom rest)) ↔
      (EmbeddedDecCrash .Open BgpOpenMessage.new.decodeFrom t ∨
        ∃ m rest, EmbeddedDec .Open BgpOpenMessage.new.decodeFrom t m rest ∧
          EmbeddedDecCrash .Open BgpOpenMessage.new.decodeFrom rest) := by
    constructor
    · rintro ⟨h', a', t', e, h1, h2⟩
      have e1 := List.append_inj e (by simp [peerHeaderWire_length])
      have e2 := List.append_inj e1.2 (by omega)
      rw [e2.2]; exact h2
    · intro hc; exact ⟨h, a, t, rfl, ha, hc⟩
  rw [key]
  have r0 : rfrom (peerHeaderWire h ++ (a ++ t)) 42 = .ok (a ++ t) := rfrom_append _ _ _ (by simp [peerHeaderWire_length])
  have hg : ∀ v : Bytes, 2 ≤ v.length → ∃ r, getn16 v = .ok r := by
    intro v hv
    obtain ⟨r, -, er⟩ := exists_be 2 hv
    exact ⟨_, by rw [er]; exact getn16_be _ _⟩
  rw [r0, Res.ok_bind, decodeBmpAddr_eq _ (by simp; omega)]
  obtain ⟨ad, had⟩ : ∃ ad, (if (a ++ t).take 12 = List.replicate 12 0 then
      (Res.ok (.v4 (BitVec.ofNat 32 (unbe (((a ++ t).drop 12).take 4)))) : Res IpAddr)
    else .ok (.v6 (BitVec.ofNat 128 (unbe ((a ++ t).take 16))))) = .ok ad := by
    split
    · exact ⟨_, rfl⟩
    · exact ⟨_, rfl⟩
  rw [had, Res.ok_bind, rfrom_ok (by simp [peerHeaderWire_length]; omega), Res.ok_bind]
  obtain ⟨p1, hp1⟩ := hg (List.drop (42 + 16) (peerHeaderWire h ++ (a ++ t))) (by simp [peerHeaderWire_length]; omega)
  rw [hp1, Res.ok_bind, rfrom_ok (by simp [peerHeaderWire_length]; omega), Res.ok_bind]
  obtain ⟨p2, hp2⟩ := hg (List.drop (42 + 18) (peerHeaderWire h ++ (a ++ t))) (by simp [peerHeaderWire_length]; omega)
  rw [hp2, Res.ok_bind]
  have e : peerHeaderWire h ++ (a ++ t) = (peerHeaderWire h ++ a) ++ t := by simp
  have el : 42 + 20 = (peerHeaderWire h ++ a).length := by simp [peerHeaderWire_length, ha]
  rw [e, el]
  have h1 := embedded_returns_iff .Open BgpOpenMessage.new.decodeFrom (peerHeaderWire h ++ a) t
  cases hd1 : decodeEmbedded .Open BgpOpenMessage.new.decodeFrom ((peerHeaderWire h ++ a) ++ t) (peerHeaderWire h ++ a).length with
  | panic => rw [hd1] at h1; simp at h1; simp [h1]
  | hang => rw [hd1] at h1; simp at h1; simp [h1]
  | err e =>
    rw [hd1] at h1; simp at h1
    simp only [Res.err_bind, Res.returns_err, true_iff]
    rintro (hc | ⟨m, rest, ⟨body, e1, e2, e3⟩, -⟩)
    · exact h1 hc
    · have := embedded_reads .Open e3 e2 (peerHeaderWire h ++ a) rest
      rw [← e1, hd1] at this
      cases this
  | ok r =>
    obtain ⟨m, pos⟩ := r
    rw [hd1] at h1; simp at h1
    obtain ⟨body, rest, rfl, e2, e3, rfl⟩ := embedded_ok hd1
    simp only [Res.ok_bind]
    rw [returns_bind_ok (f := fun u : BgpOpenMessage × Nat => ((⟨h, ad, p1, p2, m, u.1⟩ : BmpMessagePeerUp), u.2)), ← List.append_assoc,
      embedded_returns_iff, not_iff_not]
    constructor
    · intro hc
      exact .inr ⟨m, rest, ⟨body, rfl, e2, e3⟩, hc⟩
    · rintro (hc | ⟨m', rest', ⟨body', e4, e5, e6⟩, hc⟩)
      · exact absurd hc h1
      · have : body.length = body'.length := by
          have := congrArg (fun b => (b.drop 16).take 2) e4
          simp only [message, header, List.append_assoc] at this
          rw [List.drop_left' (by simp), List.drop_left' (by simp), List.take_left' (by simp), List.take_left' (by simp)] at this
          have := be2_inj (by omega) (by omega) this
          omega
        have := List.append_inj e4 (by rw [message_length, message_length, this])
        rw [this.2]
        exact hc

theorem rfrom_cons_one {α : Type} (c : α) (b : List α) : rfrom (c :: b) 1 = .ok b := by simp [rfrom]

theorem toNat_eq_iff8 (c : U8) (k : Nat) (hk : k < 256) : c.toNat = k ↔ c = BitVec.ofNat 8 k := by
  constructor
  · intro h; apply BitVec.eq_of_toNat_eq; simp; omega
  · rintro rfl; simp; omega

theorem bmp_cases (c : U8) : c = 0 ∨ c = 1 ∨ c = 2 ∨ c = 3 ∨ c = 4 ∨ c = 5 ∨ c = 6 ∨ 7 ≤ c.toNat := by
  by_cases h : 7 ≤ c.toNat
  · simp [h]
  · have hc : c = BitVec.ofNat 8 c.toNat := by simp
    rw [hc]
    match c.toNat, h with
    | 0, _ => simp
    | 1, _ => simp
    | 2, _ => simp
    | 3, _ => simp
    | 4, _ => simp
    | 5, _ => simp
    | 6, _ => simp
    | n + 7, h => omega

/-- the conditions of `BmpDecCrash` for a message of the type -/
theorem bmpCrash_cons (params : BmpMessagePeerHeader → BgpSessionParams) (c : U8) (b : Bytes) :
    BmpDecCrash params (c :: b) ↔
      (c = 0 ∧ ∃ h body, b = peerHeaderWire h ++ body ∧ Distinct h.peeraddress ∧ 20 ≤ body.length ∧
        EmbeddedDecCrash .Update (BgpUpdateMessage.new.decodeFrom (params h)) body) ∨
      (c = 2 ∧ ∃ h code body, b = peerHeaderWire h ++ code :: body ∧ (code = 1 ∨ code = 3) ∧
        EmbeddedDecCrash .Notification BgpNotificationMessage.new.decodeFrom body) ∨
      (c = 3 ∧ ∃ h addr body, b = peerHeaderWire h ++ (addr ++ body) ∧ addr.length = 20 ∧
        (EmbeddedDecCrash .Open BgpOpenMessage.new.decodeFrom body ∨
          ∃ m rest, EmbeddedDec .Open BgpOpenMessage.new.decodeFrom body m rest ∧
            EmbeddedDecCrash .Open BgpOpenMessage.new.decodeFrom rest)) ∨
      (c = 5 ∧ TermCrash b) := by
  unfold BmpDecCrash
  simp only [List.cons.injEq, reduceCtorEq, false_or]
  constructor
  · rintro (⟨h, body, ⟨e1, e2⟩, h1⟩ | ⟨h, cd, body, ⟨e1, e2⟩, h1⟩ | ⟨h, a, body, ⟨e1, e2⟩, h1⟩ | ⟨body, ⟨e1, rfl⟩, h1⟩)
    · exact .inl ⟨e1, h, body, e2, h1⟩
    · exact .inr (.inl ⟨e1, h, cd, body, e2, h1⟩)
    · exact .inr (.inr (.inl ⟨e1, h, a, body, e2, h1⟩))
    · exact .inr (.inr (.inr ⟨e1, h1⟩))
  · rintro (⟨e1, h, body, e2, h1⟩ | ⟨e1, h, cd, body, e2, h1⟩ | ⟨e1, h, a, body, e2, h1⟩ | ⟨e1, h1⟩)
    · exact .inl ⟨h, body, ⟨e1, e2⟩, h1⟩
    · exact .inr (.inl ⟨h, cd, body, ⟨e1, e2⟩, h1⟩)
    · exact .inr (.inr (.inl ⟨h, a, body, ⟨e1, e2⟩, h1⟩))
    · exact .inr (.inr (.inr ⟨b, ⟨e1, rfl⟩, h1⟩))

theorem returns_bind_ok' {α β : Type} {r : Res (α × Nat)} {f : α → β} :
    (do let (m, _) ← r; .ok (f m) : Res β).Returns ↔ r.Returns := by
  cases r <;> simp

theorem bmp_returns_iff (b : Bytes) :
    (BmpMessage.decodeFrom b).Returns ↔ ¬ BmpDecCrash BgpSessionParams.ofPeerHeader b := by
  cases b with
  | nil => simp [BmpMessage.decodeFrom, idx, BmpDecCrash]
  | cons c b =>
    rw [bmpCrash_cons]
    unfold BmpMessage.decodeFrom
    rw [idx_cons_zero, Res.ok_bind]
    simp only [rfrom_cons_one, Res.ok_bind]
    rcases bmp_cases c with rfl | rfl | rfl | rfl | rfl | rfl | rfl | h
    · have := rmon_message_returns_iff b
      rw [← returns_bind_ok' (f := BmpMessage.RouteMonitoring)] at this
      simpa using this
    · simp
    · have := peerDown_returns_iff b
      rw [← returns_bind_ok' (f := BmpMessage.PeerDownNotification)] at this
      simpa using this
    · have := peerUp_returns_iff b
      rw [← returns_bind_ok' (f := BmpMessage.PeerUpNotification)] at this
      simpa using this
    · have : (BmpMessageInitiation.decodeFrom b).Returns := initLoop_returns _ _ _ (by omega) _
      rw [← returns_bind_ok' (f := BmpMessage.Initiation)] at this
      simpa using this
    · have := term_returns_iff b
      rw [← returns_bind_ok' (f := BmpMessage.Termination)] at this
      simpa using this
    · simp
    · have e : ∀ k, k < 7 → c ≠ BitVec.ofNat 8 k := by
        rintro k hk rfl; simp at h; omega
      have e0 := e 0 (by omega)
      have e2 := e 2 (by omega)
      have e3 := e 3 (by omega)
      have e5 := e 5 (by omega)
      match hc : c.toNat, h with
      | n + 7, _ =>
        simp only [Res.returns_err, true_iff]
        rintro (⟨h, -⟩ | ⟨h, -⟩ | ⟨h, -⟩ | ⟨h, -⟩)
        · exact e0 h
        · exact e2 h
        · exact e3 h
        · exact e5 h

theorem session_returns_iff (s : BMPSession) (b : Bytes) : (s.decodeFrom b).1.Returns ↔ ¬ BmpDecCrash s.params b := by
  cases b with
  | nil => simp [BMPSession.decodeFrom, idx, BmpDecCrash]
  | cons c b =>
    rw [bmpCrash_cons]
    unfold BMPSession.decodeFrom
    rw [idx_cons_zero]
    simp only [rfrom_cons_one, Res.ok_bind]
    rcases bmp_cases c with rfl | rfl | rfl | rfl | rfl | rfl | rfl | h
    · have := decodeRm_returns_iff s b
      rw [← returns_bind_ok (f := BmpMessage.RouteMonitoring)] at this
      simpa using this
    · simp
    · have := peerDown_returns_iff b
      rw [show (2 : U8).toNat = 2 from rfl]
      simp only
      cases hd : BmpMessagePeerDown.decodeFrom b <;> rw [hd] at this <;> simpa using this
    · have := peerUp_returns_iff b
      rw [show (3 : U8).toNat = 3 from rfl]
      simp only
      cases hd : BmpMessagePeerUp.decodeFrom b <;> rw [hd] at this <;> simpa using this
    · have : (BmpMessageInitiation.decodeFrom b).Returns := initLoop_returns _ _ _ (by omega) _
      rw [← returns_bind_ok' (f := BmpMessage.Initiation)] at this
      simpa using this
    · have := term_returns_iff b
      rw [← returns_bind_ok' (f := BmpMessage.Termination)] at this
      simpa using this
    · simp
    · have e : ∀ k, k < 7 → c ≠ BitVec.ofNat 8 k := by
        rintro k hk rfl; simp at h; omega
      have e0 := e 0 (by omega)
      have e2 := e 2 (by omega)
      have e3 := e 3 (by omega)
      have e5 := e 5 (by omega)
      match hc : c.toNat, h with
      | n + 7, _ =>
        simp only [Res.returns_err, true_iff]
        rintro (⟨h, -⟩ | ⟨h, -⟩ | ⟨h, -⟩ | ⟨h, -⟩)
        · exact e0 h
        · exact e2 h
        · exact e3 h
        · exact e5 h

theorem nh_session (s : BMPSession) (b : Bytes) : NoHang (s.decodeFrom b).1 := by
  unfold BMPSession.decodeFrom
  split
  · split
    · exact nh_bind (nh_rfrom _ _) fun _ _ => nh_bind (nh_decodeRm _ _) fun _ _ => nh_ok
    · exact nh_ok
    · have : NoHang (do BmpMessagePeerDown.decodeFrom (← rfrom b 1) : Res (BmpMessagePeerDown × Nat)) :=
        nh_bind (nh_rfrom _ _) fun _ _ => nh_peerDown _
      split
      · exact nh_ok
      · exact nh_err
      · exact nh_panic
      · rename_i h; exact absurd h this
    · have : NoHang (do BmpMessagePeerUp.decodeFrom (← rfrom b 1) : Res (BmpMessagePeerUp × Nat)) :=
        nh_bind (nh_rfrom _ _) fun _ _ => nh_peerUp _
      split
      · exact nh_ok
      · exact nh_err
      · exact nh_panic
      · rename_i h; exact absurd h this
    · exact nh_bind (nh_rfrom _ _) fun _ _ => nh_bind (nh_initLoop _ _ _ (by omega) _) fun _ _ => nh_ok
    · exact nh_bind (nh_rfrom _ _) fun _ _ => nh_bind (nh_termLoop _ _ _ (by omega) _) fun _ _ => nh_ok
    · exact nh_ok
    · exact nh_err
  · exact nh_panic

/-! ## The table -/

section Tree

variable {K V : Type} [ROrd K]

/-- keys in strictly ascending order -/
def Ascending (l : List (K × V)) : Prop := l.Pairwise fun a b => ROrd.cmp a.1 b.1 = .lt

variable (law : LawfulOrd K) (ext : ∀ a b : K, ROrd.cmp a b = .eq ↔ a = b)
include law ext

theorem cmp_lt_trans {a b c : K} (h1 : ROrd.cmp a b = .lt) (h2 : ROrd.cmp b c = .lt) : ROrd.cmp a c = .lt := by
  have := law.trans a b c (by simp [h1]) (by simp [h2])
  cases h : ROrd.cmp a c with
  | lt => rfl
  | gt => exact absurd h this
  | eq =>
    rw [ext] at h
    subst h
    rw [law.oriented, h1] at h2
    cases h2

theorem cmp_gt_iff {a b : K} : ROrd.cmp a b = .gt ↔ ROrd.cmp b a = .lt := by
  rw [law.oriented a b]
  cases ROrd.cmp b a <;> simp [Ordering.swap]

theorem btree_get_iff (l : List (K × V)) (hl : Ascending l) (k : K) (v : V) : BTree.get k l = some v ↔ (k, v) ∈ l := by
  induction l with
  | nil => simp [BTree.get]
  | cons p l ih =>
    obtain ⟨k', v'⟩ := p
    have h1 := List.pairwise_cons.1 hl
    rw [BTree.get]
    have notin : ROrd.cmp k k' ≠ .gt → (k, v) ∉ l := by
      intro hc hm
      have h2 := h1.1 _ hm
      simp only at h2
      rw [(cmp_gt_iff law ext).2 h2] at hc
      exact hc rfl
    split
    · rename_i hc
      have hne : k ≠ k' := by
        rintro rfl
        rw [(ext k k).2 rfl] at hc
        cases hc
      simp [hne, notin (by simp [hc])]
    · rename_i hc
      have hm := notin (by simp [hc])
      rw [ext] at hc
      subst hc
      simp [hm, eq_comm]
    · rename_i hc
      have hne : k ≠ k' := by
        rintro rfl
        rw [(ext k k).2 rfl] at hc
        cases hc
      rw [ih h1.2]
      simp [hne]

theorem btree_mem_insert (l : List (K × V)) (hl : Ascending l) (k : K) (v : V) (k' : K) (v' : V) :
    (k', v') ∈ BTree.insert k v l ↔ (k' = k ∧ v' = v) ∨ (k' ≠ k ∧ (k', v') ∈ l) := by
  induction l with
  | nil => simp [BTree.insert]
  | cons p l ih =>
    obtain ⟨k2, v2⟩ := p
    have h1 := List.pairwise_cons.1 hl
    rw [BTree.insert]
    split
    · rename_i hc
      have h3 : k' = k → (k', v') ∉ (k2, v2) :: l := by
        rintro rfl hm
        simp only [List.mem_cons, Prod.mk.injEq] at hm
        rcases hm with ⟨rfl, rfl⟩ | hm
        · rw [(ext k' k').2 rfl] at hc; cases hc
        · have := h1.1 _ hm
          simp only at this
          rw [law.oriented, hc] at this
          cases this
      by_cases hk : k' = k
      · have := h3 hk
        rw [List.mem_cons]
        simp [hk] at this ⊢
        tauto
      · rw [List.mem_cons]
        simp [hk]
    · rename_i hc
      rw [ext] at hc
      subst hc
      have h3 : k' = k → (k', v') ∉ l := by
        rintro rfl hm
        have := h1.1 _ hm
        simp only at this
        rw [(ext k' k').2 rfl] at this
        cases this
      by_cases hk : k' = k
      · have := h3 hk
        simp [hk] at this ⊢
        tauto
      · simp [hk]
    · rename_i hc
      have hne : k2 ≠ k := by
        rintro rfl
        rw [(ext k2 k2).2 rfl] at hc
        cases hc
      simp only [List.mem_cons, Prod.mk.injEq, ih h1.2]
      by_cases hk : k' = k
      · subst hk
        simp [Ne.symm hne]
      · simp [hk]

theorem btree_insert_ascending (l : List (K × V)) (hl : Ascending l) (k : K) (v : V) : Ascending (BTree.insert k v l) := by
  induction l with
  | nil => simp [BTree.insert, Ascending]
  | cons p l ih =>
    obtain ⟨k2, v2⟩ := p
    have h1 := List.pairwise_cons.1 hl
    rw [BTree.insert]
    split
    · rename_i hc
      refine List.pairwise_cons.2 ⟨?_, hl⟩
      intro a ha
      simp only [List.mem_cons] at ha
      rcases ha with rfl | ha
      · exact hc
      · exact cmp_lt_trans law ext hc (h1.1 a ha)
    · exact List.pairwise_cons.2 ⟨h1.1, h1.2⟩
    · rename_i hc
      refine List.pairwise_cons.2 ⟨?_, ih h1.2⟩
      rintro ⟨k', v'⟩ ha
      rw [btree_mem_insert law ext _ h1.2] at ha
      rcases ha with ⟨rfl, rfl⟩ | ⟨-, ha⟩
      · exact (cmp_gt_iff law ext).1 hc
      · exact h1.1 _ ha

theorem btree_mem_remove (l : List (K × V)) (hl : Ascending l) (k : K) (k' : K) (v' : V) :
    (k', v') ∈ BTree.remove k l ↔ k' ≠ k ∧ (k', v') ∈ l := by
  induction l with
  | nil => simp [BTree.remove]
  | cons p l ih =>
    obtain ⟨k2, v2⟩ := p
    have h1 := List.pairwise_cons.1 hl
    rw [BTree.remove]
    split
    · rename_i hc
      have h3 : k' = k → (k', v') ∉ (k2, v2) :: l := by
        rintro rfl hm
        simp only [List.mem_cons, Prod.mk.injEq] at hm
        rcases hm with ⟨rfl, rfl⟩ | hm
        · rw [(ext k' k').2 rfl] at hc; cases hc
        · have := h1.1 _ hm
          simp only at this
          rw [law.oriented, hc] at this
          cases this
      exact ⟨fun hm => ⟨fun hk => h3 hk hm, hm⟩, fun h => h.2⟩
    · rename_i hc
      rw [ext] at hc
      subst hc
      have h3 : k' = k → (k', v') ∉ l := by
        rintro rfl hm
        have := h1.1 _ hm
        simp only at this
        rw [(ext k' k').2 rfl] at this
        cases this
      constructor
      · intro hm
        exact ⟨fun hk => h3 hk hm, by simp [hm]⟩
      · rintro ⟨h, hm⟩
        simp only [List.mem_cons, Prod.mk.injEq] at hm
        rcases hm with ⟨hk, -⟩ | hm
        · exact absurd hk h
        · exact hm
    · rename_i hc
      have hne : k2 ≠ k := by
        rintro rfl
        rw [(ext k2 k2).2 rfl] at hc
        cases hc
      simp only [List.mem_cons, Prod.mk.injEq, ih h1.2]
      by_cases hk : k' = k
      · subst hk
        simp [Ne.symm hne]
      · simp [hk]

theorem btree_remove_ascending (l : List (K × V)) (hl : Ascending l) (k : K) : Ascending (BTree.remove k l) := by
  induction l with
  | nil => simp [BTree.remove, Ascending]
  | cons p l ih =>
    obtain ⟨k2, v2⟩ := p
    have h1 := List.pairwise_cons.1 hl
    rw [BTree.remove]
    split
    · exact hl
    · exact h1.2
    · refine List.pairwise_cons.2 ⟨?_, ih h1.2⟩
      rintro ⟨k', v'⟩ ha
      rw [btree_mem_remove law ext _ h1.2] at ha
      exact h1.1 _ ha.2

end Tree

theorem lawful_key : LawfulOrd BgpSessionKey :=
  lawful_lex (·.peerRd) (·.peerIp) lawful_rd lawful_ip (fun _ _ => rfl) (fun _ _ => rfl)
    (fun a b => by
      change lexP (ROrd.pcmp a.peerRd b.peerRd) (ROrd.pcmp a.peerIp b.peerIp) = _
      rw [lawful_rd.pcmp_eq, lawful_ip.pcmp_eq, lexP_some]
      rfl)
    (fun x y h1 h2 => by simp only [ROrd.hash] at *; rw [h1, h2])

theorem key_ext (a b : BgpSessionKey) : ROrd.cmp a b = .eq ↔ a = b := by
  rw [← lawful_key.eq_iff]
  obtain ⟨⟨h1, l1⟩, i1⟩ := a
  obtain ⟨⟨h2, l2⟩, i2⟩ := b
  cases i1 <;> cases i2 <;> simp [ROrd.eq]

/-! ## Histories -/

theorem peerUpIs_unique {b : Bytes} {m m' : BmpMessagePeerUp} (h : PeerUpDec b m) (h' : PeerUpDec b m') : m = m' := by
  obtain ⟨body, n, rfl, h⟩ := h
  obtain ⟨body', n', e, h'⟩ := h'
  cases e
  rw [h] at h'
  cases h'
  rfl

theorem peerUp_not_down {b : Bytes} {m : BmpMessagePeerUp} {m' : BmpMessagePeerDown} (h : PeerUpDec b m)
    (h' : PeerDownDec b m') : False := by
  obtain ⟨body, n, rfl, h⟩ := h
  obtain ⟨body', n', e, h'⟩ := h'
  simp at e

theorem session_up (s : BMPSession) {b : Bytes} {m : BmpMessagePeerUp} (h : PeerUpDec b m) :
    s.decodeFrom b = (.ok (.PeerUpNotification m), ⟨BTree.insert (.ofPeer m.peer) m s.sessions⟩) := by
  obtain ⟨body, n, rfl, h⟩ := h
  simp only [BMPSession.decodeFrom, idx_cons_zero, rfrom_cons_one, Res.ok_bind]
  rw [show (3 : U8).toNat = 3 from rfl]
  simp only [h]

theorem session_down (s : BMPSession) {b : Bytes} {m : BmpMessagePeerDown} (h : PeerDownDec b m) :
    s.decodeFrom b = (.ok (.PeerDownNotification m), ⟨BTree.remove (.ofPeer m.peer) s.sessions⟩) := by
  obtain ⟨body, n, rfl, h⟩ := h
  simp only [BMPSession.decodeFrom, idx_cons_zero, rfrom_cons_one, Res.ok_bind]
  rw [show (2 : U8).toNat = 2 from rfl]
  simp only [h]

theorem session_other (s : BMPSession) {b : Bytes} (h1 : ∀ m, ¬ PeerUpDec b m) (h2 : ∀ m, ¬ PeerDownDec b m) :
    (s.decodeFrom b).2 = s := by
  cases b with
  | nil => rfl
  | cons c b =>
    unfold BMPSession.decodeFrom
    rw [idx_cons_zero]
    simp only [rfrom_cons_one, Res.ok_bind]
    rcases bmp_cases c with rfl | rfl | rfl | rfl | rfl | rfl | rfl | h
    · rfl
    · rfl
    · rw [show (2 : U8).toNat = 2 from rfl]
      simp only
      cases hd : BmpMessagePeerDown.decodeFrom b with
      | ok r => exact absurd ⟨b, r.2, rfl, hd⟩ (h2 r.1)
      | _ => rfl
    · rw [show (3 : U8).toNat = 3 from rfl]
      simp only
      cases hd : BmpMessagePeerUp.decodeFrom b with
      | ok r => exact absurd ⟨b, r.2, rfl, hd⟩ (h1 r.1)
      | _ => rfl
    · rfl
    · rfl
    · rfl
    · match c.toNat, h with
      | n + 7, _ => rfl

theorem after_concat (hist : List Bytes) (b : Bytes) : after (hist ++ [b]) = ((after hist).decodeFrom b).2 := by
  simp [after]

theorem lastUp_concat (hist : List Bytes) (b : Bytes) (rd : BgpRD) (ip : IpAddr) (m : BmpMessagePeerUp) :
    LastUpDec (hist ++ [b]) rd ip m ↔ (PeerUpDec b m ∧ OfPeer rd ip m.peer) ∨ (¬ AboutDec rd ip b ∧ LastUpDec hist rd ip m) := by
  constructor
  · rintro ⟨pre, b', post, e, h1, h2, h3⟩
    rcases List.eq_nil_or_concat post with rfl | ⟨post, c, rfl⟩
    · have := List.append_inj' e (by simp)
      cases this.2
      exact .inl ⟨h1, h2⟩
    · simp only [List.concat_eq_append] at e h3
      rw [show pre ++ b' :: (post ++ [c]) = (pre ++ b' :: post) ++ [c] by simp] at e
      have := List.append_inj' e (by simp)
      cases this.2
      exact .inr ⟨h3 b (by simp), pre, b', post, this.1, h1, h2, fun x hx => h3 x (by simp [hx])⟩
  · rintro (⟨h1, h2⟩ | ⟨h, pre, b', post, rfl, h1, h2, h3⟩)
    · exact ⟨hist, b, [], by simp, h1, h2, by simp⟩
    · refine ⟨pre, b', post ++ [b], by simp, h1, h2, ?_⟩
      intro x hx
      simp only [List.mem_append, List.mem_singleton] at hx
      rcases hx with hx | rfl
      · exact h3 x hx
      · exact h

theorem ofPeer_iff (rd : BgpRD) (ip : IpAddr) (h : BmpMessagePeerHeader) :
    OfPeer rd ip h ↔ (⟨rd, ip⟩ : BgpSessionKey) = .ofPeer h := by
  simp only [OfPeer, BgpSessionKey.ofPeer, BgpSessionKey.mk.injEq]
  constructor <;> rintro ⟨rfl, rfl⟩ <;> exact ⟨rfl, rfl⟩

/-- the table after a history -/
theorem after_table (hist : List Bytes) : Ascending (after hist).sessions ∧
    ∀ rd ip m, ((⟨rd, ip⟩ : BgpSessionKey), m) ∈ (after hist).sessions ↔ LastUpDec hist rd ip m := by
  generalize hn : hist.length = n
  induction n generalizing hist with
  | zero =>
    have := List.length_eq_zero_iff.1 hn
    subst this
    refine ⟨by simp [after, BMPSession.default, Ascending], ?_⟩
    intro rd ip m
    simp only [after, BMPSession.default, List.foldl_nil, List.not_mem_nil, false_iff]
    rintro ⟨pre, b, post, e, -⟩
    simp at e
  | succ n ih =>
    rcases List.eq_nil_or_concat hist with rfl | ⟨hist, b, rfl⟩
    · simp at hn
    simp only [List.concat_eq_append] at hn ⊢
    obtain ⟨ih1, ih2⟩ := ih hist (by simpa using hn)
    rw [after_concat]
    by_cases hu : ∃ m, PeerUpDec b m
    · obtain ⟨m0, hu⟩ := hu
      rw [session_up _ hu]
      refine ⟨btree_insert_ascending lawful_key key_ext _ ih1 _ _, ?_⟩
      intro rd ip m
      rw [btree_mem_insert lawful_key key_ext _ ih1, lastUp_concat, ih2, ← ofPeer_iff]
      have ha : AboutDec rd ip b ↔ OfPeer rd ip m0.peer := by
        constructor
        · rintro (⟨m', h, ho⟩ | ⟨m', h, ho⟩)
          · rw [peerUpIs_unique hu h]; exact ho
          · exact absurd h (fun h => peerUp_not_down hu h)
        · intro h; exact .inl ⟨m0, hu, h⟩
      rw [ha, ne_eq, ← ofPeer_iff]
      constructor
      · rintro (⟨h, rfl⟩ | h)
        · exact .inl ⟨hu, h⟩
        · exact .inr h
      · rintro (⟨h, ho⟩ | h)
        · cases peerUpIs_unique hu h
          exact .inl ⟨ho, rfl⟩
        · exact .inr h
    by_cases hd : ∃ m, PeerDownDec b m
    · obtain ⟨m0, hd⟩ := hd
      rw [session_down _ hd]
      refine ⟨btree_remove_ascending lawful_key key_ext _ ih1 _, ?_⟩
      intro rd ip m
      rw [btree_mem_remove lawful_key key_ext _ ih1, lastUp_concat, ih2, ne_eq, ← ofPeer_iff]
      have ha : AboutDec rd ip b ↔ OfPeer rd ip m0.peer := by
        constructor
        · rintro (⟨m', h, ho⟩ | ⟨m', h, ho⟩)
          · exact absurd hd (fun h' => peerUp_not_down h h')
          · obtain ⟨body, n, rfl, h⟩ := h
            obtain ⟨body', n', e, h'⟩ := hd
            cases e
            rw [h] at h'
            cases h'
            exact ho
        · intro h; exact .inr ⟨m0, hd, h⟩
      rw [ha]
      constructor
      · intro h; exact .inr h
      · rintro (⟨h, -⟩ | h)
        · exact absurd ⟨m, h⟩ hu
        · exact h
    · have h1 : ∀ m, ¬ PeerUpDec b m := fun m h => hu ⟨m, h⟩
      have h2 : ∀ m, ¬ PeerDownDec b m := fun m h => hd ⟨m, h⟩
      rw [session_other _ h1 h2]
      refine ⟨ih1, ?_⟩
      intro rd ip m
      rw [ih2, lastUp_concat]
      constructor
      · intro h
        refine .inr ⟨?_, h⟩
        rintro (⟨m', h, -⟩ | ⟨m', h, -⟩)
        · exact h1 _ h
        · exact h2 _ h
      · rintro (⟨h, -⟩ | ⟨-, h⟩)
        · exact absurd h (h1 m)
        · exact h

theorem params_after (hist : List Bytes) (h : BmpMessagePeerHeader) :
    (∀ m, LastUpDec hist h.peerdistinguisher h.peeraddress m → (after hist).params h = .ofOpen (peerOpen m)) ∧
    ((¬ ∃ m, LastUpDec hist h.peerdistinguisher h.peeraddress m) → (after hist).params h = .ofPeerHeader h) := by
  obtain ⟨h1, h2⟩ := after_table hist
  constructor
  · intro m hm
    rw [← h2] at hm
    have := (btree_get_iff lawful_key key_ext _ h1 _ _).2 hm
    unfold BMPSession.params
    rw [show BgpSessionKey.ofPeer h = ⟨h.peerdistinguisher, h.peeraddress⟩ from rfl, this]
    simp only [peerOpen, beq_iff_eq]
    rw [eq_comm]
    split <;> rename_i hc
    · rw [if_pos hc.symm]
    · rw [if_neg (fun hh => hc hh.symm)]
  · intro hn
    unfold BMPSession.params
    cases hg : BTree.get (BgpSessionKey.ofPeer h) (after hist).sessions with
    | none => rfl
    | some m =>
      exfalso
      have := (btree_get_iff lawful_key key_ext _ h1 _ _).1 hg
      exact hn ⟨m, (h2 _ _ _).1 this⟩

/-! ## Whole messages -/

theorem typed_clears {c : Bool} {enc : Enc} {w : Bytes} (code : U8) (h : Clears c enc w) :
    Clears c (BmpMessage.encodeTyped code enc) (typed code w) := by
  intro buf hb
  simp only [typed, List.length_cons] at hb ⊢
  unfold BmpMessage.encodeTyped
  match buf, hb with
  | b :: t, hb =>
    rw [setIdx_cons_zero, Res.ok_bind]
    have := cur_clears h [code] t 1 rfl (by simpa using hb)
    simp only [List.cons_append, List.nil_append] at this
    rw [this]
    simp only [Res.ok_bind, List.drop_succ_cons, List.cons_append, Nat.add_comm 1]

theorem encodeTo_nonempty (x : BmpMessage) (buf : Bytes) (h : 0 < buf.length) : x.encodeTo buf =
    match x with
    | .RouteMonitoring m => BmpMessage.encodeTyped 0 m.encodeTo buf
    | .StatisticsReport => .panic
    | .PeerDownNotification m => BmpMessage.encodeTyped 2 m.encodeTo buf
    | .PeerUpNotification m => BmpMessage.encodeTyped 3 m.encodeTo buf
    | .Initiation m => BmpMessage.encodeTyped 4 m.encodeTo buf
    | .Termination m => BmpMessage.encodeTyped 5 m.encodeTo buf
    | .RouteMirroring => .panic := by
  unfold BmpMessage.encodeTo
  rw [if_neg]
  · rfl
  · cases buf <;> simp at *

end Zbgp
