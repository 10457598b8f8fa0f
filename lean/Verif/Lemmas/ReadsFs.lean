import Verif.Lemmas.Flowspec
import Verif.Lemmas.ReadsRoutes

/-! # What is read and what crashes: FlowSpec -/

namespace Zbgp

open Spec

/-! ## Operators -/

theorem sel_toNat (op : U8) : ((op >>> 4) &&& 3).toNat = opCode op := by
  unfold opCode
  rw [BitVec.toNat_and, BitVec.toNat_ushiftRight, Nat.shiftRight_eq_div_pow]
  exact Nat.and_two_pow_sub_one_eq_mod _ 2

theorem opCode_lt (op : U8) : opCode op < 4 := Nat.mod_lt _ (by omega)

theorem sel_eq (op : U8) (k : Nat) (h : k < 256) : (op >>> 4) &&& 3 = BitVec.ofNat 8 k ↔ opCode op = k := by
  rw [← sel_toNat]
  constructor
  · intro e; rw [e, BitVec.toNat_ofNat, Nat.mod_eq_of_lt h]
  · intro e; apply BitVec.eq_of_toNat_eq; rw [e, BitVec.toNat_ofNat, Nat.mod_eq_of_lt h]

theorem sel0 (op : U8) : (op >>> 4) &&& 3 = 0 ↔ opCode op = 0 := sel_eq op 0 (by omega)
theorem sel1 (op : U8) : (op >>> 4) &&& 3 = 1 ↔ opCode op = 1 := sel_eq op 1 (by omega)
theorem sel2 (op : U8) : (op >>> 4) &&& 3 = 2 ↔ opCode op = 2 := sel_eq op 2 (by omega)

theorem fsVal_exactly (b : Bytes) :
    Exactly (fsDecodeVal b)
      (fun y => ∃ t, opCode y.1 ≤ 2 ∧ y.2.1.toNat < 256 ^ 2 ^ opCode y.1 ∧
        b = y.1 :: be (2 ^ opCode y.1) y.2.1.toNat ++ t ∧ y.2.2 = 1 + 2 ^ opCode y.1)
      (FsOpCrash b) := by
  cases b with
  | nil =>
    refine .of_cases ?_ (fun _ => rfl) (.inr (.inl (.inl rfl)))
    rintro y ⟨t, -, -, h, -⟩; cases h
  | cons op t =>
    have hrd : ∀ y : U8 × U32 × Nat, (∃ t', opCode y.1 ≤ 2 ∧ y.2.1.toNat < 256 ^ 2 ^ opCode y.1 ∧
        op :: t = y.1 :: be (2 ^ opCode y.1) y.2.1.toNat ++ t' ∧ y.2.2 = 1 + 2 ^ opCode y.1) →
        fsDecodeVal (op :: t) = .ok y := by
      rintro ⟨o, v, n⟩ ⟨t', h2, hv, e, hn⟩
      simp only [List.cons_append, List.cons.injEq] at e h2 hv hn
      obtain ⟨rfl, rfl⟩ := e
      unfold fsDecodeVal
      simp only [idx_cons_zero, Res.ok_bind]
      have h012 : opCode op = 0 ∨ opCode op = 1 ∨ opCode op = 2 := by omega
      rcases h012 with h | h | h <;> rw [h] at hv hn ⊢
      · rw [if_pos ((sel0 op).2 h)]
        simp only [Nat.pow_zero, be_one, List.cons_append, List.nil_append, idx_cons_succ, idx_cons_zero, Res.ok_bind]
        rw [hn]
        congr 3
        apply BitVec.eq_of_toNat_eq; simp at hv ⊢; omega
      · rw [if_neg (by rw [sel0]; omega), if_pos ((sel1 op).2 h)]
        simp only [rfrom_cons_succ, rfrom_zero, Res.ok_bind, getn16_be, Nat.pow_one]
        rw [hn]
        congr 3
        apply BitVec.eq_of_toNat_eq; simp at hv ⊢; omega
      · rw [if_neg (by rw [sel0]; omega), if_neg (by rw [sel1]; omega),
          if_pos ((sel2 op).2 h)]
        simp only [rfrom_cons_succ, rfrom_zero, Res.ok_bind, show 2 ^ 2 = 4 from rfl, getn32_be]
        rw [hn]
        simp
    have hcr : FsOpCrash (op :: t) → fsDecodeVal (op :: t) = .panic := by
      rintro (h | ⟨o, t', e, h2, hl⟩)
      · cases h
      · simp only [List.cons.injEq] at e
        obtain ⟨rfl, rfl⟩ := e
        unfold fsDecodeVal
        simp only [idx_cons_zero, Res.ok_bind]
        have h012 : opCode op = 0 ∨ opCode op = 1 ∨ opCode op = 2 := by omega
        rcases h012 with h | h | h <;> rw [h] at hl
        · rw [if_pos ((sel0 op).2 h), idx_panic (by simp at hl ⊢; omega)]; rfl
        · rw [if_neg (by rw [sel0]; omega), if_pos ((sel1 op).2 h)]
          simp only [rfrom_cons_succ, rfrom_zero, Res.ok_bind]
          rw [getn16_short (by simpa using hl)]; rfl
        · rw [if_neg (by rw [sel0]; omega), if_neg (by rw [sel1]; omega),
            if_pos ((sel2 op).2 h)]
          simp only [rfrom_cons_succ, rfrom_zero, Res.ok_bind]
          rw [(getn32_exactly t).crash.2 (by simpa using hl)]; rfl
    refine .of_cases hrd hcr ?_
    by_cases h3 : opCode op = 3
    · refine .inr (.inr ?_)
      unfold fsDecodeVal
      simp only [idx_cons_zero, Res.ok_bind]
      rw [if_neg (by rw [sel0]; omega), if_neg (by rw [sel1]; omega),
        if_neg (by rw [sel2]; omega)]
      trivial
    · have h2 : opCode op ≤ 2 := by have := opCode_lt op; omega
      by_cases hl : t.length < 2 ^ opCode op
      · exact .inr (.inl (.inr ⟨op, t, rfl, h2, hl⟩))
      · obtain ⟨v, hv, e⟩ := exists_be (2 ^ opCode op) (l := t) (by omega)
        have hv32 : v < 2 ^ 32 := by
          refine Nat.lt_of_lt_of_le hv ?_
          have : 2 ^ opCode op ≤ 4 := by
            have : opCode op = 0 ∨ opCode op = 1 ∨ opCode op = 2 := by omega
            rcases this with h | h | h <;> rw [h] <;> decide
          calc 256 ^ 2 ^ opCode op ≤ 256 ^ 4 := Nat.pow_le_pow_right (by omega) this
            _ = 2 ^ 32 := by decide
        refine .inl ⟨(op, BitVec.ofNat 32 v, 1 + 2 ^ opCode op), t.drop (2 ^ opCode op), h2, ?_, ?_, rfl⟩
        · simp only [BitVec.toNat_ofNat, Nat.mod_eq_of_lt hv32]; exact hv
        · simp only [BitVec.toNat_ofNat, Nat.mod_eq_of_lt hv32, List.cons_append, List.cons.injEq, true_and]
          exact e

theorem bit64 : ∀ op : U8, (op &&& 64 != 0) = op.toNat.testBit 6 := by decide
theorem bit4 : ∀ op : U8, (op &&& 4 != 0) = op.toNat.testBit 2 := by decide
theorem bit2 : ∀ op : U8, (op &&& 2 != 0) = op.toNat.testBit 1 := by decide
theorem bit1 : ∀ op : U8, (op &&& 1 != 0) = op.toNat.testBit 0 := by decide

class FsOpExact (I : Type) [FSOperItem I] [FsOpReads I] : Prop extends FSOperEnds I where
  exact : ∀ b : Bytes, Exactly (FSOperItem.decodeFrom (T := I) b) (fun y => FsOpRead b y.1 y.2) (FsOpCrash b)

instance : FsOpExact FSOperValItem where
  exact b := by
    have := (fsVal_exactly b).map fun r : U8 × U32 × Nat =>
      ((⟨r.1 &&& 64 != 0, r.1 &&& 4 != 0, r.1 &&& 2 != 0, r.1 &&& 1 != 0, r.2.1⟩ : FSOperValItem), r.2.2)
    refine this.congr (fun y => ?_) Iff.rfl
    obtain ⟨⟨a, l, g, e, v⟩, n⟩ := y
    simp only [bit64, bit4, bit2, bit1, FsOpRead, FsOpReads.Flags, FsOpReads.value, Prod.exists, Prod.mk.injEq,
      FSOperValItem.mk.injEq]
    constructor
    · rintro ⟨o, v, n, ⟨t, h1, h2, h3, h4⟩, ⟨rfl, rfl, rfl, rfl, rfl⟩, rfl⟩
      exact ⟨o, t, h1, ⟨rfl, rfl, rfl, rfl⟩, h2, h3, h4⟩
    · rintro ⟨o, t, h1, ⟨rfl, rfl, rfl, rfl⟩, h2, h3, h4⟩
      exact ⟨o, v, n, ⟨t, h1, h2, h3, h4⟩, ⟨rfl, rfl, rfl, rfl, rfl⟩, rfl⟩

instance : FsOpExact FSOperMaskItem where
  exact b := by
    have := (fsVal_exactly b).map fun r : U8 × U32 × Nat =>
      ((⟨r.1 &&& 64 != 0, r.1 &&& 2 != 0, r.1 &&& 1 != 0, r.2.1⟩ : FSOperMaskItem), r.2.2)
    refine this.congr (fun y => ?_) Iff.rfl
    obtain ⟨⟨a, l, g, v⟩, n⟩ := y
    simp only [bit64, bit2, bit1, FsOpRead, FsOpReads.Flags, FsOpReads.value, Prod.exists, Prod.mk.injEq,
      FSOperMaskItem.mk.injEq]
    constructor
    · rintro ⟨o, v, n, ⟨t, h1, h2, h3, h4⟩, ⟨rfl, rfl, rfl, rfl⟩, rfl⟩
      exact ⟨o, t, h1, ⟨rfl, rfl, rfl⟩, h2, h3, h4⟩
    · rintro ⟨o, t, h1, ⟨rfl, rfl, rfl⟩, h2, h3, h4⟩
      exact ⟨o, v, n, ⟨t, h1, h2, h3, h4⟩, ⟨rfl, rfl, rfl, rfl⟩, rfl⟩

section ops
variable {I : Type} [FSOperItem I] [FsOpReads I]

omit [FSOperItem I] in
theorem fsOpRead_le (b : Bytes) (x : I) (n : Nat) (h : FsOpRead b x n) : n ≤ b.length := by
  obtain ⟨op, t, -, -, -, rfl, rfl⟩ := h
  simp; omega

variable [FsOpExact I]

theorem fsOps_exactly (b : Bytes) :
    Exactly (FSOperVec.decodeFrom (T := I) b) (fun y => FsOpsRead b y.1 ∧ y.2 = b.length) (FsOpsCrash I b) := by
  have := (items_exactly (lim := 0) (FSOperEnds.progress (T := I)) (fun b _ => FsOpExact.exact b) b).map
    fun y => ((⟨y.1⟩ : FSOperVec I), y.2)
  refine this.congr (fun y => ?_) Iff.rfl
  constructor
  · rintro ⟨⟨xs, n⟩, h, rfl⟩
    exact ⟨⟨n, h⟩, itemsRead_all fsOpRead_le h⟩
  · rintro ⟨⟨n, h⟩, h2⟩
    have := itemsRead_all fsOpRead_le h
    obtain ⟨⟨xs⟩, m⟩ := y
    exact ⟨(xs, n), h, by rw [this, ← h2]⟩

end ops

/-! ## Prefixes -/

class FsPrefixExact (T : Type) [FSItem T] [FsPrefixReads T] : Prop where
  exact : ∀ b : Bytes, Exactly (FSItem.decodeFs (T := T) b) (fun y => FsPrefixReads.Read b y.1 y.2)
    (FsPrefixReads.Crash T b)

instance : FsPrefixExact BgpAddrV4 where
  exact b := by
    have : FSItem.decodeFs (T := BgpAddrV4) b = decodeItem b := by
      simp only [FSItem.decodeFs, decodeItem, BgpItem.extractBits]
    rw [this]
    exact nlri_exactly b

instance : FsPrefixExact FS6 where
  exact b := by
    match b with
    | [] =>
      refine .of_cases ?_ (fun _ => rfl) (.inr (.inl (.inl (by simp))))
      rintro y ⟨_, _, _, h, _⟩; cases h
    | [l] =>
      refine .of_cases ?_ (fun _ => rfl) (.inr (.inl (.inl (by simp))))
      rintro y ⟨_, _, _, h, _⟩; cases h
    | l :: o :: t =>
      have := (PrefixExact.exact (T := BgpAddrV6) l t).map fun y => ((⟨y.1, o⟩ : FS6), y.2 + 2)
      have e : FSItem.decodeFs (T := FS6) (l :: o :: t) =
          (BgpItem.extractBits (T := BgpAddrV6) l t >>= fun y => .ok ((⟨y.1, o⟩ : FS6), y.2 + 2)) := by
        simp only [FSItem.decodeFs, BgpItem.extractBits, idx_cons_zero, idx_cons_succ, rfrom_cons_succ, rfrom_zero,
          Res.ok_bind]
      rw [e]
      refine this.congr (fun y => ?_) ?_
      · obtain ⟨⟨a, o'⟩, n⟩ := y
        constructor
        · rintro ⟨⟨x, k⟩, h, e⟩
          simp only [Prod.mk.injEq, FS6.mk.injEq] at e
          obtain ⟨⟨rfl, rfl⟩, rfl⟩ := e
          exact ⟨l, t, k, rfl, h, rfl⟩
        · rintro ⟨l', t', k, e, h, rfl⟩
          simp only [List.cons.injEq] at e
          obtain ⟨rfl, rfl, rfl⟩ := e
          exact ⟨(a, k), h, rfl⟩
      · constructor
        · intro h; exact .inr ⟨l, _, rfl, h⟩
        · rintro (h | ⟨l', t', e, h⟩)
          · simp at h; omega
          · simp only [List.cons.injEq] at e
            obtain ⟨rfl, rfl⟩ := e
            exact h

instance : FsPrefixExact FSV4U where
  exact b := by
    cases b with
    | nil =>
      refine .of_cases ?_ (fun _ => rfl) (.inr (.inl (.inl rfl)))
      rintro y ⟨_, _, _, h, _⟩; cases h
    | cons l t =>
      by_cases h8 : t.length < 8
      · refine .of_cases ?_ ?_ (.inr (.inr ?_))
        · rintro ⟨x, n⟩ ⟨l', t', m, e, ⟨t'', m', -, hb, -⟩, -⟩
          simp only [List.cons.injEq] at e
          obtain ⟨rfl, rfl⟩ := e
          rw [hb] at h8; simp only [rdBody, List.length_append, be_length] at h8; omega
        · rintro (h | ⟨l', t', e, h, -⟩)
          · cases h
          · simp only [List.cons.injEq] at e
            obtain ⟨rfl, rfl⟩ := e
            omega
        · simp only [FSItem.decodeFs, rfrom_cons_succ, rfrom_zero, Res.ok_bind]
          rw [rd_decode_short h8]; trivial
      · obtain ⟨rd, t, rfl, -⟩ := exists_rd (b := t) (by omega)
        by_cases h64 : l.toNat < 64
        · refine .of_cases ?_ (fun _ => ?_) (.inr (.inl (.inr ⟨l, _, rfl, by simp, h64⟩)))
          · rintro ⟨x, n⟩ ⟨l', t', m, e, ⟨t'', m', h, -⟩, -⟩
            simp only [List.cons.injEq] at e
            obtain ⟨rfl, rfl⟩ := e
            omega
          · simp only [FSItem.decodeFs, rfrom_cons_succ, rfrom_zero, Res.ok_bind, idx_cons_zero]
            rw [rd_reads8]
            simp only [Res.ok_bind]
            rw [subC, if_neg (by simpa using h64)]; rfl
        · have hs : (l - 64).toNat = l.toNat - 64 := toNat_sub_ofNat (k := 64) (by omega)
          have := (PrefixExact.exact (T := BgpAddrV4) (l - 64) t).map fun y =>
            ((⟨⟨y.1, rd⟩⟩ : FSV4U), 8 + y.2 + 1)
          have e : FSItem.decodeFs (T := FSV4U) (l :: (rdBody rd ++ t)) =
              (BgpItem.extractBits (T := BgpAddrV4) (l - 64) t >>= fun y =>
                .ok ((⟨⟨y.1, rd⟩⟩ : FSV4U), 8 + y.2 + 1)) := by
            simp only [FSItem.decodeFs, BgpItem.extractBits, idx_cons_zero, idx_cons_succ, rfrom_cons_succ, rfrom_zero,
              Res.ok_bind]
            rw [rd_reads8]
            simp only [Res.ok_bind]
            rw [show subC l 64 = .ok (l - 64) from subC_ofNat (k := 64) (by omega)]
            simp only [Res.ok_bind, rfrom_cons_succ]
            rw [rfrom_append _ _ _ (by simp)]
            simp only [Res.ok_bind]
          rw [e]
          refine this.congr (fun y => ?_) ?_
          · obtain ⟨⟨⟨a, rd'⟩⟩, n⟩ := y
            constructor
            · rintro ⟨⟨x, k⟩, h, e⟩
              simp only [Prod.mk.injEq, FSV4U.mk.injEq, WithRd.mk.injEq] at e
              obtain ⟨⟨rfl, rfl⟩, rfl⟩ := e
              rw [hs] at h
              exact ⟨l, _, _, rfl, ⟨t, k, by omega, rfl, h, rfl⟩, rfl⟩
            · rintro ⟨l', t', k, e, ⟨t'', m, -, e2, h, rfl⟩, rfl⟩
              simp only [List.cons.injEq] at e
              obtain ⟨rfl, rfl⟩ := e
              have h1 : rd = rd' ∧ t = t'' := by
                have hr := rd_reads8 rd t
                rw [e2, rd_reads8] at hr
                cases hr
                exact ⟨rfl, by simpa using e2⟩
              obtain ⟨rfl, rfl⟩ := h1
              rw [← hs] at h
              exact ⟨(a, m), h, rfl⟩
          · constructor
            · intro h
              have : 249 ≤ (l - 64).toNat := h
              have := l.isLt
              omega
            · rintro (h | ⟨l', t', e, -, h⟩)
              · cases h
              · simp only [List.cons.injEq] at e
                obtain ⟨rfl, rfl⟩ := e
                omega

theorem FsPrefixExact.of_kind {T : Type} [FSItem T] [FsPrefixReads T] (h : FsReadsKind T) : FsPrefixExact T := by
  cases h <;> infer_instance

/-! ## Components -/

section component
variable {T : Type} [FSItem T] [FsPrefixReads T]

omit [FSItem T] in
theorem fsComponent_iff (code : U8) (b : Bytes) (x : BgpFlowSpec T) (k : Nat) :
    FsComponentRead code b x k ↔ match x with
      | .prefixDst a => code = 1 ∧ ∃ n, FsPrefixReads.Read b a n ∧ k = n + 2
      | .prefixSrc a => code = 2 ∧ ∃ n, FsPrefixReads.Read b a n ∧ k = n + 2
      | .proto v => code = 3 ∧ FsOpsRead b v ∧ k = b.length + 1
      | .portAny v => code = 4 ∧ FsOpsRead b v ∧ k = b.length + 1
      | .portDst v => code = 5 ∧ FsOpsRead b v ∧ k = b.length + 1
      | .portSrc v => code = 6 ∧ FsOpsRead b v ∧ k = b.length + 1
      | .icmpType v => code = 7 ∧ FsOpsRead b v ∧ k = b.length + 1
      | .icmpCode v => code = 8 ∧ FsOpsRead b v ∧ k = b.length + 1
      | .tcpFlags v => code = 9 ∧ FsOpsRead b v ∧ k = b.length + 1
      | .packetLength v => code = 10 ∧ FsOpsRead b v ∧ k = b.length + 1
      | .dscp v => code = 11 ∧ FsOpsRead b v ∧ k = b.length + 1
      | .fragment v => code = 12 ∧ FsOpsRead b v ∧ k = b.length + 1
      | .flowLabel v => code = 13 ∧ FsOpsRead b v ∧ k = b.length + 1 := by
  constructor
  · intro h
    cases h with
    | prefixDst _ a n h => exact ⟨rfl, n, h, rfl⟩
    | prefixSrc _ a n h => exact ⟨rfl, n, h, rfl⟩
    | _ _ v h => exact ⟨rfl, h, rfl⟩
  · cases x with
    | prefixDst a => rintro ⟨rfl, n, h, rfl⟩; exact .prefixDst _ _ _ h
    | prefixSrc a => rintro ⟨rfl, n, h, rfl⟩; exact .prefixSrc _ _ _ h
    | proto v => rintro ⟨rfl, h, rfl⟩; exact .proto _ _ h
    | portAny v => rintro ⟨rfl, h, rfl⟩; exact .portAny _ _ h
    | portDst v => rintro ⟨rfl, h, rfl⟩; exact .portDst _ _ h
    | portSrc v => rintro ⟨rfl, h, rfl⟩; exact .portSrc _ _ h
    | icmpType v => rintro ⟨rfl, h, rfl⟩; exact .icmpType _ _ h
    | icmpCode v => rintro ⟨rfl, h, rfl⟩; exact .icmpCode _ _ h
    | tcpFlags v => rintro ⟨rfl, h, rfl⟩; exact .tcpFlags _ _ h
    | packetLength v => rintro ⟨rfl, h, rfl⟩; exact .packetLength _ _ h
    | dscp v => rintro ⟨rfl, h, rfl⟩; exact .dscp _ _ h
    | fragment v => rintro ⟨rfl, h, rfl⟩; exact .fragment _ _ h
    | flowLabel v => rintro ⟨rfl, h, rfl⟩; exact .flowLabel _ _ h

omit [FSItem T] in
theorem getOps_exactly {I : Type} [FSOperItem I] [FsOpReads I] [FsOpExact I] (c : FSOperVec I → BgpFlowSpec T)
    (code : U8) (buf s : Bytes) (pos nlen : Nat) (hs : rslice buf (pos + 1) nlen = .ok s)
    (h : ∀ x k, FsComponentRead code s x k ↔ ∃ v, x = c v ∧ FsOpsRead s v ∧ k = s.length + 1) :
    Exactly (BgpFlowSpec.getOps c buf pos nlen) (fun y => ∃ k, FsComponentRead code s y.1 k ∧ y.2 = pos + k)
      (FsOpsCrash I s) := by
  unfold BgpFlowSpec.getOps
  rw [hs, Res.ok_bind]
  refine ((fsOps_exactly (I := I) s).map fun r => (c r.1, r.2 + pos + 1)).congr (fun y => ?_) Iff.rfl
  constructor
  · rintro ⟨⟨v, n⟩, ⟨h1, h2⟩, rfl⟩
    exact ⟨s.length + 1, (h _ _).2 ⟨v, rfl, h1, rfl⟩, by simp only at h2 ⊢; omega⟩
  · rintro ⟨k, h1, h2⟩
    obtain ⟨v, e, hv, rfl⟩ := (h _ _).1 h1
    obtain ⟨x, n⟩ := y
    simp only at e h2
    exact ⟨(v, s.length), ⟨hv, rfl⟩, by rw [e, h2]; simp only [Prod.mk.injEq, true_and]; omega⟩

theorem getPrefix_exactly [FsPrefixExact T] (c : T → BgpFlowSpec T)
    (code : U8) (buf s : Bytes) (pos nlen : Nat) (hs : rslice buf (pos + 1) nlen = .ok s)
    (h : ∀ x k, FsComponentRead code s x k ↔ ∃ a n, x = c a ∧ FsPrefixReads.Read s a n ∧ k = n + 2) :
    Exactly (BgpFlowSpec.getPrefix c buf pos nlen) (fun y => ∃ k, FsComponentRead code s y.1 k ∧ y.2 = pos + k)
      (FsPrefixReads.Crash T s) := by
  unfold BgpFlowSpec.getPrefix
  rw [hs, Res.ok_bind]
  refine ((FsPrefixExact.exact (T := T) s).map fun r => (c r.1, pos + 2 + r.2)).congr (fun y => ?_) Iff.rfl
  constructor
  · rintro ⟨⟨a, n⟩, h1, rfl⟩
    exact ⟨n + 2, (h _ _).2 ⟨a, n, rfl, h1, rfl⟩, by simp only; omega⟩
  · rintro ⟨k, h1, h2⟩
    obtain ⟨a, n, e, hv, rfl⟩ := (h _ _).1 h1
    obtain ⟨x, m⟩ := y
    simp only at e h2
    exact ⟨(a, n), hv, by rw [e, h2]; simp only [Prod.mk.injEq, true_and]; omega⟩

theorem code_known {code : U8} (h : 1 ≤ code.toNat ∧ code.toNat ≤ 13) : code = 1 ∨ code = 2 ∨ code = 3 ∨ code = 4 ∨ code = 5 ∨
    code = 6 ∨ code = 7 ∨ code = 8 ∨ code = 9 ∨ code = 10 ∨ code = 11 ∨ code = 12 ∨ code = 13 := by
  have key : ∀ k : Nat, k < 256 → code.toNat = k → code = BitVec.ofNat 8 k := by
    intro k hk h; apply BitVec.eq_of_toNat_eq; simp; omega
  obtain ⟨h1, h2⟩ := h
  have : code.toNat = 1 ∨ code.toNat = 2 ∨ code.toNat = 3 ∨ code.toNat = 4 ∨ code.toNat = 5 ∨ code.toNat = 6 ∨
    code.toNat = 7 ∨ code.toNat = 8 ∨ code.toNat = 9 ∨ code.toNat = 10 ∨ code.toNat = 11 ∨ code.toNat = 12 ∨
    code.toNat = 13 := by omega
  rcases this with h | h | h | h | h | h | h | h | h | h | h | h | h <;>
    have := key _ (by omega) h <;> simp [this]

/-- the component with its octets cut out -/
theorem getBody_exactly [FsPrefixExact T] (buf s : Bytes) (pos nlen : Nat) (code : U8) (hc : idx buf pos = .ok code)
    (hs : rslice buf (pos + 1) nlen = .ok s) :
    Exactly (BgpFlowSpec.getBody (T := T) buf pos nlen) (fun y => ∃ k, FsComponentRead code s y.1 k ∧ y.2 = pos + k)
      ((1 ≤ code.toNat ∧ code.toNat ≤ 13) ∧ FsComponentCrash T code s) := by
  unfold BgpFlowSpec.getBody
  rw [hc, Res.ok_bind]
  by_cases hk : 1 ≤ code.toNat ∧ code.toNat ≤ 13
  · rw [and_iff_right hk]
    rcases code_known hk with rfl | rfl | rfl | rfl | rfl | rfl | rfl | rfl | rfl | rfl | rfl | rfl | rfl
    · exact getPrefix_exactly _ 1 _ _ _ _ hs fun x k => by
        rw [fsComponent_iff]; cases x <;> simp
    · exact getPrefix_exactly _ 2 _ _ _ _ hs fun x k => by
        rw [fsComponent_iff]; cases x <;> simp
    · exact getOps_exactly _ 3 _ _ _ _ hs fun x k => by
        rw [fsComponent_iff]; cases x <;> simp
    · exact getOps_exactly _ 4 _ _ _ _ hs fun x k => by
        rw [fsComponent_iff]; cases x <;> simp
    · exact getOps_exactly _ 5 _ _ _ _ hs fun x k => by
        rw [fsComponent_iff]; cases x <;> simp
    · exact getOps_exactly _ 6 _ _ _ _ hs fun x k => by
        rw [fsComponent_iff]; cases x <;> simp
    · exact getOps_exactly _ 7 _ _ _ _ hs fun x k => by
        rw [fsComponent_iff]; cases x <;> simp
    · exact getOps_exactly _ 8 _ _ _ _ hs fun x k => by
        rw [fsComponent_iff]; cases x <;> simp
    · exact getOps_exactly _ 9 _ _ _ _ hs fun x k => by
        rw [fsComponent_iff]; cases x <;> simp
    · exact getOps_exactly _ 10 _ _ _ _ hs fun x k => by
        rw [fsComponent_iff]; cases x <;> simp
    · exact getOps_exactly _ 11 _ _ _ _ hs fun x k => by
        rw [fsComponent_iff]; cases x <;> simp
    · exact getOps_exactly _ 12 _ _ _ _ hs fun x k => by
        rw [fsComponent_iff]; cases x <;> simp
    · exact getOps_exactly _ 13 _ _ _ _ hs fun x k => by
        rw [fsComponent_iff]; cases x <;> simp
  · have hne : ∀ k : Nat, k < 256 → 1 ≤ k → k ≤ 13 → code ≠ BitVec.ofNat 8 k := by
      rintro k h h1 h2 rfl; apply hk; simp; omega
    refine .of_cases ?_ (fun h => absurd h.1 hk) (.inr (.inr ?_))
    · rintro ⟨x, n⟩ ⟨k, h, -⟩
      rw [fsComponent_iff] at h
      exfalso
      cases x <;> (have h := h.1; subst h; revert hk; decide)
    · have n1 : code ≠ 1 := hne 1 (by omega) (by omega) (by omega)
      have n2 : code ≠ 2 := hne 2 (by omega) (by omega) (by omega)
      have n3 : code ≠ 3 := hne 3 (by omega) (by omega) (by omega)
      have n4 : code ≠ 4 := hne 4 (by omega) (by omega) (by omega)
      have n5 : code ≠ 5 := hne 5 (by omega) (by omega) (by omega)
      have n6 : code ≠ 6 := hne 6 (by omega) (by omega) (by omega)
      have n7 : code ≠ 7 := hne 7 (by omega) (by omega) (by omega)
      have n8 : code ≠ 8 := hne 8 (by omega) (by omega) (by omega)
      have n9 : code ≠ 9 := hne 9 (by omega) (by omega) (by omega)
      have n10 : code ≠ 10 := hne 10 (by omega) (by omega) (by omega)
      have n11 : code ≠ 11 := hne 11 (by omega) (by omega) (by omega)
      have n12 : code ≠ 12 := hne 12 (by omega) (by omega) (by omega)
      have n13 : code ≠ 13 := hne 13 (by omega) (by omega) (by omega)
      rw [if_neg n1, if_neg n2, if_neg n3, if_neg n4, if_neg n5, if_neg n6, if_neg n7, if_neg n8, if_neg n9, if_neg n10,
        if_neg n11, if_neg n12, if_neg n13]
      trivial

omit [FsPrefixReads T] in
/-- a component that is cut off -/
theorem getBody_cut (buf : Bytes) (pos nlen : Nat) (code : U8) (hc : idx buf pos = .ok code)
    (hs : rslice buf (pos + 1) nlen = .panic) :
    BgpFlowSpec.getBody (T := T) buf pos nlen = if 1 ≤ code.toNat ∧ code.toNat ≤ 13 then .panic else .err .static := by
  have hp : ∀ c : T → BgpFlowSpec T, BgpFlowSpec.getPrefix c buf pos nlen = .panic := fun c => by
    unfold BgpFlowSpec.getPrefix; rw [hs]; rfl
  have hv : ∀ c : FSOperVec FSOperValItem → BgpFlowSpec T, BgpFlowSpec.getOps c buf pos nlen = .panic := fun c => by
    unfold BgpFlowSpec.getOps; rw [hs]; rfl
  have hm : ∀ c : FSOperVec FSOperMaskItem → BgpFlowSpec T, BgpFlowSpec.getOps c buf pos nlen = .panic := fun c => by
    unfold BgpFlowSpec.getOps; rw [hs]; rfl
  unfold BgpFlowSpec.getBody
  rw [hc, Res.ok_bind]
  by_cases hk : 1 ≤ code.toNat ∧ code.toNat ≤ 13
  · rw [if_pos hk]
    rcases code_known hk with rfl | rfl | rfl | rfl | rfl | rfl | rfl | rfl | rfl | rfl | rfl | rfl | rfl
    · exact hp _
    · exact hp _
    · exact hv _
    · exact hv _
    · exact hv _
    · exact hv _
    · exact hv _
    · exact hv _
    · exact hm _
    · exact hv _
    · exact hv _
    · exact hm _
    · exact hv _
  · have hne : ∀ k : Nat, k < 256 → 1 ≤ k → k ≤ 13 → code ≠ BitVec.ofNat 8 k := by
      rintro k h h1 h2 rfl; apply hk; simp; omega
    rw [if_neg hk]
    have n1 : code ≠ 1 := hne 1 (by omega) (by omega) (by omega)
    have n2 : code ≠ 2 := hne 2 (by omega) (by omega) (by omega)
    have n3 : code ≠ 3 := hne 3 (by omega) (by omega) (by omega)
    have n4 : code ≠ 4 := hne 4 (by omega) (by omega) (by omega)
    have n5 : code ≠ 5 := hne 5 (by omega) (by omega) (by omega)
    have n6 : code ≠ 6 := hne 6 (by omega) (by omega) (by omega)
    have n7 : code ≠ 7 := hne 7 (by omega) (by omega) (by omega)
    have n8 : code ≠ 8 := hne 8 (by omega) (by omega) (by omega)
    have n9 : code ≠ 9 := hne 9 (by omega) (by omega) (by omega)
    have n10 : code ≠ 10 := hne 10 (by omega) (by omega) (by omega)
    have n11 : code ≠ 11 := hne 11 (by omega) (by omega) (by omega)
    have n12 : code ≠ 12 := hne 12 (by omega) (by omega) (by omega)
    have n13 : code ≠ 13 := hne 13 (by omega) (by omega) (by omega)
    rw [if_neg n1, if_neg n2, if_neg n3, if_neg n4, if_neg n5, if_neg n6, if_neg n7, if_neg n8, if_neg n9, if_neg n10,
      if_neg n11, if_neg n12, if_neg n13]

/-! ## Items -/

/-- behind the length octets -/
theorem fsBody_exactly [FsPrefixExact T] (pre t : Bytes) (l : Nat) :
    Exactly (BgpFlowSpec.getBody (T := T) (pre ++ t) pre.length (pre.length + l))
      (fun y => ∃ code body t' k, t = code :: body ++ t' ∧ body.length + 1 = l ∧ FsComponentRead code body y.1 k ∧
        y.2 = pre.length + k)
      (t = [] ∨ ∃ code body, t = code :: body ∧ 1 ≤ code.toNat ∧ code.toNat ≤ 13 ∧
        (l = 0 ∨ body.length + 1 < l ∨ FsComponentCrash T code (body.take (l - 1)))) := by
  cases t with
  | nil =>
    refine .of_cases ?_ (fun _ => ?_) (.inr (.inl (.inl rfl)))
    · rintro y ⟨_, _, _, _, h, _⟩; cases h
    · unfold BgpFlowSpec.getBody
      rw [idx_panic (by simp)]; rfl
  | cons code body =>
    have hc : idx (pre ++ code :: body) pre.length = .ok code := by rw [idx_append_len, idx_cons_zero]
    by_cases hl : l = 0 ∨ body.length + 1 < l
    · have hs : rslice (pre ++ code :: body) (pre.length + 1) (pre.length + l) = .panic := by
        rw [rslice, if_neg]
        simp only [List.length_append, List.length_cons]; omega
      rw [getBody_cut _ _ _ _ hc hs]
      refine .of_cases ?_ ?_ ?_
      · rintro ⟨x, n⟩ ⟨code', body', t', k, e, h1, -⟩
        simp only [List.cons_append, List.cons.injEq] at e
        rw [e.2, List.length_append] at hl
        omega
      · rintro (h | ⟨code', body', e, h1, h2, -⟩)
        · cases h
        · simp only [List.cons.injEq] at e
          rw [e.1, if_pos ⟨h1, h2⟩]
      · by_cases hk : 1 ≤ code.toNat ∧ code.toNat ≤ 13
        · exact .inr (.inl (.inr ⟨code, body, rfl, hk.1, hk.2, by omega⟩))
        · rw [if_neg hk]; exact .inr (.inr trivial)
    · have hs : rslice (pre ++ code :: body) (pre.length + 1) (pre.length + l) = .ok (body.take (l - 1)) := by
        rw [rslice_append_right (by omega) (by omega), show pre.length + 1 - pre.length = 0 + 1 by omega,
          show pre.length + l - pre.length = (l - 1) + 1 by omega, rslice_cons_succ, rslice_ok (by omega) (by omega)]
        simp
      refine (getBody_exactly (T := T) _ _ _ _ _ hc hs).congr (fun y => ?_) ?_
      · constructor
        · rintro ⟨k, h1, h2⟩
          exact ⟨code, body.take (l - 1), body.drop (l - 1), k, by simp, by simp; omega, h1, h2⟩
        · rintro ⟨code', body', t', k, e, h1, h2, h3⟩
          simp only [List.cons_append, List.cons.injEq] at e
          obtain ⟨rfl, rfl⟩ := e
          refine ⟨k, ?_, h3⟩
          rwa [List.take_append_of_le_length (by omega), List.take_of_length_le (by omega)]
      · constructor
        · rintro ⟨⟨h1, h2⟩, h3⟩
          exact .inr ⟨code, body, rfl, h1, h2, .inr (.inr h3)⟩
        · rintro (h | ⟨code', body', e, h1, h2, h⟩)
          · cases h
          · simp only [List.cons.injEq] at e
            obtain ⟨rfl, rfl⟩ := e
            rcases h with h | h | h
            · exact absurd (.inl h) hl
            · exact absurd (.inr h) hl
            · exact ⟨⟨h1, h2⟩, h⟩

theorem high_nibble : ∀ b : U8, (b &&& 0xf0 = 0xf0) ↔ 240 ≤ b.toNat := by decide

theorem fsLength_unique {p q : Bytes} {l m : Nat} (h1 : FsLength p l) (h2 : FsLength q m) {s t : Bytes} (e : p ++ s = q ++ t) :
    p = q ∧ l = m ∧ s = t := by
  cases h1 <;> cases h2 <;> simp only [List.cons_append, List.nil_append, List.cons.injEq] at e
  · obtain ⟨rfl, rfl⟩ := e; exact ⟨rfl, rfl, rfl⟩
  · obtain ⟨rfl, -⟩ := e; omega
  · obtain ⟨rfl, -⟩ := e; omega
  · obtain ⟨rfl, rfl, rfl⟩ := e; exact ⟨rfl, rfl, rfl⟩

omit [FsPrefixReads T] in
theorem fs_dec {pre : Bytes} {l : Nat} (h : FsLength pre l) (t : Bytes) :
    BgpFlowSpec.decodeFrom (T := T) (pre ++ t) = BgpFlowSpec.getBody (pre ++ t) pre.length (pre.length + l) := by
  unfold BgpFlowSpec.decodeFrom
  cases h with
  | one b h =>
    simp only [List.cons_append, List.nil_append, idx_cons_zero, Res.ok_bind, List.length_cons, List.length_nil]
    rw [if_neg (by rw [high_nibble]; omega)]
    simp only [Nat.zero_add, Nat.add_comm 1]
  | two b c h =>
    simp only [List.cons_append, List.nil_append, idx_cons_zero, Res.ok_bind, List.length_cons, List.length_nil]
    rw [if_pos ((high_nibble b).2 h), getn16_cons]
    simp only [Res.ok_bind]
    congr 1
    rw [BitVec.toNat_and, BitVec.toNat_ofNat]
    rw [show (0xfff : U16).toNat = 2 ^ 12 - 1 from rfl, Nat.and_two_pow_sub_one_eq_mod]
    have := b.isLt
    have := c.isLt
    simp [unbe]
    omega

theorem fs_exactly [FsPrefixExact T] (mode : BgpTransportMode) (b : Bytes) :
    Exactly (BgpAddrItem.decodeFrom (T := BgpFlowSpec T) mode b) (fun y => FsItemRead b y.1 y.2) (FsItemCrash T b) := by
  show Exactly (BgpFlowSpec.decodeFrom b) _ _
  by_cases h : b = [] ∨ ∃ c : U8, b = [c] ∧ 240 ≤ c.toNat
  · have hnr : ∀ pre l t, FsLength pre l → b ≠ pre ++ t := by
      rintro pre l t hl rfl
      cases hl with
      | one c hc =>
        rcases h with h | ⟨d, h, hd⟩
        · cases h
        · simp only [List.cons_append, List.nil_append, List.cons.injEq] at h
          rw [h.1] at hc; omega
      | two c d hc =>
        rcases h with h | ⟨d, h, hd⟩
        · cases h
        · simp at h
    refine .of_cases ?_ ?_ (.inr (.inl ?_))
    · rintro ⟨x, n⟩ ⟨pre, l, code, body, t, k, hl, e, -⟩
      exact absurd (by simpa using e) (hnr pre l (code :: body ++ t) hl)
    · intro _
      rcases h with rfl | ⟨c, rfl, hc⟩
      · rfl
      · unfold BgpFlowSpec.decodeFrom
        rw [idx_cons_zero, Res.ok_bind, if_pos ((high_nibble c).2 hc), getn16_short (by simp)]; rfl
    · rcases h with h | h
      · exact .inl h
      · exact .inr (.inl h)
  · obtain ⟨pre, l, t, hl, rfl⟩ : ∃ pre l t, FsLength pre l ∧ b = pre ++ t := by
      match b, h with
      | [], h => exact absurd (.inl rfl) h
      | [c], h =>
        by_cases hc : 240 ≤ c.toNat
        · exact absurd (.inr ⟨c, rfl, hc⟩) h
        · exact ⟨[c], _, [], .one c (by omega), rfl⟩
      | c :: d :: t, h =>
        by_cases hc : 240 ≤ c.toNat
        · exact ⟨[c, d], _, t, .two c d hc, rfl⟩
        · exact ⟨[c], _, d :: t, .one c (by omega), rfl⟩
    rw [fs_dec hl]
    refine (fsBody_exactly (T := T) pre t l).congr (fun y => ?_) ?_
    · constructor
      · rintro ⟨code, body, t', k, rfl, h1, h2, h3⟩
        exact ⟨pre, l, code, body, t', k, hl, by simp, h1, h2, h3⟩
      · rintro ⟨pre', l', code, body, t', k, hl', e, h1, h2, h3⟩
        obtain ⟨rfl, rfl, rfl⟩ := fsLength_unique hl hl' (s := t) (t := code :: body ++ t') (by simpa using e)
        exact ⟨code, body, t', k, rfl, h1, h2, h3⟩
    · constructor
      · intro h'
        exact .inr (.inr ⟨pre, l, t, hl, rfl, h'⟩)
      · rintro (h' | h' | ⟨pre', l', t', hl', e, h'⟩)
        · exact absurd (.inl h') h
        · exact absurd (.inr h') h
        · obtain ⟨rfl, rfl, rfl⟩ := fsLength_unique hl hl' e
          exact h'

end component

end Zbgp
