import Verif.Lemmas.Families
import Verif.Spec.Flowspec

/-!
# Lemmas about the FlowSpec codec
-/

namespace Zbgp

open Spec

/-! ## Operators -/

theorem fsLenCode_cases (v : Nat) : (v < 2 ^ 8 ∧ fsLenCode v = 0) ∨ (2 ^ 8 ≤ v ∧ v < 2 ^ 16 ∧ fsLenCode v = 1) ∨
    (2 ^ 16 ≤ v ∧ fsLenCode v = 2) := by
  unfold fsLenCode; split
  · left; simp_all
  · split
    · right; left; simp_all
    · right; right; simp_all

theorem be_one (v : Nat) : be 1 v = [BitVec.ofNat 8 v] := by simp [be]

/-- a value of at most 32 bits behind an operator octet -/
theorem fsEncodeVal_writes (op o1 o2 : U8) (v : U32) (h1 : o1 = op ||| (1 <<< 4)) (h2 : o2 = op ||| (2 <<< 4)) :
    Writes (fsEncodeVal op v)
      ((if fsLenCode v.toNat = 0 then op else if fsLenCode v.toNat = 1 then o1 else o2) ::
        be (2 ^ fsLenCode v.toNat) v.toNat) := by
  intro buf hb
  subst h1 h2
  unfold fsEncodeVal
  rcases fsLenCode_cases v.toNat with ⟨h, e⟩ | ⟨h, h', e⟩ | ⟨h, e⟩ <;> rw [e] at hb ⊢ <;> simp at hb
  · rw [if_neg (by omega), if_neg (by omega)]
    obtain ⟨a, b, r, rfl⟩ := exists_cons2 (l := buf) (by omega)
    simp [be_one, setIdx_cons_succ]
  · rw [if_neg (by omega), if_pos (by omega)]
    obtain ⟨a, r, rfl⟩ := List.exists_cons_of_length_pos (l := buf) (by omega)
    simp only [setIdx_cons_zero, Res.ok_bind]
    rw [show (op ||| 1 <<< 4) :: r = [op ||| 1 <<< 4] ++ r by rfl,
      cur_modFrom (put16 _) _ _ _ (by simp) (by simp at hb ⊢; omega)]
    simp
    rw [Nat.mod_eq_of_lt (by omega)]
  · rw [if_pos (by omega)]
    obtain ⟨a, r, rfl⟩ := List.exists_cons_of_length_pos (l := buf) (by omega)
    simp only [setIdx_cons_zero, Res.ok_bind]
    rw [show (op ||| 2 <<< 4) :: r = [op ||| 2 <<< 4] ++ r by rfl,
      cur_modFrom (put32 _) _ _ _ (by simp) (by simp at hb ⊢; omega)]
    simp

theorem fsDecodeVal_reads (o : U8) (v : U32) (h : ((o >>> 4) &&& 3).toNat = fsLenCode v.toNat) (rest : Bytes) :
    fsDecodeVal (o :: be (2 ^ fsLenCode v.toNat) v.toNat ++ rest) = .ok (o, v, 1 + 2 ^ fsLenCode v.toNat) := by
  unfold fsDecodeVal
  simp only [List.cons_append, idx_cons_zero, Res.ok_bind]
  rcases fsLenCode_cases v.toNat with ⟨hv, e⟩ | ⟨hv, hv', e⟩ | ⟨hv, e⟩ <;> rw [e] at h ⊢
  · rw [if_pos (BitVec.eq_of_toNat_eq h)]
    simp [be_one]
    apply BitVec.eq_of_toNat_eq; simp; omega
  · rw [if_neg (by intro hc; rw [hc] at h; simp at h), if_pos (BitVec.eq_of_toNat_eq h)]
    simp [getn16_be]
    apply BitVec.eq_of_toNat_eq; simp; omega
  · rw [if_neg (by intro hc; rw [hc] at h; simp at h), if_neg (by intro hc; rw [hc] at h; simp at h),
      if_pos (BitVec.eq_of_toNat_eq h)]
    simp [getn32_be]

/-- an operator type whose codec follows the wire format -/
class FsLawful (I : Type) [FSOperItem I] [FsOperator I] : Prop where
  writes : ∀ x : I, Writes (FSOperItem.encodeTo x) (fsOpWire false x)
  reads : ∀ (x : I) (last : Bool), Reads FSOperItem.decodeFrom (fsOpWire last x) x
  last : ∀ x : I, fsOpOctet false x ||| 128 = fsOpOctet true x

theorem lenCode_le (v : Nat) : fsLenCode v = 0 ∨ fsLenCode v = 1 ∨ fsLenCode v = 2 := by
  rcases fsLenCode_cases v with ⟨_, e⟩ | ⟨_, _, e⟩ | ⟨_, e⟩ <;> simp [e]

instance : FsLawful FSOperValItem where
  writes x := by
    obtain ⟨a, l, g, e, v⟩ := x
    have := fsEncodeVal_writes (orIf e 1 (orIf g 2 (orIf l 4 (orIf a 64 0)))) _ _ v rfl rfl
    unfold fsOpWire fsOpOctet
    simp only [FSOperItem.encodeTo, FsOperator.value, FsOperator.flags]
    convert this using 2
    rcases lenCode_le v.toNat with h | h | h <;> rw [h] <;> cases a <;> cases l <;> cases g <;> cases e <;> rfl
  reads x last rest := by
    obtain ⟨a, l, g, e, v⟩ := x
    unfold fsOpWire fsOpOctet
    simp only [FSOperItem.decodeFrom, FsOperator.value, FsOperator.flags]
    rw [fsDecodeVal_reads _ v (by
      rcases lenCode_le v.toNat with h | h | h <;> rw [h] <;>
        cases last <;> cases a <;> cases l <;> cases g <;> cases e <;> rfl)]
    simp only [Res.ok_bind, List.length_cons, be_length, Nat.add_comm 1]
    rcases lenCode_le v.toNat with h | h | h <;> rw [h] <;>
      cases last <;> cases a <;> cases l <;> cases g <;> cases e <;> rfl
  last x := by
    obtain ⟨a, l, g, e, v⟩ := x
    unfold fsOpOctet
    simp only [FsOperator.value, FsOperator.flags]
    rcases lenCode_le v.toNat with h | h | h <;> rw [h] <;> cases a <;> cases l <;> cases g <;> cases e <;> rfl

instance : FsLawful FSOperMaskItem where
  writes x := by
    obtain ⟨a, n, m, v⟩ := x
    have := fsEncodeVal_writes (orIf m 1 (orIf n 2 (orIf a 64 0))) _ _ v rfl rfl
    unfold fsOpWire fsOpOctet
    simp only [FSOperItem.encodeTo, FsOperator.value, FsOperator.flags]
    convert this using 2
    rcases lenCode_le v.toNat with h | h | h <;> rw [h] <;> cases a <;> cases n <;> cases m <;> rfl
  reads x last rest := by
    obtain ⟨a, n, m, v⟩ := x
    unfold fsOpWire fsOpOctet
    simp only [FSOperItem.decodeFrom, FsOperator.value, FsOperator.flags]
    rw [fsDecodeVal_reads _ v (by
      rcases lenCode_le v.toNat with h | h | h <;> rw [h] <;>
        cases last <;> cases a <;> cases n <;> cases m <;> rfl)]
    simp only [Res.ok_bind, List.length_cons, be_length, Nat.add_comm 1]
    rcases lenCode_le v.toNat with h | h | h <;> rw [h] <;>
      cases last <;> cases a <;> cases n <;> cases m <;> rfl
  last x := by
    obtain ⟨a, n, m, v⟩ := x
    unfold fsOpOctet
    simp only [FsOperator.value, FsOperator.flags]
    rcases lenCode_le v.toNat with h | h | h <;> rw [h] <;> cases a <;> cases n <;> cases m <;> rfl

section ops
variable {I : Type} [FSOperItem I] [FsOperator I] [FsLawful I]

omit [FSOperItem I] [FsLawful I] in
theorem fsOpsWire_concat (l : List I) (x : I) :
    fsOpsWire (l ++ [x]) = l.flatMap (fsOpWire false) ++ fsOpWire true x := by
  induction l with
  | nil => simp [fsOpsWire]
  | cons y r ih =>
    rw [List.flatMap_cons, List.append_assoc, ← ih]
    cases r <;> simp [fsOpsWire]

omit [FSOperItem I] [FsLawful I] in
theorem fsOpWire_length (b : Bool) (x : I) : (fsOpWire b x).length = 1 + 2 ^ fsLenCode (FsOperator.value x) := by
  simp [fsOpWire, Nat.add_comm]

omit [FSOperItem I] [FsLawful I] in
theorem fsOpsWire_length (l : List I) :
    (fsOpsWire l).length = (l.map fun x => 1 + 2 ^ fsLenCode (FsOperator.value x)).sum := by
  induction l with
  | nil => rfl
  | cons x r ih =>
    cases r with
    | nil => simp [fsOpsWire, fsOpWire_length]
    | cons y r => simp only [fsOpsWire, List.length_append, ih, fsOpWire_length, List.map_cons, List.sum_cons]

theorem encodeLoop_writes (l : List I) (x : I) (p t : Bytes) (pos lp : Nat) (hp : pos = p.length)
    (ht : ((l ++ [x]).flatMap (fsOpWire false)).length ≤ t.length) :
    FSOperVec.encodeLoop (l ++ [x]) (p ++ t) pos lp =
      .ok (p ++ ((l ++ [x]).flatMap (fsOpWire false) ++ t.drop ((l ++ [x]).flatMap (fsOpWire false)).length),
        pos + ((l ++ [x]).flatMap (fsOpWire false)).length, pos + (l.flatMap (fsOpWire false)).length) := by
  induction l generalizing p t pos lp with
  | nil =>
    simp only [List.nil_append, List.flatMap_cons, List.flatMap_nil, List.append_nil] at ht ⊢
    simp only [FSOperVec.encodeLoop]
    rw [cur_onFrom (FsLawful.writes x) _ _ _ hp ht]
    simp
  | cons y r ih =>
    simp only [List.cons_append, List.flatMap_cons, List.length_append] at ht
    simp only [List.cons_append, FSOperVec.encodeLoop]
    rw [cur_onFrom (FsLawful.writes y) _ _ _ hp (by omega)]
    simp only [Res.ok_bind]
    rw [ih _ _ _ _ (by simp [hp]) (by simp only [List.length_drop]; omega)]
    simp only [List.flatMap_cons, List.append_assoc, List.drop_drop, List.length_append, Nat.add_assoc]

theorem fsVec_writes (v : FSOperVec I) : Writes v.encodeTo (fsOpsWire v.items) := by
  intro buf hb
  obtain ⟨items⟩ := v
  unfold FSOperVec.encodeTo
  simp only at hb ⊢
  rcases List.eq_nil_or_concat items with rfl | ⟨l, x, rfl⟩
  · simp [fsOpsWire]
  · rw [List.concat_eq_append] at *
    rw [if_neg (by simp)]
    rw [fsOpsWire_concat] at hb ⊢
    have hl : (fsOpWire true x).length = (fsOpWire false x).length := by simp [fsOpWire_length]
    have := encodeLoop_writes l x [] buf 0 0 rfl (by
      simp only [List.flatMap_append, List.flatMap_cons, List.flatMap_nil, List.append_nil, List.length_append] at hb ⊢
      omega)
    rw [List.nil_append] at this
    rw [this]
    simp only [Res.ok_bind, List.nil_append, Nat.zero_add, List.flatMap_append, List.flatMap_cons, List.flatMap_nil,
      List.append_nil, List.append_assoc, idx_append_len]
    simp only [fsOpWire, List.cons_append, idx_cons_zero, Res.ok_bind]
    rw [setIdx_append (Nat.le_refl _)]
    simp [setIdx_cons_zero]
    exact FsLawful.last x

theorem fsVec_reads (l : List I) : FSOperVec.decodeFrom (fsOpsWire l) = .ok (⟨l⟩, (fsOpsWire l).length) := by
  unfold FSOperVec.decodeFrom
  rcases List.eq_nil_or_concat l with rfl | ⟨l, x, rfl⟩
  · simp [fsOpsWire]
  · rw [List.concat_eq_append, fsOpsWire_concat]
    have := decList_reads' (lim := 0) (dec := FSOperItem.decodeFrom (T := I)) (w := fun q : Bool × I => fsOpWire q.1 q.2)
      (y := fun q => q.2) (l.map (fun i => (false, i)) ++ [(true, x)])
      (fun q _ => ⟨by simp [fsOpWire], FsLawful.reads q.2 q.1⟩)
    simp only [List.flatMap_append, List.flatMap_map, List.flatMap_cons, List.flatMap_nil, List.append_nil,
      List.map_append, List.map_map, List.map_cons, List.map_nil] at this
    rw [this]
    simp [Function.comp_def]

end ops

/-! ## Announced length -/

theorem foldl_add_sum {α : Type} (f : α → Nat) (l : List α) (k : Nat) :
    l.foldl (fun a c => a + f c) k = k + (l.map f).sum := by
  induction l generalizing k with
  | nil => simp
  | cons x r ih => simp [ih]; omega

theorem sum_split {α : Type} (f g : α → Nat) (q : α → Bool) (l : List α)
    (h : ∀ x ∈ l, g x = f x + if q x then 1 else 0) : (l.map g).sum = (l.map f).sum + (l.filter q).length := by
  induction l with
  | nil => rfl
  | cons x r ih =>
    have h1 := h x (by simp)
    have h2 := ih (fun y hy => h y (by simp [hy]))
    simp only [List.map_cons, List.sum_cons, h1, h2, List.filter_cons]
    split <;> simp <;> omega

theorem vals_length (v : FSOperVec FSOperValItem) (h : FsValsOk v) : (fsOpsWire v.items).length = v.bytesLen + 1 := by
  unfold FsValsOk at h
  rw [fsOpsWire_length, FSOperVec.bytesLen, foldl_add_sum,
    sum_split (FSOperItem.bytesLen (T := FSOperValItem)) _ (fun i => i.value.toNat < 2 ^ 8) v.items, h]
  · omega
  · intro x _
    simp only [FSOperItem.bytesLen, FsOperator.value, decide_eq_true_eq]
    rcases fsLenCode_cases x.value.toNat with ⟨hv, e⟩ | ⟨hv, hv', e⟩ | ⟨hv, e⟩ <;> rw [e]
    · rw [if_neg (by omega), if_neg (by omega), if_pos hv]; rfl
    · rw [if_neg (by omega), if_pos (by omega), if_neg (by omega)]; rfl
    · rw [if_pos (by omega), if_neg (by omega)]; rfl

theorem masks_length (v : FSOperVec FSOperMaskItem) (h : FsMasksOk v) :
    (fsOpsWire v.items).length = v.bytesLen + 1 := by
  obtain ⟨h, h2⟩ := h
  rw [fsOpsWire_length, FSOperVec.bytesLen, foldl_add_sum,
    sum_split (FSOperItem.bytesLen (T := FSOperMaskItem)) _ (fun i => i.value.toNat < 2 ^ 16) v.items, h]
  · omega
  · intro x hx
    have := h2 x hx
    simp only [FSOperItem.bytesLen, FsOperator.value, decide_eq_true_eq]
    rcases fsLenCode_cases x.value.toNat with ⟨hv, e⟩ | ⟨hv, hv', e⟩ | ⟨hv, e⟩ <;> rw [e]
    · rw [if_neg (by omega), if_neg (by omega), if_neg (by omega), if_pos (by omega)]; rfl
    · rw [if_neg (by omega), if_neg (by omega), if_pos (by omega), if_pos (by omega)]; rfl
    · rw [if_pos (by omega), if_neg (by omega)]; rfl

/-! ## Components -/

class FsPrefixLawful (T : Type) [FSItem T] [FsPrefix T] : Prop where
  enc : ∀ x : T, FsPrefix.WF x → ∀ m : Bytes, (FsPrefix.body x).length ≤ m.length →
    FSItem.encodeFs x m = .ok (FsPrefix.body x ++ m.drop (FsPrefix.body x).length)
  dec : ∀ x : T, FsPrefix.WF x →
    FSItem.decodeFs (FsPrefix.body x) = .ok (FsPrefix.received x, (FsPrefix.body x).length)
  size : ∀ x : T, FsPrefix.WF x → FSItem.storeSize x = (FsPrefix.body x).length

instance : FsPrefixLawful BgpAddrV4 where
  enc x h m hm := by
    simp only [FsPrefix.body, List.length_cons] at hm
    obtain ⟨a, r, rfl⟩ := List.exists_cons_of_length_pos (l := m) (by omega)
    have hw := NlriLawful.writes x h r (by simpa [NlriKind.body] using hm)
    simp only [BgpItem.setBits] at hw
    simp only [FSItem.encodeFs, setIdx_cons_zero, Res.ok_bind]
    rw [show x.prefixlen :: r = [x.prefixlen] ++ r by rfl, onFrom_append _ _ 1 _ rfl, hw]
    simp [FsPrefix.body, NlriKind.body]
  dec x h := by
    have hr := NlriLawful.reads x h []
    simp only [BgpItem.extractBits, NlriKind.bits, ofNat_toNat8, List.append_nil] at hr
    simp only [FSItem.decodeFs, FsPrefix.body, idx_cons_zero, Res.ok_bind, rfrom_cons_succ, rfrom_zero]
    rw [show prefixBody 4 x.addr.toNat x.prefixlen.toNat = NlriKind.body x by rfl, hr]
    simp [FsPrefix.received]
  size x h := by
    have : x.prefixlen.toNat ≤ 32 := h
    simp [FSItem.storeSize, FsPrefix.body, prefixBody, octets]; omega

instance : FsPrefixLawful FSV4U where
  enc _ h := h.elim
  dec _ h := h.elim
  size _ h := h.elim

instance : FsPrefixLawful FS6 where
  enc x h m hm := by
    simp only [FsPrefix.body, List.length_cons] at hm
    obtain ⟨a, b, r, rfl⟩ := exists_cons2 (l := m) (by omega)
    have hw := NlriLawful.writes x.ipv6 h r (by simpa [NlriKind.body] using hm)
    simp only [BgpItem.setBits] at hw
    simp only [FSItem.encodeFs, setIdx_cons_zero, setIdx_cons_succ, Res.ok_bind, Res.map_ok]
    rw [show x.ipv6.prefixlen :: x.offset :: r = [x.ipv6.prefixlen, x.offset] ++ r by rfl,
      onFrom_append _ _ 2 _ rfl, hw]
    simp [FsPrefix.body, NlriKind.body]
  dec x h := by
    have hr := NlriLawful.reads x.ipv6 h []
    simp only [BgpItem.extractBits, NlriKind.bits, ofNat_toNat8, List.append_nil] at hr
    simp only [FSItem.decodeFs, FsPrefix.body, idx_cons_zero, idx_cons_succ, Res.ok_bind, rfrom_cons_succ, rfrom_zero]
    rw [show prefixBody 16 x.ipv6.addr.toNat x.ipv6.prefixlen.toNat = NlriKind.body x.ipv6 by rfl, hr]
    simp [FsPrefix.received]
  size x h := by
    have : x.ipv6.prefixlen.toNat ≤ 128 := h
    simp [FSItem.storeSize, FsPrefix.body, prefixBody, octets]; omega

theorem Spec.FsPrefixKind.lawful {T : Type} [FSItem T] [FsPrefix T] (h : FsPrefixKind T) : FsPrefixLawful T := by
  cases h <;> exact inferInstance

section component
variable {T : Type} [FSItem T] [FsPrefix T] [FsPrefixLawful T]

open BgpFlowSpec

theorem nlen_ops (x : BgpFlowSpec T) (h : FsOpsOk x) : x.nlen = (fsComponent x).length := by
  cases x <;> simp only [FsOpsOk] at h <;> simp only [nlen, fsComponent, List.length_cons]
  case tcpFlags v => rw [masks_length v h]; omega
  case fragment v => rw [masks_length v h]; omega
  all_goals rw [vals_length _ h]; omega

theorem nlen_prefix (x : BgpFlowSpec T) (h : FsPrefixOk x) : x.nlen = (fsComponent x).length := by
  cases x <;> simp only [FsPrefixOk] at h <;> simp only [nlen, fsComponent, List.length_cons, FsPrefixLawful.size _ h] <;>
    omega

theorem putOps_ok {I : Type} [FSOperItem I] [FsOperator I] [FsLawful I] (c : U8) (v : FSOperVec I) (p t : Bytes)
    (pos : Nat) (hp : pos = p.length) (ht : 1 + (fsOpsWire v.items).length ≤ t.length) :
    putOps c v (p ++ t) pos = .ok ((p ++ c :: fsOpsWire v.items) ++ t.drop (1 + (fsOpsWire v.items).length),
      pos + (1 + (fsOpsWire v.items).length)) := by
  unfold putOps
  rw [cur_setIdx _ _ _ _ hp (by omega)]
  simp only [Res.ok_bind]
  rw [cur_onFrom (fsVec_writes v) _ _ _ (by simp [hp]) (by simp; omega)]
  simp [Nat.add_assoc]
  omega

theorem putPrefix_ok (c : U8) (a : T) (h : FsPrefix.WF a) (p t : Bytes)
    (pos : Nat) (hp : pos = p.length) (ht : 1 + (FsPrefix.body a).length ≤ t.length) :
    putPrefix c a (p ++ t) pos = .ok ((p ++ c :: FsPrefix.body a) ++ t.drop (1 + (FsPrefix.body a).length),
      pos + (1 + (FsPrefix.body a).length)) := by
  unfold putPrefix
  rw [cur_setIdx _ _ _ _ hp (by omega)]
  simp only [Res.ok_bind]
  rw [cur_modFrom (FsPrefixLawful.enc a h) _ _ _ (by simp [hp]) (by simp; omega), FsPrefixLawful.size a h]
  simp
  omega

theorem putBody_ok (x : BgpFlowSpec T) (h : FsOpsOk x ∨ FsPrefixOk x) (p t : Bytes) (pos : Nat) (hp : pos = p.length)
    (ht : (fsComponent x).length ≤ t.length) :
    putBody x (p ++ t) pos = .ok ((p ++ fsComponent x) ++ t.drop (fsComponent x).length,
      pos + (fsComponent x).length) := by
  cases x <;> simp only [FsOpsOk, FsPrefixOk, or_false, false_or] at h <;>
    simp only [fsComponent, List.length_cons, Nat.add_comm _ 1] at ht ⊢ <;> simp only [putBody]
  case prefixDst a => exact putPrefix_ok _ a h p t pos hp ht
  case prefixSrc a => exact putPrefix_ok _ a h p t pos hp ht
  all_goals exact putOps_ok _ _ p t pos hp ht

theorem or_f0 (n : Nat) (h : n < 16) : BitVec.ofNat 8 n ||| (0xf0 : U8) = BitVec.ofNat 8 (240 + n) := by
  revert n; decide

theorem be_two (n : Nat) : be 2 n = [BitVec.ofNat 8 (n / 256), BitVec.ofNat 8 n] := by
  simp [be]

theorem fs_writes (x : BgpFlowSpec T) (h : FsOpsOk x ∨ FsPrefixOk x) (hl : (fsComponent x).length ≤ 4094) :
    Writes x.encodeTo (fsWire x) := by
  intro buf hb
  have hn : x.nlen = (fsComponent x).length := h.elim (nlen_ops x) (nlen_prefix x)
  unfold BgpFlowSpec.encodeTo fsWire fsLen at *
  simp only [hn]
  rw [if_neg (by omega)]
  by_cases h240 : (fsComponent x).length < 240
  · rw [if_pos h240] at hb ⊢
    rw [if_pos h240]
    simp only [List.length_append, List.length_cons, List.length_nil] at hb
    rw [if_neg (by omega)]
    have := cur_setIdx [] buf 0 (BitVec.ofNat 8 (fsComponent x).length) rfl (by omega)
    rw [List.nil_append] at this
    rw [this]
    simp only [Res.ok_bind, List.nil_append]
    rw [putBody_ok x h _ _ _ (by simp) (by simp; omega)]
    simp
    omega
  · rw [if_neg h240] at hb ⊢
    rw [if_neg h240]
    simp only [List.length_append, be_length] at hb
    rw [if_neg (by omega), setn16_ok _ (by omega)]
    simp only [Res.ok_bind, BitVec.toNat_ofNat, be_two, List.cons_append, idx_cons_zero, setIdx_cons_zero, List.nil_append]
    rw [or_f0 _ (by omega)]
    have e1 : (240 + (fsComponent x).length % 2 ^ 16 / 256) = (0xf000 + (fsComponent x).length) / 256 := by omega
    have e2 : BitVec.ofNat 8 ((fsComponent x).length % 2 ^ 16) = BitVec.ofNat 8 (0xf000 + (fsComponent x).length) := by
      apply BitVec.eq_of_toNat_eq; simp; omega
    rw [e1, e2]
    have := putBody_ok x h (be 2 (0xf000 + (fsComponent x).length)) (buf.drop 2) 2 (by simp) (by simp; omega)
    rw [be_two] at this
    simp only [List.cons_append, List.nil_append] at this
    rw [this]
    simp
    omega

theorem getOps_ok {I : Type} [FSOperItem I] [FsOperator I] [FsLawful I] (k : FSOperVec I → BgpFlowSpec T) (c : U8)
    (v : FSOperVec I) (p rest : Bytes) (pos n : Nat) (hp : pos = p.length)
    (hn : n = pos + 1 + (fsOpsWire v.items).length) :
    getOps k (p ++ (c :: fsOpsWire v.items ++ rest)) pos n = .ok (k v, n) := by
  unfold getOps
  rw [show p ++ (c :: fsOpsWire v.items ++ rest) = (p ++ [c]) ++ (fsOpsWire v.items ++ rest) by simp,
    rslice_append_mid _ _ _ _ _ (by simp [hp]) (by simp [hn, hp])]
  simp only [Res.ok_bind, fsVec_reads]
  congr 2; omega

theorem getPrefix_ok (k : T → BgpFlowSpec T) (c : U8) (a : T) (h : FsPrefix.WF a) (p rest : Bytes) (pos n : Nat)
    (hp : pos = p.length) (hn : n = pos + 1 + (FsPrefix.body a).length) :
    getPrefix k (p ++ (c :: FsPrefix.body a ++ rest)) pos n = .ok (k (FsPrefix.received a), n + 1) := by
  unfold getPrefix
  rw [show p ++ (c :: FsPrefix.body a ++ rest) = (p ++ [c]) ++ (FsPrefix.body a ++ rest) by simp,
    rslice_append_mid _ _ _ _ _ (by simp [hp]) (by simp [hn, hp])]
  simp only [Res.ok_bind, FsPrefixLawful.dec a h]
  congr 2; omega

theorem getBody_ops (x : BgpFlowSpec T) (h : FsOpsOk x) (p rest : Bytes) (pos : Nat) (hp : pos = p.length) :
    getBody (p ++ (fsComponent x ++ rest)) pos (pos + (fsComponent x).length) =
      .ok (x, pos + (fsComponent x).length) := by
  unfold getBody
  rw [hp, idx_append_len]
  cases x <;> simp only [FsOpsOk] at h <;> simp only [fsComponent] <;>
    rw [List.cons_append, idx_cons_zero] <;> simp only [Res.ok_bind, BitVec.reduceEq, ↓reduceIte] <;>
    exact getOps_ok _ _ _ _ _ _ _ rfl (by simp; omega)

theorem getBody_prefix (x : BgpFlowSpec T) (h : FsPrefixOk x) (p rest : Bytes) (pos : Nat) (hp : pos = p.length) :
    getBody (p ++ (fsComponent x ++ rest)) pos (pos + (fsComponent x).length) =
      .ok (fsReceived x, pos + (fsComponent x).length + 1) := by
  unfold getBody
  rw [hp, idx_append_len]
  cases x <;> simp only [FsPrefixOk] at h <;> simp only [fsComponent] <;>
    rw [List.cons_append, idx_cons_zero] <;> simp only [Res.ok_bind, BitVec.reduceEq, ↓reduceIte] <;>
    exact getPrefix_ok _ _ _ h _ _ _ _ rfl (by simp; omega)

/-- the length field -/
theorem fs_decode_len (x : BgpFlowSpec T) (rest : Bytes) (hl : (fsComponent x).length ≤ 4094) :
    BgpFlowSpec.decodeFrom (T := T) (fsWire x ++ rest) =
      getBody (fsLen (fsComponent x).length ++ (fsComponent x ++ rest)) (fsLen (fsComponent x).length).length
        ((fsLen (fsComponent x).length).length + (fsComponent x).length) := by
  unfold BgpFlowSpec.decodeFrom fsWire
  rw [List.append_assoc]
  generalize fsComponent x ++ rest = r
  generalize (fsComponent x).length = n at *
  unfold fsLen
  by_cases h : n < 240
  · rw [if_pos h]
    simp only [List.cons_append, List.nil_append, idx_cons_zero, Res.ok_bind]
    rw [if_neg]
    · simp; congr 1; omega
    · have h1 : ∀ b : U8, b &&& 0xf0 = 0xf0 → 240 ≤ b.toNat := by decide
      intro hc
      have := h1 _ hc
      rw [ofNat8_toNat (by omega)] at this
      omega
  · rw [if_neg h]
    have h0 : idx (be 2 (0xf000 + n) ++ r) 0 = .ok (BitVec.ofNat 8 (240 + n / 256)) := by
      rw [be_two]; simp; congr 1; omega
    rw [h0]
    simp only [Res.ok_bind]
    rw [if_pos]
    · rw [getn16_be]
      simp only [Res.ok_bind, be_length]
      congr 1
      have h1 : (BitVec.ofNat 16 (0xf000 + n) &&& 0xfff).toNat = n := by
        rw [BitVec.toNat_and, BitVec.toNat_ofNat, show (0xfff : U16).toNat = 2 ^ 12 - 1 by rfl,
          Nat.and_two_pow_sub_one_eq_mod]
        omega
      rw [h1]; omega
    · have : ∀ m, m < 16 → (BitVec.ofNat 8 (240 + m) &&& (0xf0 : U8) = 0xf0) := by decide
      exact this (n / 256) (by omega)

theorem fs_reads (x : BgpFlowSpec T) (h : FsOpsOk x) (hl : (fsComponent x).length ≤ 4094) :
    Reads (BgpFlowSpec.decodeFrom (T := T)) (fsWire x) x := by
  intro rest
  rw [fs_decode_len x rest hl, getBody_ops x h _ _ _ rfl]
  simp [fsWire]

/-- one octet too many is reported behind a prefix -/
theorem fs_reads_prefix (x : BgpFlowSpec T) (h : FsPrefixOk x) (hl : (fsComponent x).length ≤ 4094) (rest : Bytes) :
    BgpFlowSpec.decodeFrom (T := T) (fsWire x ++ rest) = .ok (fsReceived x, (fsWire x).length + 1) := by
  rw [fs_decode_len x rest hl, getBody_prefix x h _ _ _ rfl]
  simp [fsWire]

end component

end Zbgp
