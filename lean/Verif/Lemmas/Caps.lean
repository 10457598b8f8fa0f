import Verif.Lemmas.Header

/-! # Helper lemmas: capabilities -/

namespace Zbgp

open Spec

theorem mod_or128 (x : Nat) (h : x < 2 ^ 12) :
    BitVec.ofNat 8 (x / 256) ||| 128#8 = BitVec.ofNat 8 ((x + 32768) / 256) := by
  have hx : x / 256 < 16 := by omega
  have h2 : (x + 32768) / 256 = x / 256 + 128 := by omega
  rw [h2]
  generalize x / 256 = y at hx
  revert y
  decide

theorem gr_encode (c : BgpCapGR) (b : Bytes) (h : b.length = 4) :
    c.encodeTo b = .ok (grEntry c) := by
  match b, h with
  | [x, y, z, w], _ =>
    unfold BgpCapGR.encodeTo
    simp only [List.length_cons, List.length_nil]
    rw [if_neg (by omega), modRange_cons2, setn16_two]
    cases hf : c.forwardingState <;>
      simp [be, setIdx_cons_succ, grEntry, hf]

theorem gr_decode (c : BgpCapGR) : BgpCapGR.decodeFrom (grEntry c) = .ok c := by
  unfold BgpCapGR.decodeFrom grEntry
  rw [if_neg (by simp)]
  simp only [rslice_be_hit, Res.ok_bind, getn16_two]
  rw [idx_be_skip (by simp), idx_be_skip (by simp)]
  cases c with
  | mk afi safi f => cases f <;> simp

theorem addpath_encode (c : BgpCapAddPath) (b : Bytes) (h : b.length = 4) :
    c.encodeTo b = .ok (addPathEntry c) := by
  match b, h with
  | [x, y, z, w], _ =>
    unfold BgpCapAddPath.encodeTo
    simp only [List.length_cons, List.length_nil]
    rw [if_neg (by omega), modRange_cons2, setn16_two]
    cases hs : c.send <;> cases hr : c.receive <;>
      simp [be, setIdx_cons_succ, addPathEntry, hs, hr, u8OfBool]

theorem addpath_decode (c : BgpCapAddPath) : BgpCapAddPath.decodeFrom (addPathEntry c) = .ok c := by
  unfold BgpCapAddPath.decodeFrom addPathEntry
  rw [if_neg (by simp)]
  simp only [rslice_be_hit, Res.ok_bind, getn16_two]
  rw [idx_be_skip (by simp), idx_be_skip (by simp)]
  cases c with
  | mk afi safi s r => cases s <;> cases r <;> simp

theorem llgr_encode (c : BgpCapLLGR) (hc : c.staleTime.toNat < 2 ^ 24) (b : Bytes) (h : b.length = 7) :
    c.encodeTo b = .ok (llgrEntry c) := by
  match b, h with
  | [x, y, z, w, p, q, r], _ =>
    unfold BgpCapLLGR.encodeTo
    simp only [List.length_cons, List.length_nil]
    rw [if_neg (by omega), if_neg (by omega), modRange_cons2, setn16_two]
    simp [be, setIdx_cons_succ, llgrEntry, copyAt]

theorem llgr_decode (c : BgpCapLLGR) (hc : c.staleTime.toNat < 2 ^ 24) :
    BgpCapLLGR.decodeFrom (llgrEntry c) = .ok c := by
  have h3 : be 3 c.staleTime.toNat = be 1 (c.staleTime.toNat / 256 ^ 2) ++ be 2 c.staleTime.toNat :=
    be_split 1 2 _
  unfold BgpCapLLGR.decodeFrom llgrEntry
  rw [if_neg (by simp)]
  simp only [rslice_be_hit, Res.ok_bind, getn16_two]
  rw [idx_be_skip (by simp), idx_be_skip (by simp), idx_be_skip (by simp), rslice_be_skip (by simp) (by simp)]
  rw [h3, be1_eq]
  simp only [List.cons_append, List.nil_append, Nat.reduceSub, idx_cons_zero, idx_cons_succ,
    Res.ok_bind, rslice_cons_succ, rslice_be_hit', getn16_two]
  unfold addC
  have e1 : ((BitVec.ofNat 8 (c.staleTime.toNat / 256 ^ 2)).setWidth 32 <<< 16).toNat
      = (c.staleTime.toNat / 256 ^ 2) * 65536 := by
    simp [Nat.shiftLeft_eq]
    omega
  have e2 : ((BitVec.ofNat 16 c.staleTime.toNat).setWidth 32).toNat = c.staleTime.toNat % 65536 := by
    simp
    omega
  rw [if_pos (by omega)]
  simp only [Res.ok_bind, ofNat_toNat16]
  congr 1
  have e3 : (BitVec.ofNat 8 (c.staleTime.toNat / 256 ^ 2)).setWidth 32 <<< 16 +
      (BitVec.ofNat 16 c.staleTime.toNat).setWidth 32 = c.staleTime := by
    apply BitVec.eq_of_toNat_eq
    rw [BitVec.toNat_add, e1, e2]
    omega
  rw [e3]

theorem fillChunks_ok {α : Type} (k : Nat) (enc : α → Bytes → Res Bytes) (e : α → Bytes)
    (xs : List α) (he : ∀ x ∈ xs, ∀ b : Bytes, b.length = k → enc x b = .ok (e x))
    (t : Bytes) (ht : t.length = k * xs.length) :
    BgpCapability.fillChunks k enc xs t = .ok (xs.flatMap e) := by
  induction xs generalizing t with
  | nil => simp at ht; simp [BgpCapability.fillChunks, ht]
  | cons x xs ih =>
    simp only [List.length_cons, Nat.mul_add, Nat.mul_one] at ht
    unfold BgpCapability.fillChunks
    rw [if_pos (by omega), he x (by simp) _ (by simp; omega)]
    simp only [Res.ok_bind]
    rw [ih (fun y hy => he y (by simp [hy])) _ (by simp; omega)]
    simp

theorem decodeChunks_ok {α : Type} (k : Nat) (hk : 0 < k) (dec : Bytes → Res α) (e : α → Bytes)
    (xs : List α) (hd : ∀ x ∈ xs, dec (e x) = .ok x) (hl : ∀ x ∈ xs, (e x).length = k)
    (fuel : Nat) (hf : xs.length < fuel) :
    BgpCapability.decodeChunks k dec fuel (xs.flatMap e) = .ok xs := by
  induction xs generalizing fuel with
  | nil =>
    match fuel, hf with
    | f + 1, _ => simp [BgpCapability.decodeChunks]
  | cons x xs ih =>
    match fuel, hf with
    | f + 1, hf =>
      have hx := hl x (by simp)
      unfold BgpCapability.decodeChunks
      rw [if_neg (by
        simp only [List.flatMap_cons, List.isEmpty_iff, List.append_eq_nil_iff, not_and]
        intro h; rw [h] at hx; simp at hx; omega)]
      simp only [List.flatMap_cons]
      rw [rslice_append_zero _ _ _ hx.symm]
      simp only [Res.ok_bind, hd x (by simp)]
      have : (e x ++ xs.flatMap e).drop k = xs.flatMap e := by rw [← hx]; simp
      rw [this, ih (fun y hy => hd y (by simp [hy])) (fun y hy => hl y (by simp [hy])) f
        (by simp at hf; omega)]
      rfl

theorem decodeChunks_returns {α : Type} (k : Nat) (hk : 0 < k) (dec : Bytes → Res α)
    (hd : ∀ b : Bytes, b.length = k → (dec b).Returns) (fuel : Nat) (b : Bytes)
    (hb : b.length % k = 0) (hf : b.length < fuel) :
    (BgpCapability.decodeChunks k dec fuel b).Returns := by
  induction fuel generalizing b with
  | zero => omega
  | succ f ih =>
    unfold BgpCapability.decodeChunks
    split
    · simp
    · rename_i hne
      have h0 : b.length ≠ 0 := by intro h; exact hne (by simpa using h)
      have hkb : k ≤ b.length := Nat.le_of_dvd (by omega) (Nat.dvd_of_mod_eq_zero hb)
      rw [rslice_ok (by omega) hkb]
      simp only [Res.ok_bind, List.drop_zero]
      refine Res.returns_bind (hd _ (by simp; omega)) fun x _ => ?_
      refine Res.returns_bind (ih _ ?_ (by simp; omega)) (by simp)
      rw [List.length_drop]
      rw [← Nat.mod_eq_sub_mod hkb, hb]

theorem flatMap_length_const {α : Type} (e : α → Bytes) (k : Nat) (xs : List α)
    (h : ∀ x ∈ xs, (e x).length = k) : (xs.flatMap e).length = k * xs.length := by
  induction xs with
  | nil => simp
  | cons x xs ih =>
    simp only [List.flatMap_cons, List.length_append, List.length_cons]
    rw [ih (fun y hy => h y (by simp [hy])), h x (by simp)]
    rw [Nat.mul_add]; omega

@[simp] theorem grEntry_length (g : BgpCapGR) : (grEntry g).length = 4 := by simp [grEntry]
@[simp] theorem addPathEntry_length (g : BgpCapAddPath) : (addPathEntry g).length = 4 := by
  simp [addPathEntry]
@[simp] theorem llgrEntry_length (g : BgpCapLLGR) : (llgrEntry g).length = 7 := by simp [llgrEntry]

theorem tlv_length (t : Nat) (v : Bytes) : (tlv t v).length = 2 + v.length := by
  simp [tlv]; omega

theorem capTlv_length (c : BgpCapability) (hc : ∀ h d, c ≠ .CapFQDN h d) :
    (capTlv c).length = c.bytesLen := by
  cases c <;> try rfl
  case CapGR t s afis =>
    simp only [capTlv, capValue, BgpCapability.bytesLen, tlv_length, List.length_append, be_length]
    rw [flatMap_length_const _ 4 _ (by simp)]; omega
  case CapAddPath v =>
    simp only [capTlv, capValue, BgpCapability.bytesLen, tlv_length]
    rw [flatMap_length_const _ 4 _ (by simp)]; omega
  case CapLLGR v =>
    simp only [capTlv, capValue, BgpCapability.bytesLen, tlv_length]
    rw [flatMap_length_const _ 7 _ (by simp)]; omega
  case CapFQDN h d => exact absurd rfl (hc h d)

theorem encodable_notFQDN {c : BgpCapability} (h : CapEncodable c) : ∀ a d, c ≠ .CapFQDN a d := by
  intro a d e; subst e; exact h.1

theorem fillBuffer_any (c : BgpCapability) (hq : ∀ h d, c ≠ .CapFQDN h d)
    (hc1 : match c with
      | .CapGR t _ _ => t.toNat < 2 ^ 12
      | .CapLLGR v => ∀ l ∈ v, l.staleTime.toNat < 2 ^ 24
      | _ => True) (b : Bytes)
    (hb : b.length = c.bytesLen) : c.fillBuffer b = .ok (capTlv c) := by
  unfold BgpCapability.fillBuffer
  rw [if_neg (by omega)]
  cases c
  case CapGR t s afis =>
    simp only at hc1
    simp only [BgpCapability.bytesLen] at hb
    obtain ⟨x, y, z, w, t', rfl⟩ := exists_cons4 (by omega : 4 ≤ b.length)
    have e1 : modRange (64#8 :: BitVec.ofNat 8 (2 + 4 * afis.length) :: z :: w :: t') 2 4 (setn16 t) =
        .ok (64#8 :: BitVec.ofNat 8 (2 + 4 * afis.length) :: (be 2 t.toNat ++ t')) := by
      have := modRange_append [64#8, BitVec.ofNat 8 (2 + 4 * afis.length)] [z, w] t' 2 4 (setn16 t)
        rfl rfl
      simpa [setn16_two] using this
    have e2 : BgpCapability.fillChunks 4 BgpCapGR.encodeTo afis t' = .ok (afis.flatMap grEntry) :=
      fillChunks_ok 4 _ _ _ (fun x _ b h => gr_encode x b h) _ (by simp at hb; omega)
    have e3 : (be 2 (t.toNat + if s then 2 ^ 15 else 0) ++ List.flatMap grEntry afis).length
        = 2 + 4 * afis.length := by
      rw [List.length_append, flatMap_length_const _ 4 _ (by simp), be_length]
    simp only [setIdx_cons_zero, setIdx_cons_succ, Res.ok_bind]
    rw [if_neg (by omega)]
    erw [e1]
    simp only [Res.ok_bind, capTlv, capValue, tlv, e3]
    have hm : ∀ a b c d : U8, modFrom (a :: b :: c :: d :: t') 4
        (BgpCapability.fillChunks 4 BgpCapGR.encodeTo afis) =
        .ok (a :: b :: c :: d :: afis.flatMap grEntry) := by
      intro a b c d
      have := modFrom_append [a, b, c, d] t' 4 (BgpCapability.fillChunks 4 BgpCapGR.encodeTo afis) rfl
      simpa [e2] using this
    cases s
    · simp [be, hm]
    · have := mod_or128 t.toNat hc1
      simp [be, setIdx_cons_succ, hm, this]
      apply BitVec.eq_of_toNat_eq
      simp
      omega
  case CapAddPath v =>
    simp only [BgpCapability.bytesLen] at hb
    obtain ⟨x, y, t', rfl⟩ := exists_cons2 (by omega : 2 ≤ b.length)
    have e2 : BgpCapability.fillChunks 4 BgpCapAddPath.encodeTo v t' = .ok (v.flatMap addPathEntry) :=
      fillChunks_ok 4 _ _ _ (fun x _ b h => addpath_encode x b h) _ (by simp at hb; omega)
    have e3 : (List.flatMap addPathEntry v).length = 4 * v.length := by
      rw [flatMap_length_const _ 4 _ (by simp)]
    simp only [setIdx_cons_zero, setIdx_cons_succ, Res.ok_bind]
    have := modFrom_append [69, BitVec.ofNat 8 (4 * v.length)] t' 2
      (BgpCapability.fillChunks 4 BgpCapAddPath.encodeTo v) rfl
    simp only [List.cons_append, List.nil_append] at this
    rw [this, e2]
    simp only [Res.ok_bind, capTlv, capValue, tlv, e3]
    simp
  case CapLLGR v =>
    simp only [BgpCapability.bytesLen] at hb
    simp only at hc1
    obtain ⟨x, y, t', rfl⟩ := exists_cons2 (by omega : 2 ≤ b.length)
    have e2 : BgpCapability.fillChunks 7 BgpCapLLGR.encodeTo v t' = .ok (v.flatMap llgrEntry) :=
      fillChunks_ok 7 _ _ _ (fun x hx b h => llgr_encode x (hc1 x hx) b h) _ (by simp at hb; omega)
    have e3 : (List.flatMap llgrEntry v).length = 7 * v.length := by
      rw [flatMap_length_const _ 7 _ (by simp)]
    simp only [setIdx_cons_zero, setIdx_cons_succ, Res.ok_bind]
    have := modFrom_append [71, BitVec.ofNat 8 (7 * v.length)] t' 2
      (BgpCapability.fillChunks 7 BgpCapLLGR.encodeTo v) rfl
    simp only [List.cons_append, List.nil_append] at this
    rw [this, e2]
    simp only [Res.ok_bind, capTlv, capValue, tlv, e3]
    simp
  case CapFQDN h d => exact absurd rfl (hq h d)
  case CapASN32 n =>
    simp only [BgpCapability.bytesLen] at hb
    simp only
    rw [copyAll_ok (by simpa using hb), ofNat8_eq', ofNat8_eq _ _ (by decide),
      ofNat8_eq _ _ (by decide), ofNat8_eq0 _ (by decide)]
    simp [capTlv, capValue, tlv, be]
  all_goals (simp only; rw [copyAll_ok (by simpa [BgpCapability.bytesLen] using hb)]; rfl)

theorem fillBuffer_ok (c : BgpCapability) (hc : CapEncodable c) (b : Bytes)
    (hb : b.length = c.bytesLen) : c.fillBuffer b = .ok (capTlv c) := by
  refine fillBuffer_any c (encodable_notFQDN hc) ?_ b hb
  have := hc.1
  cases c <;> first | exact this | trivial

theorem fromTypeAndData_cap (c : BgpCapability) (hc : CapEncodable c) (t : Nat) (v : Bytes)
    (h : capValue c = some (t, v)) :
    t < 256 ∧ BgpCapability.fromTypeAndData (BitVec.ofNat 8 t) v = .ok (some c) := by
  obtain ⟨hc1, hc2⟩ := hc
  cases c <;> simp only [capValue, Option.some.injEq, Prod.mk.injEq, reduceCtorEq] at h
  case CapGR rt rs afis =>
    obtain ⟨rfl, rfl⟩ := h
    refine ⟨by omega, ?_⟩
    simp only at hc1
    have e3 : (be 2 (rt.toNat + if rs then 2 ^ 15 else 0) ++ List.flatMap grEntry afis).length
        = 2 + 4 * afis.length := by
      rw [List.length_append, flatMap_length_const _ 4 _ (by simp), be_length]
    have e2 : ∀ f, afis.length < f → BgpCapability.decodeChunks 4 BgpCapGR.decodeFrom f
        (afis.flatMap grEntry) = .ok afis :=
      fun f hf => decodeChunks_ok 4 (by omega) _ _ _ (fun x _ => gr_decode x) (by simp) f hf
    show (if _ then _ else _) = _
    rw [if_neg (by rw [e3]; omega), e3, drop_be (by omega)]
    simp only [rslice_be_hit, Res.ok_bind, getn16_two, Nat.reduceSub, List.drop_zero,
      e2 (2 + 4 * afis.length + 1) (by omega)]
    simp only [be, List.cons_append, idx_cons_zero, Res.ok_bind]
    congr 3
    · apply BitVec.eq_of_toNat_eq
      rw [BitVec.toNat_and]
      rw [show (0x0fff : U16).toNat = 2 ^ 12 - 1 from rfl, Nat.and_two_pow_sub_one_eq_mod]
      cases rs <;> simp <;> omega
    · cases rs
      · have hx : rt.toNat / 256 < 16 := by omega
        simp
        generalize rt.toNat / 256 = y at hx
        revert y
        decide
      · have := mod_or128 rt.toNat hc1
        simp [← this]
        have hx : rt.toNat / 256 < 16 := by omega
        generalize rt.toNat / 256 = y at hx
        revert y
        decide
  case CapASN32 n =>
    obtain ⟨rfl, rfl⟩ := h
    refine ⟨by omega, ?_⟩
    have : BgpCapability.fromTypeAndData (BitVec.ofNat 8 65) (be 4 n.toNat) =
      (if (be 4 n.toNat).length ≠ 4 then .err .static else do
        .ok (some (.CapASN32 (← getn32 (be 4 n.toNat))))) := rfl
    rw [this, if_neg (by simp), getn32_four]
    simp
  case CapAddPath v =>
    obtain ⟨rfl, rfl⟩ := h
    refine ⟨by omega, ?_⟩
    have e3 : (List.flatMap addPathEntry v).length = 4 * v.length := by
      rw [flatMap_length_const _ 4 _ (by simp)]
    have e2 : ∀ f, v.length < f → BgpCapability.decodeChunks 4 BgpCapAddPath.decodeFrom f
        (v.flatMap addPathEntry) = .ok v :=
      fun f hf => decodeChunks_ok 4 (by omega) _ _ _ (fun x _ => addpath_decode x) (by simp) f hf
    show (if _ then _ else _) = _
    rw [if_neg (by
      rw [e3, show (3:Nat) = 2 ^ 2 - 1 from rfl, Nat.and_two_pow_sub_one_eq_mod]; omega), e3,
      e2 _ (by omega)]
    rfl
  case CapLLGR v =>
    obtain ⟨rfl, rfl⟩ := h
    refine ⟨by omega, ?_⟩
    simp only at hc1
    have e3 : (List.flatMap llgrEntry v).length = 7 * v.length := by
      rw [flatMap_length_const _ 7 _ (by simp)]
    have e2 : ∀ f, v.length < f → BgpCapability.decodeChunks 7 BgpCapLLGR.decodeFrom f
        (v.flatMap llgrEntry) = .ok v :=
      fun f hf => decodeChunks_ok 7 (by omega) _ _ _ (fun x hx => llgr_decode x (hc1 x hx)) (by simp) f hf
    show (if _ then _ else _) = _
    rw [if_neg (by rw [e3]; omega), e3, e2 _ (by omega)]
    rfl
  all_goals (obtain ⟨rfl, rfl⟩ := h; exact ⟨by omega, rfl⟩)

theorem fromBuffer_tlv (t : Nat) (v r : Bytes) (hv : v.length ≤ 255) :
    BgpCapability.fromBuffer (tlv t v ++ r) =
      (do match ← BgpCapability.fromTypeAndData (BitVec.ofNat 8 t) v with
          | some cap => .ok (.inl cap, 2 + v.length)
          | none => .ok (.inr (BitVec.ofNat 8 t, v), 2 + v.length)) := by
  unfold BgpCapability.fromBuffer tlv
  have e : (BitVec.ofNat 8 v.length).toNat = v.length := by simp; omega
  rw [if_neg (by simp)]
  simp only [be1_eq, List.cons_append, List.nil_append, idx_cons_zero, idx_cons_succ, Res.ok_bind, e]
  rw [if_neg (by simp)]
  have := rslice_append_mid [BitVec.ofNat 8 t, BitVec.ofNat 8 v.length] v r 2 (2 + v.length) rfl rfl
  simp only [List.cons_append, List.nil_append] at this
  rw [this]
  rfl

theorem fromBuffer_cap (c : BgpCapability) (hc : CapEncodable c) (r : Bytes) :
    BgpCapability.fromBuffer (capTlv c ++ r) = .ok (.inl c, (capTlv c).length) := by
  cases hv : capValue c with
  | none =>
    exfalso
    cases c <;> simp [capValue] at hv
    exact hc.1
  | some tv =>
    obtain ⟨t, v⟩ := tv
    have he : capTlv c = tlv t v := by simp [capTlv, hv]
    have hl : v.length ≤ 255 := by
      have := hc.2
      rw [he, tlv_length] at this
      omega
    obtain ⟨-, h2⟩ := fromTypeAndData_cap c hc t v hv
    rw [he, fromBuffer_tlv t v r hl, h2, tlv_length]
    rfl

end Zbgp
