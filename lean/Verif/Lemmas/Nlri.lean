import Verif.Lemmas.Loop
import Verif.Spec.Nlri

/-! # Item codecs -/

namespace Zbgp

open Spec

attribute [-simp] List.length_flatMap

theorem take_be (n k v : Nat) (h : k ≤ n) : (be n v).take k = be k (v / 256 ^ (n - k)) := by
  have : be n v = be k (v / 256 ^ (n - k)) ++ be (n - k) v := by
    have := be_split k (n - k) v
    rwa [Nat.add_sub_cancel' h] at this
  rw [this, List.take_left' (by simp)]

theorem unbe_replicate_zero (n : Nat) : unbe (List.replicate n (0 : U8)) = 0 := by
  induction n with
  | zero => rfl
  | succ n ih => rw [List.replicate_succ, unbe_cons, ih]; simp

theorem unbe_keep (n k v : Nat) (h : k ≤ n) (hv : v < 256 ^ n) :
    unbe ((be n v).take k ++ List.replicate (n - k) (0 : U8)) = keepOctets n k v := by
  rw [take_be n k v h, unbe_append, unbe_be, unbe_replicate_zero]
  simp only [List.length_replicate, Nat.add_zero, keepOctets]
  congr 1
  apply Nat.mod_eq_of_lt
  apply Nat.div_lt_of_lt_mul
  rw [← Nat.pow_add, Nat.sub_add_cancel h]
  exact hv

theorem octets_le {p n : Nat} (h : p ≤ 8 * n) : octets p ≤ n := by unfold octets; omega

theorem prefixBody_length (n addr p : Nat) (h : p ≤ 8 * n) : (prefixBody n addr p).length = octets p := by
  simp [prefixBody, octets_le h]

/-! ## What an item codec does -/

/-- `setBits x` writes `body` and reports `bits`. -/
def ItemWrites {T : Type} [BgpItem T] (x : T) (bits : Nat) (body : Bytes) : Prop :=
  ∀ buf : Bytes, body.length ≤ buf.length →
    BgpItem.setBits x buf = .ok (body ++ buf.drop body.length, (BitVec.ofNat 8 bits, body.length))

/-- `extractBits bits` reads `body` as `y`. -/
def ItemReads {T : Type} [BgpItem T] (bits : Nat) (body : Bytes) (y : T) : Prop :=
  ∀ rest : Bytes, BgpItem.extractBits (BitVec.ofNat 8 bits) (body ++ rest) = .ok (y, body.length)

/-- an NLRI kind whose well-formed items are written and read as the specification says -/
class NlriLawful (T : Type) [BgpItem T] [NlriKind T] : Prop where
  lt : ∀ x : T, NlriKind.WF x → NlriKind.bits x < 256
  writes : ∀ x : T, NlriKind.WF x → ItemWrites x (NlriKind.bits x) (NlriKind.body x)
  reads : ∀ x : T, NlriKind.WF x →
    ItemReads (NlriKind.bits x) (NlriKind.body x) (NlriKind.received x)

/-- item decoders that look only at what they consume -/
class ItemLocal (T : Type) [BgpItem T] : Prop where
  loc : ∀ bits : U8, Local (BgpItem.extractBits (T := T) bits)

section generic

variable {T : Type} [BgpItem T]

theorem encodeItem_writes {x : T} {bits : Nat} {body : Bytes} (h : ItemWrites x bits body) :
    Writes (encodeItem x) (BitVec.ofNat 8 bits :: body) := by
  intro buf hb
  cases buf with
  | nil => simp at hb
  | cons b t =>
    simp only [List.length_cons, Nat.add_le_add_iff_right] at hb
    unfold encodeItem
    rw [show (b :: t) = [b] ++ t from rfl, onFrom_append [b] t 1 _ rfl, h t hb]
    simp

theorem decodeItem_reads {bits : Nat} {body : Bytes} {y : T} (h : ItemReads bits body y) :
    Reads decodeItem (BitVec.ofNat 8 bits :: body) y := by
  intro rest
  unfold decodeItem
  simp only [List.cons_append, idx_cons_zero, Res.ok_bind, rfrom_cons_succ, rfrom_zero]
  rw [h rest]
  simp

theorem decodeItem_progress : Progress (decodeItem (T := T)) := by
  intro b x n h
  unfold decodeItem at h
  obtain ⟨bits, h0, h⟩ := Res.bind_eq_ok.1 h
  obtain ⟨t, h1, h⟩ := Res.bind_eq_ok.1 h
  obtain ⟨⟨y, k⟩, h2, h⟩ := Res.bind_eq_ok.1 h
  simp only [Res.ok.injEq, Prod.mk.injEq] at h
  omega

theorem decodeItem_nil : decodeItem (T := T) [] = .panic := by simp [decodeItem]

theorem decodeItem_cons (b : U8) (t : Bytes) :
    decodeItem (T := T) (b :: t) = (do let (x, n) ← BgpItem.extractBits b t; .ok (x, n + 1)) := by
  simp [decodeItem]

theorem decodeItem_local [ItemLocal T] : Local (decodeItem (T := T)) := by
  intro b x n h
  cases b with
  | nil => simp [decodeItem_nil] at h
  | cons b t =>
    rw [decodeItem_cons] at h
    obtain ⟨⟨y, k⟩, h2, h⟩ := Res.bind_eq_ok.1 h
    simp only [Res.ok.injEq, Prod.mk.injEq] at h
    obtain ⟨rfl, rfl⟩ := h
    obtain ⟨h3, h4⟩ := ItemLocal.loc b t y k h2
    refine ⟨by simpa using h3, fun r => ?_⟩
    rw [List.take_succ_cons, List.cons_append, decodeItem_cons, h4]
    rfl

theorem encodePathIdItem_writes {x : WithPathId T} {bits : Nat} {body : Bytes}
    (h : ItemWrites x.nlri bits body) :
    Writes (encodePathIdItem x) (be 4 x.pathid.toNat ++ BitVec.ofNat 8 bits :: body) := by
  intro buf hb
  simp only [List.length_append, be_length, List.length_cons] at hb
  obtain ⟨m, t, rfl, hm, -⟩ := exists_split 4 (show 4 ≤ buf.length by omega)
  cases t with
  | nil => simp at hb; omega
  | cons b t =>
    simp only [List.length_append, List.length_cons] at hb
    unfold encodePathIdItem
    rw [setn32_ok _ (by simp; omega), List.drop_left' hm]
    simp only [Res.ok_bind]
    rw [show be 4 x.pathid.toNat ++ b :: t = (be 4 x.pathid.toNat ++ [b]) ++ t by simp,
      onFrom_append _ t 5 _ (by simp), h t (by omega)]
    simp only [Res.ok_bind]
    rw [List.append_assoc, setIdx_append (by simp)]
    have key : List.drop (be 4 x.pathid.toNat ++ BitVec.ofNat 8 bits :: body).length (m ++ b :: t)
        = t.drop body.length := by
      rw [show m ++ b :: t = (m ++ [b]) ++ t by simp, List.drop_append, List.drop_eq_nil_of_le (by simp; omega)]
      simp only [List.nil_append, List.length_append, be_length, List.length_cons, List.length_nil]
      congr 1; omega
    rw [key]
    simp

theorem decodePathIdItem_reads {pathid : U32} {bits : Nat} {body : Bytes} {y : T}
    (h : ItemReads bits body y) :
    Reads decodePathIdItem (be 4 pathid.toNat ++ BitVec.ofNat 8 bits :: body) ⟨pathid, y⟩ := by
  intro rest
  unfold decodePathIdItem
  rw [List.append_assoc, getn32_be]
  simp only [Res.ok_bind, ofNat_toNat32]
  rw [rfrom_append _ _ 4 (by simp)]
  simp only [Res.ok_bind]
  rw [decodeItem_reads h rest]
  simp

theorem decodePathIdItem_progress : Progress (decodePathIdItem (T := T)) := by
  intro b x n h
  unfold decodePathIdItem at h
  obtain ⟨bits, h0, h⟩ := Res.bind_eq_ok.1 h
  obtain ⟨t, h1, h⟩ := Res.bind_eq_ok.1 h
  obtain ⟨⟨y, k⟩, h2, h⟩ := Res.bind_eq_ok.1 h
  simp only [Res.ok.injEq, Prod.mk.injEq] at h
  omega

theorem decodePathIdItem_local [ItemLocal T] : Local (decodePathIdItem (T := T)) := by
  intro b x n h
  unfold decodePathIdItem at h
  obtain ⟨bits, h0, h⟩ := Res.bind_eq_ok.1 h
  obtain ⟨t, h1, h⟩ := Res.bind_eq_ok.1 h
  obtain ⟨⟨y, k⟩, h2, h⟩ := Res.bind_eq_ok.1 h
  simp only [Res.ok.injEq, Prod.mk.injEq] at h
  obtain ⟨rfl, rfl⟩ := h
  obtain ⟨hl, rfl⟩ := rfrom_eq_ok.1 h1
  obtain ⟨v, hv, hb⟩ := exists_be 4 hl
  generalize b.drop 4 = t at *
  subst hb
  obtain ⟨h3, h4⟩ := decodeItem_local t y k h2
  refine ⟨by simp; omega, fun r => ?_⟩
  rw [getn32_be] at h0
  cases h0
  rw [List.take_append, List.append_assoc]
  have h5 : List.take (4 + k) (be 4 v) = be 4 v := List.take_of_length_le (by simp)
  unfold decodePathIdItem
  rw [h5, getn32_be]
  simp only [Res.ok_bind]
  rw [rfrom_append _ _ 4 (by simp)]
  simp only [Res.ok_bind, be_length, Nat.add_sub_cancel_left]
  rw [h4]; rfl

end generic

end Zbgp
