import Verif.Lemmas.Bytes
import Verif.Spec.Message
import Verif.Model.Open

/-! # Helper lemmas: message header, NOTIFICATION -/

namespace Zbgp

open Spec BgpSessionParams

@[simp] theorem be1_eq (v : Nat) : be 1 v = [BitVec.ofNat 8 v] := by simp [be]

theorem encode_typeCode (ty : BgpMessageType) : ty.encode = BitVec.ofNat 8 (typeCode ty) := by
  cases ty <;> rfl

theorem decode_typeCode (ty : BgpMessageType) :
    BgpMessageType.decodeFrom (BitVec.ofNat 8 (typeCode ty)) = .ok ty := by
  cases ty <;> rfl

theorem header_length (ty : BgpMessageType) (n : Nat) : (header ty n).length = 19 := by
  simp [header]

theorem prepare_eq (buf : Bytes) (ty : BgpMessageType) (n : Nat) (hb : n + 19 ≤ buf.length) :
    prepareMessageBuf buf ty n =
      if n % 65536 ≤ 65516 then .ok (header ty (n % 65536) ++ buf.drop 19, n % 65536 + 19)
      else .panic := by
  obtain ⟨m, t, rfl, hm, -⟩ := exists_split 16 (by omega : 16 ≤ buf.length)
  obtain ⟨p, q, rfl, hp, -⟩ := exists_split 3 (by simp at hb; omega : 3 ≤ t.length)
  match p, hp with
  | [x, y, z], _ =>
    unfold prepareMessageBuf
    rw [if_neg (by omega)]
    have h := copyAt_append [] m ([x, y, z] ++ q) (List.replicate 16 255) 0 16 rfl (by simp [hm])
      (by simp [hm])
    simp only [List.nil_append] at h
    rw [h]
    have hadd : addC (BitVec.ofNat 16 n) 19 =
        if n % 65536 ≤ 65516 then .ok (BitVec.ofNat 16 (n % 65536 + 19)) else .panic := by
      unfold addC
      by_cases hn : n % 65536 ≤ 65516
      · rw [if_pos (by simp; omega), if_pos hn]
        congr 1
      · rw [if_neg (by simp; omega), if_neg hn]
    simp only [Res.ok_bind, hadd]
    by_cases hn : n % 65536 ≤ 65516
    swap
    · simp [hn]
    simp only [if_pos hn, Res.ok_bind]
    generalize n % 65536 = n at hn
    rw [setIdx_append (by simp)]
    simp only [List.length_replicate, Nat.sub_self, List.cons_append, List.nil_append,
      setIdx_cons_zero, Res.ok_bind]
    rw [setIdx_append (by simp)]
    simp only [List.length_replicate, setIdx_cons_zero, setIdx_cons_succ, Res.ok_bind,
      Nat.reduceSub]
    rw [setIdx_append (by simp)]
    simp only [List.length_replicate, setIdx_cons_zero, setIdx_cons_succ, Res.ok_bind,
      Nat.reduceSub]
    rw [ofNat8_eq', ofNat8_eq0 _ (by decide), encode_typeCode]
    have e : (BitVec.ofNat 16 (n+19)).toNat = n + 19 := by simp; omega
    rw [e]
    have hd : List.drop 19 (m ++ (x :: y :: z :: q)) = q := by
      rw [List.drop_append, List.drop_eq_nil_of_le (by omega), hm]; rfl
    rw [hd]
    simp [header, be]

theorem prepare_ok (buf : Bytes) (ty : BgpMessageType) (n : Nat) (hn : n ≤ 65516)
    (hb : n + 19 ≤ buf.length) :
    prepareMessageBuf buf ty n = .ok (header ty n ++ buf.drop 19, n + 19) := by
  rw [prepare_eq buf ty n hb, Nat.mod_eq_of_lt (by omega), if_pos hn]

theorem send_eq_prepare (buf : Bytes) (ty : BgpMessageType) (n : Nat) :
    sendMessageBuf buf ty n = (do
      let (b, l) ← prepareMessageBuf buf ty n
      let out ← rslice b 0 l
      .ok (b, out)) := by
  unfold sendMessageBuf prepareMessageBuf
  split
  · rfl
  · simp only [bind_assoc, Res.ok_bind]

theorem decode_header (ty : BgpMessageType) (n : Nat) (hn : n ≤ 65516) (t : Bytes) :
    decodeMessageHead (header ty n ++ t) = .ok (ty, n) := by
  unfold decodeMessageHead header
  rw [if_neg (by simp; omega)]
  simp only [List.append_assoc]
  rw [rslice_append_zero _ _ _ (by simp)]
  simp only [Res.ok_bind]
  rw [if_neg (by simp)]
  rw [idx_append_right (by simp), rslice_append_right (by simp) (by simp)]
  simp only [List.length_replicate, Nat.reduceSub]
  rw [idx_be_skip (by simp), rslice_be_hit]
  simp only [Nat.reduceSub, be1_eq, List.cons_append, idx_cons_zero, Res.ok_bind, decode_typeCode,
    getn16_two]
  unfold subC
  have e : (BitVec.ofNat 16 (n+19)).toNat = n + 19 := by simp; omega
  rw [if_pos (by rw [e]; simp)]
  simp only [Res.ok_bind, BitVec.toNat_sub, e]
  simp
  omega

end Zbgp
