import Verif.Model.Error
import Verif.Props.Messages
import Verif.Lemmas.Left

/-!
# C108: the kinds of errors and their texts
-/

namespace Zbgp.Props

open Zbgp Spec

/-- The text of an error without the words in front: the name of the kind, or the message. -/
def errorText : BgpErrorMsg → List Char
  | .InsufficientBufferSize => "InsufficientBufferSize".toList
  | .ProtocolError => "ProtocolError".toList
  | .TooManyData => "TooManyData".toList
  | .Static s => s
  | .DynStr s => s
  | .Other e => e

/-- C108: an error prints as `BgpError ` and its text, so that two errors print alike exactly if they have the same text;
the kind of an error with a message is not printed. -/
theorem C108_display :
    (∀ e : BgpErrorMsg, e.display = "BgpError ".toList ++ errorText e) ∧
    (∀ e e' : BgpErrorMsg, e.display = e'.display ↔ errorText e = errorText e') ∧
    (∀ s, (BgpErrorMsg.staticStr s).display = (BgpErrorMsg.fromString s).display ∧
      (BgpErrorMsg.staticStr s).display = (BgpErrorMsg.fromError s).display) ∧
    [BgpErrorMsg.insufficientBufferSize.display, BgpErrorMsg.protocolError.display, BgpErrorMsg.tooManyData.display].Nodup ∧
    (BgpErrorMsg.insufficientBufferSize.kind = .insufficientBufferSize ∧ BgpErrorMsg.protocolError.kind = .protocolError ∧
      BgpErrorMsg.tooManyData.kind = .tooManyData ∧ ∀ s, (BgpErrorMsg.staticStr s).kind = .static ∧
      (BgpErrorMsg.fromString s).kind = .dynStr ∧ (BgpErrorMsg.fromError s).kind = .other) := by
  have h : ∀ e : BgpErrorMsg, e.display = "BgpError ".toList ++ errorText e := by
    intro e; cases e <;> rfl
  refine ⟨h, fun e e' => ?_, fun s => ⟨rfl, rfl⟩, by decide, rfl, rfl, rfl, fun s => ⟨rfl, rfl, rfl⟩⟩
  rw [h, h, List.append_cancel_left_eq]

example : (BgpErrorMsg.Static "ProtocolError".toList).display = BgpErrorMsg.ProtocolError.display :=
  (C108_display.2.1 _ _).2 rfl

/-- C108, the message header: all refusals are of the kind `Static`, also those of too few octets, which a header may
still become. -/
theorem C108_header :
    (∀ b k, BgpSessionParams.decodeMessageHead b = .err k → k = .static) ∧
    (∀ b : Bytes, b.length < 19 → BgpSessionParams.decodeMessageHead b = .err .static) ∧
    ∃ b t, BgpSessionParams.decodeMessageHead b = .err .static ∧ BgpSessionParams.decodeMessageHead (b ++ t) = .ok (.Keepalive, 0) := by
  refine ⟨fun b k h => ?_, fun b h => ?_, [], List.replicate 16 255 ++ [0, 19, 4], rfl, rfl⟩
  · simp only [BgpSessionParams.decodeMessageHead] at h
    by_cases h1 : b.length < 19
    · rw [if_pos h1] at h; cases h; rfl
    rw [if_neg h1, rslice_ok (by omega) (by omega), Res.ok_bind] at h
    split at h
    · cases h; rfl
    rw [idx_of_lt (by omega), rslice_ok (by omega) (by omega), Res.ok_bind] at h
    cases ht : BgpMessageType.decodeFrom b[18] with
    | err e =>
      rw [ht] at h; cases h
      simp only [BgpMessageType.decodeFrom] at ht
      split at ht <;> cases ht
      rfl
    | ok y =>
      rw [ht, Res.ok_bind, Res.ok_bind, getn16_ok (by simp; omega), Res.ok_bind] at h
      simp only [subC] at h
      split at h <;> cases h
    | panic => rw [ht] at h; cases h
    | hang => rw [ht] at h; cases h
  · simp only [BgpSessionParams.decodeMessageHead]
    rw [if_pos h]

/-- C108, NOTIFICATION: fewer than two octets are refused with `Static`, nothing else is refused, and more octets always make
a message of them. -/
theorem C108_notification (self : BgpNotificationMessage) (b : Bytes) :
    (∀ k, self.decodeFrom b = .err k ↔ b.length < 2 ∧ k = .static) ∧
    (∀ t, 2 ≤ t.length → ∃ m, self.decodeFrom (b ++ t) = .ok m) := by
  have h := C82_notification self
  have key : ∀ b : Bytes, 2 ≤ b.length → ∃ m, self.decodeFrom b = .ok m := by
    intro b hb
    match b, hb with
    | [x, y], _ => exact ⟨⟨x, y, self.data⟩, ((h _).ok _).2 (.inl ⟨rfl, rfl⟩)⟩
    | [x, y, z], _ => exact ⟨⟨x, y, z.setWidth 16⟩, ((h _).ok _).2 (.inr (.inl ⟨z, rfl, by simp; omega⟩))⟩
    | x :: y :: z :: w :: t, _ =>
      refine ⟨⟨x, y, BitVec.ofNat 16 (z.toNat * 256 + w.toNat)⟩, ((h _).ok _).2 (.inr (.inr ⟨t, ?_⟩))⟩
      have h1 := z.isLt
      have h2 := w.isLt
      simp only [be, BitVec.toNat_ofNat, List.cons_append, List.nil_append, List.cons.injEq, true_and,
        and_true]
      constructor <;> apply BitVec.eq_of_toNat_eq <;> simp <;> omega
  refine ⟨fun k => ?_, fun t ht => key _ (by simp; omega)⟩
  by_cases hb : b.length < 2
  · simp only [BgpNotificationMessage.decodeFrom]
    rw [if_pos hb]
    simp [hb, eq_comm]
  · obtain ⟨m, hm⟩ := key b (by omega)
    simp [hm, hb]

theorem decodeCaps_extend (fuel fuel' : Nat) (rest t : Bytes) (optlen : Nat) (hf : optlen < fuel) (hf' : optlen < fuel')
    (hl : optlen ≤ rest.length) :
    (∀ c r, BgpOpenMessage.decodeCaps fuel rest optlen = .ok (c, r) →
      BgpOpenMessage.decodeCaps fuel' (rest ++ t) optlen = .ok (c, r ++ t)) ∧
    (∀ k, BgpOpenMessage.decodeCaps fuel rest optlen = .err k →
      BgpOpenMessage.decodeCaps fuel' (rest ++ t) optlen = .err k) := by
  induction fuel generalizing fuel' rest optlen with
  | zero => omega
  | succ f ih =>
    match fuel', hf' with
    | f' + 1, hf' =>
      unfold BgpOpenMessage.decodeCaps
      by_cases h0 : optlen = 0
      · subst h0
        simp
      · rw [if_neg h0, if_neg h0, sliceE_ok (by omega) hl, sliceE_ok (by omega) (by simp; omega), List.take_append_of_le_length hl]
        simp only [Res.ok_bind, List.drop_zero]
        cases hfb : BgpCapability.fromBuffer (rest.take optlen) with
        | err e => simp
        | panic => simp
        | hang => simp
        | ok p =>
          obtain ⟨c, n⟩ := p
          obtain ⟨h1, h2⟩ := fromBuffer_consumed hfb
          simp at h2
          simp only [Res.ok_bind]
          rw [show subN optlen n = .ok (optlen - n) by simp [subN]; omega, Res.ok_bind, Res.ok_bind,
            List.drop_append_of_le_length (by omega)]
          obtain ⟨ih1, ih2⟩ := ih f' (rest.drop n) (optlen - n) (by omega) (by omega) (by simp; omega)
          cases hd : BgpOpenMessage.decodeCaps f (rest.drop n) (optlen - n) with
          | ok q =>
            obtain ⟨c', r'⟩ := q
            rw [ih1 _ _ hd]
            cases c <;> simp
          | err e => rw [ih2 _ hd]; simp
          | panic => simp
          | hang => simp

theorem decodeParams_extend (fuel fuel' : Nat) (rest t : Bytes) (hf : rest.length < fuel) (hf' : (rest ++ t).length < fuel')
    (k : BgpError) (hk : k ≠ .insufficientBufferSize) (h : BgpOpenMessage.decodeParams fuel rest = .err k) :
    BgpOpenMessage.decodeParams fuel' (rest ++ t) = .err k := by
  induction fuel generalizing fuel' rest with
  | zero => omega
  | succ f ih =>
    match fuel', hf' with
    | f' + 1, hf' =>
      unfold BgpOpenMessage.decodeParams at h ⊢
      by_cases hb : 1 < rest.length
      swap
      · rw [if_neg hb] at h; cases h
      match rest, hb with
      | x :: n :: rest, hb =>
        rw [if_pos hb] at h
        rw [if_pos (by simp)]
        simp only [List.cons_append, idx_cons_zero, Res.ok_bind, show ∀ l, idx (x :: n :: l) 1 = .ok n from fun _ => rfl,
          List.drop_succ_cons, List.drop_zero] at h ⊢
        by_cases hx : (x != 2) = true
        · rw [if_pos hx] at h ⊢; exact h
        rw [if_neg hx] at h ⊢
        by_cases hn : n.toNat ≤ rest.length
        · obtain ⟨e1, e2⟩ := decodeCaps_extend ((x :: n :: rest).length + 1) ((x :: n :: (rest ++ t)).length + 1) rest t n.toNat
            (by simp; omega) (by simp; omega) hn
          cases hd : BgpOpenMessage.decodeCaps ((x :: n :: rest).length + 1) rest n.toNat with
          | ok q =>
            obtain ⟨c, r⟩ := q
            have hr := (decodeCaps_returns _ rest n.toNat (by simp; omega)).2 _ _ hd
            rw [hd] at h
            rw [e1 _ _ hd]
            simp only [Res.ok_bind] at h ⊢
            cases hp : BgpOpenMessage.decodeParams f r with
            | ok _ => rw [hp] at h; cases h
            | panic => rw [hp] at h; cases h
            | hang => rw [hp] at h; cases h
            | err e =>
              rw [hp] at h
              cases h
              rw [ih f' r (by simp at hf; omega) (by simp at hf' ⊢; omega) hp]
              rfl
          | err e => rw [hd] at h; rw [e2 _ hd]; exact h
          | panic => rw [hd] at h; cases h
          | hang => rw [hd] at h; cases h
        · have : BgpOpenMessage.decodeCaps ((x :: n :: rest).length + 1) rest n.toNat = .err .insufficientBufferSize := by
            unfold BgpOpenMessage.decodeCaps
            rw [if_neg (by omega)]
            unfold sliceE
            rw [if_neg (by omega)]
            rfl
          rw [this] at h
          cases h
          exact absurd rfl hk

/-- C108, OPEN: an OPEN refused with an error other than `InsufficientBufferSize` is refused with the same error whatever
octets follow. One of fewer than ten octets is refused with `InsufficientBufferSize`, whatever they are; from ten octets on one
of another version than 4 is refused with `Static`. -/
theorem C108_open (self : BgpOpenMessage) (b : Bytes) :
    (∀ k, self.decodeFrom b = .err k → k ≠ .insufficientBufferSize → ∀ t, self.decodeFrom (b ++ t) = .err k) ∧
    (b.length < 10 → self.decodeFrom b = .err .insufficientBufferSize) ∧
    (10 ≤ b.length → ∀ v, b[0]? = some v → v ≠ 4 → self.decodeFrom b = .err .static) := by
  refine ⟨fun k h hk t => ?_, fun hb => ?_, fun hb v hv h4 => ?_⟩
  · by_cases hb : b.length < 10
    · simp only [BgpOpenMessage.decodeFrom] at h
      rw [if_pos hb] at h
      cases h
      exact absurd rfl hk
    obtain ⟨v, x1, b, rfl⟩ := exists_cons2 (l := b) (by omega)
    obtain ⟨x2, x3, b, rfl⟩ := exists_cons2 (l := b) (by simp at hb; omega)
    obtain ⟨x4, x5, b, rfl⟩ := exists_cons2 (l := b) (by simp at hb; omega)
    obtain ⟨x6, x7, b, rfl⟩ := exists_cons2 (l := b) (by simp at hb; omega)
    obtain ⟨x8, x9, r, rfl⟩ := exists_cons2 (l := b) (by simp at hb; omega)
    · skip
      simp only [BgpOpenMessage.decodeFrom] at h ⊢
      rw [if_neg (by simp)] at h
      rw [if_neg (by simp)]
      simp only [List.cons_append, idx_cons_zero, Res.ok_bind] at h ⊢
      by_cases hv : (v != 4) = true
      · rw [if_pos hv] at h ⊢; exact h
      rw [if_neg hv] at h ⊢
      rw [sliceE_ok (by simp) (by simp)] at h
      rw [sliceE_ok (by simp) (by simp)]
      simp only [List.take_length, List.drop_succ_cons, List.drop_zero, Res.ok_bind, idx_cons_zero, idx_cons_succ] at h ⊢
      cases hp : BgpOpenMessage.decodeParams ((v :: x1 :: x2 :: x3 :: x4 :: x5 :: x6 :: x7 :: x8 :: x9 :: r).length + 1) r with
      | ok _ => rw [hp] at h; cases h
      | panic => rw [hp] at h; cases h
      | hang => rw [hp] at h; cases h
      | err e =>
        rw [hp] at h
        cases h
        rw [decodeParams_extend _ _ _ t (by simp; omega) (by simp; omega) _ hk hp]
        rfl
  · simp only [BgpOpenMessage.decodeFrom]
    rw [if_pos hb]
  · simp only [BgpOpenMessage.decodeFrom]
    rw [if_neg (by omega), idx_of_lt (by omega), Res.ok_bind, if_pos]
    rw [List.getElem?_eq_getElem (by omega)] at hv
    cases hv
    simpa using h4

example (self : BgpOpenMessage) (t : Bytes) :
    self.decodeFrom ([3, 0, 1, 0, 90, 1, 1, 1, 1, 0] ++ t) = .err .static :=
  (C108_open self [3, 0, 1, 0, 90, 1, 1, 1, 1, 0]).1 .static rfl (by simp) t

/-- C108, OPEN: `InsufficientBufferSize` does not say that octets are missing at the end: a capability that is longer than its
parameter is refused with it, whatever octets follow. -/
theorem C108_open_insufficient_is_final (self : BgpOpenMessage) (t : Bytes) :
    self.decodeFrom ([4, 0, 1, 0, 90, 1, 1, 1, 1, 4, 2, 2, 1, 4] ++ t) = .err .insufficientBufferSize := by
  simp only [BgpOpenMessage.decodeFrom, List.cons_append, List.nil_append]
  rw [if_neg (by simp)]
  simp only [idx_cons_zero, Res.ok_bind]
  rw [if_neg (by decide), sliceE_ok (by simp) (by simp)]
  simp only [List.take_length, List.drop_succ_cons, List.drop_zero, Res.ok_bind, idx_cons_zero, idx_cons_succ]
  rw [BgpOpenMessage.decodeParams, if_pos (by simp)]
  simp only [idx_cons_zero, Res.ok_bind, show ∀ l : Bytes, idx (2 :: 2 :: l) 1 = .ok 2 from fun _ => rfl]
  rw [if_neg (by decide)]
  have : BgpOpenMessage.decodeCaps ((2 :: 2 :: 1 :: 4 :: t).length + 1) (1 :: 4 :: t) (2 : U8).toNat =
      .err .insufficientBufferSize :=
    (decodeCaps_extend 3 ((2 :: 2 :: 1 :: 4 :: t).length + 1) [1, 4] t 2 (by simp) (by simp) (by simp)).2
      .insufficientBufferSize rfl
  simp only [List.drop_succ_cons, List.drop_zero]
  rw [this]
  rfl

/-- C108, UPDATE: a message that ends before the size of its attributes is complete is refused with `InsufficientBufferSize`
(if its withdrawn routes, as far as they are there in full, are routes), and one that ends within its attributes with
`ProtocolError`. -/
theorem C108_update (self : BgpUpdateMessage) (p : BgpSessionParams) :
    (∀ b : Bytes, b.length < 2 → self.decodeFrom p b = .err .insufficientBufferSize) ∧
    (∀ (n : Nat) (rest : Bytes), n ≤ 65535 → rest.length ≤ n →
      self.decodeFrom p (be 2 n ++ rest) = .err .insufficientBufferSize) ∧
    (∀ (w : Bytes) (wd : BgpAddrs) (x : U8), w.length ≤ 65535 → NlriIs p w wd →
      self.decodeFrom p (be 2 w.length ++ w ++ [x]) = .err .insufficientBufferSize) ∧
    (∀ (w : Bytes) (wd : BgpAddrs) (n : Nat) (a : Bytes), w.length ≤ 65535 → NlriIs p w wd → n ≤ 65535 → a.length < n →
      self.decodeFrom p (be 2 w.length ++ w ++ (be 2 n ++ a)) = .err .protocolError) := by
  refine ⟨fun b hb => ?_, fun n rest hn hr => ?_, fun w wd x hw hd => ?_, fun w wd n a hw hd hn ha => ?_⟩
  · simp only [BgpUpdateMessage.decodeFrom]
    rw [sliceE, if_neg (by omega)]
    rfl
  · simp only [BgpUpdateMessage.decodeFrom]
    rw [sliceE_be_hit]
    simp only [Res.ok_bind, getn16_two, BitVec.toNat_ofNat]
    rw [Nat.mod_eq_of_lt (by omega), if_pos (by simp; omega)]
  · simp only [BgpUpdateMessage.decodeFrom]
    rw [List.append_assoc, sliceE_be_hit]
    simp only [Res.ok_bind, getn16_two, BitVec.toNat_ofNat]
    rw [Nat.mod_eq_of_lt (by omega), if_neg (by simp), sliceE_append_mid _ _ _ _ _ (by simp) (by simp)]
    simp only [Res.ok_bind]
    rw [(BgpUpdateMessage.decodeNlri_iff p w wd).2 hd, Res.ok_bind, sliceE, if_neg (by simp; omega)]
    rfl
  · simp only [BgpUpdateMessage.decodeFrom]
    rw [List.append_assoc, sliceE_be_hit]
    simp only [Res.ok_bind, getn16_two, BitVec.toNat_ofNat]
    rw [Nat.mod_eq_of_lt (by omega), if_neg (by simp), sliceE_append_mid _ _ _ _ _ (by simp) (by simp)]
    simp only [Res.ok_bind]
    rw [(BgpUpdateMessage.decodeNlri_iff p w wd).2 hd, Res.ok_bind, ← List.append_assoc (be 2 _) w,
      sliceE_append_mid _ _ _ _ _ (by simp) (by simp)]
    simp only [Res.ok_bind, getn16_two, BitVec.toNat_ofNat]
    rw [Nat.mod_eq_of_lt (by omega), if_pos (by simp; omega)]

example (self : BgpUpdateMessage) :
    self.decodeFrom (.new 1 90 .IPv4 1 []) [0, 0, 0, 5, 0x40, 1, 1] = .err .protocolError :=
  (C108_update self (.new 1 90 .IPv4 1 [])).2.2.2 [] (.IPV4U []) 5 [0x40, 1, 1] (by simp)
    ((BgpUpdateMessage.decodeNlri_iff _ _ _).1 (by decide)) (by simp) (by simp)

/-- C108, the BMP common header: fewer than five octets are refused with `InsufficientBufferSize`, another version than 3 with
`Static`, whatever follows, and nothing else is refused. -/
theorem C108_bmp_header (b : Bytes) :
    (∀ k, BmpMessageHeader.decodeFrom b = .err k ↔
      (b.length < 5 ∧ k = .insufficientBufferSize) ∨ (5 ≤ b.length ∧ (∃ v, b[0]? = some v ∧ v ≠ 3) ∧ k = .static)) ∧
    (BmpMessageHeader.decodeFrom b = .err .static → ∀ t, BmpMessageHeader.decodeFrom (b ++ t) = .err .static) := by
  have key : ∀ b : Bytes, ∀ k, BmpMessageHeader.decodeFrom b = .err k ↔
      (b.length < 5 ∧ k = .insufficientBufferSize) ∨ (5 ≤ b.length ∧ (∃ v, b[0]? = some v ∧ v ≠ 3) ∧ k = .static) := by
    intro b k
    simp only [BmpMessageHeader.decodeFrom]
    by_cases hb : b.length < 5
    · rw [if_pos hb]
      simp only [hb, true_and, show ¬ 5 ≤ b.length by omega, false_and, or_false]
      exact ⟨fun h => by cases h; rfl, fun h => by rw [h]⟩
    · rw [if_neg hb, idx_of_lt (by omega), Res.ok_bind]
      simp only [hb, false_and, show 5 ≤ b.length by omega, true_and, false_or,
        List.getElem?_eq_getElem (show 0 < b.length by omega), Option.some.injEq, exists_eq_left']
      by_cases hv : b[0] = 3
      · rw [if_neg (by simp [hv]), rslice_ok (by omega) (by omega), Res.ok_bind, getn32_ok (by simp; omega), Res.ok_bind]
        simp [hv]
      · rw [if_pos (by simpa using hv)]
        simp only [ne_eq, hv, not_false_eq_true, true_and]
        exact ⟨fun h => by cases h; rfl, fun h => by rw [h]⟩
  refine ⟨key b, fun h t => ?_⟩
  rw [key] at h ⊢
  rcases h with ⟨_, h⟩ | ⟨h1, ⟨v, h2, h3⟩, _⟩
  · cases h
  · refine .inr ⟨by simp; omega, ⟨v, ?_, h3⟩, rfl⟩
    rw [List.getElem?_append_left (by omega)]
    exact h2

example : BmpMessageHeader.decodeFrom ([1, 0, 0, 0, 6] ++ [9, 9]) = .err .static :=
  (C108_bmp_header [1, 0, 0, 0, 6]).2 rfl _

end Zbgp.Props
