import Verif.Lemmas.Header

/-! # C01-C04: the BGP message header and message streams -/

namespace Zbgp.Props

open Zbgp Spec BgpSessionParams

/-- **C01.** Whenever `prepare_message_buf` succeeds for a body of at most 65516 octets, the buffer starts with
exactly the RFC 4271 header, everything from octet 19 on is untouched, the reported total is the body length
plus 19, and `decode_message_head` on that buffer gives back the type and the body length. -/
theorem C01_header_round_trip (buf : Bytes) (ty : BgpMessageType) (len : Nat) (hlen : len ≤ 65516)
    (buf' : Bytes) (n : Nat) (h : prepareMessageBuf buf ty len = .ok (buf', n)) :
    n = len + 19 ∧ buf'.length = buf.length ∧
    buf'.take 16 = List.replicate 16 255 ∧
    buf'.take 19 = header ty len ∧
    buf'.drop 19 = buf.drop 19 ∧
    decodeMessageHead buf' = .ok (ty, len) := by
  by_cases hb : len + 19 ≤ buf.length
  · rw [prepare_ok buf ty len hlen hb] at h
    simp only [Res.ok.injEq, Prod.mk.injEq] at h
    obtain ⟨rfl, rfl⟩ := h
    refine ⟨rfl, ?_, ?_, ?_, ?_, decode_header ty len hlen _⟩
    · simp [header_length]; omega
    · simp [header]
    · rw [List.take_append_of_le_length (by simp [header_length]),
        List.take_of_length_le (by simp [header_length])]
    · rw [List.drop_left' (header_length _ _)]
  · unfold prepareMessageBuf at h
    rw [if_pos (by omega)] at h
    simp at h

/-- **C01.** ... and it does succeed whenever the buffer holds the header and the body. -/
theorem C01_header_write_succeeds (buf : Bytes) (ty : BgpMessageType) (len : Nat) (hlen : len ≤ 65516)
    (hb : len + 19 ≤ buf.length) : ∃ buf', prepareMessageBuf buf ty len = .ok (buf', len + 19) :=
  ⟨_, prepare_ok buf ty len hlen hb⟩

/-- non-vacuity of C01 -/
example : ∃ buf', prepareMessageBuf (List.replicate 30 7) .Update 11 = .ok (buf', 30) ∧
    decodeMessageHead buf' = .ok (.Update, 11) :=
  ⟨_, prepare_ok _ .Update 11 (by omega) (by simp), decode_header .Update 11 (by omega) _⟩

/-- **C02 (rejection).** `decode_message_head` returns an error for every buffer shorter than 19 octets, for every
marker with an octet other than 255 and for every type octet outside 1..4. -/
theorem C02_head_rejects (buf : Bytes) :
    (buf.length < 19 → (decodeMessageHead buf).IsErr) ∧
    (buf.take 16 ≠ List.replicate 16 255 → (decodeMessageHead buf).IsErr) ∧
    (∀ t, buf[18]? = some t → (t.toNat = 0 ∨ 4 < t.toNat) → (decodeMessageHead buf).IsErr) := by
  have key : ∀ t : U8, (t.toNat = 0 ∨ 4 < t.toNat) → BgpMessageType.decodeFrom t = .err .static := by
    intro t ht
    unfold BgpMessageType.decodeFrom
    split <;> first | omega | rfl
  refine ⟨?_, ?_, ?_⟩
  · intro h; unfold decodeMessageHead; simp [h]
  · intro h
    unfold decodeMessageHead
    split
    · simp
    · rename_i hl
      rw [rslice_ok (by omega) (by omega), Res.ok_bind, List.drop_zero]
      rw [if_pos]
      · simp
      · by_contra hc
        apply h
        rw [List.any_eq_true] at hc
        apply List.ext_getElem
        · simp; omega
        · intro i h1 h2
          by_contra hne
          rw [List.getElem_replicate] at hne
          exact hc ⟨_, List.getElem_mem h1, by simpa using hne⟩
  · intro t ht hc
    unfold decodeMessageHead
    split
    · simp
    · rw [rslice_ok (by omega) (by omega), Res.ok_bind, List.drop_zero]
      split
      · simp
      · rw [idx_eq_ok.mpr ht, Res.ok_bind, key t hc]
        simp

/-- **C02 (no crash), what holds.** `decode_message_head` returns (never panics) on every buffer whose length field
is at least 19, and on every buffer it rejects. Missing for the full property: length fields 0..18, where the
subtraction underflows, see `C02_head_can_panic`. -/
theorem C02_head_total_partial (buf : Bytes) (h : 19 ≤ unbe ((buf.take 18).drop 16)) :
    (decodeMessageHead buf).Returns := by
  unfold decodeMessageHead
  split
  · simp
  · rename_i hl
    rw [rslice_ok (by omega) (by omega), Res.ok_bind]
    split
    · simp
    · rw [idx_of_lt (by omega), rslice_ok (by omega) (by omega)]
      simp only [Res.ok_bind]
      refine Res.returns_bind ?_ fun ty _ => ?_
      · unfold BgpMessageType.decodeFrom
        split <;> simp
      · have h2 : ((buf.take 18).drop 16).length = 2 := by simp; omega
        rw [getn16_ok (by omega), Res.ok_bind]
        refine Res.returns_bind ?_ (by simp)
        unfold subC
        have h3 := unbe_lt ((buf.take 18).drop 16)
        rw [h2] at h3
        rw [if_pos]
        · simp
        · rw [List.take_of_length_le (by omega), BitVec.toNat_ofNat, Nat.mod_eq_of_lt (by omega)]
          exact h

/-- non-vacuity of C02: a well-formed KEEPALIVE header -/
example : 19 ≤ unbe (((header .Keepalive 0).take 18).drop 16) := by decide

/-- **C02 is violated.** With overflow checks on, a header whose length field is below 19 (here 0) makes
`decode_message_head` panic. -/
theorem C02_head_can_panic :
    ¬ ∀ buf : Bytes, (decodeMessageHead buf).Returns := by
  intro h
  have := h (List.replicate 16 255 ++ [0, 0, 1])
  revert this
  decide

/-- **C03, what holds.** For bodies up to 65516 octets both header writers either fail with an error or write the length
`len + 19`; `send_message_buf` puts exactly header and body on the wire. Missing for the full property: larger
bodies, see `C03_header_write_wraps`. -/
theorem C03_header_write_partial (buf : Bytes) (ty : BgpMessageType) (len : Nat) (hlen : len ≤ 65516) :
    ((prepareMessageBuf buf ty len).IsErr ∧ (sendMessageBuf buf ty len).IsErr ∧ buf.length < len + 19) ∨
    (prepareMessageBuf buf ty len = .ok (header ty len ++ buf.drop 19, len + 19) ∧
     sendMessageBuf buf ty len = .ok (header ty len ++ buf.drop 19,
       header ty len ++ (buf.drop 19).take len)) := by
  by_cases hb : len + 19 ≤ buf.length
  · right
    have h := prepare_ok buf ty len hlen hb
    refine ⟨h, ?_⟩
    rw [send_eq_prepare, h]
    simp only [Res.ok_bind]
    rw [rslice_ok (by omega) (by simp [header_length]; omega)]
    simp only [Res.ok_bind, List.drop_zero]
    rw [List.take_append, List.take_of_length_le (by simp [header_length]), header_length]
    simp
  · left
    unfold prepareMessageBuf sendMessageBuf
    rw [if_pos (by omega), if_pos (by omega)]
    exact ⟨by simp, by simp, by omega⟩

/-- non-vacuity of C03: both alternatives occur -/
example : (prepareMessageBuf [] .Open 5).IsErr ∧
    ∃ b, prepareMessageBuf (List.replicate 24 0) .Open 5 = .ok (b, 24) :=
  ⟨by decide, _, prepare_ok _ _ _ (by omega) (by simp)⟩

/-- **C03 is violated.** For every buffer with room for it, a body of 65536 octets is announced as a message of 19
octets (an empty body), and a body of 65517 octets panics (overflow checks on). -/
theorem C03_header_write_wraps (buf : Bytes) (ty : BgpMessageType) (hb : 65555 ≤ buf.length) :
    (∃ buf', prepareMessageBuf buf ty 65536 = .ok (buf', 19) ∧ decodeMessageHead buf' = .ok (ty, 0)) ∧
    prepareMessageBuf buf ty 65517 = .panic := by
  constructor
  · rw [prepare_eq buf ty 65536 (by omega), if_pos (by omega)]
    exact ⟨_, rfl, decode_header ty _ (by omega) _⟩
  · rw [prepare_eq buf ty 65517 (by omega), if_neg (by omega)]

/-! ## C04: streams of messages -/

/-- The sender of a history: each message is sent from a buffer that holds its body at offset 19 (whatever the
first 19 octets and the octets after the body were), `src/lib.rs:70-75` and `send_message_buf`. The stream is the
concatenation of what `write_all` received. -/
def sendAll : List (BgpMessageType × Bytes × Bytes × Bytes) → Res Bytes
  | [] => .ok []
  | (ty, junk, body, pad) :: rest => do
    let (_, out) ← sendMessageBuf (junk ++ body ++ pad) ty body.length
    let more ← sendAll rest
    .ok (out ++ more)

/-- The reader, `src/lib.rs:76-81`: `recv_message_head`, then `read_exact` of the announced number of octets, until the stream
is used up. -/
def recvAll : Nat → Bytes → Res (List (BgpMessageType × Bytes))
  | 0, _ => .hang
  | fuel + 1, stream =>
    if stream.isEmpty then .ok [] else do
      let ((ty, n), stream) ← recvMessageHead stream
      if stream.length < n then .err .other else do
        let more ← recvAll fuel (stream.drop n)
        .ok ((ty, stream.take n) :: more)

/-- **C04.** Whatever finite history of messages (bodies up to 65516 octets) is sent, sending succeeds and the reader
recovers exactly the sequence of types and bodies, consuming the whole stream. -/
theorem C04_stream_framing (msgs : List (BgpMessageType × Bytes × Bytes × Bytes))
    (hj : ∀ m ∈ msgs, m.2.1.length = 19) (hl : ∀ m ∈ msgs, m.2.2.1.length ≤ 65516) :
    ∃ stream, sendAll msgs = .ok stream ∧
      stream = msgs.flatMap (fun m => message m.1 m.2.2.1) ∧
      ∀ fuel, stream.length < fuel →
        recvAll fuel stream = .ok (msgs.map fun m => (m.1, m.2.2.1)) := by
  induction msgs with
  | nil =>
    refine ⟨[], rfl, rfl, ?_⟩
    intro fuel hf
    match fuel, hf with
    | f + 1, _ => simp [recvAll]
  | cons m ms ih =>
    obtain ⟨ty, junk, body, pad⟩ := m
    have hj0 := hj _ (List.mem_cons_self ..)
    have hl0 := hl _ (List.mem_cons_self ..)
    simp only at hj0 hl0
    obtain ⟨s, h1, h2, h3⟩ := ih (fun m hm => hj m (by simp [hm])) (fun m hm => hl m (by simp [hm]))
    have hsend : sendMessageBuf (junk ++ body ++ pad) ty body.length =
        .ok (header ty body.length ++ (body ++ pad), message ty body) := by
      rw [send_eq_prepare, prepare_ok _ _ _ hl0 (by simp; omega)]
      have hd : List.drop 19 (junk ++ body ++ pad) = body ++ pad := by
        rw [List.append_assoc, List.drop_left' hj0]
      rw [hd]
      simp only [Res.ok_bind]
      have := rslice_append_zero (message ty body) pad (body.length + 19) (by
        simp [message, header_length]; omega)
      simp only [message, List.append_assoc] at this
      rw [this]
      rfl
    refine ⟨message ty body ++ s, ?_, ?_, ?_⟩
    · simp only [sendAll, hsend, h1, Res.ok_bind]
    · simp [h2]
    · intro fuel hf
      match fuel, hf with
      | f + 1, hf =>
        have hlen : (message ty body).length = 19 + body.length := by
          simp [message, header_length]
        unfold recvAll
        rw [if_neg (by
          intro h
          have := congrArg List.length (List.isEmpty_iff.mp h)
          simp [hlen] at this)]
        unfold recvMessageHead
        rw [if_neg (by simp [hlen]; omega)]
        have ht : List.take 19 (message ty body ++ s) = header ty body.length := by
          rw [message, List.append_assoc, List.take_left' (header_length _ _)]
        have hd : List.drop 19 (message ty body ++ s) = body ++ s := by
          rw [message, List.append_assoc, List.drop_left' (header_length _ _)]
        have hdec := decode_header ty body.length hl0 []
        rw [List.append_nil] at hdec
        simp only [ht, hd, hdec, Res.ok_bind]
        rw [if_neg (by simp)]
        rw [List.drop_left' rfl, h3 f (by simp [hlen] at hf; omega), List.take_left' rfl]
        rfl

/-- non-vacuity of C04 -/
example : let msgs := [(BgpMessageType.Keepalive, List.replicate 19 0, ([] : Bytes), ([] : Bytes)),
      (.Notification, List.replicate 19 1, [6, 2, 0, 0], [9, 9])]
    (∀ m ∈ msgs, m.2.1.length = 19) ∧ (∀ m ∈ msgs, m.2.2.1.length ≤ 65516) := by decide

end Zbgp.Props
