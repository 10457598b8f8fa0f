import Verif.Lemmas.Io
import Verif.Props.Dumper

/-!
# C115: connections with short reads and writes, interruptions and failures
-/

namespace Zbgp.Props

open Zbgp Spec BgpSessionParams

/-- **C115, reading.** On every connection, whatever its calls do: `read_exact` of `want` octets returns the next `want` octets if
there are as many and get through before a call fails, and an error if not. It takes nothing of what is behind them, and always
comes to an end. -/
theorem C115_read_exactly (r : Incoming) (want : Nat) :
    (want ≤ r.octets.length ∧ Admits r.events want →
      (r.readExact want).1 = .ok (r.octets.take want) ∧ (r.readExact want).2.octets = r.octets.drop want) ∧
    (¬ (want ≤ r.octets.length ∧ Admits r.events want) → (r.readExact want).1 = .err .other) := by
  have h := readLoop_ok_iff _ r want [] (Nat.le_refl _)
  rcases readExact_any r want with ⟨ev, -, h2, h3⟩ | ⟨r', h1, -⟩
  · rw [h3]
    refine ⟨fun _ => ⟨rfl, rfl⟩, fun hn => absurd (h.1 ⟨_, congrArg Prod.fst h3⟩) hn⟩
  · rw [h1]
    refine ⟨fun hy => ?_, fun _ => rfl⟩
    obtain ⟨x, hx⟩ := h.2 hy
    have : (r.readExact want).1 = .ok x := hx
    rw [h1] at this
    cases this

/-- **C115, writing.** On every connection, whatever its calls do: what `write_all` gets through are the first octets of what it
is given, once and in order, as many as get through before a call fails; it succeeds exactly when these are all, and fails with an
error if not. -/
theorem C115_write_exactly (w : Outgoing) (b : Bytes) :
    (w.writeAll b).2.sent = w.sent ++ b.take ((room w.events).getD b.length) ∧
    ((w.writeAll b).1 = .ok () ↔ Admits w.events b.length) ∧
    (¬ Admits w.events b.length → (w.writeAll b).1 = .err .other) := by
  obtain ⟨h1, h2⟩ := writeLoop_sent _ w b (Nat.le_refl _)
  refine ⟨h1, h2, fun hn => ?_⟩
  obtain ⟨k, -, -, -, h3⟩ := writeAll_spec w b
  rcases h3 with ⟨h3, -⟩ | ⟨h3, -⟩
  · exact absurd (h2.1 h3) hn
  · exact h3

theorem recvOn_any (r : Incoming) :
    (∃ ev, ev <:+ r.events ∧ 19 ≤ r.octets.length ∧
      recvMessageHeadOn r = (decodeMessageHead (r.octets.take 19), ⟨ev, r.octets.drop 19⟩)) ∨
      (∃ r', recvMessageHeadOn r = (.err .other, r') ∧ (AllSteady r.events → r.octets.length < 19)) := by
  unfold recvMessageHeadOn
  rcases readExact_any r 19 with ⟨ev, h1, h2, h3⟩ | ⟨r', h1, h2⟩
  · rw [h3]; exact .inl ⟨ev, h1, h2, rfl⟩
  · rw [h1]; exact .inr ⟨r', rfl, h2⟩

theorem recv_eq {s : Bytes} (h : 19 ≤ s.length) :
    recvMessageHead s = (do let x ← decodeMessageHead (s.take 19); .ok (x, s.drop 19)) := by
  unfold recvMessageHead
  rw [if_neg (by omega)]

/-- **C115, `recv_message_head`.** If 19 octets get through before a call of the connection fails, it does what it does on the plain octets, and
leaves the octets behind the header on the connection; else it returns an error. -/
theorem C115_recv_head (r : Incoming) :
    (Admits r.events 19 → (recvMessageHeadOn r).1 = (do let (x, _) ← recvMessageHead r.octets; .ok x) ∧
      ∀ x rest, recvMessageHead r.octets = .ok (x, rest) → (recvMessageHeadOn r).2.octets = rest) ∧
    (¬ Admits r.events 19 → (recvMessageHeadOn r).1 = .err .other) := by
  obtain ⟨h1, h2⟩ := C115_read_exactly r 19
  constructor
  · intro ha
    by_cases hl : 19 ≤ r.octets.length
    · obtain ⟨e1, e2⟩ := h1 ⟨hl, ha⟩
      rw [recv_eq hl]
      unfold recvMessageHeadOn
      generalize r.readExact 19 = x at e1 e2
      obtain ⟨x, r'⟩ := x
      simp only at e1 e2
      subst e1
      simp only
      cases decodeMessageHead (r.octets.take 19) with
      | ok y => exact ⟨rfl, fun a b hab => by simp only [Res.ok_bind, Res.ok.injEq, Prod.mk.injEq] at hab; rw [e2]; exact hab.2⟩
      | err e => exact ⟨rfl, fun a b hab => by cases hab⟩
      | panic => exact ⟨rfl, fun a b hab => by cases hab⟩
      | hang => exact ⟨rfl, fun a b hab => by cases hab⟩
    · have e1 := h2 (fun h => hl h.1)
      have e : recvMessageHead r.octets = .err .other := by
        unfold recvMessageHead
        rw [if_pos (by omega)]
      rw [e]
      unfold recvMessageHeadOn
      generalize r.readExact 19 = x at e1
      obtain ⟨x, r'⟩ := x
      simp only at e1
      subst e1
      exact ⟨rfl, fun a b hab => by cases hab⟩
  · intro ha
    have e1 := h2 (fun h => ha h.2)
    unfold recvMessageHeadOn
    generalize r.readExact 19 = x at e1
    obtain ⟨x, r'⟩ := x
    simp only at e1
    subst e1
    rfl

theorem send_ok (buf : Bytes) (ty : BgpMessageType) (n : Nat) (hn : n ≤ 65516) (hb : n + 19 ≤ buf.length) :
    sendMessageBuf buf ty n = .ok (header ty n ++ buf.drop 19, message ty ((buf.drop 19).take n)) := by
  have hl : ((buf.drop 19).take n).length = n := by rw [List.length_take, List.length_drop]; omega
  rw [send_eq_prepare, prepare_ok buf ty n hn hb]
  simp only [Res.ok_bind]
  have e : header ty n ++ buf.drop 19 = message ty ((buf.drop 19).take n) ++ (buf.drop 19).drop n := by
    simp only [message, hl, List.append_assoc, List.take_append_drop]
  rw [e, rslice_append_zero _ _ _ (by rw [message_length, hl]; omega)]
  rfl

/-- **C115, `send_message_buf`.** A buffer with a body of `n` octets behind the place for the header. What gets through on the
connection are the first octets of this one message, as many as get through before a call fails; it succeeds exactly when it is
the whole message. -/
theorem C115_send (buf : Bytes) (ty : BgpMessageType) (n : Nat) (hn : n ≤ 65516) (hb : n + 19 ≤ buf.length) (w : Outgoing) :
    let msg := message ty ((buf.drop 19).take n)
    (sendMessageBufOn buf ty n w).2.2.sent = w.sent ++ msg.take ((room w.events).getD msg.length) ∧
    ((sendMessageBufOn buf ty n w).1 = .ok () ↔ Admits w.events (n + 19)) ∧
    (¬ Admits w.events (n + 19) → (sendMessageBufOn buf ty n w).1 = .err .other) := by
  intro msg
  have hl : msg.length = n + 19 := by rw [message_length, List.length_take, List.length_drop]; omega
  unfold sendMessageBufOn
  rw [send_ok buf ty n hn hb]
  have := C115_write_exactly w msg
  rw [hl] at this
  simp only
  rw [hl]
  exact this

/-! ## Reading messages -/

/-- How reading from a connection ends where reading the plain octets ends like this: their end is an error of `read_exact`. -/
def asEnd : Res Unit → Res Unit
  | .ok _ => .err .other
  | x => x

theorem listen_loop (p : BgpSessionParams) : ∀ (fuel : Nat) (r : Incoming), r.octets.length < fuel →
    ((AllSteady r.events → listenLoop p fuel r = ((hearLoop p fuel r.octets).1, asEnd (hearLoop p fuel r.octets).2)) ∧
      (listenLoop p fuel r).1 <+: (hearLoop p fuel r.octets).1 ∧
      ((listenLoop p fuel r).2 = asEnd (hearLoop p fuel r.octets).2 ∨ (listenLoop p fuel r).2 = .err .other)) := by
  intro fuel
  induction fuel with
  | zero => intro r h; omega
  | succ fuel ih =>
    intro r hf
    rw [listenLoop, hearLoop]
    rcases recvOn_any r with ⟨ev, h1, h2, h3⟩ | ⟨r', h1, h2⟩
    · rw [h3, recv_eq h2, if_neg (by rw [List.isEmpty_iff_length_eq_zero]; omega)]
      cases decodeMessageHead (r.octets.take 19) with
      | err e => exact ⟨fun _ => rfl, List.prefix_refl _, .inl rfl⟩
      | panic => exact ⟨fun _ => rfl, List.prefix_refl _, .inl rfl⟩
      | hang => exact ⟨fun _ => rfl, List.prefix_refl _, .inl rfl⟩
      | ok x =>
        obtain ⟨ty, n⟩ := x
        simp only [Res.ok_bind]
        rcases readExact_any ⟨ev, r.octets.drop 19⟩ n with ⟨ev', g1, g2, g3⟩ | ⟨r', g1, g2⟩
        · simp only at g2 g3
          rw [g3, if_neg (by omega)]
          simp only
          cases understand p ty ((r.octets.drop 19).take n) with
          | err e => exact ⟨fun _ => rfl, List.prefix_refl _, .inl rfl⟩
          | panic => exact ⟨fun _ => rfl, List.prefix_refl _, .inl rfl⟩
          | hang => exact ⟨fun _ => rfl, List.prefix_refl _, .inl rfl⟩
          | ok m =>
            obtain ⟨i1, i2, i3⟩ := ih ⟨ev', (r.octets.drop 19).drop n⟩ (by simp only [List.length_drop]; omega)
            simp only at i1 i2 i3 ⊢
            refine ⟨fun ha => ?_, (List.prefix_cons_inj m).2 i2, i3⟩
            rw [i1 (steady_suffix (steady_suffix ha h1) g1)]
        · simp only at g2
          rw [g1]
          simp only
          refine ⟨fun ha => ?_, List.nil_prefix, .inr trivial⟩
          rw [if_pos (g2 (steady_suffix ha h1))]
          rfl
    · rw [h1]
      simp only
      refine ⟨fun ha => ?_, List.nil_prefix, .inr trivial⟩
      have hl := h2 ha
      by_cases h0 : r.octets.isEmpty = true
      · rw [if_pos h0]; rfl
      · rw [if_neg h0]
        have e : recvMessageHead r.octets = .err .other := by
          unfold recvMessageHead
          rw [if_pos (by omega)]
        rw [e]
        rfl

/-- **C115, reading messages, no failures.** However a connection cuts what comes into pieces, and however often a call is
interrupted: the messages that are read are those that are read from the octets as a whole, and reading ends in the same way (the
end of the octets is an error of `read_exact`). -/
theorem C115_pieces (p : BgpSessionParams) (ev : List IoEvent) (h : AllSteady ev) (s : Bytes) :
    listen p ⟨ev, s⟩ = ((hear p s).1, asEnd (hear p s).2) :=
  (listen_loop p _ ⟨ev, s⟩ (Nat.lt_succ_self _)).1 h

/-- **C115, reading messages, any connection.** The messages that are read are the first ones of those that are in the octets, and
reading ends as with the octets as a whole or with the error of the connection: failures never add, change or reorder
messages, and never make a panic. -/
theorem C115_failing (p : BgpSessionParams) (ev : List IoEvent) (s : Bytes) :
    (listen p ⟨ev, s⟩).1 <+: (hear p s).1 ∧
    ((listen p ⟨ev, s⟩).2 = asEnd (hear p s).2 ∨ (listen p ⟨ev, s⟩).2 = .err .other) :=
  (listen_loop p _ ⟨ev, s⟩ (Nat.lt_succ_self _)).2

/-! ## Sending and reading -/

theorem speak_ok (p : BgpSessionParams) (msgs : List Said) : ∀ (buf : Bytes) (w : Outgoing), (∀ m ∈ msgs, Sayable p buf.length m) →
    ∃ k ≤ (msgs.flatMap (saidWire p)).length, (speak p msgs buf w).2.sent = w.sent ++ (msgs.flatMap (saidWire p)).take k ∧
      ((speak p msgs buf w).1 = .ok () ∧ k = (msgs.flatMap (saidWire p)).length ∨
        (speak p msgs buf w).1 = .err .other ∧ k < (msgs.flatMap (saidWire p)).length ∧ ¬ AllSteady w.events) := by
  induction msgs with
  | nil => intro buf w _; exact ⟨0, by simp, by simp [speak], .inl ⟨rfl, rfl⟩⟩
  | cons m ms ih =>
    intro buf w h
    obtain ⟨h1, h2, h3⟩ := sayer_ok (h m (by simp))
    obtain ⟨mk, t, rfl, hm, ht⟩ := exists_split (buf := buf) 19 (by omega)
    simp only [List.length_append] at h3
    have e1 : onFrom (mk ++ t) 19 (sayer p m).2 =
        .ok (mk ++ (saidBody p m ++ t.drop (saidBody p m).length), (saidBody p m).length) := by
      rw [onFrom_append _ _ _ _ hm.symm, h1 t (by omega)]; rfl
    have e2 : ((mk ++ (saidBody p m ++ t.drop (saidBody p m).length)).drop 19).take (saidBody p m).length = saidBody p m := by
      rw [List.drop_left' hm, List.take_left' rfl]
    unfold speak
    rw [e1]
    simp only [sendMessageBufOn]
    rw [send_ok _ _ _ h2 (by simp; omega), e2]
    simp only
    obtain ⟨k, k1, k2, k3, k4⟩ := writeAll_spec w (message (sayer p m).1 (saidBody p m))
    have hw : message (sayer p m).1 (saidBody p m) = saidWire p m := rfl
    rw [hw] at k1 k2 k3 k4 ⊢
    generalize w.writeAll (saidWire p m) = x at k2 k3 k4
    obtain ⟨x, w'⟩ := x
    simp only at k2 k3 k4
    rw [List.flatMap_cons, List.length_append]
    rcases k4 with ⟨rfl, rfl⟩ | ⟨rfl, k5, k6⟩
    · simp only
      rw [List.take_length] at k2
      obtain ⟨j, j1, j2, j3⟩ := ih (header (sayer p m).1 (saidBody p m).length ++
        (mk ++ (saidBody p m ++ t.drop (saidBody p m).length)).drop 19) w' (fun x hx => by
          have := h x (List.mem_cons_of_mem _ hx)
          rw [show (header (sayer p m).1 (saidBody p m).length ++
            (mk ++ (saidBody p m ++ t.drop (saidBody p m).length)).drop 19).length = (mk ++ t).length by
              rw [List.drop_left' hm]; simp [header_length]; omega]
          exact this)
      refine ⟨(saidWire p m).length + j, by omega, ?_, ?_⟩
      · rw [j2, k2, List.append_assoc, List.take_length_add_append]
      · rcases j3 with ⟨j3, j4⟩ | ⟨j3, j4, j5⟩
        · exact .inl ⟨j3, by omega⟩
        · exact .inr ⟨j3, by omega, fun ha => j5 (steady_suffix ha k3)⟩
    · refine ⟨k, by omega, ?_, .inr ⟨rfl, by omega, k6⟩⟩
      simp only
      rw [k2, List.take_append_of_le_length k1]

/-- **C115, two ends.** Two ends of a settled session as in `C110_history_partial`, and two connections whose calls do whatever
they like. One end says a history until sending fails; the other end reads what got through until reading fails. What it hears are
the first messages of the history, each as it was said, in order; both ends stop with an error of the connection, or the first one
is done. If no call for sending fails, the whole history is sent; if no call for reading fails, exactly the messages that got
through as a whole are heard. -/
theorem C115_two_ends (A B : BgpSessionParams) (hm : A.peerMode = B.peerMode) (ha : A.hasAs32bit = B.hasAs32bit)
    (hz : B.fuzzyPathid = false) (hg : ∀ fam, Agree A B fam) (buf : Bytes) (msgs : List Said)
    (h : ∀ m ∈ msgs, Sayable A buf.length m) (out inc : List IoEvent) :
    let S := speak A msgs buf ⟨out, []⟩
    let L := listen B ⟨inc, S.2.sent⟩
    (S.1 = .ok () ∨ S.1 = .err .other ∧ ¬ AllSteady out) ∧
    (∃ j, L = ((msgs.take j).map (asHeard B), .err .other)) ∧
    (AllSteady inc → ∃ j u, j ≤ msgs.length ∧ L.1 = (msgs.take j).map (asHeard B) ∧ sayAll A (msgs.take j) buf = .ok u ∧
      u.length ≤ S.2.sent.length ∧
      ∀ v, j < msgs.length → sayAll A (msgs.take (j + 1)) buf = .ok v → S.2.sent.length < v.length) ∧
    (S.1 = .ok () → AllSteady inc → L.1 = msgs.map (asHeard B)) := by
  intro S L
  obtain ⟨k, k1, k2, k3⟩ := speak_ok A msgs buf ⟨out, []⟩ h
  have hS : S.2.sent = (msgs.flatMap (saidWire A)).take k := k2
  have hlen : S.2.sent.length = k := by rw [hS, List.length_take]; omega
  obtain ⟨j, h1, h2, h3, h4, h5, h6⟩ := hear_prefix ⟨hm, ha, hz, hg⟩ msgs h k (k + 1) k1 (Nat.lt_succ_self _)
  rw [← hS] at h4 h5 h6
  have hear_eq : hear B S.2.sent = hearLoop B (k + 1) S.2.sent := by unfold hear; rw [hlen]
  have hend : (hear B S.2.sent).2 = .ok () ∨ (hear B S.2.sent).2 = .err .other := by
    rw [hear_eq]
    by_cases hk : k = ((msgs.take j).flatMap (saidWire A)).length
    · exact .inl (h5.2 hk)
    · exact .inr (h6 hk)
  have hend' : asEnd (hear B S.2.sent).2 = .err .other := by
    rcases hend with e | e <;> rw [e] <;> rfl
  have ht : ∀ i, sayAll A (msgs.take i) buf = .ok ((msgs.take i).flatMap (saidWire A)) :=
    fun i => sayAll_ok A _ buf fun m hx => h m (List.mem_of_mem_take hx)
  have hpieces : AllSteady inc → L = ((msgs.take j).map (asHeard B), .err .other) := fun hs => by
    show listen B ⟨inc, S.2.sent⟩ = _
    rw [C115_pieces B inc hs, hend', hear_eq, h4]
  refine ⟨?_, ?_, fun hs => ⟨j, _, h1, by rw [hpieces hs], ht j, by rw [hlen]; exact h2, fun v hj hv => ?_⟩, fun hd hs => ?_⟩
  · rcases k3 with ⟨k3, -⟩ | ⟨k3, -, k5⟩
    · exact .inl k3
    · exact .inr ⟨k3, k5⟩
  · obtain ⟨f1, f2⟩ := C115_failing B inc S.2.sent
    rw [hear_eq, h4] at f1
    obtain ⟨i, hi⟩ : ∃ i, (listen B ⟨inc, S.2.sent⟩).1 = ((msgs.take j).map (asHeard B)).take i :=
      ⟨_, List.prefix_iff_eq_take.1 f1⟩
    refine ⟨min i j, Prod.ext ?_ ?_⟩
    · show (listen B ⟨inc, S.2.sent⟩).1 = _
      rw [hi, ← List.map_take, List.take_take]
    · rcases f2 with f2 | f2
      · exact f2.trans hend'
      · exact f2
  · rw [ht, Res.ok.injEq] at hv
    rw [hlen, ← hv]
    exact h3 hj
  · have hk : k = (msgs.flatMap (saidWire A)).length := by
      rcases k3 with ⟨-, k3⟩ | ⟨k3, -⟩
      · exact k3
      · have : S.1 = .err .other := k3
        rw [hd] at this
        cases this
    have hj : j = msgs.length := by
      by_contra hne
      have hlt := h3 (by omega)
      have : ((msgs.take (j + 1)).flatMap (saidWire A)).length ≤ (msgs.flatMap (saidWire A)).length := by
        conv => rhs; rw [← List.take_append_drop (j + 1) msgs, List.flatMap_append, List.length_append]
        omega
      omega
    rw [hpieces hs, hj, List.take_length]

/-! ## The example program -/

theorem answer_on (p : BgpSessionParams) (buf : Bytes) (r : Incoming) :
    (AllSteady r.events → (∃ q ev rest, AllSteady ev ∧ dumperAnswer p buf r.octets = .ok (q, rest) ∧
        dumperAnswerOn p buf r = (.ok q, ⟨ev, rest⟩)) ∨
      (∀ q, (dumperAnswerOn p buf r).1 ≠ .ok q) ∧ dumperAnswer p buf r.octets = (do
        let q ← (dumperAnswerOn p buf r).1
        .ok (q, []))) ∧
    ((∃ q ev rest, dumperAnswer p buf r.octets = .ok (q, rest) ∧ dumperAnswerOn p buf r = (.ok q, ⟨ev, rest⟩)) ∨
      (dumperAnswerOn p buf r).1 = .err .other ∨
      (∀ q, (dumperAnswerOn p buf r).1 ≠ .ok q) ∧ dumperAnswer p buf r.octets = (do
        let q ← (dumperAnswerOn p buf r).1
        .ok (q, []))) := by
  unfold dumperAnswer dumperAnswerOn
  rcases recvOn_any r with ⟨ev, h1, h2, h3⟩ | ⟨r', h1, h2⟩
  · rw [h3, recv_eq h2]
    cases decodeMessageHead (r.octets.take 19) with
    | err e => exact ⟨fun _ => .inr ⟨nofun, rfl⟩, .inr (.inr ⟨nofun, rfl⟩)⟩
    | panic => exact ⟨fun _ => .inr ⟨nofun, rfl⟩, .inr (.inr ⟨nofun, rfl⟩)⟩
    | hang => exact ⟨fun _ => .inr ⟨nofun, rfl⟩, .inr (.inr ⟨nofun, rfl⟩)⟩
    | ok x =>
      obtain ⟨ty, n⟩ := x
      simp only [Res.ok_bind]
      by_cases ht : ty ≠ .Open
      · simp only [if_pos ht]
        exact ⟨fun _ => .inr ⟨nofun, rfl⟩, .inr (.inr ⟨nofun, rfl⟩)⟩
      simp only [if_neg ht]
      by_cases hb : buf.length < n
      · have e : rslice buf 0 n = .panic := by unfold rslice; rw [if_neg (by omega)]
        simp only [if_pos hb, e]
        exact ⟨fun _ => .inr ⟨nofun, rfl⟩, .inr (.inr ⟨nofun, rfl⟩)⟩
      have e : ∃ b, rslice buf 0 n = .ok b := by
        unfold rslice; rw [if_pos (by omega)]; exact ⟨_, rfl⟩
      obtain ⟨b, e⟩ := e
      simp only [if_neg hb, e, Res.ok_bind]
      rcases readExact_any ⟨ev, r.octets.drop 19⟩ n with ⟨ev', g1, g2, g3⟩ | ⟨r', g1, g2⟩
      · simp only at g2 g3
        simp only [g3]
        rw [if_neg (by omega)]
        cases p.openMessage.decodeFrom ((r.octets.drop 19).take n) with
        | err e => exact ⟨fun _ => .inr ⟨nofun, rfl⟩, .inr (.inr ⟨nofun, rfl⟩)⟩
        | panic => exact ⟨fun _ => .inr ⟨nofun, rfl⟩, .inr (.inr ⟨nofun, rfl⟩)⟩
        | hang => exact ⟨fun _ => .inr ⟨nofun, rfl⟩, .inr (.inr ⟨nofun, rfl⟩)⟩
        | ok m =>
          exact ⟨fun ha => .inl ⟨_, ev', _, steady_suffix (steady_suffix ha h1) g1, rfl, rfl⟩, .inl ⟨_, ev', _, rfl, rfl⟩⟩
      · simp only at g2
        simp only [g1]
        refine ⟨fun ha => .inr ⟨nofun, ?_⟩, .inr (.inl trivial)⟩
        rw [if_pos (g2 (steady_suffix ha h1))]
        rfl
  · rw [h1]
    refine ⟨fun ha => .inr ⟨nofun, ?_⟩, .inr (.inl rfl)⟩
    have hl := h2 ha
    have e : recvMessageHead r.octets = .err .other := by
      unfold recvMessageHead
      rw [if_pos (by omega)]
    rw [e]
    rfl

theorem lifecycle_on (p : BgpSessionParams) : ∀ (fuel : Nat) (r : Incoming), r.octets.length < fuel →
    ((AllSteady r.events → lifecycleLoopOn p fuel r = lifecycleLoop p fuel r.octets) ∧
      (lifecycleLoopOn p fuel r).1 <+: (lifecycleLoop p fuel r.octets).1 ∧
      ((lifecycleLoopOn p fuel r).2 = (lifecycleLoop p fuel r.octets).2 ∨ (lifecycleLoopOn p fuel r).2 = .err .other)) := by
  intro fuel
  induction fuel with
  | zero => intro r h; omega
  | succ fuel ih =>
    intro r hf
    rw [lifecycleLoopOn, lifecycleLoop]
    rcases recvOn_any r with ⟨ev, h1, h2, h3⟩ | ⟨r', h1, h2⟩
    · rw [h3, recv_eq h2]
      cases decodeMessageHead (r.octets.take 19) with
      | err e => exact ⟨fun _ => rfl, List.prefix_refl _, .inl rfl⟩
      | panic => exact ⟨fun _ => rfl, List.prefix_refl _, .inl rfl⟩
      | hang => exact ⟨fun _ => rfl, List.prefix_refl _, .inl rfl⟩
      | ok x =>
        obtain ⟨ty, n⟩ := x
        simp only [Res.ok_bind]
        by_cases hk : ty = .Keepalive
        · simp only [if_pos hk]
          obtain ⟨i1, i2, i3⟩ := ih ⟨ev, r.octets.drop 19⟩ (by simp only [List.length_drop]; omega)
          exact ⟨fun ha => i1 (steady_suffix ha h1), i2, i3⟩
        simp only [if_neg hk]
        by_cases hn : 65536 < n
        · simp only [if_pos hn]
          exact ⟨fun _ => trivial, List.prefix_refl _, .inl trivial⟩
        simp only [if_neg hn]
        rcases readExact_any ⟨ev, r.octets.drop 19⟩ n with ⟨ev', g1, g2, g3⟩ | ⟨r', g1, g2⟩
        · simp only at g2 g3
          rw [g3, if_neg (by omega)]
          simp only
          obtain ⟨i1, i2, i3⟩ := ih ⟨ev', (r.octets.drop 19).drop n⟩ (by simp only [List.length_drop]; omega)
          have i1' := fun ha => i1 (steady_suffix (steady_suffix ha h1) g1)
          cases ty with
          | Open => exact ⟨fun _ => rfl, List.prefix_refl _, .inl rfl⟩
          | Keepalive => exact absurd rfl hk
          | Notification =>
            simp only
            cases BgpNotificationMessage.new.decodeFrom ((r.octets.drop 19).take n) <;>
              exact ⟨fun _ => rfl, List.prefix_refl _, .inl rfl⟩
          | Update =>
            simp only
            cases BgpUpdateMessage.new.decodeFrom p ((r.octets.drop 19).take n) with
            | panic => exact ⟨fun _ => rfl, List.prefix_refl _, .inl rfl⟩
            | hang => exact ⟨fun _ => rfl, List.prefix_refl _, .inl rfl⟩
            | ok m =>
              refine ⟨fun ha => ?_, (List.prefix_cons_inj _).2 i2, i3⟩
              simp only [i1' ha]
            | err e =>
              refine ⟨fun ha => ?_, (List.prefix_cons_inj _).2 i2, i3⟩
              simp only [i1' ha]
        · simp only at g2
          rw [g1]
          simp only
          refine ⟨fun ha => ?_, List.nil_prefix, .inr trivial⟩
          rw [if_pos (g2 (steady_suffix ha h1))]
    · rw [h1]
      simp only
      refine ⟨fun ha => ?_, List.nil_prefix, .inr trivial⟩
      have hl := h2 ha
      have e : recvMessageHead r.octets = .err .other := by
        unfold recvMessageHead
        rw [if_pos (by omega)]
      rw [e]

/-- **C115, the example program, no failures.** However the connection cuts into pieces what comes and what is sent, and however
often a call is interrupted: the program sends, prints and ends as with the octets as a whole. -/
theorem C115_dumper_pieces (p : BgpSessionParams) (inc out : List IoEvent) (hi : AllSteady inc) (ho : AllSteady out) (s : Bytes) :
    dumperMainOn p ⟨inc, s⟩ ⟨out, []⟩ = dumperMain p s := by
  unfold dumperMainOn dumperMain startActiveOn startActive
  cases dumperOpen p with
  | err e => rfl
  | panic => rfl
  | hang => rfl
  | ok x =>
    obtain ⟨buf, b⟩ := x
    simp only
    obtain ⟨k, k1, k2, -, k4⟩ := writeAll_spec ⟨out, []⟩ b
    generalize Outgoing.writeAll ⟨out, []⟩ b = x at k2 k4
    obtain ⟨x, w⟩ := x
    simp only at k2 k4
    rcases k4 with ⟨rfl, rfl⟩ | ⟨-, -, k6⟩
    · rw [List.take_length, List.nil_append] at k2
      simp only
      rcases (answer_on p buf ⟨inc, s⟩).1 hi with ⟨q, ev, rest, a1, a2, a3⟩ | ⟨a1, a2⟩
      · simp only at a2
        rw [a2, a3]
        simp only [lifecycle, lifecycleOn]
        rw [(lifecycle_on q _ ⟨ev, rest⟩ (Nat.lt_succ_self _)).1 a1, k2]
        generalize lifecycleLoop q (rest.length + 1) rest = z
        obtain ⟨l, z⟩ := z
        cases z <;> rfl
      · simp only at a2
        rw [a2]
        generalize dumperAnswerOn p buf ⟨inc, s⟩ = y at a1
        obtain ⟨y, r'⟩ := y
        cases y with
        | ok q => exact absurd rfl (a1 q)
        | err e => simp only [k2]; rfl
        | panic => simp only [k2]; rfl
        | hang => simp only [k2]; rfl
    · exact absurd ho k6

/-- **C115, the example program, any connection.** What it sends are the first octets of what it sends otherwise, what it prints
are the first of the messages it prints otherwise; it ends as otherwise, or with the message that the session could not be made, or
with the panic of `lifecycle().unwrap()`. -/
theorem C115_dumper_failing (p : BgpSessionParams) (inc out : List IoEvent) (s : Bytes) :
    (dumperMainOn p ⟨inc, s⟩ ⟨out, []⟩).1 <+: (dumperMain p s).1 ∧
    (dumperMainOn p ⟨inc, s⟩ ⟨out, []⟩).2.1 <+: (dumperMain p s).2.1 ∧
    ((dumperMainOn p ⟨inc, s⟩ ⟨out, []⟩).2.2 = (dumperMain p s).2.2 ∨
      (dumperMainOn p ⟨inc, s⟩ ⟨out, []⟩).2 = ([], .ok ()) ∨ (dumperMainOn p ⟨inc, s⟩ ⟨out, []⟩).2.2 = .panic) := by
  unfold dumperMainOn dumperMain startActiveOn startActive
  cases dumperOpen p with
  | err e => exact ⟨List.prefix_refl _, List.prefix_refl _, .inl rfl⟩
  | panic => exact ⟨List.prefix_refl _, List.prefix_refl _, .inl rfl⟩
  | hang => exact ⟨List.prefix_refl _, List.prefix_refl _, .inl rfl⟩
  | ok x =>
    obtain ⟨buf, b⟩ := x
    simp only
    obtain ⟨k, k1, k2, -, k4⟩ := writeAll_spec ⟨out, []⟩ b
    generalize Outgoing.writeAll ⟨out, []⟩ b = x at k2 k4
    obtain ⟨x, w⟩ := x
    simp only [List.nil_append] at k2 k4
    rcases k4 with ⟨rfl, rfl⟩ | ⟨rfl, -, k6⟩
    · rw [List.take_length] at k2
      simp only
      rcases (answer_on p buf ⟨inc, s⟩).2 with ⟨q, ev, rest, a2, a3⟩ | a1 | ⟨a1, a2⟩
      · simp only at a2
        rw [a2, a3]
        simp only [lifecycle, lifecycleOn]
        obtain ⟨-, i2, i3⟩ := lifecycle_on q _ ⟨ev, rest⟩ (Nat.lt_succ_self _)
        simp only at i2 i3
        generalize lifecycleLoopOn q (rest.length + 1) ⟨ev, rest⟩ = y at i2 i3
        generalize lifecycleLoop q (rest.length + 1) rest = z at i2 i3
        obtain ⟨l, y⟩ := y
        obtain ⟨m, z⟩ := z
        simp only at i2 i3
        rcases i3 with rfl | rfl
        · cases y <;> exact ⟨by simp [k2], i2, .inl rfl⟩
        · cases z <;> exact ⟨by simp [k2], i2, .inr (.inr rfl)⟩
      · generalize dumperAnswerOn p buf ⟨inc, s⟩ = y at a1
        obtain ⟨y, r'⟩ := y
        simp only at a1
        subst a1
        refine ⟨?_, List.nil_prefix, .inr (.inl rfl)⟩
        have hp : w.sent <+: b := by rw [k2]
        rcases dumperAnswer p buf s with ⟨q, rest⟩ | e | _ | _
        · simp only
          rcases lifecycle q rest with ⟨l, y⟩
          cases y <;> exact hp
        all_goals exact hp
      · simp only at a2
        rw [a2]
        generalize dumperAnswerOn p buf ⟨inc, s⟩ = y at a1
        obtain ⟨y, r'⟩ := y
        cases y with
        | ok q => exact absurd rfl (a1 q)
        | err e => simp only [k2]; exact ⟨List.prefix_refl _, List.prefix_refl _, .inl rfl⟩
        | panic => simp only [k2]; exact ⟨List.prefix_refl _, List.prefix_refl _, .inl rfl⟩
        | hang => simp only [k2]; exact ⟨List.prefix_refl _, List.prefix_refl _, .inl rfl⟩
    · refine ⟨?_, List.nil_prefix, .inr (.inl rfl)⟩
      have hp : w.sent <+: b := by rw [k2]; exact List.take_prefix _ _
      rcases dumperAnswer p buf s with ⟨q, rest⟩ | e | _ | _
      · simp only
        rcases lifecycle q rest with ⟨l, y⟩
        cases y <;> exact hp
      all_goals exact hp

/-! ## The hypotheses are met -/

/-- a KEEPALIVE that comes in pieces, with an interruption, and a connection that fails after it -/
example : Admits [.some 4, .interrupted, .some 2, .some 30, .failed] 19 ∧
    recvMessageHeadOn ⟨[.some 4, .interrupted, .some 2, .some 30, .failed], message .Keepalive [] ++ [7]⟩ =
      (.ok (.Keepalive, 0), ⟨[.failed], [7]⟩) := ⟨by intro k hk; simp [room] at hk; omega, rfl⟩

/-- ... and one that fails after 8 octets -/
example : ¬ Admits [.some 4, .interrupted, .some 2, .failed] 19 ∧
    (recvMessageHeadOn ⟨[.some 4, .interrupted, .some 2, .failed], message .Keepalive []⟩).1 = .err .other :=
  ⟨fun h => absurd (h 8 rfl) (by decide), by decide⟩

/-- a KEEPALIVE that is sent in pieces; and one of which 8 octets get through -/
example : (sendMessageBufOn (List.replicate 19 0) .Keepalive 0 ⟨[.some 4, .interrupted, .some 30], [7]⟩).2.2.sent =
      [7] ++ message .Keepalive [] ∧
    (sendMessageBufOn (List.replicate 19 0) .Keepalive 0 ⟨[.some 4, .some 2, .nothing, .some 30], [7]⟩).1 = .err .other ∧
    (sendMessageBufOn (List.replicate 19 0) .Keepalive 0 ⟨[.some 4, .some 2, .nothing, .some 30], [7]⟩).2.2.sent =
      [7] ++ List.replicate 8 255 := by decide

/-- three KEEPALIVEs of which one gets through as a whole, and part of the second one; what is heard of it in pieces -/
example (p : BgpSessionParams) :
    speak p [.keepalive, .keepalive, .keepalive] (List.replicate 19 0) ⟨[.some 4, .some 20, .some 2, .failed], []⟩ =
      (.err .other, ⟨[], message .Keepalive [] ++ [255, 255, 255]⟩) ∧
    listen p ⟨[.interrupted, .some 10, .some 0], message .Keepalive [] ++ [255, 255, 255]⟩ = ([.keepalive], .err .other) :=
  ⟨rfl, rfl⟩

/-- the steady schedules of the theorems: pieces and interruptions -/
example : AllSteady [.interrupted, .some 10, .some 0] ∧ ¬ AllSteady [.some 4, .failed] :=
  ⟨by simp [AllSteady, Steady], by simp [AllSteady, Steady]⟩

/-- non-vacuity of `C115_two_ends`: two ends that both offer both directions -/
example (out inc : List IoEvent) (ho : AllSteady out) (hi : AllSteady inc) :
    let S := (speaker true true).matchCaps (speaker true true).caps
    (listen S ⟨inc, (speak S [.keepalive, .notification ⟨6, 2, 0⟩] (List.replicate 4096 0) ⟨out, []⟩).2.sent⟩).1 =
      [.keepalive, .notification ⟨6, 2, 0⟩] := by
  intro S
  have hg : ∀ fam, Agree S S fam := C94_both_directions_partial _ _ (by decide) (by decide) (by
      intro o ho; rcases ho with ⟨v, h1, h2⟩
      simp only [speaker, BgpSessionParams.new, List.mem_cons, List.not_mem_nil, or_false, reduceCtorEq, false_or, BgpCapability.CapAddPath.injEq] at h1
      subst h1; simp at h2; subst h2; rfl) (by
      intro o ho; rcases ho with ⟨v, h1, h2⟩
      simp only [speaker, BgpSessionParams.new, List.mem_cons, List.not_mem_nil, or_false, reduceCtorEq, false_or, BgpCapability.CapAddPath.injEq] at h1
      subst h1; simp at h2; subst h2; rfl)
  obtain ⟨h1, -, -, h4⟩ := C115_two_ends S S rfl rfl (by decide) hg (List.replicate 4096 0)
    [.keepalive, .notification ⟨6, 2, 0⟩] (by
      intro m hm
      simp only [List.mem_cons, List.not_mem_nil, or_false] at hm
      rw [List.length_replicate]
      rcases hm with rfl | rfl
      · show 19 ≤ 4096; decide
      · show 23 ≤ 4096; decide) out inc
  rcases h1 with h1 | ⟨-, h1⟩
  · exact h4 h1 hi
  · exact absurd ho h1

/-! ## Trying again -/

/-- **C115: a call that failed can not be tried again.** A read that fails for the moment only (a timeout, say) after `k` octets of
a header: these are gone, and the next `recv_message_head` starts behind them. For two KEEPALIVEs that are all there, with a
failure after any 1 to 15 octets of the first marker: the first call fails, and the second call, on a connection that now hands
out everything, refuses the message too. -/
theorem C115_read_again_misreads (k : Nat) (h0 : 0 < k) (hk : k < 16) (rest : Bytes) :
    ∃ r, recvMessageHeadOn ⟨[.some (k - 1), .failed], message .Keepalive [] ++ rest⟩ = (.err .other, r) ∧
      r.events = [] ∧ (message .Keepalive []).drop k ++ rest = r.octets ∧
      (19 ≤ r.octets.length → (recvMessageHeadOn r).1 = .err .static) := by
  have hl : (message .Keepalive []).length = 19 := rfl
  have e : Incoming.readExact ⟨[.some (k - 1), .failed], message .Keepalive [] ++ rest⟩ 19 =
      (.err .other, ⟨[], (message .Keepalive []).drop k ++ rest⟩) := by
    have e1 : min (k - 1 + 1) 19 = k := by omega
    simp only [Incoming.readExact, List.length_cons, List.length_nil]
    rw [Incoming.readLoop, if_neg (by decide)]
    simp only [Incoming.read, e1]
    rw [if_neg (by rw [List.length_take, List.length_append]; omega), Incoming.readLoop,
      if_neg (by rw [List.length_take, List.length_append]; omega)]
    simp only [Incoming.read]
    rw [List.drop_append_of_le_length (by omega)]
  refine ⟨⟨[], (message .Keepalive []).drop k ++ rest⟩, ?_, rfl, rfl, fun hr => ?_⟩
  · unfold recvMessageHeadOn
    rw [e]
  · simp only at hr
    obtain ⟨h1, -⟩ := C115_recv_head ⟨[], (message .Keepalive []).drop k ++ rest⟩
    rw [(h1 (admits_nil _)).1]
    simp only
    rw [recv_eq hr]
    have hb : ((List.drop k (message .Keepalive []) ++ rest).take 19).length = 19 := by rw [List.length_take]; omega
    have hany : (((List.drop k (message .Keepalive []) ++ rest).take 19).take 16).any (fun q => q != 255) = true := by
      have hz : (0 : U8) ∈ ((List.drop k (message .Keepalive []) ++ rest).take 19).take 16 := by
        have : List.drop k (message .Keepalive []) = List.replicate (16 - k) 255 ++ [0, 19, 4] := by
          have e : message .Keepalive [] = List.replicate 16 255 ++ [0, 19, 4] := by decide
          rw [e, List.drop_append_of_le_length (by rw [List.length_replicate]; omega), List.drop_replicate]
        rw [this, List.take_take, List.append_assoc, List.take_append]
        refine List.mem_append_right _ ?_
        rw [List.length_replicate]
        obtain ⟨j, hj⟩ : ∃ j, min 16 19 - (16 - k) = j + 1 := ⟨k - 1, by omega⟩
        rw [hj]
        simp
      exact List.any_eq_true.2 ⟨0, hz, by decide⟩
    unfold decodeMessageHead
    rw [if_neg (by omega), rslice_ok (by omega) (by omega)]
    simp only [Res.ok_bind, Nat.sub_zero, List.drop_zero, hany, if_true]
    rfl

/-- ... and a message that was sent in part, and then again: the other end refuses what it gets. -/
theorem C115_send_again_misreads :
    let first := sendMessageBufOn (List.replicate 19 0) .Keepalive 0 ⟨[.some 7, .failed], []⟩
    let again := sendMessageBufOn first.2.1 .Keepalive 0 first.2.2
    first.1 = .err .other ∧ again.1 = .ok () ∧ again.2.2.sent = List.replicate 8 255 ++ message .Keepalive [] ∧
      (recvMessageHeadOn ⟨[], again.2.2.sent⟩).1 = .err .static := by decide

/-- **C115, the example program, the OPEN can not be sent.** If the connection fails before the whole OPEN got through, nothing is
read or printed, and the program ends with the message that the session could not be made; the first octets of the OPEN are sent. -/
theorem C115_dumper_open_fails (p : BgpSessionParams) (inc out : List IoEvent) (s buf hello : Bytes)
    (h : dumperOpen p = .ok (buf, hello)) (ho : ¬ Admits out hello.length) :
    dumperMainOn p ⟨inc, s⟩ ⟨out, []⟩ = (hello.take ((room out).getD hello.length), [], .ok ()) := by
  obtain ⟨h1, -, h3⟩ := C115_write_exactly ⟨out, []⟩ hello
  have h3 := h3 ho
  unfold dumperMainOn startActiveOn
  rw [h]
  simp only
  generalize Outgoing.writeAll ⟨out, []⟩ hello = x at h1 h3
  obtain ⟨x, w⟩ := x
  simp only [List.nil_append] at h1 h3
  subst h3
  simp only [h1]

/-- the OPEN of the example program can be made, and a connection that fails after 19 octets does not take it -/
example : ∃ buf hello, dumperOpen (dumperParams 65000) = .ok (buf, hello) ∧ ¬ Admits [.some 18, .failed] hello.length := by
  obtain ⟨buf, hello, h1, h2⟩ : ∃ buf hello, dumperOpen (dumperParams 65000) = .ok (buf, hello) ∧ 19 < hello.length := by
    obtain ⟨h1, h2⟩ := dumperParams_ok 65000
    obtain ⟨buf, -, h⟩ := dumperOpen_ok _ h1 h2
    exact ⟨buf, _, h, by rw [message_length, openWire_length]; omega⟩
  exact ⟨buf, hello, h1, fun h => absurd (h 19 rfl) (by omega)⟩

/-- **C115, the thread of the example program that keeps the session alive.** After any number of rounds, on any connection: what
it sent are the first octets of so many KEEPALIVEs; it still runs exactly when all of them got through as a whole, and stops only
if a call failed. -/
theorem C115_keepalives (n : Nat) : ∀ w : Outgoing, ∃ k ≤ 19 * n,
    (keepalivesOn n w).2.sent = w.sent ++ ((List.replicate n (message .Keepalive [])).flatten).take k ∧
    ((keepalivesOn n w).1 = true ↔ k = 19 * n) ∧ ((keepalivesOn n w).1 = false → ¬ AllSteady w.events) := by
  have hk : sendKeepalive = .ok (message .Keepalive []) := by decide
  have hl : (message .Keepalive []).length = 19 := rfl
  induction n with
  | zero => intro w; exact ⟨0, by simp, by simp [keepalivesOn], by simp [keepalivesOn], by simp [keepalivesOn]⟩
  | succ n ih =>
    intro w
    rw [keepalivesOn, hk]
    simp only
    obtain ⟨k, k1, k2, k3, k4⟩ := writeAll_spec w (message .Keepalive [])
    rw [hl] at k1 k4
    generalize w.writeAll (message .Keepalive []) = x at k2 k3 k4
    obtain ⟨x, w'⟩ := x
    simp only at k2 k3 k4
    have hf : (List.replicate (n + 1) (message .Keepalive [])).flatten =
        message .Keepalive [] ++ (List.replicate n (message .Keepalive [])).flatten := rfl
    rcases k4 with ⟨rfl, rfl⟩ | ⟨rfl, k5, k6⟩
    · simp only
      obtain ⟨j, j1, j2, j3, j4⟩ := ih w'
      refine ⟨19 + j, by omega, ?_, j3.trans (by omega), fun h ha => j4 h (steady_suffix ha k3)⟩
      rw [j2, k2, hf, List.append_assoc, ← hl, List.take_length, List.take_length_add_append]
    · simp only
      refine ⟨k, by omega, ?_, ⟨fun h => by simp at h, fun h => absurd h (by omega)⟩, fun _ => k6⟩
      rw [k2, hf, List.take_append_of_le_length (by omega)]

/-- two KEEPALIVEs in pieces, and a failure in the third one -/
example : (keepalivesOn 3 ⟨[.some 4, .interrupted, .some 30, .some 18, .some 1, .failed], []⟩) =
    (false, ⟨[], message .Keepalive [] ++ message .Keepalive [] ++ [255, 255]⟩) := by rfl

end Zbgp.Props
