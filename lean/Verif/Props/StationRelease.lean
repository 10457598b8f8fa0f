import Verif.Spec.StationRelease
import Verif.Lemmas.ReleaseBmpReads
import Verif.Lemmas.Resync
import Verif.Props.ReleaseBmp
import Verif.Props.Station

/-! # C127: a BMP stream, sent or read by a build without overflow checks -/

namespace Zbgp.Props

open Zbgp Spec

/-! ## Framing -/

theorem rloop_frame (n : Nat) (s : BMPSession) (b t : Bytes) (hb : 5 + b.length < 2 ^ 32) :
    stationLoopRelease (n + 1) s (bmpFrame b ++ t) = (s.decodeFromIn .release b).1 :: stationLoopRelease n (s.decodeFromIn .release b).2 t := by
  have hl := frame_length b
  have hne : bmpFrame b ++ t ≠ [] := by
    intro e
    have := congrArg List.length e
    simp [hl] at this
  rw [stationLoopRelease, if_neg hne, frame_header b t hb]
  simp only
  rw [if_neg (by simp [hl]), List.take_left' hl, List.drop_left' hl]
  have : (bmpFrame b).drop 5 = b := by
    rw [bmpFrame, ← List.append_assoc, List.drop_left' (by simp)]
  rw [this]

theorem rloop_stream (bodies : List Bytes) (hb : ∀ b ∈ bodies, 5 + b.length < 2 ^ 32) (n : Nat) (s : BMPSession)
    (hn : bodies.length ≤ n) :
    stationLoopRelease n s (bodies.flatMap bmpFrame) =
      (List.range bodies.length).map fun i =>
        (((bodies.take i).foldl (fun s b => (s.decodeFromIn .release b).2) s).decodeFromIn .release (bodies.getD i [])).1 := by
  induction bodies generalizing n s with
  | nil => cases n <;> simp [stationLoopRelease]
  | cons b bs ih =>
    obtain ⟨n, rfl⟩ : ∃ k, n = k + 1 := ⟨n - 1, by simp at hn; omega⟩
    rw [List.flatMap_cons, rloop_frame n s b _ (hb b (by simp)), ih (fun b h => hb b (by simp [h])) n _ (by simpa using hn)]
    simp only [List.length_cons, List.range_succ_eq_map, List.map_cons, List.map_map]
    rfl

theorem rloop_break (bodies : List Bytes) (hb : ∀ b ∈ bodies, 5 + b.length < 2 ^ 32) : ∀ (s : BMPSession) (k n : Nat),
    k ≤ (bodies.flatMap bmpFrame).length → k ≤ n →
    ∃ j ≤ bodies.length, ((bodies.take j).flatMap bmpFrame).length ≤ k ∧
      (j < bodies.length → k < ((bodies.take (j + 1)).flatMap bmpFrame).length) ∧
      ∃ tail, stationLoopRelease n s ((bodies.flatMap bmpFrame).take k) = stationLoopRelease n s ((bodies.take j).flatMap bmpFrame) ++ tail ∧
        (k = ((bodies.take j).flatMap bmpFrame).length → tail = []) ∧
        (k ≠ ((bodies.take j).flatMap bmpFrame).length → ∃ e, tail = [.err e]) := by
  induction bodies with
  | nil =>
    intro s k n hk hn
    simp only [List.flatMap_nil, List.length_nil, Nat.le_zero] at hk
    subst hk
    exact ⟨0, by simp, by simp, by simp, [], by simp, by simp, by simp⟩
  | cons b bs ih =>
    intro s k n hk hn
    have hl := frame_length b
    have hb0 := hb b (by simp)
    simp only [List.flatMap_cons, List.length_append] at hk
    have nil : ∀ n, stationLoopRelease n s [] = [] := by intro n; cases n <;> simp [stationLoopRelease]
    by_cases hc : k < (bmpFrame b).length
    · have e : (List.flatMap bmpFrame (b :: bs)).take k = (bmpFrame b).take k := by
        rw [List.flatMap_cons, List.take_append_of_le_length (by omega)]
      rw [e]
      refine ⟨0, by simp, by simp, fun _ => by simpa using hc, stationLoopRelease n s ((bmpFrame b).take k), by simp [nil], ?_, ?_⟩
      · intro h0
        simp only [List.take_zero, List.flatMap_nil, List.length_nil] at h0
        subst h0
        simp [nil]
      · intro h0
        simp only [List.take_zero, List.flatMap_nil, List.length_nil, ne_eq] at h0
        obtain ⟨n, rfl⟩ : ∃ i, n = i + 1 := ⟨n - 1, by omega⟩
        have hlen : ((bmpFrame b).take k).length = k := by rw [List.length_take]; omega
        rw [stationLoopRelease, if_neg (by intro h; rw [h] at hlen; simp at hlen; omega)]
        by_cases h5 : k < 5
        · refine ⟨.insufficientBufferSize, ?_⟩
          rw [BmpMessageHeader.decodeFrom, if_pos (by omega)]
        · refine ⟨.other, ?_⟩
          have hd : BmpMessageHeader.decodeFrom ((bmpFrame b).take k) = .ok (⟨3, 5 + b.length⟩, 5) := by
            have := commonHeader_reads ⟨3, 5 + b.length⟩ rfl hb0 (b.take (k - 5))
            have e : (bmpFrame b).take k = commonHeaderWire ⟨3, 5 + b.length⟩ ++ b.take (k - 5) := by
              have : bmpFrame b = (be 1 3 ++ be 4 (5 + b.length)) ++ b := by simp [bmpFrame]
              rw [this, List.take_append, List.take_of_length_le (by simp; omega)]
              simp only [commonHeaderWire, List.length_append, be_length]
              simp [be]
            rw [e, this]
            simp [commonHeaderWire, be_length]
          rw [hd]
          simp only
          rw [if_pos (by right; rw [hlen]; omega)]
    · have e : (List.flatMap bmpFrame (b :: bs)).take k =
          bmpFrame b ++ (bs.flatMap bmpFrame).take (k - (bmpFrame b).length) := by
        rw [List.flatMap_cons, List.take_append, List.take_of_length_le (by omega)]
      obtain ⟨n, rfl⟩ : ∃ i, n = i + 1 := ⟨n - 1, by omega⟩
      obtain ⟨j, h1, h2, h3, tail, h4, h5, h6⟩ := ih (fun x hx => hb x (List.mem_cons_of_mem _ hx)) (s.decodeFromIn .release b).2
        (k - (bmpFrame b).length) n (by omega) (by omega)
      refine ⟨j + 1, by simpa using h1, ?_, ?_, tail, ?_, ?_, ?_⟩
      · simp only [List.take_succ_cons, List.flatMap_cons, List.length_append]; omega
      · intro hj
        have := h3 (by simpa using hj)
        simp only [List.take_succ_cons, List.flatMap_cons, List.length_append]; omega
      · rw [e, rloop_frame n s b _ hb0, h4, List.take_succ_cons, List.flatMap_cons, rloop_frame n s b _ hb0]; rfl
      · simp only [List.take_succ_cons, List.flatMap_cons, List.length_append]
        intro hne; exact h5 (by omega)
      · simp only [List.take_succ_cons, List.flatMap_cons, List.length_append]
        intro hne; exact h6 (by omega)

theorem rloop_fuel (bodies : List Bytes) (hb : ∀ b ∈ bodies, 5 + b.length < 2 ^ 32) (n : Nat) (s : BMPSession)
    (hn : bodies.length ≤ n) : stationLoopRelease n s (bodies.flatMap bmpFrame) = stationLoopRelease bodies.length s (bodies.flatMap bmpFrame) := by
  rw [rloop_stream bodies hb n s hn, rloop_stream bodies hb _ s (Nat.le_refl _)]

/-- **C127, framing.** On a stream of framed messages, the station gets for each of them what its session object, after all the ones
before, makes of exactly its octets. -/
theorem C127_framing (bodies : List Bytes) (hb : ∀ b ∈ bodies, 5 + b.length < 2 ^ 32) :
    stationRelease (bodies.flatMap bmpFrame) =
      (List.range bodies.length).map fun i => ((afterRelease (bodies.take i)).decodeFromIn .release (bodies.getD i [])).1 :=
  rloop_stream bodies hb _ _ (flat_length bodies)

/-- three messages, of which the second has an unknown type -/
example : stationRelease ([[1, 0], [9], [6]].flatMap bmpFrame) = [.ok .StatisticsReport, .err .static, .ok .RouteMirroring] := by
  rw [C127_framing _ (by decide)]; rfl

theorem nth_reading {α : Type} {n : Nat} {f : Nat → Res α} {R : Nat → α → Prop} {C : Nat → Prop} (h : ∀ i, Exactly (f i) (R i) (C i)) (i : Nat) :
    (∀ x, ((List.range n).map f)[i]? = some (.ok x) ↔ i < n ∧ R i x) ∧
      (((List.range n).map f)[i]? = some .panic ↔ i < n ∧ C i) ∧ ((List.range n).map f)[i]? ≠ some .hang := by
  by_cases hi : i < n
  · have e : ((List.range n).map f)[i]? = some (f i) := by simp [hi]
    rw [e]
    simp only [Option.some.injEq, hi, true_and]
    exact ⟨(h i).ok, (h i).crash, by simpa using (h i).noHang⟩
  · have e : ((List.range n).map f)[i]? = none := by simp; omega
    rw [e]
    simp [hi]

/-- **C127, what is read.** On a stream of framed messages, a build without overflow checks reads the `i`-th message exactly if its
octets are those of that message, for the parameters that the messages before it leave its peer with (`WrapBmpRead`,
`WrapParamsAfter`, Spec/ReleaseBmp.lean); it crashes exactly on the octets of which `WrapBmpCrash` says so; it never hangs. -/
theorem C127_read_exactly (bodies : List Bytes) (hb : ∀ b ∈ bodies, 5 + b.length < 2 ^ 32) (i : Nat) :
    (∀ m, (stationRelease (bodies.flatMap bmpFrame))[i]? = some (.ok m) ↔
      i < bodies.length ∧ WrapBmpRead (WrapParamsAfter (bodies.take i)) (bodies.getD i []) m) ∧
    ((stationRelease (bodies.flatMap bmpFrame))[i]? = some .panic ↔
      i < bodies.length ∧ WrapBmpCrash (WrapParamsAfter (bodies.take i)) (bodies.getD i [])) ∧
    (stationRelease (bodies.flatMap bmpFrame))[i]? ≠ some .hang := by
  rw [C127_framing bodies hb]
  exact nth_reading (fun i => w_after_exactly (bodies.take i) (bodies.getD i [])) i

/-- non-vacuity: the third of three messages is read, the second is neither read nor a crash -/
example : WrapBmpRead (WrapParamsAfter [[1, 0], [9]]) [6] .RouteMirroring ∧ ¬ WrapBmpCrash (WrapParamsAfter [[1, 0]]) [9] := by
  have e : stationRelease ([[1, 0], [9], [6]].flatMap bmpFrame) = [.ok .StatisticsReport, .err .static, .ok .RouteMirroring] := by
    rw [C127_framing _ (by decide)]; rfl
  refine ⟨?_, ?_⟩
  · have := (C127_read_exactly [[1, 0], [9], [6]] (by decide) 2).1 .RouteMirroring
    rw [e] at this
    exact (this.1 rfl).2
  · have := (C127_read_exactly [[1, 0], [9], [6]] (by decide) 1).2.1
    rw [e] at this
    intro h
    have := this.2 ⟨by decide, h⟩
    simp at this

/-- **C109, what is read.** The same for a build with overflow checks. -/
theorem C109_read_exactly (bodies : List Bytes) (hb : ∀ b ∈ bodies, 5 + b.length < 2 ^ 32) (i : Nat) :
    (∀ m, (station (bodies.flatMap bmpFrame))[i]? = some (.ok m) ↔
      i < bodies.length ∧ BmpRead (ParamsAfter (bodies.take i)) (bodies.getD i []) m) ∧
    ((station (bodies.flatMap bmpFrame))[i]? = some .panic ↔
      i < bodies.length ∧ BmpCrash (ParamsAfter (bodies.take i)) (bodies.getD i [])) ∧
    (station (bodies.flatMap bmpFrame))[i]? ≠ some .hang := by
  rw [C109_framing bodies hb]
  exact nth_reading (fun i => after_exactly (bodies.take i) (bodies.getD i [])) i

/-- non-vacuity -/
example : BmpRead (ParamsAfter [[1, 0], [9]]) [6] .RouteMirroring := by
  have e : station ([[1, 0], [9], [6]].flatMap bmpFrame) = [.ok .StatisticsReport, .err .static, .ok .RouteMirroring] := by
    rw [C109_framing _ (by decide)]; rfl
  have := (C109_read_exactly [[1, 0], [9], [6]] (by decide) 2).1 .RouteMirroring
  rw [e] at this
  exact (this.1 rfl).2

/-- **C127, the connection breaks** after any number `k` of octets. The station gets exactly what it gets from the messages that
came completely (the first `j`); if the last one came only in part, there is an error behind that, and nothing else. -/
theorem C127_break (bodies : List Bytes) (hb : ∀ b ∈ bodies, 5 + b.length < 2 ^ 32) (k : Nat)
    (hk : k ≤ (bodies.flatMap bmpFrame).length) :
    ∃ j ≤ bodies.length, ((bodies.take j).flatMap bmpFrame).length ≤ k ∧
      (j < bodies.length → k < ((bodies.take (j + 1)).flatMap bmpFrame).length) ∧
      ∃ tail, stationRelease ((bodies.flatMap bmpFrame).take k) = stationRelease ((bodies.take j).flatMap bmpFrame) ++ tail ∧
        (k = ((bodies.take j).flatMap bmpFrame).length → tail = []) ∧
        (k ≠ ((bodies.take j).flatMap bmpFrame).length → ∃ e, tail = [.err e]) := by
  obtain ⟨j, h1, h2, h3, tail, h4, h5, h6⟩ := rloop_break bodies hb .default k k hk (Nat.le_refl _)
  refine ⟨j, h1, h2, h3, tail, ?_, h5, h6⟩
  have hj : ∀ b ∈ bodies.take j, 5 + b.length < 2 ^ 32 := fun b h => hb b (List.mem_of_mem_take h)
  have hl := flat_length (bodies.take j)
  unfold stationRelease
  rw [show ((bodies.flatMap bmpFrame).take k).length = k by rw [List.length_take]; omega, h4,
    rloop_fuel _ hj k _ (by omega), rloop_fuel _ hj ((bodies.take j).flatMap bmpFrame).length _ hl]

/-- a break in the third of three messages -/
example : stationRelease (([[1, 0], [5], [6]].flatMap bmpFrame).take 15) =
    stationRelease ([[1, 0], [5]].flatMap bmpFrame) ++ [.err .insufficientBufferSize] := by
  rfl

/-! ## The two builds -/

theorem loop_length (n : Nat) : ∀ (s s' : BMPSession) (stream : Bytes),
    (stationLoopRelease n s' stream).length = (stationLoop n s stream).length := by
  induction n with
  | zero => intro s s' stream; rfl
  | succ n ih =>
    intro s s' stream
    rw [stationLoop, stationLoopRelease]
    by_cases h0 : stream = []
    · rw [if_pos h0, if_pos h0]
    · rw [if_neg h0, if_neg h0]
      cases BmpMessageHeader.decodeFrom stream with
      | ok p =>
        obtain ⟨h, k⟩ := p
        dsimp only
        by_cases hc : h.msglength < k ∨ stream.length < h.msglength
        · rw [if_pos hc, if_pos hc]
        · rw [if_neg hc, if_neg hc, List.length_cons, List.length_cons, ih _ _ (stream.drop h.msglength)]
      | err e => rfl
      | panic => rfl
      | hang => rfl

theorem loop_agree (n : Nat) : ∀ (s : BMPSession) (stream : Bytes) (i : Nat),
    (∀ j ≤ i, (stationLoop n s stream)[j]? ≠ some .panic) → (stationLoopRelease n s stream)[i]? = (stationLoop n s stream)[i]? := by
  induction n with
  | zero => intro s stream i _; rfl
  | succ n ih =>
    intro s stream i
    rw [stationLoop, stationLoopRelease]
    by_cases h0 : stream = []
    · rw [if_pos h0, if_pos h0]; intro _; rfl
    · rw [if_neg h0, if_neg h0]
      cases BmpMessageHeader.decodeFrom stream with
      | ok p =>
        obtain ⟨h, k⟩ := p
        dsimp only
        by_cases hc : h.msglength < k ∨ stream.length < h.msglength
        · rw [if_pos hc, if_pos hc]; intro _; rfl
        · rw [if_neg hc, if_neg hc]
          intro hp
          rcases bsim_session s ((stream.take h.msglength).drop k) with hs | hs
          · exact absurd (congrArg some hs) (hp 0 (Nat.zero_le _))
          · rw [hs]
            cases i with
            | zero => rfl
            | succ i =>
              rw [List.getElem?_cons_succ, List.getElem?_cons_succ]
              refine ih _ _ i fun j hj => ?_
              have := hp (j + 1) (by omega)
              rwa [List.getElem?_cons_succ] at this
      | err e => intro _; rfl
      | panic => intro _; rfl
      | hang => intro _; rfl

/-- **C127, both builds.** Whatever octets arrive: a build without overflow checks cuts the stream into as many messages as one with
checks, and up to the first message on which the latter crashes it gives the same result for each. -/
theorem C127_both_builds (stream : Bytes) :
    (stationRelease stream).length = (station stream).length ∧
      ∀ i : Nat, (∀ j ≤ i, (station stream)[j]? ≠ some Res.panic) → (stationRelease stream)[i]? = (station stream)[i]? :=
  ⟨loop_length _ _ _ _, loop_agree _ _ _⟩

/-- **C127, no crash.** A stream on which a build with checks does not crash is read alike by both. -/
theorem C127_no_crash (stream : Bytes) (h : Res.panic ∉ station stream) : stationRelease stream = station stream :=
  List.ext_getElem? fun i => (C127_both_builds stream).2 i fun _ _ e => h (List.mem_of_getElem? e)

/-- non-vacuity -/
example : Res.panic ∉ station ([[1, 0], [9], [6]].flatMap bmpFrame) := by
  rw [C109_framing _ (by decide)]; simp [List.range_succ_eq_map, BMPSession.decodeFrom, idx]

theorem exporter_same (room : Nat) (xs : List BmpMessage) (t : Bytes) (h : exporter room xs = .ok t) : exporterRelease room xs = .ok t := by
  induction xs generalizing t with
  | nil => exact h
  | cons x xs ih =>
    rw [exporter] at h
    rw [exporterRelease]
    rcases bsim_bmpEnc x (List.replicate room 0) with hs | hs
    · rw [hs] at h; cases h
    · rw [hs]
      cases e : x.encodeTo (List.replicate room 0) with
      | ok p =>
        obtain ⟨buf, n⟩ := p
        rw [e] at h
        simp only [Res.ok_bind] at h ⊢
        cases e2 : (⟨3, 5 + n⟩ : BmpMessageHeader).encodeTo (List.replicate 5 0) with
        | ok q =>
          obtain ⟨hdr, k⟩ := q
          rw [e2] at h
          simp only [Res.ok_bind] at h ⊢
          cases e3 : exporter room xs with
          | ok r => rw [e3] at h; rw [ih r e3]; exact h
          | err _ => rw [e3] at h; cases h
          | panic => rw [e3] at h; cases h
          | hang => rw [e3] at h; cases h
        | err _ => rw [e2] at h; cases h
        | panic => rw [e2] at h; cases h
        | hang => rw [e2] at h; cases h
      | err _ => rw [e] at h; cases h
      | panic => rw [e] at h; cases h
      | hang => rw [e] at h; cases h

/-- **C127, sending.** What a build with checks sends, one without checks sends too, octet for octet. -/
theorem C127_sent (room : Nat) (xs : List BmpMessage) (stream : Bytes) (h : exporter room xs = .ok stream) :
    exporterRelease room xs = .ok stream := exporter_same room xs stream h

/-- **C127, from end to end, what holds.** As `C109_stream_partial`, for every combination of builds at the two ends. Missing: the
same as there. -/
theorem C127_stream_partial (room : Nat) (hr : 131200 ≤ room) (hr' : 5 + room < 2 ^ 32) (xs : List BmpMessage)
    (h : ∀ a x b, xs = a ++ x :: b → Sendable a x) :
    ∃ stream, exporter room xs = .ok stream ∧ exporterRelease room xs = .ok stream ∧
      station stream = xs.map .ok ∧ stationRelease stream = xs.map .ok := by
  obtain ⟨stream, h1, h2⟩ := C109_stream_partial room hr hr' xs h
  refine ⟨stream, h1, C127_sent room xs stream h1, h2, ?_⟩
  rw [C127_no_crash stream (by rw [h2]; simp), h2]

example : ∃ stream, exporter 131200 wholeSession = .ok stream ∧ exporterRelease 131200 wholeSession = .ok stream ∧
    station stream = wholeSession.map .ok ∧ stationRelease stream = wholeSession.map .ok :=
  C127_stream_partial 131200 (by decide) (by decide) wholeSession wholeSession_sendable

/-- **C127 is violated** by peers without 4-octet AS numbers, as C109 is. -/
theorem C127_two_octet_peer_misread (room : Nat) (hr : 131200 ≤ room) (hr' : 5 + room < 2 ^ 32) (u : BmpMessagePeerUp)
    (hu : Sendable [] (.PeerUpNotification u)) (h4 : ∃ a, u.peer.peeraddress = .v4 a)
    (h32 : ∀ n, BgpCapability.CapASN32 n ∉ (peerOpen u).caps) (hp : ReceivesAddPath (peerOpen u).caps (1, 1) = false)
    (v : List BgpAS) (hv : v ≠ []) (hl : v.length ≤ 255) :
    let path (v : List BgpAS) : BmpMessage := .RouteMonitoring ⟨u.peer, ⟨.IPV4U [], .IPV4U [], [.ASPath ⟨v⟩]⟩⟩
    ∃ stream, exporterRelease room [.PeerUpNotification u, path v] = .ok stream ∧
      stationRelease stream = [.ok (.PeerUpNotification u),
        .ok (path (⟨BitVec.ofNat 32 (512 + v.length)⟩ :: v.flatMap halves))] := by
  obtain ⟨stream, h1, h2⟩ := C109_two_octet_peer_misread room hr hr' u hu h4 h32 hp v hv hl
  refine ⟨stream, C127_sent _ _ _ h1, ?_⟩
  rw [C127_no_crash stream (by rw [h2]; simp), h2]

/-- non-vacuity: `up16` meets the hypotheses (Props/Station.lean) -/
example : (∃ a, up16.peer.peeraddress = .v4 a) ∧ ReceivesAddPath (peerOpen up16).caps (1, 1) = false := ⟨⟨_, rfl⟩, by decide⟩

theorem after_crash {hist : List Bytes} {b : Bytes} (hc : BmpCrash (ParamsAfter hist) b) :
    (¬ ∃ m, PeerUpIs b m) ∧ ¬ ∃ m, PeerDownIs b m := by
  have h1 := (after_exactly hist b).crash.2 hc
  constructor
  · rintro ⟨m, body, rfl, hm⟩
    rw [((after_exactly hist _).ok _).2 (.up _ _ hm)] at h1
    cases h1
  · rintro ⟨m, body, rfl, hm⟩
    rw [((after_exactly hist _).ok _).2 (.down _ _ hm)] at h1
    cases h1

/-- **C127, where the builds part.** Once a build with checks has crashed on a message (and its station goes on), the two may read all
that follows differently. In any history in which a peer is up: a peer-down whose NOTIFICATION announces fewer than 19 octets, with
enough octets behind, crashes a build with checks, which goes on to read the peer's routes with the parameters of the peer-up; a build
without checks reads it, and then takes parameters from the header of each message. These never agree. -/
theorem C127_parts (hist : List Bytes) (m : BmpMessagePeerUp)
    (hu : LastUp hist m.peer.peerdistinguisher m.peer.peeraddress m) (hd : Distinct m.peer.peeraddress) (L : Nat) (hL : L < 19)
    (e sub : U8) (t : Bytes) (ht : L + 65515 ≤ t.length) :
    let b := 2 :: (peerHeaderWire m.peer ++ 1 :: (announced .Notification L ++ e :: sub :: t))
    ParamsAfter (hist ++ [b]) m.peer (openParams (peerOpen m)) ∧
      WrapParamsAfter (hist ++ [b]) m.peer (headerParams m.peer) ∧ openParams (peerOpen m) ≠ headerParams m.peer := by
  intro b
  refine ⟨?_, ?_, ?_⟩
  · obtain ⟨n, -, -, -, h2⟩ := C103_peer_down_length_below_19 (after hist) m.peer hd L hL e sub t ht
    obtain ⟨c1, c2⟩ := after_crash ((after_exactly hist b).crash.1 h2)
    refine .inl ⟨m, (lastUp_concat' _ _ _ _ _).2 (.inr ⟨?_, hu⟩), rfl⟩
    rintro (⟨x, hx, -⟩ | ⟨x, hx, -⟩)
    · exact c1 ⟨x, hx⟩
    · exact c2 ⟨x, hx⟩
  · obtain ⟨n, -, -, h1, -⟩ := C103_peer_down_length_below_19 (afterRelease hist) m.peer hd L hL e sub t ht
    have hr := ((w_after_exactly hist b).ok _).1 (congrArg Prod.fst h1)
    have hw : WrapPeerDownIs b ⟨m.peer, .AdministrativelyClosed n⟩ := by
      generalize b = b' at hr
      cases hr with
      | down x _ h => exact ⟨x, rfl, h⟩
    refine .inr ⟨?_, rfl⟩
    rintro ⟨x, hx⟩
    rw [w_lastUp_concat] at hx
    rcases hx with ⟨h1, -⟩ | ⟨h1, -⟩
    · exact w_up_not_down h1 hw
    · exact h1 (.inr ⟨_, hw, rfl, rfl⟩)
  · intro h
    have := congrArg BgpSessionParams.fuzzyPathid h
    simp [openParams, headerParams] at this

/-- non-vacuity: a history in which the peer of `up32` is up -/
example : ∃ hist, LastUp hist up32.peer.peerdistinguisher up32.peer.peeraddress up32 ∧ Distinct up32.peer.peeraddress := by
  obtain ⟨a1, a2, o1, o2⟩ := up32_sendable []
  obtain ⟨w, -, -, h⟩ := passes_up .default up32 a1 a2 o1 o2
  have hr := ((after_exactly [] w).ok _).1 (congrArg Prod.fst h)
  refine ⟨[w], ⟨[], w, [], rfl, ?_, ⟨rfl, rfl⟩, by simp⟩, a1⟩
  cases hr with
  | up x _ h => exact ⟨x, rfl, h⟩

end Zbgp.Props
