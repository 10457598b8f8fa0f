import Verif.Spec.Station
import Verif.Props.Bmp
import Verif.Props.TwoEnds

/-! # C109: a BMP stream from end to end -/

namespace Zbgp.Props

open Zbgp Spec

/-! ## Framing -/

theorem frame_length (b : Bytes) : (bmpFrame b).length = 5 + b.length := by simp [bmpFrame]; omega

theorem frame_header (b t : Bytes) (hb : 5 + b.length < 2 ^ 32) :
    BmpMessageHeader.decodeFrom (bmpFrame b ++ t) = .ok (⟨3, 5 + b.length⟩, 5) := by
  have := commonHeader_reads ⟨3, 5 + b.length⟩ rfl hb (b ++ t)
  have e : bmpFrame b ++ t = commonHeaderWire ⟨3, 5 + b.length⟩ ++ (b ++ t) := by
    simp only [bmpFrame, commonHeaderWire, List.append_assoc]
    rfl
  rw [e, this]
  simp [commonHeaderWire]

theorem loop_frame (n : Nat) (s : BMPSession) (b t : Bytes) (hb : 5 + b.length < 2 ^ 32) :
    stationLoop (n + 1) s (bmpFrame b ++ t) = (s.decodeFrom b).1 :: stationLoop n (s.decodeFrom b).2 t := by
  have hl := frame_length b
  have hne : bmpFrame b ++ t ≠ [] := by
    intro e
    have := congrArg List.length e
    simp [hl] at this
  rw [stationLoop, if_neg hne, frame_header b t hb]
  simp only
  rw [if_neg (by simp [hl]), List.take_left' hl, List.drop_left' hl]
  have : (bmpFrame b).drop 5 = b := by
    rw [bmpFrame, ← List.append_assoc, List.drop_left' (by simp)]
  rw [this]

theorem loop_stream (bodies : List Bytes) (hb : ∀ b ∈ bodies, 5 + b.length < 2 ^ 32) (n : Nat) (s : BMPSession)
    (hn : bodies.length ≤ n) :
    stationLoop n s (bodies.flatMap bmpFrame) =
      (List.range bodies.length).map fun i =>
        (((bodies.take i).foldl (fun s b => (s.decodeFrom b).2) s).decodeFrom (bodies.getD i [])).1 := by
  induction bodies generalizing n s with
  | nil => cases n <;> simp [stationLoop]
  | cons b bs ih =>
    obtain ⟨n, rfl⟩ : ∃ k, n = k + 1 := ⟨n - 1, by simp at hn; omega⟩
    rw [List.flatMap_cons, loop_frame n s b _ (hb b (by simp)), ih (fun b h => hb b (by simp [h])) n _ (by simpa using hn)]
    simp only [List.length_cons, List.range_succ_eq_map, List.map_cons, List.map_map]
    rfl

theorem flat_length (bodies : List Bytes) : bodies.length ≤ (bodies.flatMap bmpFrame).length := by
  induction bodies with
  | nil => simp
  | cons b bs ih => rw [List.flatMap_cons, List.length_append, frame_length, List.length_cons]; omega

/-- **C109, framing.** On a stream of framed messages, the station gets for each of them what its session object, after all the ones
before, makes of exactly its octets. In particular an error in one message does not change how the stream is cut. -/
theorem C109_framing (bodies : List Bytes) (hb : ∀ b ∈ bodies, 5 + b.length < 2 ^ 32) :
    station (bodies.flatMap bmpFrame) =
      (List.range bodies.length).map fun i => ((after (bodies.take i)).decodeFrom (bodies.getD i [])).1 :=
  loop_stream bodies hb _ _ (flat_length bodies)

/-- three messages, of which the second has an unknown type -/
example : station ([[1, 0], [9], [6]].flatMap bmpFrame) = [.ok .StatisticsReport, .err .static, .ok .RouteMirroring] := by
  rw [C109_framing _ (by decide)]; rfl

theorem loop_break (bodies : List Bytes) (hb : ∀ b ∈ bodies, 5 + b.length < 2 ^ 32) : ∀ (s : BMPSession) (k n : Nat),
    k ≤ (bodies.flatMap bmpFrame).length → k ≤ n →
    ∃ j ≤ bodies.length, ((bodies.take j).flatMap bmpFrame).length ≤ k ∧
      (j < bodies.length → k < ((bodies.take (j + 1)).flatMap bmpFrame).length) ∧
      ∃ tail, stationLoop n s ((bodies.flatMap bmpFrame).take k) = stationLoop n s ((bodies.take j).flatMap bmpFrame) ++ tail ∧
        (k = ((bodies.take j).flatMap bmpFrame).length → tail = []) ∧
        (k ≠ ((bodies.take j).flatMap bmpFrame).length → ∃ e, tail = [.err e]) := by
  induction bodies with
  | nil =>
    intro s k n hk hn
    simp only [List.flatMap_nil, List.length_nil, Nat.le_zero] at hk
    subst hk
    exact ⟨0, by simp, by simp, by simp, [], by simp, by simp, by simp⟩
  | cons b bs ih =>
    intro s k n hk hn
    have hl := frame_length b
    have hb0 := hb b (by simp)
    simp only [List.flatMap_cons, List.length_append] at hk
    have nil : ∀ n, stationLoop n s [] = [] := by intro n; cases n <;> simp [stationLoop]
    by_cases hc : k < (bmpFrame b).length
    · have e : (List.flatMap bmpFrame (b :: bs)).take k = (bmpFrame b).take k := by
        rw [List.flatMap_cons, List.take_append_of_le_length (by omega)]
      rw [e]
      refine ⟨0, by simp, by simp, fun _ => by simpa using hc, stationLoop n s ((bmpFrame b).take k), by simp [nil], ?_, ?_⟩
      · intro h0
        simp only [List.take_zero, List.flatMap_nil, List.length_nil] at h0
        subst h0
        simp [nil]
      · intro h0
        simp only [List.take_zero, List.flatMap_nil, List.length_nil, ne_eq] at h0
        obtain ⟨n, rfl⟩ : ∃ i, n = i + 1 := ⟨n - 1, by omega⟩
        have hlen : ((bmpFrame b).take k).length = k := by rw [List.length_take]; omega
        rw [stationLoop, if_neg (by intro h; rw [h] at hlen; simp at hlen; omega)]
        by_cases h5 : k < 5
        · refine ⟨.insufficientBufferSize, ?_⟩
          rw [BmpMessageHeader.decodeFrom, if_pos (by omega)]
        · refine ⟨.other, ?_⟩
          have hd : BmpMessageHeader.decodeFrom ((bmpFrame b).take k) = .ok (⟨3, 5 + b.length⟩, 5) := by
            have := commonHeader_reads ⟨3, 5 + b.length⟩ rfl hb0 (b.take (k - 5))
            have e : (bmpFrame b).take k = commonHeaderWire ⟨3, 5 + b.length⟩ ++ b.take (k - 5) := by
              have : bmpFrame b = (be 1 3 ++ be 4 (5 + b.length)) ++ b := by simp [bmpFrame]
              rw [this, List.take_append, List.take_of_length_le (by simp; omega)]
              simp only [commonHeaderWire, List.length_append, be_length]
              simp [be]
            rw [e, this]
            simp [commonHeaderWire, be_length]
          rw [hd]
          simp only
          rw [if_pos (by right; rw [hlen]; omega)]
    · have e : (List.flatMap bmpFrame (b :: bs)).take k =
          bmpFrame b ++ (bs.flatMap bmpFrame).take (k - (bmpFrame b).length) := by
        rw [List.flatMap_cons, List.take_append, List.take_of_length_le (by omega)]
      obtain ⟨n, rfl⟩ : ∃ i, n = i + 1 := ⟨n - 1, by omega⟩
      obtain ⟨j, h1, h2, h3, tail, h4, h5, h6⟩ := ih (fun x hx => hb x (List.mem_cons_of_mem _ hx)) (s.decodeFrom b).2
        (k - (bmpFrame b).length) n (by omega) (by omega)
      refine ⟨j + 1, by simpa using h1, ?_, ?_, tail, ?_, ?_, ?_⟩
      · simp only [List.take_succ_cons, List.flatMap_cons, List.length_append]; omega
      · intro hj
        have := h3 (by simpa using hj)
        simp only [List.take_succ_cons, List.flatMap_cons, List.length_append]; omega
      · rw [e, loop_frame n s b _ hb0, h4, List.take_succ_cons, List.flatMap_cons, loop_frame n s b _ hb0]; rfl
      · simp only [List.take_succ_cons, List.flatMap_cons, List.length_append]
        intro hne; exact h5 (by omega)
      · simp only [List.take_succ_cons, List.flatMap_cons, List.length_append]
        intro hne; exact h6 (by omega)

theorem loop_fuel (bodies : List Bytes) (hb : ∀ b ∈ bodies, 5 + b.length < 2 ^ 32) (n : Nat) (s : BMPSession)
    (hn : bodies.length ≤ n) : stationLoop n s (bodies.flatMap bmpFrame) = stationLoop bodies.length s (bodies.flatMap bmpFrame) := by
  rw [loop_stream bodies hb n s hn, loop_stream bodies hb _ s (Nat.le_refl _)]

/-- **C109, the connection breaks** after any number `k` of octets. The station gets exactly what it gets from the messages that
came completely (the first `j`); if the last one came only in part, there is an error behind that, and nothing else. -/
theorem C109_break (bodies : List Bytes) (hb : ∀ b ∈ bodies, 5 + b.length < 2 ^ 32) (k : Nat)
    (hk : k ≤ (bodies.flatMap bmpFrame).length) :
    ∃ j ≤ bodies.length, ((bodies.take j).flatMap bmpFrame).length ≤ k ∧
      (j < bodies.length → k < ((bodies.take (j + 1)).flatMap bmpFrame).length) ∧
      ∃ tail, station ((bodies.flatMap bmpFrame).take k) = station ((bodies.take j).flatMap bmpFrame) ++ tail ∧
        (k = ((bodies.take j).flatMap bmpFrame).length → tail = []) ∧
        (k ≠ ((bodies.take j).flatMap bmpFrame).length → ∃ e, tail = [.err e]) := by
  obtain ⟨j, h1, h2, h3, tail, h4, h5, h6⟩ := loop_break bodies hb .default k k hk (Nat.le_refl _)
  refine ⟨j, h1, h2, h3, tail, ?_, h5, h6⟩
  have hj : ∀ b ∈ bodies.take j, 5 + b.length < 2 ^ 32 := fun b h => hb b (List.mem_of_mem_take h)
  have hl := flat_length (bodies.take j)
  unfold station
  rw [show ((bodies.flatMap bmpFrame).take k).length = k by rw [List.length_take]; omega, h4,
    loop_fuel _ hj k _ (by omega), loop_fuel _ hj ((bodies.take j).flatMap bmpFrame).length _ hl]

/-- a break in the third of three messages -/
example : station (([[1, 0], [5], [6]].flatMap bmpFrame).take 15) = station ([[1, 0], [5]].flatMap bmpFrame) ++ [.err .insufficientBufferSize] := by
  rfl

/-! ## The table of the session object -/

/-- The table holds the peer-ups that are in force. -/
def TableIs (s : BMPSession) (pre : List BmpMessage) : Prop :=
  Ascending s.sessions ∧ ∀ rd ip m, ((⟨rd, ip⟩ : BgpSessionKey), m) ∈ s.sessions ↔ upNow rd ip pre = some m

theorem table_start : TableIs .default [] := ⟨by simp [BMPSession.default, Ascending], by simp [BMPSession.default, upNow]⟩

theorem table_up {s : BMPSession} {pre : List BmpMessage} (h : TableIs s pre) (m : BmpMessagePeerUp) :
    TableIs ⟨BTree.insert (.ofPeer m.peer) m s.sessions⟩ (pre ++ [.PeerUpNotification m]) := by
  refine ⟨btree_insert_ascending lawful_key key_ext _ h.1 _ _, ?_⟩
  intro rd ip m'
  rw [btree_mem_insert lawful_key key_ext _ h.1, h.2, ne_eq, ← ofPeer_iff]
  unfold upNow
  rw [List.foldl_append]
  simp only [List.foldl_cons, List.foldl_nil]
  by_cases ho : OfPeer rd ip m.peer
  · simp [ho, eq_comm]
  · simp [ho]

theorem table_down {s : BMPSession} {pre : List BmpMessage} (h : TableIs s pre) (m : BmpMessagePeerDown) :
    TableIs ⟨BTree.remove (.ofPeer m.peer) s.sessions⟩ (pre ++ [.PeerDownNotification m]) := by
  refine ⟨btree_remove_ascending lawful_key key_ext _ h.1 _, ?_⟩
  intro rd ip m'
  rw [btree_mem_remove lawful_key key_ext _ h.1, h.2, ne_eq, ← ofPeer_iff]
  unfold upNow
  rw [List.foldl_append]
  simp only [List.foldl_cons, List.foldl_nil]
  by_cases ho : OfPeer rd ip m.peer
  · simp [ho]
  · simp [ho]

theorem table_params {s : BMPSession} {pre : List BmpMessage} (h : TableIs s pre) (p : BmpMessagePeerHeader) :
    s.params p = match upNow p.peerdistinguisher p.peeraddress pre with
      | none => .ofPeerHeader p
      | some m => .ofOpen (peerOpen m) := by
  unfold BMPSession.params
  cases hg : BTree.get (BgpSessionKey.ofPeer p) s.sessions with
  | none =>
    cases hu : upNow p.peerdistinguisher p.peeraddress pre with
    | none => rfl
    | some m =>
      have := (btree_get_iff lawful_key key_ext _ h.1 _ _).2 ((h.2 _ _ _).2 hu)
      rw [show (⟨p.peerdistinguisher, p.peeraddress⟩ : BgpSessionKey) = .ofPeer p from rfl, hg] at this
      cases this
  | some m =>
    have := (h.2 _ _ _).1 ((btree_get_iff lawful_key key_ext _ h.1 _ _).1 hg)
    rw [this]
    simp only [peerOpen, beq_iff_eq]
    by_cases hc : m.peer.routerid = m.msg1.routerId
    · rw [if_pos hc, if_pos hc.symm]
    · rw [if_neg hc, if_neg (fun hh => hc hh.symm)]

theorem ofOpen_readAs (o : BgpOpenMessage) : ReadAs o (.ofOpen o) := by
  unfold ReadAs BgpSessionParams.ofOpen
  have hc := checkCaps_eq { asNum := o.asNum, holdTime := o.holdTime, peerMode := .IPv4, hasAs32bit := true, routerId := o.routerId, caps := o.caps, fuzzyPathid := false }
  have mode : ∀ (l : List BgpCapability) (p : BgpSessionParams), (l.foldl checkStep p).peerMode = p.peerMode ∧
      (l.foldl checkStep p).fuzzyPathid = p.fuzzyPathid := by
    intro l
    induction l with
    | nil => intro p; exact ⟨rfl, rfl⟩
    | cons c l ih =>
      intro p
      rw [List.foldl_cons, (ih _).1, (ih _).2]
      cases c <;> exact ⟨rfl, rfl⟩
  rw [hc]
  refine ⟨(checkFold _ _).1, (mode _ _).1, (mode _ _).2, ?_⟩
  rw [(checkFold _ _).2]; simp

/-! ## One message -/

/-- The message is written as the octets, and the session object reads them as the message. -/
def Passes (s s' : BMPSession) (x : BmpMessage) (w : Bytes) : Prop :=
  (∀ buf : Bytes, w.length ≤ buf.length → ∃ buf', x.encodeTo buf = .ok (buf', w.length) ∧ buf'.take w.length = w) ∧
    s.decodeFrom w = (.ok x, s')

theorem written {x : BmpMessage} {c : Bool} {code : U8} {enc : Enc} {w : Bytes} (h : Clears c enc w)
    (he : ∀ buf : Bytes, 0 < buf.length → x.encodeTo buf = BmpMessage.encodeTyped code enc buf) (buf : Bytes)
    (hb : (code :: w).length ≤ buf.length) :
    ∃ buf', x.encodeTo buf = .ok (buf', (code :: w).length) ∧ buf'.take (code :: w).length = code :: w := by
  have := typed_clears code h buf (by simpa [typed] using hb)
  rw [he buf (by simp at hb; omega)]
  exact ⟨_, this, List.take_left' rfl⟩

theorem passes_termination (s : BMPSession) (x : BmpMessageTermination) (hs : ∀ t, x.str0 = some t → InfoOk t) :
    Passes s s (.Termination x) (5 :: terminationWire x) := by
  refine ⟨written (clears_false.2 (term_writes x)) (fun buf hb => encodeTo_nonempty _ _ hb), ?_⟩
  have := term_reads x hs [] (by simp)
  rw [List.append_nil] at this
  simp only [BMPSession.decodeFrom, idx_cons_zero, rfrom_cons_one, Res.ok_bind]
  rw [show (5 : U8).toNat = 5 from rfl]
  simp only [this, Res.ok_bind]

theorem passes_initiation (s : BMPSession) (x : BmpMessageInitiation) (h1 : x.sysDescr = none) (h2 : x.sysName = none)
    (hs : ∀ t, x.str0 = some t → InfoOk t) : Passes s s (.Initiation x) (4 :: optInfo 0 x.str0) := by
  obtain ⟨a, b, c⟩ := x
  simp only at h1 h2 hs
  subst h1 h2
  have hw := init_writes ⟨a, none, none⟩
  simp only [optInfo, List.append_nil] at hw
  refine ⟨written (clears_false.2 hw) (fun buf hb => encodeTo_nonempty _ _ hb), ?_⟩
  have e : optInfo 0 a = (a.toList.map fun s => (0, s)).flatMap fun t => infoWire t.1 t.2 := by cases a <;> simp [optInfo]
  have := init_decode (a.toList.map fun s => (0, s)) (by
    intro t ht
    simp only [List.mem_map, Option.mem_toList, Option.mem_def] at ht
    obtain ⟨u, hu, rfl⟩ := ht
    exact ⟨by show 0 < 65536; decide, hs u hu⟩)
  simp only [BMPSession.decodeFrom, idx_cons_zero, rfrom_cons_one, Res.ok_bind]
  rw [show (4 : U8).toNat = 4 from rfl]
  simp only [e, this, Res.ok_bind]
  cases a <;> simp [lastOf]

theorem passes_down (s : BMPSession) (x : BmpMessagePeerDown) (a : Distinct x.peer.peeraddress) :
    Passes s ⟨BTree.remove (.ofPeer x.peer) s.sessions⟩ (.PeerDownNotification x) (2 :: peerDownWire x) := by
  refine ⟨written (peerDown_clears x) (fun buf hb => encodeTo_nonempty _ _ hb), ?_⟩
  have := peerDown_reads x []
  rw [List.append_nil, addrRead_distinct a] at this
  exact session_down s ⟨_, _, rfl, this⟩

theorem passes_up (s : BMPSession) (x : BmpMessagePeerUp) (a1 : Distinct x.peer.peeraddress) (a2 : Distinct x.localaddress)
    (h1 : OpenOk x.msg1) (h2 : OpenOk x.msg2) :
    ∃ w, w.length ≤ 131200 ∧ Passes s ⟨BTree.insert (.ofPeer x.peer) x s.sessions⟩ (.PeerUpNotification x) w := by
  obtain ⟨e1, e2, e3⟩ := C58_open_embeds x.msg1 h1.1 h1.2.1 h1.2.2
  obtain ⟨f1, f2, f3⟩ := C58_open_embeds x.msg2 h2.1 h2.2.1 h2.2.2
  refine ⟨_, ?_, written (peerUp_clears x _ _ e1 f1 e3 f3) (fun buf hb => encodeTo_nonempty _ _ hb), ?_⟩
  · rw [List.length_cons, peerUpWire_length]; omega
  · have := peerUp_reads x _ _ [] _ _ e2 f2 e3 f3
    rw [List.append_nil, addrRead_distinct a1, addrRead_distinct a2] at this
    exact session_up s ⟨_, _, rfl, this⟩

/-- A route-monitoring message passes if its UPDATE does, in the form for the peer's header one way and with the parameters of the
session object the other way. -/
theorem passes_rmon (s : BMPSession) (x : BmpMessageRouteMonitoring) (w : Bytes) (a : Distinct x.peer.peeraddress)
    (h1 : Writes (x.update.encodeTo (.ofPeerHeader x.peer)) w) (h2 : BgpUpdateMessage.new.decodeFrom (s.params x.peer) w = .ok x.update)
    (h3 : w.length ≤ 65516) :
    Passes s s (.RouteMonitoring x) (0 :: (peerHeaderWire x.peer ++ message .Update w)) := by
  have h0 : 1 ≤ w.length := by
    cases w with
    | nil => simp [BgpUpdateMessage.decodeFrom, sliceE] at h2
    | cons _ _ => simp
  refine ⟨written (rmon_clears x w h1 h0 h3) (fun buf hb => encodeTo_nonempty _ _ hb), ?_⟩
  simp only [BMPSession.decodeFrom, idx_cons_zero, rfrom_cons_one, Res.ok_bind]
  rw [show (0 : U8).toNat = 0 from rfl]
  simp only
  unfold BMPSession.decodeRm
  rw [if_neg (by simp [peerHeaderWire_length, message_length]; omega), peerHeader_reads' x.peer a]
  simp only [Res.ok_bind]
  have e := embedded_dec .Update (BgpUpdateMessage.new.decodeFrom (s.params x.peer)) w h3 (peerHeaderWire x.peer) []
  rw [peerHeaderWire_length, List.append_nil] at e
  rw [e, h2]
  rfl

theorem asSent_passes (p q : BgpSessionParams) (x : BgpUpdateMessage) (h : AsSent q x) (hm : p.peerMode = q.peerMode)
    (ha : p.hasAs32bit = q.hasAs32bit) (hl : (updateWire p x).length ≤ 65516) :
    Writes (x.encodeTo p) (updateWire p x) ∧ BgpUpdateMessage.new.decodeFrom q (updateWire p x) = .ok x := by
  rw [updateWire_congr ha] at hl ⊢
  rw [update_congr hm ha]
  obtain ⟨h1, h2, -⟩ := C58_update_embeds q x h.1 hl h.2
  exact ⟨h1, h2⟩

theorem header_mode (a : IpAddr) : BgpTransportMode.ofAddr a = addrFamily a := by cases a <;> rfl

theorem sendable_passes (s : BMPSession) (pre : List BmpMessage) (x : BmpMessage) (ht : TableIs s pre) (h : Sendable pre x) :
    ∃ w s', w.length ≤ 131200 ∧ Passes s s' x w ∧ TableIs s' (pre ++ [x]) := by
  have keep : ∀ x, (∀ u, x ≠ BmpMessage.PeerUpNotification u) → (∀ d, x ≠ BmpMessage.PeerDownNotification d) →
      TableIs s (pre ++ [x]) := by
    intro x h1 h2
    refine ⟨ht.1, fun rd ip m => ?_⟩
    rw [ht.2]
    unfold upNow
    rw [List.foldl_append]
    simp only [List.foldl_cons, List.foldl_nil]
  cases x with
  | RouteMonitoring m =>
    obtain ⟨hd, hl, hu⟩ := h
    have hl' : (updateWire (.ofPeerHeader m.peer) m.update).length ≤ 65516 := by
      rw [updateWire_congr (p := .ofPeerHeader m.peer) (q := .new 0 0 (addrFamily m.peer.peeraddress) 0 []) rfl]; exact hl
    refine ⟨0 :: (peerHeaderWire m.peer ++ message .Update (updateWire (.ofPeerHeader m.peer) m.update)), s, ?_, ?_, keep _ (by simp) (by simp)⟩
    rotate_left
    · have hp := table_params ht m.peer
      revert hu
      cases e : upNow m.peer.peerdistinguisher m.peer.peeraddress pre with
      | none =>
        intro hu
        rw [e] at hp
        simp only at hp hu
        rw [← header_mode] at hu
        have := asSent_passes (.ofPeerHeader m.peer) _ m.update hu rfl rfl hl'
        exact passes_rmon s m _ hd this.1 (by rw [hp]; exact this.2) hl'
      | some up =>
        intro hu
        rw [e] at hp
        simp only at hp hu
        obtain ⟨⟨a, ha⟩, h32, hq⟩ := hu
        have hr := ofOpen_readAs (peerOpen up)
        have := asSent_passes (.ofPeerHeader m.peer) _ m.update (hq _ hr)
          (by rw [hr.2.1, BgpSessionParams.ofPeerHeader, ha]; rfl) (by rw [hr.2.2.2.2 h32]; rfl) hl'
        exact passes_rmon s m _ hd this.1 (by rw [hp]; exact this.2) hl'
    · simp only [List.length_cons, List.length_append, peerHeaderWire_length, message_length]; omega
  | PeerUpNotification m =>
    obtain ⟨h1, h2, h3, h4⟩ := h
    obtain ⟨w, hw, hp⟩ := passes_up s m h1 h2 h3 h4
    exact ⟨w, _, hw, hp, table_up ht m⟩
  | PeerDownNotification m =>
    refine ⟨_, _, ?_, passes_down s m h, table_down ht m⟩
    rw [List.length_cons, peerDownWire_length]
    have hn : ∀ m, (notifWire m).length = 4 := by intro m; simp [notifWire, notificationWire]
    cases m.reason <;> simp [reasonWire, message_length, hn]
  | Initiation m =>
    obtain ⟨h1, h2, h3⟩ := h
    refine ⟨_, s, ?_, passes_initiation s m h1 h2 h3, keep _ (by simp) (by simp)⟩
    cases e : m.str0 with
    | none => simp [optInfo]
    | some t => have := (h3 t e).2; simp [optInfo, infoWire]; omega
  | Termination m =>
    refine ⟨_, s, ?_, passes_termination s m h, keep _ (by simp) (by simp)⟩
    unfold terminationWire
    cases e : m.str0 with
    | none => cases m.reason <;> simp [optInfo, infoWire]
    | some t =>
      have := (h t e).2
      cases m.reason <;> simp [optInfo, infoWire] <;> omega
  | StatisticsReport => exact h.elim
  | RouteMirroring => exact h.elim

/-! ## The stream -/

theorem exporter_step (room : Nat) (x : BmpMessage) (xs : List BmpMessage) (w t : Bytes) (hr : 5 + room < 2 ^ 32)
    (hw : w.length ≤ room)
    (h : ∀ buf : Bytes, w.length ≤ buf.length → ∃ buf', x.encodeTo buf = .ok (buf', w.length) ∧ buf'.take w.length = w)
    (ht : exporter room xs = .ok t) : exporter room (x :: xs) = .ok (bmpFrame w ++ t) := by
  obtain ⟨buf', h1, h2⟩ := h (List.replicate room 0) (by simpa using hw)
  obtain ⟨hdr, g1, g2, -, -⟩ := C56_common_header_partial ⟨3, 5 + w.length⟩ rfl (by simp only; omega) (List.replicate 5 0) (by simp)
  rw [exporter, h1]
  simp only [Res.ok_bind, g1, ht, h2, g2, bmpFrame, List.append_assoc]

theorem stream_from (room : Nat) (hr : 131200 ≤ room) (hr' : 5 + room < 2 ^ 32) (xs : List BmpMessage) (pre : List BmpMessage)
    (s : BMPSession) (hs : TableIs s pre) (h : ∀ a x b, xs = a ++ x :: b → Sendable (pre ++ a) x) :
    ∃ stream, exporter room xs = .ok stream ∧ xs.length ≤ stream.length ∧
      ∀ n, xs.length ≤ n → stationLoop n s stream = xs.map .ok := by
  induction xs generalizing pre s with
  | nil => exact ⟨[], rfl, by simp, fun n _ => by cases n <;> simp [stationLoop]⟩
  | cons x xs ih =>
    obtain ⟨w, s', hw, ⟨h1, h2⟩, h3⟩ := sendable_passes s pre x hs (by simpa using h [] x xs rfl)
    obtain ⟨t, t1, t2, t3⟩ := ih (pre ++ [x]) s' h3 (by
      intro a y b e
      have := h (x :: a) y b (by rw [e]; rfl)
      simpa using this)
    refine ⟨bmpFrame w ++ t, exporter_step room x xs w t hr' (by omega) h1 t1, ?_, ?_⟩
    · rw [List.length_append, frame_length, List.length_cons]; omega
    · intro n hn
      obtain ⟨n, rfl⟩ : ∃ k, n = k + 1 := ⟨n - 1, by simp at hn; omega⟩
      rw [loop_frame n s w t (by omega), h2]
      simp only [List.map_cons]
      rw [t3 n (by simpa using hn)]

/-- **C109, what holds.** A router with enough room sends any list of messages, each of which can be sent after the ones before it; the
station reads exactly that list. Missing for the full property: route-monitoring messages of a peer whose peer-up is in force and
which is an IPv6 peer or has not announced 4-octet AS numbers (`C109_two_octet_peer_misread`, `C109_ipv6_peer_misread`), and what is
missing for single messages (C56 to C58). -/
theorem C109_stream_partial (room : Nat) (hr : 131200 ≤ room) (hr' : 5 + room < 2 ^ 32) (xs : List BmpMessage)
    (h : ∀ a x b, xs = a ++ x :: b → Sendable a x) :
    ∃ stream, exporter room xs = .ok stream ∧ station stream = xs.map .ok := by
  obtain ⟨stream, h1, h2, h3⟩ := stream_from room hr hr' xs [] .default table_start (by simpa using h)
  exact ⟨stream, h1, h3 _ h2⟩

/-! ## What goes wrong -/

theorem rmon_session (s : BMPSession) (h : BmpMessagePeerHeader) (a : Distinct h.peeraddress) (w : Bytes) (u : BgpUpdateMessage)
    (h2 : BgpUpdateMessage.new.decodeFrom (s.params h) w = .ok u) (h3 : w.length ≤ 65516) :
    s.decodeFrom (0 :: (peerHeaderWire h ++ message .Update w)) = (.ok (.RouteMonitoring ⟨h, u⟩), s) := by
  have h0 : 1 ≤ w.length := by
    cases w with
    | nil => simp [BgpUpdateMessage.decodeFrom, sliceE] at h2
    | cons _ _ => simp
  simp only [BMPSession.decodeFrom, idx_cons_zero, rfrom_cons_one, Res.ok_bind]
  rw [show (0 : U8).toNat = 0 from rfl]
  simp only
  unfold BMPSession.decodeRm
  rw [if_neg (by simp [peerHeaderWire_length, message_length]; omega), peerHeader_reads' h a]
  simp only [Res.ok_bind]
  have e := embedded_dec .Update (BgpUpdateMessage.new.decodeFrom (s.params h)) w h3 (peerHeaderWire h) []
  rw [peerHeaderWire_length, List.append_nil] at e
  rw [e, h2]
  rfl

/-- A peer-up and a route-monitoring message of the same peer, of which the station reads the second one with the peer's OPEN. -/
theorem up_then_rmon (room : Nat) (hr : 131200 ≤ room) (hr' : 5 + room < 2 ^ 32) (u : BmpMessagePeerUp)
    (hu : Sendable [] (.PeerUpNotification u)) (x y : BgpUpdateMessage) (w : Bytes)
    (h1 : Writes (x.encodeTo (.ofPeerHeader u.peer)) w) (h0 : 1 ≤ w.length) (h3 : w.length ≤ 65516)
    (h2 : BgpUpdateMessage.new.decodeFrom (.ofOpen (peerOpen u)) w = .ok y) :
    ∃ stream, exporter room [.PeerUpNotification u, .RouteMonitoring ⟨u.peer, x⟩] = .ok stream ∧
      station stream = [.ok (.PeerUpNotification u), .ok (.RouteMonitoring ⟨u.peer, y⟩)] := by
  obtain ⟨a1, a2, o1, o2⟩ := hu
  obtain ⟨wu, hwu, p1, p2⟩ := passes_up .default u a1 a2 o1 o2
  have ht := table_up table_start u
  have hp := table_params ht u.peer
  have hn : upNow u.peer.peerdistinguisher u.peer.peeraddress ([] ++ [.PeerUpNotification u]) = some u := by
    simp [upNow, OfPeer]
  rw [hn] at hp
  simp only at hp
  have hlen : (0 :: (peerHeaderWire u.peer ++ message .Update w)).length ≤ room := by
    simp only [List.length_cons, List.length_append, peerHeaderWire_length, message_length]; omega
  have e1 := exporter_step room (.RouteMonitoring ⟨u.peer, x⟩) [] (0 :: (peerHeaderWire u.peer ++ message .Update w)) [] hr' hlen
    (written (rmon_clears ⟨u.peer, x⟩ w h1 h0 h3) (fun buf hb => encodeTo_nonempty _ _ hb)) rfl
  have e2 := exporter_step room (.PeerUpNotification u) _ wu _ hr' (by omega) p1 e1
  refine ⟨_, e2, ?_⟩
  unfold station
  obtain ⟨k, hk⟩ : ∃ k, (bmpFrame wu ++ (bmpFrame (0 :: (peerHeaderWire u.peer ++ message .Update w)) ++ [])).length = k + 1 + 1 + 1 :=
    ⟨(bmpFrame wu ++ (bmpFrame (0 :: (peerHeaderWire u.peer ++ message .Update w)) ++ [])).length - 3, by
      simp only [List.length_append, frame_length]; omega⟩
  rw [hk, loop_frame _ _ _ _ (by omega), p2]
  simp only
  rw [loop_frame _ _ _ _ (by omega), rmon_session _ u.peer a1 w y (by rw [hp]; exact h2) h3]
  simp [stationLoop]

theorem nothing_read (q : BgpSessionParams) (o : BgpOpenMessage) (hq : ReadAs o q) (hp : ReceivesAddPath o.caps (1, 1) = false) :
    NlriDec q [] (.IPV4U []) := by
  have := section_reads (p := q) (x := .None) (.inl rfl)
  have e : sectionReceived q .None = .IPV4U [] := by
    unfold sectionReceived sessionFamily
    simp only [hq.2.1, hq.1]
    rw [show familyCode _ = ((1, 1) : U16 × U8) from rfl, hp]
  rw [e] at this
  exact this

theorem empty_section (p : BgpSessionParams) (hm : p.peerMode = .IPv4) (hn : ReceivesAddPath p.caps (1, 1) = false) : SectionOk p (.IPV4U []) := by
  refine .inr ⟨⟨false, ?_⟩, ?_, ?_⟩
  · simp [kindOf, sessionFamily, hm]
  · simp [AddrsWF]
  · intro f ap hk _
    simp only [kindOf, Option.some.injEq, Prod.mk.injEq] at hk
    obtain ⟨rfl, rfl⟩ := hk
    have : LooksAddPath (addrsWire (.IPV4U [])) = false := by decide
    simp only [AddPathExpected, this, Bool.and_false, Bool.or_false]
    exact hn.symm

theorem halves_of (a : BgpAS) : [a.value.toNat / 65536, a.value.toNat].map (fun n => (⟨(BitVec.ofNat 16 n).setWidth 32⟩ : BgpAS)) = halves a := by
  obtain ⟨a⟩ := a
  have e1 : (BitVec.ofNat 16 (a.toNat / 65536)).setWidth 32 = a >>> 16 := by
    apply BitVec.eq_of_toNat_eq
    have := a.isLt
    simp [Nat.shiftRight_eq_div_pow]
    omega
  have e2 : (BitVec.ofNat 16 a.toNat).setWidth 32 = a &&& 0xffff := by
    apply BitVec.eq_of_toNat_eq
    have := Nat.and_two_pow_sub_one_eq_mod a.toNat 16
    simp only [BitVec.toNat_setWidth, BitVec.toNat_ofNat, BitVec.toNat_and]
    rw [show BitVec.toNat (65535 : U32) = 2 ^ 16 - 1 from rfl, this]
    omega
  simp only [List.map_cons, List.map_nil, halves, e1, e2]

theorem path_misread (q : BgpSessionParams) (h : q.hasAs32bit = false) (v : List BgpAS) (hv : v ≠ []) (hl : v.length ≤ 255) (n : Nat) :
    BgpAttrItem.decodeFrom q 2 0x50 n (asPathWire true v) =
      .ok (.ASPath ⟨⟨BitVec.ofNat 32 (512 + v.length)⟩ :: v.flatMap halves⟩) := by
  have e : asPathWire true v = ((512 + v.length) :: v.flatMap fun a => [a.value.toNat / 65536, a.value.toNat]).flatMap (be 2) := by
    have h4 : ∀ a : BgpAS, asnWire true a = [a.value.toNat / 65536, a.value.toNat].flatMap (be 2) := by
      intro a
      simp [asnWire, be, Nat.div_div_eq_div_mul]
    have h2 : [2, BitVec.ofNat 8 v.length] = be 2 (512 + v.length) := by
      have e1 : (512 + v.length) / 256 = 2 := by omega
      have e2 : BitVec.ofNat 8 (512 + v.length) = BitVec.ofNat 8 v.length := by
        apply BitVec.eq_of_toNat_eq; simp; omega
      simp [be, e1, e2]
    rw [asPathWire, if_neg (by simpa using hv), List.flatMap_cons, List.flatMap_assoc, h2]
    congr 1
    exact congrArg (fun f => v.flatMap f) (funext h4)
  have hr := decList_reads' (lim := 0) (dec := BgpASpath.decodeAsn false) (w := be 2)
    (y := fun n => (⟨(BitVec.ofNat 16 n).setWidth 32⟩ : BgpAS))
    ((512 + v.length) :: v.flatMap fun a => [a.value.toNat / 65536, a.value.toNat]) (by
      intro x _
      refine ⟨by simp, ?_⟩
      intro t
      have hr : rslice (be 2 x ++ t) 0 2 = .ok (be 2 x) := by
        rw [rslice_ok (by simp) (by simp)]; simp
      simp only [BgpASpath.decodeAsn, hr, Res.ok_bind, getn16_two]
      simp)
  have hlen : 2 ≤ (asPathWire true v).length ∧ (asPathWire true v).length % 2 = 0 := by
    have h4 : (v.flatMap (asnWire true)).length = 4 * v.length := by
      rw [List.length_flatMap, List.map_congr_left (g := fun _ => 4) (by intro a _; simp [asnWire])]
      simp [Nat.mul_comm]
    rw [asPathWire, if_neg (by simpa using hv), List.length_append, h4]
    simp only [List.length_cons, List.length_nil]
    omega
  have : BgpASpath.decodeFrom q (asPathWire true v) = .ok ⟨⟨BitVec.ofNat 32 (512 + v.length)⟩ :: v.flatMap halves⟩ := by
    unfold BgpASpath.decodeFrom
    rw [if_neg (by omega), h]
    simp only [Bool.false_eq_true, if_false, hlen.2, List.drop_zero]
    rw [e, hr]
    simp only [Res.ok_bind]
    rw [List.map_cons, List.map_flatMap]
    simp only [halves_of]
    have e3 : (BitVec.ofNat 16 (512 + v.length)).setWidth 32 = BitVec.ofNat 32 (512 + v.length) := by
      apply BitVec.eq_of_toNat_eq; simp; omega
    rw [e3]
  simp only [BgpAttrItem.decodeFrom, BgpAttrItem.decodeN]
  rw [show (2 : U8).toNat = 2 from rfl]
  simp only [this, Res.ok_bind]

/-- **C109 is violated** by peers that have not announced 4-octet AS numbers: a route-monitoring message goes out with 4-octet AS
numbers, whatever the peer, and is read with 2-octet ones. Every path is read as another one: the first AS number is made of the type
and the length of the segment, and the two halves of each AS number follow. -/
theorem C109_two_octet_peer_misread (room : Nat) (hr : 131200 ≤ room) (hr' : 5 + room < 2 ^ 32) (u : BmpMessagePeerUp)
    (hu : Sendable [] (.PeerUpNotification u)) (h4 : ∃ a, u.peer.peeraddress = .v4 a)
    (h32 : ∀ n, BgpCapability.CapASN32 n ∉ (peerOpen u).caps) (hp : ReceivesAddPath (peerOpen u).caps (1, 1) = false)
    (v : List BgpAS) (hv : v ≠ []) (hl : v.length ≤ 255) :
    let path (v : List BgpAS) : BmpMessage := .RouteMonitoring ⟨u.peer, ⟨.IPV4U [], .IPV4U [], [.ASPath ⟨v⟩]⟩⟩
    ∃ stream, exporter room [.PeerUpNotification u, path v] = .ok stream ∧
      station stream = [.ok (.PeerUpNotification u),
        .ok (path (⟨BitVec.ofNat 32 (512 + v.length)⟩ :: v.flatMap halves))] := by
  have hq := ofOpen_readAs (peerOpen u)
  have h16 : (BgpSessionParams.ofOpen (peerOpen u)).hasAs32bit = false := by
    have := hq.2.2.2
    cases e : (BgpSessionParams.ofOpen (peerOpen u)).hasAs32bit with
    | false => rfl
    | true => obtain ⟨n, hn⟩ := this.1 e; exact absurd hn (h32 n)
  have hw : updateWire (.ofPeerHeader u.peer) ⟨.IPV4U [], .IPV4U [], [.ASPath ⟨v⟩]⟩ =
      updateBytes [] ([(⟨2, 0x50, asPathWire true v⟩ : RawAttr)].flatMap rawWire) [] := rfl
  obtain ⟨a4, h4⟩ := h4
  have hm : (BgpSessionParams.ofPeerHeader u.peer).peerMode = .IPv4 := by rw [BgpSessionParams.ofPeerHeader, h4]; rfl
  have hlen : (asPathWire true v).length ≤ 1022 := by
    have h4 : (v.flatMap (asnWire true)).length = 4 * v.length := by
      rw [List.length_flatMap, List.map_congr_left (g := fun _ => 4) (by intro a _; simp [asnWire])]
      simp [Nat.mul_comm]
    rw [asPathWire, if_neg (by simpa using hv), List.length_append, h4]
    simp only [List.length_cons, List.length_nil]
    omega
  refine up_then_rmon room hr hr' u hu _ _ _ (update_writes (.ofPeerHeader u.peer) _ ?_ (by simp [addrsWire]) ?_) ?_ ?_ ?_
  · refine ⟨empty_section _ hm rfl, empty_section _ hm rfl, ?_⟩
    intro x hx
    simp only [List.mem_singleton] at hx
    subst hx
    refine ⟨.inr rfl, ?_⟩
    have e : maxValue (attrCode (.ASPath ⟨v⟩)).2 = 65535 := (show maxValue 0x50 = 65535 by decide)
    rw [e]
    show (asPathWire true v).length ≤ 65535
    omega
  · intro x y z e
    have := congrArg List.length e
    simp only [List.length_cons, List.length_nil, List.length_append] at this
    have : x = [] := List.length_eq_zero_iff.1 (by omega)
    subst this
    simp [attrsWire]
  · rw [hw]; simp only [updateBytes, List.length_append, be_length]; omega
  · rw [hw]; simp [updateBytes, rawWire, attrHeader, extended]; omega
  · rw [hw]
    have := update_decode .new (.ofOpen (peerOpen u)) [] [] [(⟨2, 0x50, asPathWire true v⟩ : RawAttr)] (by simp)
      (by simp [rawWire, attrHeader, extended]; omega)
      (by intro r hr; simp only [List.mem_singleton] at hr; subst hr; have e : maxValue 0x50 = 65535 := by decide
          unfold RawWF; simp only [e]; omega)
      (nothing_read _ _ hq hp)
      (l := [.ASPath ⟨⟨BitVec.ofNat 32 (512 + v.length)⟩ :: v.flatMap halves⟩]) (by
        simp only [AttrsDec, List.map_cons, List.map_nil, List.cons.injEq, and_true]
        exact path_misread _ h16 v hv hl _) (nothing_read _ _ hq hp)
    exact this

/-- **C109 is violated** by IPv6 peers: their prefixes go out as IPv6 ones and are read as IPv4 ones. The announcement of
2001:db8::/32 is read as one of 32.1.13.184/32. -/
theorem C109_ipv6_peer_misread (room : Nat) (hr : 131200 ≤ room) (hr' : 5 + room < 2 ^ 32) (u : BmpMessagePeerUp)
    (hu : Sendable [] (.PeerUpNotification u)) (h6 : ∃ a, u.peer.peeraddress = .v6 a)
    (hp : ReceivesAddPath (peerOpen u).caps (1, 1) = false) :
    ∃ stream, exporter room [.PeerUpNotification u,
        .RouteMonitoring ⟨u.peer, ⟨.IPV6U [⟨0x20010db8000000000000000000000000, 32⟩], .IPV6U [], []⟩⟩] = .ok stream ∧
      station stream = [.ok (.PeerUpNotification u),
        .ok (.RouteMonitoring ⟨u.peer, ⟨.IPV4U [⟨0x20010db8, 32⟩], .IPV4U [], []⟩⟩)] := by
  have hq := ofOpen_readAs (peerOpen u)
  obtain ⟨a6, h6⟩ := h6
  have hm : (BgpSessionParams.ofPeerHeader u.peer).peerMode = .IPv6 := by rw [BgpSessionParams.ofPeerHeader, h6]; rfl
  have hw : updateWire (.ofPeerHeader u.peer) ⟨.IPV6U [⟨0x20010db8000000000000000000000000, 32⟩], .IPV6U [], []⟩ =
      updateBytes [] ([].flatMap rawWire) [32, 0x20, 0x01, 0x0d, 0xb8] := by
    rw [updateWire_congr (p := .ofPeerHeader u.peer) (q := .new 0 0 .IPv6 0 []) rfl]
    decide
  refine up_then_rmon room hr hr' u hu _ _ _ (update_writes (.ofPeerHeader u.peer) _ ?_ (by simp [addrsWire]) (by simp)) ?_ ?_ ?_
  · refine ⟨?_, ?_, by simp⟩
    · refine .inr ⟨⟨false, by simp [kindOf, sessionFamily, hm]⟩, by simp [AddrsWF], ?_⟩
      intro f ap hk _
      simp only [kindOf, Option.some.injEq, Prod.mk.injEq] at hk
      obtain ⟨rfl, rfl⟩ := hk
      have e : ∀ b, AddPathExpected (.ofPeerHeader u.peer) (familyCode .ipv6Unicast) b = LooksAddPath b := fun b => rfl
      rw [e]
      decide
    · refine .inr ⟨⟨false, by simp [kindOf, sessionFamily, hm]⟩, by simp [AddrsWF, NlriKind.WF, NlriKind.bits], ?_⟩
      intro f ap hk _
      simp only [kindOf, Option.some.injEq, Prod.mk.injEq] at hk
      obtain ⟨rfl, rfl⟩ := hk
      have e : ∀ b, AddPathExpected (.ofPeerHeader u.peer) (familyCode .ipv6Unicast) b = LooksAddPath b := fun b => rfl
      rw [e]
      decide
  · rw [hw]; decide
  · rw [hw]; decide
  · rw [hw]
    have hs : SectionOk (.ofOpen (peerOpen u)) (.IPV4U [⟨0x20010db8, 32⟩]) := by
      refine .inr ⟨⟨false, by simp [kindOf, sessionFamily, hq.2.1]⟩, by simp [AddrsWF, NlriKind.WF, NlriKind.bits], ?_⟩
      intro f ap hk _
      simp only [kindOf, Option.some.injEq, Prod.mk.injEq] at hk
      obtain ⟨rfl, rfl⟩ := hk
      simp only [AddPathExpected, hq.1, hq.2.2.1, Bool.false_and, Bool.or_false]
      exact hp.symm
    have hd := section_reads hs
    exact update_decode .new (.ofOpen (peerOpen u)) [] [32, 0x20, 0x01, 0x0d, 0xb8] [] (by simp) (by simp) (by simp)
      (nothing_read _ _ hq hp) (l := []) rfl hd

/-! ## Messages that meet the hypotheses -/

/-- the peer-up of an IPv4 peer with 4-octet AS numbers, and one of a peer without -/
def up32 : BmpMessagePeerUp := ⟨peer4, .v4 0x0a000002, 179, 32768, openOwn, ⟨65001, 180, 0x01010101, [.SafiIPv4u, .CapASN32 65001]⟩⟩
def up16 : BmpMessagePeerUp := ⟨peer4, .v4 0x0a000002, 179, 32768, openOwn, ⟨65001, 180, 0x01010101, [.SafiIPv4u]⟩⟩
def up6 : BmpMessagePeerUp :=
  ⟨⟨0, 0, ⟨0, 7⟩, .v6 0x20010db8000000000000000000000001, 65001, 0x01010101, 5⟩, .v4 0x0a000002, 179, 32768, openOwn,
    ⟨65001, 180, 0x01010101, [.SafiIPv4u, .CapASN32 65001]⟩⟩

/-- an announcement with a path -/
def route4 : BmpMessageRouteMonitoring :=
  ⟨peer4, ⟨.IPV4U [⟨0x0a000000, 8⟩], .IPV4U [], [.Origin ⟨.Igp⟩, .ASPath ⟨[⟨65001⟩, ⟨4200000000⟩]⟩, .NextHop ⟨.v4 0x0a000001⟩]⟩⟩

theorem up32_sendable (pre : List BmpMessage) : Sendable pre (.PeerUpNotification up32) := by
  refine ⟨trivial, trivial, ⟨?_, by decide, by decide⟩, ⟨?_, by decide, by decide⟩⟩ <;>
    (intro c hc; simp only [up32, openOwn, List.mem_cons, List.not_mem_nil, or_false] at hc) <;>
    rcases hc with rfl | rfl <;> exact ⟨trivial, by decide⟩

/-- non-vacuity of `C109_two_octet_peer_misread` -/
example : Sendable [] (.PeerUpNotification up16) ∧ (∃ a, up16.peer.peeraddress = .v4 a) ∧
    (∀ n, BgpCapability.CapASN32 n ∉ (peerOpen up16).caps) ∧ ReceivesAddPath (peerOpen up16).caps (1, 1) = false := by
  refine ⟨⟨trivial, trivial, ⟨?_, by decide, by decide⟩, ⟨?_, by decide, by decide⟩⟩, ⟨_, rfl⟩, ?_, by decide⟩
  · intro c hc; simp only [up16, openOwn, List.mem_cons, List.not_mem_nil, or_false] at hc; subst hc; exact ⟨trivial, by decide⟩
  · intro c hc; simp only [up16, List.mem_cons, List.not_mem_nil, or_false] at hc; subst hc; exact ⟨trivial, by decide⟩
  · intro n hn
    rw [show (peerOpen up16).caps = [.SafiIPv4u] by decide] at hn
    simp at hn

/-- non-vacuity of `C109_ipv6_peer_misread` -/
example : Sendable [] (.PeerUpNotification up6) ∧ (∃ a, up6.peer.peeraddress = .v6 a) ∧
    ReceivesAddPath (peerOpen up6).caps (1, 1) = false := by
  refine ⟨⟨by decide, trivial, ⟨?_, by decide, by decide⟩, ⟨?_, by decide, by decide⟩⟩, ⟨_, rfl⟩, by decide⟩
  · intro c hc; simp only [up6, openOwn, List.mem_cons, List.not_mem_nil, or_false] at hc; subst hc; exact ⟨trivial, by decide⟩
  · intro c hc; simp only [up6, List.mem_cons, List.not_mem_nil, or_false] at hc
    rcases hc with rfl | rfl <;> exact ⟨trivial, by decide⟩

theorem route4_sendable (pre : List BmpMessage) (h : upNow peer4.peerdistinguisher peer4.peeraddress pre = some up32) :
    Sendable pre (.RouteMonitoring route4) := by
  refine ⟨trivial, by decide, ?_⟩
  rw [show route4.peer = peer4 from rfl, h]
  refine ⟨⟨_, rfl⟩, ⟨65001, by decide⟩, ?_⟩
  intro q hq
  have hcaps : q.caps = [.SafiIPv4u, .CapASN32 65001] := by rw [hq.1]; decide
  have h32 : q.hasAs32bit = true := hq.2.2.2.2 ⟨65001, by decide⟩
  have sec : ∀ v : List BgpAddrV4, (∀ a ∈ v, a.prefixlen.toNat ≤ 32) → SectionOk q (.IPV4U v) := by
    intro v hv
    refine .inr ⟨⟨false, by simp [kindOf, sessionFamily, hq.2.1]⟩, by simpa [AddrsWF, NlriKind.WF, NlriKind.bits] using hv, ?_⟩
    intro f ap hk _
    simp only [kindOf, Option.some.injEq, Prod.mk.injEq] at hk
    obtain ⟨rfl, rfl⟩ := hk
    simp only [AddPathExpected, hcaps, hq.2.2.1, Bool.false_and, Bool.or_false]
    decide
  refine ⟨⟨sec [] (by simp), sec _ (by decide), ?_⟩, by rfl⟩
  intro a ha
  rw [h32]
  simp only [route4, List.mem_cons, List.not_mem_nil, or_false] at ha
  rcases ha with rfl | rfl | rfl
  · exact ⟨trivial, by decide⟩
  · exact ⟨.inr h32, by decide⟩
  · exact ⟨by rw [AttrOk, hq.2.1]; rfl, by decide⟩

/-- a whole session: initiation, peer up, a route, peer down, termination -/
def wholeSession : List BmpMessage :=
  [.Initiation ⟨some [114, 49], none, none⟩, .PeerUpNotification up32, .RouteMonitoring route4,
    .PeerDownNotification ⟨peer4, .Remote⟩, .Termination ⟨some [98, 121, 101], some 0⟩]

/-- non-vacuity of `C109_stream_partial` -/
theorem wholeSession_sendable : ∀ a x b, wholeSession = a ++ x :: b → Sendable a x := by
  intro a x b e
  match a, e with
  | [], e => cases e; exact ⟨rfl, rfl, by intro s hs; cases hs; exact ⟨by decide, by decide⟩⟩
  | [_], e => cases e; exact up32_sendable _
  | [_, _], e => cases e; exact route4_sendable _ (by decide)
  | [_, _, _], e => cases e; exact trivial
  | [_, _, _, _], e => cases e; intro s hs; cases hs; exact ⟨by decide, by decide⟩
  | _ :: _ :: _ :: _ :: _ :: t, e => simp [wholeSession] at e

example : ∃ stream, exporter 131200 wholeSession = .ok stream ∧ station stream = wholeSession.map .ok :=
  C109_stream_partial 131200 (by decide) (by decide) wholeSession wholeSession_sendable

end Zbgp.Props
