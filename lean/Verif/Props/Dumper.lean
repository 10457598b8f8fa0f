import Verif.Lemmas.Dumper
import Verif.Props.TwoEnds

/-! # C95: the example program `bgpdumper` -/

namespace Zbgp.Props

open Zbgp Spec BgpSessionParams

theorem open_returns (p : BgpSessionParams) (b : Bytes) : (p.openMessage.decodeFrom b).Returns :=
  C06_open_decode_total _ b

/-- **C95, the start.** With capabilities that can be encoded and fit the buffer, the program sends exactly one OPEN message with its
parameters, and then, for every stream of octets from the peer, what becomes of the session is as specified, which settles
everything but the kind of error. -/
theorem C95_start (p : BgpSessionParams) (hc : ∀ c ∈ p.caps, CapEncodable c) (hb : 29 + (capsParams p.caps).length ≤ 4096)
    (stream : Bytes) :
    (startActive p stream).1 = message .Open (openWire p.asNum.toNat p.holdTime.toNat p.routerId.toNat (capsParams p.caps)) ∧
    Starts p stream (startActive p stream).2 ∧
    ∀ o, Starts p stream o → forgetEnd (startActive p stream).2 = forgetEnd o := by
  obtain ⟨buf, hl, h⟩ := dumperOpen_ok p hc hb
  have e : startActive p stream =
      (message .Open (openWire p.asNum.toNat p.holdTime.toNat p.routerId.toNat (capsParams p.caps)), dumperAnswer p buf stream) := by
    unfold startActive; rw [h]
  rw [e]
  exact ⟨rfl, answer_starts p (open_returns p) buf stream hl, fun o ho => starts_answer p (open_returns p) buf hl ho⟩

/-- The parameters of the program meet the conditions of `C95_start`, whatever the AS number. -/
theorem dumperParams_ok (asn : U32) : (∀ c ∈ (dumperParams asn).caps, CapEncodable c) ∧
    29 + (capsParams (dumperParams asn).caps).length ≤ 4096 := by
  constructor
  · intro c hc
    simp only [dumperParams, BgpSessionParams.new, List.mem_cons, List.not_mem_nil, or_false] at hc
    rcases hc with rfl | rfl | rfl | rfl | rfl | rfl | rfl | rfl | rfl | rfl | rfl | rfl <;> exact ⟨trivial, by simp [capTlv, capValue, tlv, be]⟩
  · simp [dumperParams, BgpSessionParams.new, capsParams, capParam, capTlv, capValue, tlv, be]

/-- **C95, the loop.** For every session and every stream of octets the program prints what is specified, in the order of the stream,
and ends as specified; the specification settles everything but the kinds of errors. In particular it ends. -/
theorem C95_dumps (p : BgpSessionParams) (stream : Bytes) :
    Dumps p stream (lifecycle p stream).1 (lifecycle p stream).2 ∧
    ∀ es o, Dumps p stream es o →
      (lifecycle p stream).1.map forget = es.map forget ∧ forgetEnd (lifecycle p stream).2 = forgetEnd o :=
  ⟨loop_dumps p _ stream (by omega), fun _ _ h => dumps_loop p h _ (by omega)⟩

/-- **C95, keepalives.** What the program sends to keep the session alive is a KEEPALIVE message. -/
theorem C95_keepalive : sendKeepalive = .ok (message .Keepalive []) := by decide

/-- A message of the peer: KEEPALIVE or UPDATE. -/
inductive PeerMessage
  | keepalive
  | update (m : BgpUpdateMessage)

/-- What the peer writes for it in its session. -/
def peerWire (q : BgpSessionParams) : PeerMessage → Bytes
  | .keepalive => message .Keepalive []
  | .update m => message .Update (updateWire q m)

/-- What is printed about it. -/
def peerEvent (p : BgpSessionParams) : PeerMessage → Option DumperEvent
  | .keepalive => none
  | .update m => some (.update (messageReceived p m))

/-- It can be sent in the session of the peer, and its parts have the form the program expects. -/
def PeerMessageOk (p : BgpSessionParams) : PeerMessage → Prop
  | .keepalive => True
  | .update m => PartsOk p m ∧ (addrsWire m.withdraws).length ≤ 65535 ∧ (attrsWire p m.attrs).length ≤ 65535 ∧
      (updateWire p m).length ≤ 65516

theorem dumps_history (p q : BgpSessionParams) (ha : q.hasAs32bit = p.hasAs32bit) (msgs : List PeerMessage)
    (h : ∀ m ∈ msgs, PeerMessageOk p m) (e : BgpError) :
    Dumps p (msgs.flatMap (peerWire q)) (msgs.filterMap (peerEvent p)) (.err e) := by
  induction msgs with
  | nil =>
    refine .noHead _ _ ?_
    rintro ⟨size, ty, rest, -, h⟩
    have := congrArg List.length h
    simp at this
  | cons m ms ih =>
    have ih := ih (fun x hx => h x (List.mem_cons_of_mem _ hx))
    have hm := h m (by simp)
    rw [List.flatMap_cons]
    cases m with
    | keepalive =>
      rw [List.filterMap_cons_none rfl]
      exact .keepalive _ _ 19 _ _ (head_message .Keepalive [] _ (by simp)) (by omega) (by simpa using ih)
    | update m =>
      obtain ⟨h1, h2, h3, h4⟩ := hm
      show Dumps p (message .Update (updateWire q m) ++ _) (.update (messageReceived p m) :: ms.filterMap (peerEvent p)) _
      rw [updateWire_congr ha]
      refine .update _ _ _ _ _ h4 ?_ ih
      rw [← update_new]
      exact update_reads p m .new h1 h2 h3

/-- **C95, a session.** The peer answers with an OPEN that can be read (up to 4096 octets), sends any history of KEEPALIVE and
UPDATE messages, of the form the settled session expects and with its width of AS numbers, and closes the connection. The program
prints exactly the UPDATE messages, as received, in order. Missing for the full property: that it ends regularly when the peer closes
the connection, it panics; and messages in the forms the two sides agreed on, which need not be those expected
(`C95_one_way_peer_misread`). -/
theorem C95_session_partial (p : BgpSessionParams) (hc : ∀ c ∈ p.caps, CapEncodable c)
    (hb : 29 + (capsParams p.caps).length ≤ 4096) (body : Bytes) (m : BgpOpenMessage) (hl : body.length ≤ 4096)
    (hm : OpenRead body m) (q : BgpSessionParams)
    (ha : q.hasAs32bit = true ↔ ∃ n, BgpCapability.CapASN32 n ∈ m.caps) (msgs : List PeerMessage)
    (hp : ∀ x ∈ msgs, PeerMessageOk (settled p m) x) :
    dumperMain p (message .Open body ++ msgs.flatMap (peerWire q)) =
      (message .Open (openWire p.asNum.toNat p.holdTime.toNat p.routerId.toNat (capsParams p.caps)),
        msgs.filterMap (peerEvent (settled p m)), .panic) := by
  obtain ⟨h1, -, h3⟩ := C95_start p hc hb (message .Open body ++ msgs.flatMap (peerWire q))
  have h4 := h3 _ (.answer body _ m hl hm)
  have h5 : (startActive p (message .Open body ++ msgs.flatMap (peerWire q))).2 =
      .ok (settled p m, msgs.flatMap (peerWire q)) := by
    generalize (startActive p (message .Open body ++ msgs.flatMap (peerWire q))).2 = r at h4
    cases r <;> first | exact h4 | cases h4
  have h6 : startActive p (message .Open body ++ msgs.flatMap (peerWire q)) =
      (message .Open (openWire p.asNum.toNat p.holdTime.toNat p.routerId.toNat (capsParams p.caps)),
        .ok (settled p m, msgs.flatMap (peerWire q))) := by rw [← h1, ← h5]
  have hd := dumps_history (settled p m) q (by
    rw [Bool.eq_iff_iff, ha]; simp [settled]) msgs hp .other
  obtain ⟨h7, h8⟩ := (C95_dumps (settled p m) _).2 _ _ hd
  have hid : ∀ l : List PeerMessage, (l.filterMap (peerEvent (settled p m))).map forget =
      l.filterMap (peerEvent (settled p m)) := by
    intro l
    induction l with
    | nil => rfl
    | cons x xs ih =>
      cases x with
      | keepalive => exact ih
      | update u =>
        show DumperEvent.update (messageReceived (settled p m) u) :: _ = DumperEvent.update (messageReceived (settled p m) u) :: _
        rw [ih]
  have hev : (lifecycle (settled p m) (msgs.flatMap (peerWire q))).1 = msgs.filterMap (peerEvent (settled p m)) := by
    rw [hid] at h7
    generalize (lifecycle (settled p m) (msgs.flatMap (peerWire q))).1 = l at h7
    -- what is forgotten to updates are these updates
    have : ∀ (l l' : List DumperEvent), (∀ x ∈ l', ∃ u, x = .update u) → l.map forget = l' → l = l' := by
      intro l
      induction l with
      | nil => intro l' _ h; exact h
      | cons x xs ih =>
        intro l' hu h
        cases l' with
        | nil => simp at h
        | cons y ys =>
          simp only [List.map_cons, List.cons.injEq] at h
          obtain ⟨u, hu0⟩ := hu y (by simp)
          have e1 : x = y := by
            rw [hu0] at h ⊢
            have := h.1
            cases x <;> simp_all [forget]
          rw [e1, ih ys (fun z hz => hu z (by simp [hz])) h.2]
    refine this _ _ ?_ h7
    intro x hx
    obtain ⟨y, -, hy⟩ := List.mem_filterMap.1 hx
    cases y with
    | keepalive => cases hy
    | update u => exact ⟨_, (Option.some.inj hy).symm⟩
  unfold dumperMain
  rw [h6]
  simp only
  generalize hg : lifecycle (settled p m) (msgs.flatMap (peerWire q)) = g at h8 hev
  obtain ⟨l, r⟩ := g
  simp only at h8 hev
  subst hev
  cases r <;> first | rfl | cases h8

/-! ## what goes wrong -/

/-- **C95 is violated.** A peer that only offers to receive path identifiers sends none, but the program takes the offer for
its own and expects them: the prefixes 10.1.2.0/24 and 10.0.0.0/8 are printed as 10.0.0.0/8 with a path identifier. -/
theorem C95_one_way_peer_misread (asn : U32) :
    let m : BgpOpenMessage := ⟨asn, 180, 7, [.CapAddPath [⟨1, 1, false, true⟩]]⟩
    let u : BgpUpdateMessage := ⟨.IPV4U [⟨0x0a010200, 24⟩, ⟨0x0a000000, 8⟩], .None, []⟩
    let q := (BgpSessionParams.new asn 180 .IPv4 7 m.caps).matchCaps (dumperParams asn).caps
    SendOk q u ∧
    (lifecycle (settled (dumperParams asn) m) (message .Update (updateWire q u))).1 =
      [.update ⟨.IPV4UP [⟨0x180a0102, ⟨0x0a000000, 8⟩⟩], .IPV4UP [], []⟩] := by
  refine ⟨?_, ?_⟩
  · apply sendOk_updates
    refine .inr ⟨⟨false, rfl⟩, ?_, ?_⟩
    · simp [AddrsWF, NlriKind.WF, NlriKind.bits]
    · rintro f ap hk -
      simp only [kindOf, Option.some.injEq, Prod.mk.injEq] at hk
      obtain ⟨rfl, rfl⟩ := hk
      rfl
  · simp only [← checkCaps_settled]
    rw [show ∀ q, updateWire q ⟨.IPV4U [⟨0x0a010200, 24⟩, ⟨0x0a000000, 8⟩], .None, []⟩ = [0, 0, 0, 0, 24, 10, 1, 2, 8, 10]
      from fun _ => by simp only [updateWire, attrsWire, List.flatMap_nil]; decide]
    generalize hp : BgpSessionParams.checkCaps _ = p
    have hd : BgpUpdateMessage.new.decodeFrom p [0, 0, 0, 0, 24, 10, 1, 2, 8, 10] =
        .ok ⟨.IPV4UP [⟨0x180a0102, ⟨0x0a000000, 8⟩⟩], .IPV4UP [], []⟩ := by rw [← hp]; rfl
    have hm := loop_message p 29 .Update [0, 0, 0, 0, 24, 10, 1, 2, 8, 10] [] (by simp) (by simp)
    rw [hd, List.append_nil] at hm
    unfold lifecycle
    rw [show (message .Update [0, 0, 0, 0, 24, 10, 1, 2, 8, 10]).length + 1 = 29 + 1 from rfl, hm]
    rfl

/-- **C95 is violated.** Every answer of more than 4096 octets, even a correct one, brings the program down. -/
theorem C95_large_open_panics (p : BgpSessionParams) (hc : ∀ c ∈ p.caps, CapEncodable c)
    (hb : 29 + (capsParams p.caps).length ≤ 4096) (body rest : Bytes) (h : 4096 < body.length) (hl : body.length ≤ 65516) :
    (dumperMain p (message .Open body ++ rest)).2 = ([], .panic) := by
  obtain ⟨-, -, h3⟩ := C95_start p hc hb (message .Open body ++ rest)
  have h4 := h3 _ (.large _ _ _ (head_message .Open body rest hl) (by omega))
  unfold dumperMain
  generalize startActive p (message .Open body ++ rest) = r at h4
  obtain ⟨out, r⟩ := r
  cases r <;> first | rfl | cases h4

/-- **C95 is violated.** A peer that answers and then closes the connection brings the program down. -/
theorem C95_close_panics (p : BgpSessionParams) (hc : ∀ c ∈ p.caps, CapEncodable c)
    (hb : 29 + (capsParams p.caps).length ≤ 4096) (body : Bytes) (m : BgpOpenMessage) (hl : body.length ≤ 4096)
    (hm : OpenRead body m) : (dumperMain p (message .Open body)).2 = ([], .panic) := by
  have h := C95_session_partial p hc hb body m hl hm (settled p m) (by simp [settled]) [] (by simp)
  simp only [List.flatMap_nil, List.append_nil] at h
  rw [h]
  rfl

/-- An OPEN with the number and the capability of a peer. -/
def peerOpenBody : Bytes := [4, 255, 233, 0, 90, 10, 0, 0, 1, 8, 2, 6, 65, 4, 0, 0, 255, 233]

theorem peerOpenBody_read : OpenRead peerOpenBody ⟨65513, 90, 0x0a000001, [.CapASN32 65513]⟩ :=
  (open_iff .new _ _).1 (by decide)

/-- An UPDATE for the program. -/
def update1 : BgpUpdateMessage := ⟨.IPV4U [⟨0xc0000200, 24⟩], .None, [.Origin ⟨.Igp⟩]⟩

/-- non-vacuity of `C95_session_partial`: the program with its own parameters and a peer that sends a KEEPALIVE and an UPDATE -/
example : (dumperMain (dumperParams 65513) (message .Open peerOpenBody ++
      ([.keepalive, .update update1] : List PeerMessage).flatMap (peerWire session32))).2 =
    ([.update (messageReceived (settled (dumperParams 65513) ⟨65513, 90, 0x0a000001, [.CapASN32 65513]⟩) update1)], .panic) := by
  obtain ⟨h1, h2⟩ := dumperParams_ok 65513
  rw [C95_session_partial _ h1 h2 peerOpenBody _ (by decide) peerOpenBody_read session32
    (by simp [session32]) [.keepalive, .update update1] ?_]
  · rfl
  · intro x hx
    simp only [List.mem_cons, List.not_mem_nil, or_false] at hx
    rcases hx with rfl | rfl
    · trivial
    · have hs : settled (dumperParams 65513) ⟨65513, 90, 0x0a000001, [.CapASN32 65513]⟩ =
          { dumperParams 65513 with holdTime := 90, caps := [.CapASN32 65513] }.checkCaps := (checkCaps_settled _ _).symm
      rw [hs]
      refine ⟨⟨.inl rfl, .inr ⟨⟨false, rfl⟩, ?_, ?_⟩, ?_⟩, by decide, by decide, by decide⟩
      · simp [update1, AddrsWF, NlriKind.WF, NlriKind.bits]
      · rintro f ap hk -
        simp only [update1, kindOf, Option.some.injEq, Prod.mk.injEq] at hk
        obtain ⟨rfl, rfl⟩ := hk
        rfl
      · intro a ha
        simp only [update1, List.mem_singleton] at ha
        subst ha
        exact ⟨trivial, by decide⟩

/-- non-vacuity of `C95_dumps`: an UPDATE that is refused, a KEEPALIVE, an UPDATE that is printed, and a
NOTIFICATION -/
example : (lifecycle session32 (message .Update [0] ++ message .Keepalive [] ++ message .Update [0, 0, 0, 0, 8, 10] ++
      message .Notification [6, 2])).1.length = 3 := by decide

/-- **C95, the first message.** The program started for the peer AS `asn` first sends, whatever the peer sends, an OPEN with
this AS number, a hold time of 180 seconds, router id 1.0.0.0 and the twelve capabilities of `main`. -/
theorem C95_hello (asn : U32) (stream : Bytes) :
    (dumperMain (dumperParams asn) stream).1 = message .Open (openWire asn.toNat 180 (256 ^ 3)
      (capsParams [.SafiIPv4u, .SafiIPv4m, .SafiIPv4lu, .SafiIPv6lu, .SafiVPNv4u, .SafiVPNv4m, .SafiVPNv6u, .SafiVPNv6m,
        .SafiIPv4mvpn, .SafiVPLS, .CapRR, .CapASN32 asn])) := by
  obtain ⟨h1, h2⟩ := dumperParams_ok asn
  have h := (C95_start _ h1 h2 stream).1
  have e : (dumperMain (dumperParams asn) stream).1 = (startActive (dumperParams asn) stream).1 := by
    unfold dumperMain
    generalize startActive (dumperParams asn) stream = r
    obtain ⟨out, r⟩ := r
    cases r with
    | ok v =>
      obtain ⟨p', rest⟩ := v
      simp only
      generalize lifecycle p' rest = r
      obtain ⟨l, r⟩ := r
      cases r <;> rfl
    | _ => rfl
  rw [e, h]
  rfl

end Zbgp.Props
