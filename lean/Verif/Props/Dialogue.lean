import Verif.Spec.Dialogue
import Verif.Lemmas.Dumper
import Verif.Props.TwoEnds
import Verif.Props.Header

/-!
# C110: two programs that talk BGP with the library
-/

namespace Zbgp.Props

open Zbgp Spec BgpSessionParams

theorem say_ok (ty : BgpMessageType) (enc : Enc) (w buf : Bytes) (hw : Writes enc w) (hl : w.length ≤ 65516)
    (hb : 19 + w.length ≤ buf.length) :
    ∃ buf', say ty enc buf = .ok (buf', message ty w) ∧ buf'.length = buf.length := by
  obtain ⟨m, t, rfl, hm, ht⟩ := exists_split (buf := buf) 19 (by omega)
  simp only [List.length_append] at hb
  have h1 : onFrom (m ++ t) 19 enc = .ok (m ++ (w ++ t.drop w.length), w.length) := by
    rw [onFrom_append _ _ _ _ hm.symm, hw t (by omega)]; rfl
  refine ⟨header ty w.length ++ (w ++ t.drop w.length), ?_, ?_⟩
  · unfold say
    rw [h1]
    simp only [Res.ok_bind]
    rw [prepare_ok _ _ _ hl (by simp; omega), List.drop_left' hm]
    simp only [Res.ok_bind]
    have := rslice_append_zero (message ty w) (t.drop w.length) (w.length + 19) (by simp [message, header_length]; omega)
    simp only [message, List.append_assoc] at this
    rw [this]
    rfl
  · simp [header_length]; omega

/-- The octets of the body. -/
def saidBody (p : BgpSessionParams) : Said → Bytes
  | .keepalive => []
  | .update m => updateWire p m
  | .notification m => notificationWire m.errorCode.toNat m.errorSubcode.toNat m.data.toNat

/-- The octets of the message. -/
def saidWire (p : BgpSessionParams) (m : Said) : Bytes := message (sayer p m).1 (saidBody p m)

theorem sayer_ok {p : BgpSessionParams} {size : Nat} {m : Said} (h : Sayable p size m) :
    Writes (sayer p m).2 (saidBody p m) ∧ (saidBody p m).length ≤ 65516 ∧ 19 + (saidBody p m).length ≤ size := by
  cases m with
  | keepalive => exact ⟨fun buf _ => rfl, by simp [saidBody], h⟩
  | update m =>
    obtain ⟨h1, h2, h3, h4, h5⟩ := h
    refine ⟨?_, h4, h5⟩
    have e : (updateWire (mirror p) m) = updateWire p m := rfl
    have := update_writes (mirror p) m h1 h2 (fits_of_total (mirror p) _ h3)
    rw [update_congr (p := mirror p) (q := p) rfl rfl, e] at this
    exact this
  | notification m =>
    have hl : (notificationWire m.errorCode.toNat m.errorSubcode.toNat m.data.toNat).length = 4 := by simp [notificationWire]
    refine ⟨fun buf hb => ?_, by simp only [saidBody, hl]; omega, by simp only [saidBody, hl]; exact h⟩
    simp only [saidBody, hl] at hb ⊢
    exact (C10_notification_round_trip m m buf hb).1

theorem sayAll_ok (p : BgpSessionParams) (msgs : List Said) : ∀ (buf : Bytes), (∀ m ∈ msgs, Sayable p buf.length m) →
    sayAll p msgs buf = .ok (msgs.flatMap (saidWire p)) := by
  induction msgs with
  | nil => intro buf _; rfl
  | cons m ms ih =>
    intro buf h
    obtain ⟨h1, h2, h3⟩ := sayer_ok (h m (by simp))
    obtain ⟨buf', h4, h5⟩ := say_ok (sayer p m).1 _ _ buf h1 h2 h3
    unfold sayAll
    rw [h4]
    simp only [Res.ok_bind]
    rw [ih buf' (fun x hx => by rw [h5]; exact h x (List.mem_cons_of_mem _ hx))]
    simp only [Res.ok_bind, List.flatMap_cons]
    rfl

/-- The two ends of a settled session fit together, from one to the other. -/
structure Fits (A B : BgpSessionParams) : Prop where
  mode : A.peerMode = B.peerMode
  width : A.hasAs32bit = B.hasAs32bit
  sure : B.fuzzyPathid = false
  agree : ∀ fam, Agree A B fam

theorem understand_ok {A B : BgpSessionParams} (f : Fits A B) {size : Nat} {m : Said} (h : Sayable A size m) :
    understand B (sayer A m).1 (saidBody A m) = .ok (asHeard B m) := by
  cases m with
  | keepalive => rfl
  | update m =>
    obtain ⟨h1, h2, h3, h4, h5⟩ := h
    obtain ⟨buf', n, e1, e2⟩ := arrives_of A B f.mode f.width f.sure f.agree m h1 h2 h3
      (List.replicate (updateWire A m).length 0) (by simp)
    have e3 := (sayer_ok (m := .update m) ⟨h1, h2, h3, h4, h5⟩).1 (List.replicate (updateWire A m).length 0) (by simp [saidBody])
    simp only [sayer, saidBody] at e3
    rw [e3] at e1
    simp only [Res.ok.injEq, Prod.mk.injEq] at e1
    obtain ⟨rfl, rfl⟩ := e1
    rw [List.take_left' rfl] at e2
    simp only [understand, sayer, saidBody, e2, Res.ok_bind, asHeard]
  | notification m =>
    simp only [understand, sayer, saidBody, (C10_notification_round_trip m .new [0, 0, 0, 0] (by simp)).2.1, Res.ok_bind, asHeard]

theorem hear_message (p : BgpSessionParams) (fuel : Nat) (ty : BgpMessageType) (body rest : Bytes) (m : Said)
    (hl : body.length ≤ 65516) (hu : understand p ty body = .ok m) :
    hearLoop p (fuel + 1) (message ty body ++ rest) = (m :: (hearLoop p fuel rest).1, (hearLoop p fuel rest).2) := by
  rw [hearLoop, if_neg (by simp [message, header, List.replicate])]
  rw [head_take (head_message ty body rest hl), if_neg (by omega)]
  simp only [Nat.add_sub_cancel, List.length_append]
  rw [if_neg (by omega), List.take_left' rfl, List.drop_left' rfl, hu]

/-- A message of which some, but not all octets came. -/
theorem hear_cut (p : BgpSessionParams) (fuel : Nat) (ty : BgpMessageType) (body : Bytes) (k : Nat) (hl : body.length ≤ 65516)
    (hk : k < (message ty body).length) (h0 : 0 < k) :
    hearLoop p (fuel + 1) ((message ty body).take k) = ([], .err .other) := by
  rw [message_length] at hk
  have hlen : ((message ty body).take k).length = k := by rw [List.length_take, message_length]; omega
  unfold hearLoop
  rw [if_neg (by intro h; rw [List.isEmpty_iff_length_eq_zero] at h; omega)]
  by_cases h19 : k < 19
  · unfold recvMessageHead
    rw [if_pos (by omega)]
  · have e : (message ty body).take k = List.replicate 16 255 ++ (be 2 (body.length + 19) ++ (be 1 (typeCode ty) ++ body.take (k - 19))) := by
      have : message ty body = header ty body.length ++ body := rfl
      rw [this, List.take_append, List.take_of_length_le (by rw [header_length]; omega), header_length]
      simp [header]
    rw [head_take ⟨by omega, e⟩, if_neg (by omega)]
    simp only [Nat.add_sub_cancel, List.length_take]
    rw [if_pos (by omega)]

theorem hear_prefix {A B : BgpSessionParams} (f : Fits A B) {size : Nat} (msgs : List Said) (h : ∀ m ∈ msgs, Sayable A size m) :
    ∀ k fuel, k ≤ (msgs.flatMap (saidWire A)).length → k < fuel →
      ∃ j ≤ msgs.length, ((msgs.take j).flatMap (saidWire A)).length ≤ k ∧
        (j < msgs.length → k < ((msgs.take (j + 1)).flatMap (saidWire A)).length) ∧
        (hearLoop B fuel ((msgs.flatMap (saidWire A)).take k)).1 = (msgs.take j).map (asHeard B) ∧
        ((hearLoop B fuel ((msgs.flatMap (saidWire A)).take k)).2 = .ok () ↔ k = ((msgs.take j).flatMap (saidWire A)).length) ∧
        (k ≠ ((msgs.take j).flatMap (saidWire A)).length →
          (hearLoop B fuel ((msgs.flatMap (saidWire A)).take k)).2 = .err .other) := by
  induction msgs with
  | nil =>
    intro k fuel hk hf
    obtain ⟨fuel, rfl⟩ : ∃ n, fuel = n + 1 := ⟨fuel - 1, by omega⟩
    simp only [List.flatMap_nil, List.length_nil, Nat.le_zero] at hk
    subst hk
    exact ⟨0, by simp, by simp, by simp, by simp [hearLoop], by simp [hearLoop], by simp⟩
  | cons m ms ih =>
    intro k fuel hk hf
    obtain ⟨fuel, rfl⟩ : ∃ n, fuel = n + 1 := ⟨fuel - 1, by omega⟩
    have hm := h m (by simp)
    obtain ⟨-, hl, -⟩ := sayer_ok hm
    have hw : (saidWire A m).length = 19 + (saidBody A m).length := message_length _ _
    simp only [List.flatMap_cons, List.length_append] at hk
    by_cases hc : k < (saidWire A m).length
    · have e : (List.flatMap (saidWire A) (m :: ms)).take k = (saidWire A m).take k := by
        rw [List.flatMap_cons, List.take_append_of_le_length (by omega)]
      rw [e]
      refine ⟨0, by simp, by simp, fun _ => by simpa using hc, ?_⟩
      by_cases h0 : k = 0
      · subst h0
        exact ⟨by simp [hearLoop], by simp [hearLoop], by simp⟩
      · have he := hear_cut B fuel (sayer A m).1 (saidBody A m) k hl hc (by omega)
        unfold saidWire
        rw [he]
        exact ⟨by simp, by simpa using h0, fun _ => rfl⟩
    · have e : (List.flatMap (saidWire A) (m :: ms)).take k =
          message (sayer A m).1 (saidBody A m) ++ (ms.flatMap (saidWire A)).take (k - (saidWire A m).length) := by
        rw [List.flatMap_cons, List.take_append, List.take_of_length_le (by omega)]; rfl
      rw [e, hear_message B fuel _ _ _ _ hl (understand_ok f hm)]
      obtain ⟨j, h1, h2, h3, h4, h5, h6⟩ := ih (fun x hx => h x (List.mem_cons_of_mem _ hx)) (k - (saidWire A m).length) fuel
        (by omega) (by omega)
      refine ⟨j + 1, by simpa using h1, ?_, ?_, ?_, ?_, ?_⟩
      · simp only [List.take_succ_cons, List.flatMap_cons, List.length_append]; omega
      · intro hj
        have := h3 (by simpa using hj)
        simp only [List.take_succ_cons, List.flatMap_cons, List.length_append]; omega
      · simp [h4]
      · simp only [List.take_succ_cons, List.flatMap_cons, List.length_append]
        rw [h5]; omega
      · simp only [List.take_succ_cons, List.flatMap_cons, List.length_append]
        intro hne
        exact h6 (by omega)

/-- **C110, a history.** Two ends of a settled session that agree on the transport, the width of AS numbers and path identifiers;
the hearing end does not guess. Whatever finite history of KEEPALIVE, UPDATE and NOTIFICATION messages one end says, from one
buffer, the other end hears: these messages, each as it was said, in this order, and then the end of the connection. Missing for
the full property: agreement on path identifiers and ends that guess, see `C94_one_way_offers_misread`,
`C94_guess_misreads`. -/
theorem C110_history_partial (A B : BgpSessionParams) (hm : A.peerMode = B.peerMode) (ha : A.hasAs32bit = B.hasAs32bit)
    (hz : B.fuzzyPathid = false) (hg : ∀ fam, Agree A B fam) (buf : Bytes) (msgs : List Said)
    (h : ∀ m ∈ msgs, Sayable A buf.length m) :
    ∃ w, sayAll A msgs buf = .ok w ∧ hear B w = (msgs.map (asHeard B), .ok ()) := by
  refine ⟨_, sayAll_ok A msgs buf h, ?_⟩
  obtain ⟨j, h1, h2, h3, h4, h5, -⟩ := hear_prefix ⟨hm, ha, hz, hg⟩ msgs h _ _ (Nat.le_refl _) (Nat.lt_succ_self _)
  rw [List.take_length] at h4 h5
  have hj : j = msgs.length := by
    by_contra hne
    have hlt := h3 (by omega)
    have : ((msgs.take (j + 1)).flatMap (saidWire A)).length ≤ (msgs.flatMap (saidWire A)).length := by
      conv => rhs; rw [← List.take_append_drop (j + 1) msgs, List.flatMap_append, List.length_append]
      omega
    omega
  subst hj
  rw [List.take_length] at h4 h5
  exact Prod.ext h4 (h5.2 rfl)

/-- **C110, the connection breaks** after any number `k` of octets of a history. The other end has heard exactly the messages of
which all octets came, each as it was said, in order; if it broke between two messages this looks like the end of the connection,
else hearing ends with an error. It never hears part of a message, and never panics. Missing: as for `C110_history_partial`. -/
theorem C110_break_partial (A B : BgpSessionParams) (hm : A.peerMode = B.peerMode) (ha : A.hasAs32bit = B.hasAs32bit)
    (hz : B.fuzzyPathid = false) (hg : ∀ fam, Agree A B fam) (buf : Bytes) (msgs : List Said)
    (h : ∀ m ∈ msgs, Sayable A buf.length m) (w : Bytes) (hw : sayAll A msgs buf = .ok w) (k : Nat) (hk : k ≤ w.length) :
    ∃ j u, j ≤ msgs.length ∧ sayAll A (msgs.take j) buf = .ok u ∧ u.length ≤ k ∧
      (∀ v, j < msgs.length → sayAll A (msgs.take (j + 1)) buf = .ok v → k < v.length) ∧
      (hear B (w.take k)).1 = (msgs.take j).map (asHeard B) ∧
      ((hear B (w.take k)).2 = .ok () ↔ k = u.length) ∧
      (k ≠ u.length → (hear B (w.take k)).2 = .err .other) := by
  rw [sayAll_ok A msgs buf h, Res.ok.injEq] at hw
  subst hw
  have hlen : ((msgs.flatMap (saidWire A)).take k).length + 1 = k + 1 := by rw [List.length_take]; omega
  obtain ⟨j, h1, h2, h3, h4, h5, h6⟩ := hear_prefix ⟨hm, ha, hz, hg⟩ msgs h k (k + 1) hk (Nat.lt_succ_self _)
  have ht : ∀ i, sayAll A (msgs.take i) buf = .ok ((msgs.take i).flatMap (saidWire A)) :=
    fun i => sayAll_ok A _ buf fun m hx => h m (List.mem_of_mem_take hx)
  unfold hear
  rw [hlen]
  refine ⟨j, _, h1, ht j, h2, fun v hj hv => ?_, h4, h5, h6⟩
  rw [ht, Res.ok.injEq] at hv
  rw [← hv]
  exact h3 hj

theorem meet_ok (own : BgpSessionParams) (other : BgpOpenMessage) (hc : ∀ c ∈ other.caps, CapEncodable c) (rest : Bytes)
    (hl : (openWire other.asNum.toNat other.holdTime.toNat other.routerId.toNat (capsParams other.caps)).length ≤ 65516) :
    meet own (message .Open (openWire other.asNum.toNat other.holdTime.toNat other.routerId.toNat (capsParams other.caps)) ++ rest) =
      .ok (own.matchCaps other.caps, rest) := by
  unfold meet
  rw [head_take (head_message .Open _ rest hl), if_neg (by omega)]
  simp only [Res.ok_bind, Nat.add_sub_cancel, List.length_append]
  rw [if_neg (by simp), List.take_left' rfl, List.drop_left' rfl]
  obtain ⟨buf', n, -, h2, -, -, h3⟩ := C05_open_round_trip other hc
    (List.replicate (10 + (capsParams other.caps).length) 0) (by simp) .new
  rw [h2] at h3
  rw [h3]
  rfl

/-- **C110, the whole dialogue.** Two programs on the same transport, that do not guess, with capabilities that can be encoded and
buffers that are large enough. Each sends an OPEN; each reads, at the beginning of what comes from the other one, exactly this OPEN
and settles the session; both then use the same width of AS numbers. In each direction in which they agree on path identifiers, any
history that is said is heard, whatever is said in the other direction. Missing: as for `C110_history_partial`. -/
theorem C110_dialogue_partial (A B : BgpSessionParams) (hm : A.peerMode = B.peerMode) (hzA : A.fuzzyPathid = false)
    (hzB : B.fuzzyPathid = false) (hA : ∀ c ∈ A.caps, CapEncodable c) (hB : ∀ c ∈ B.caps, CapEncodable c) (bufA bufB : Bytes)
    (hlA : (capsParams A.caps).length ≤ 65506) (hlB : (capsParams B.caps).length ≤ 65506)
    (hbA : 29 + (capsParams A.caps).length ≤ bufA.length) (hbB : 29 + (capsParams B.caps).length ≤ bufB.length) :
    ∃ bufA' helloA bufB' helloB A' B',
      greet A bufA = .ok (bufA', helloA) ∧ greet B bufB = .ok (bufB', helloB) ∧
      bufA'.length = bufA.length ∧ bufB'.length = bufB.length ∧
      (∀ rest, meet A (helloB ++ rest) = .ok (A', rest)) ∧ (∀ rest, meet B (helloA ++ rest) = .ok (B', rest)) ∧
      A'.hasAs32bit = B'.hasAs32bit ∧
      ((∀ fam, Agree A' B' fam) → ∀ msgs, (∀ m ∈ msgs, Sayable A' bufA.length m) →
        ∃ w, sayAll A' msgs bufA' = .ok w ∧ hear B' w = (msgs.map (asHeard B'), .ok ())) ∧
      ((∀ fam, Agree B' A' fam) → ∀ msgs, (∀ m ∈ msgs, Sayable B' bufB.length m) →
        ∃ w, sayAll B' msgs bufB' = .ok w ∧ hear A' w = (msgs.map (asHeard A'), .ok ())) := by
  have lenA := openWire_length A.asNum.toNat A.holdTime.toNat A.routerId.toNat (capsParams A.caps)
  have lenB := openWire_length B.asNum.toNat B.holdTime.toNat B.routerId.toNat (capsParams B.caps)
  obtain ⟨bufA', a1, a2⟩ := say_ok .Open A.openMessage.encodeTo _ bufA (writes_open A.openMessage hA)
    (by simp only [BgpSessionParams.openMessage]; omega) (by simp only [BgpSessionParams.openMessage]; omega)
  obtain ⟨bufB', b1, b2⟩ := say_ok .Open B.openMessage.encodeTo _ bufB (writes_open B.openMessage hB)
    (by simp only [BgpSessionParams.openMessage]; omega) (by simp only [BgpSessionParams.openMessage]; omega)
  have hw := C94_as_width A B
  have mode : (A.matchCaps B.caps).peerMode = (B.matchCaps A.caps).peerMode := by
    rw [(matchCaps_mode _ _).1, (matchCaps_mode _ _).1]; exact hm
  refine ⟨bufA', _, bufB', _, A.matchCaps B.caps, B.matchCaps A.caps, a1, b1, a2, b2, fun rest => ?_, fun rest => ?_, hw,
    fun hg msgs h => ?_, fun hg msgs h => ?_⟩
  · exact meet_ok A B.openMessage hB rest (by simp only [BgpSessionParams.openMessage]; omega)
  · exact meet_ok B A.openMessage hA rest (by simp only [BgpSessionParams.openMessage]; omega)
  · exact C110_history_partial _ _ mode hw (by rw [(matchCaps_mode _ _).2]; exact hzB) hg bufA' msgs (by rw [a2]; exact h)
  · exact C110_history_partial _ _ mode.symm hw.symm (by rw [(matchCaps_mode _ _).2]; exact hzA) hg bufB' msgs (by rw [b2]; exact h)

/-- **C110 is violated.** One end offers only to receive path identifiers, the other one both directions. Both OPENs are
understood. Then the first end, as its session calls for, says 10.0.0.0/8 with path identifier 0, and a KEEPALIVE: the other end hears four
default routes and 10.0.0.0/8, and the KEEPALIVE, without any error. -/
theorem C110_misheard :
    let A := speaker false true
    let B := speaker true true
    ∃ bufA helloA A' B' w,
      greet A (List.replicate 4096 0) = .ok (bufA, helloA) ∧ meet B (helloA ++ w) = .ok (B', w) ∧
      A' = A.matchCaps B.caps ∧
      sayAll A' [.update ⟨.IPV4UP [⟨0, ⟨0x0a000000, 8⟩⟩], .None, []⟩, .keepalive] bufA = .ok w ∧
      hear B' w = ([.update ⟨.IPV4U [⟨0, 0⟩, ⟨0, 0⟩, ⟨0, 0⟩, ⟨0, 0⟩, ⟨0x0a000000, 8⟩], .IPV4U [], []⟩, .keepalive], .ok ()) := by
  intro A B
  have lenA := openWire_length A.asNum.toNat A.holdTime.toNat A.routerId.toNat (capsParams A.caps)
  have lA : (capsParams A.caps).length ≤ 4000 := by decide
  obtain ⟨bufA', a1, a2⟩ := say_ok .Open A.openMessage.encodeTo _ (List.replicate 4096 0)
    (writes_open A.openMessage (speaker_encodable _ _))
    (by simp only [BgpSessionParams.openMessage]; omega)
    (by simp only [BgpSessionParams.openMessage, List.length_replicate]; omega)
  have hs : Sayable (A.matchCaps B.caps) bufA'.length (.update ⟨.IPV4UP [⟨0, ⟨0x0a000000, 8⟩⟩], .None, []⟩) :=
    ⟨C94_one_way_offers_misread.1, by decide, by decide, by decide, by rw [a2, List.length_replicate]; decide⟩
  refine ⟨bufA', _, A.matchCaps B.caps, B.matchCaps A.caps, _, a1,
    meet_ok B A.openMessage (speaker_encodable _ _) _ (by simp only [BgpSessionParams.openMessage]; omega), rfl,
    sayAll_ok _ _ bufA' ?_, ?_⟩
  · intro m hm
    simp only [List.mem_cons, List.not_mem_nil, or_false] at hm
    rcases hm with rfl | rfl
    · exact hs
    · show 19 ≤ bufA'.length
      rw [a2, List.length_replicate]; decide
  · obtain ⟨-, -, buf', n, e1, e2⟩ := C94_one_way_offers_misread
    have e3 := (sayer_ok hs).1 (List.replicate 100 0) (by decide)
    simp only [sayer] at e3
    rw [e3] at e1
    simp only [Res.ok.injEq, Prod.mk.injEq] at e1
    obtain ⟨rfl, rfl⟩ := e1
    rw [List.take_left' rfl] at e2
    have u1 : understand (B.matchCaps A.caps) .Update
        (saidBody (A.matchCaps B.caps) (.update ⟨.IPV4UP [⟨0, ⟨0x0a000000, 8⟩⟩], .None, []⟩)) =
        .ok (.update ⟨.IPV4U [⟨0, 0⟩, ⟨0, 0⟩, ⟨0, 0⟩, ⟨0, 0⟩, ⟨0x0a000000, 8⟩], .IPV4U [], []⟩) := by
      simp only [understand]
      rw [e2]
      rfl
    unfold hear
    generalize hf : List.length _ + 1 = fuel
    have hf' : fuel = 46 + 3 := by rw [← hf]; decide
    subst hf'
    rw [List.flatMap_cons, List.flatMap_cons, List.flatMap_nil]
    unfold saidWire
    refine (hear_message (B.matchCaps A.caps) 48 .Update _ _ _ (by decide) u1).trans ?_
    have h2 : hearLoop (B.matchCaps A.caps) 48 (message (sayer (A.matchCaps B.caps) .keepalive).1
        (saidBody (A.matchCaps B.caps) .keepalive) ++ []) = ([.keepalive], .ok ()) :=
      (hear_message (B.matchCaps A.caps) 47 .Keepalive [] [] .keepalive (by decide) rfl).trans rfl
    rw [h2]

/-- non-vacuity of `C110_history_partial` and `C110_break_partial`: two ends that both offer both directions, and a history -/
example : let S := (speaker true true).matchCaps (speaker true true).caps
    (∀ fam, Agree S S fam) ∧ S.fuzzyPathid = false ∧
      ∀ m ∈ ([.keepalive, .update ⟨.IPV4UP [⟨7, ⟨0x0a000000, 8⟩⟩], .None, []⟩, .notification ⟨6, 2, 0⟩] : List Said),
        Sayable S 4096 m := by
  intro S
  refine ⟨?_, by decide, ?_⟩
  · exact C94_both_directions_partial _ _ (by decide) (by decide) (by
      intro o ho; rcases ho with ⟨v, h1, h2⟩
      simp only [speaker, BgpSessionParams.new, List.mem_cons, List.not_mem_nil, or_false, reduceCtorEq, false_or, BgpCapability.CapAddPath.injEq] at h1
      subst h1; simp at h2; subst h2; rfl) (by
      intro o ho; rcases ho with ⟨v, h1, h2⟩
      simp only [speaker, BgpSessionParams.new, List.mem_cons, List.not_mem_nil, or_false, reduceCtorEq, false_or, BgpCapability.CapAddPath.injEq] at h1
      subst h1; simp at h2; subst h2; rfl)
  · intro m hm
    simp only [List.mem_cons, List.not_mem_nil, or_false] at hm
    rcases hm with rfl | rfl | rfl
    · show 19 ≤ 4096; decide
    · refine ⟨sendOk_updates _ _ (.inr ⟨⟨true, rfl⟩, ?_, ?_⟩), by decide, by decide, by decide, by decide⟩
      · simp [AddrsWF, NlriKind.WF]
      · rintro f ap hk -
        simp only [kindOf, Option.some.injEq, Prod.mk.injEq] at hk
        obtain ⟨rfl, rfl⟩ := hk
        decide
    · show 23 ≤ 4096; decide

end Zbgp.Props
