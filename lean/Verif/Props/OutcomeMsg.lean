import Verif.Lemmas.OutcomeMsg
import Verif.Props.Outcome

/-!
# C117: the outcome of encoding OPEN, NOTIFICATION and BMP messages, and of sending messages, for every value
-/

namespace Zbgp.Props

open Spec BgpSessionParams

/-- **C117**, OPEN: every OPEN, with whatever capabilities, has the outcome `openFate` says. -/
theorem C117_open (m : BgpOpenMessage) : Ends m.encodeTo (openFate m) := ends_open m

/-- a restart time of 4096 is refused, one of 4095 sent -/
example : openFate ⟨65001, 180, 0x0a000001, [.CapRR, .CapGR 4096 false []]⟩ = .refused ∧
    openFate ⟨65001, 180, 0x0a000001, [.CapRR, .CapGR 4095 true []]⟩ =
      .octets [4, 0xfd, 0xe9, 0, 180, 10, 0, 0, 1, 10, 2, 2, 2, 0, 2, 4, 64, 2, 0x8f, 0xff] := ⟨rfl, rfl⟩
/-- the host name "ab" of the domain "c" -/
example : openFate ⟨70000, 180, 0x0a000001, [.CapFQDN [97, 98] [99]]⟩ =
      .sent ([4, 0x5b, 0xa0, 0, 180, 10, 0, 0, 1, 9, 2, 7, 73, 97, 98, 1, 99].map some ++ [none, none]) ∧
    BgpOpenMessage.encodeTo ⟨70000, 180, 0x0a000001, [.CapFQDN [97, 98] [99]]⟩ (List.replicate 20 0xee) =
      .ok ([4, 0x5b, 0xa0, 0, 180, 10, 0, 0, 1, 9, 2, 7, 73, 97, 98, 1, 99, 0xee, 0xee, 0xee], 19) := ⟨rfl, rfl⟩
set_option maxRecDepth 8000 in
/-- 64 entries of AddPath are sent with the length 0 for the capability and 2 for the parameter -/
example : openFate ⟨1, 180, 1, [.CapAddPath (List.replicate 64 ⟨1, 1, true, true⟩)]⟩ =
    .octets ([4, 0, 1, 0, 180, 0, 0, 0, 1, 4, 2, 2, 69, 0] ++ (List.replicate 64 [0, 1, 1, 3]).flatten) := rfl

/-- **C117**, OPEN: if every capability can be put on the wire, the outcome is the wire form. -/
theorem C117_open_wire_form (m : BgpOpenMessage) (h : ∀ c ∈ m.caps, CapEncodable c) :
    openFate m = .octets (openWire m.asNum.toNat m.holdTime.toNat m.routerId.toNat (capsParams m.caps)) := by
  have h1 : ∀ c, CapEncodable c → capFate c = .octets (capParam (capTlv c)) := by
    intro c hc
    cases c with
    | CapFQDN a d => exact hc.1.elim
    | CapGR t s a => show (if _ then _ else _) = _; rw [if_pos hc.1]
    | CapLLGR v => show (if _ then _ else _) = _; rw [if_pos hc.1]
    | _ => rfl
  have h2 : ∀ l : List BgpCapability, (∀ c ∈ l, CapEncodable c) → Fate.all capFate l = .octets (capsParams l) ∧
      (l.map fun c => capSize c + 2).sum = (capsParams l).length := by
    intro l hl
    induction l with
    | nil => exact ⟨rfl, rfl⟩
    | cons c l ih =>
      obtain ⟨i1, i2⟩ := ih fun c hc => hl c (by simp [hc])
      have hc := hl c (by simp)
      have e : capsParams (c :: l) = capParam (capTlv c) ++ capsParams l := by simp [capsParams]
      refine ⟨?_, ?_⟩
      · rw [Fate.all, h1 c hc, i1, e, octets_append]
      · rw [List.map_cons, List.sum_cons, i2, e, List.length_append, capParam, tlv_length, capSize_eq,
          capTlv_length c (encodable_notFQDN hc)]
        omega
  obtain ⟨h3, h4⟩ := h2 m.caps h
  rw [openFate, openHead, h3, h4, ← octets_append]
  simp [openWire]

example : ∀ c ∈ [BgpCapability.CapASN32 70000, .SafiIPv4u], CapEncodable c := by
  intro c hc
  simp only [List.mem_cons, List.not_mem_nil, or_false] at hc
  rcases hc with rfl | rfl <;> exact ⟨trivial, by decide⟩

/-- **C117**, OPEN: if one capability has a timer that does not fit, the message is refused, whatever the others are. -/
theorem C117_open_refused (m : BgpOpenMessage) : openFate m = .refused ↔
    (∃ t s afis, .CapGR t s afis ∈ m.caps ∧ 2 ^ 12 ≤ t.toNat) ∨
    (∃ v l, .CapLLGR v ∈ m.caps ∧ l ∈ v ∧ 2 ^ 24 ≤ l.staleTime.toNat) := by
  have h0 : ∀ c, capFate c = .refused ↔ (∃ t s afis, c = .CapGR t s afis ∧ 2 ^ 12 ≤ t.toNat) ∨
      (∃ v l, c = .CapLLGR v ∧ l ∈ v ∧ 2 ^ 24 ≤ l.staleTime.toNat) := by
    intro c
    cases c with
    | CapGR t s a =>
      show (if _ then _ else _) = _ ↔ _
      by_cases h : t.toNat < 2 ^ 12
      · rw [if_pos h]
        refine ⟨fun hh => (by cases hh), ?_⟩
        rintro (⟨t', s', a', e, h'⟩ | ⟨v, l, e, -⟩)
        · cases e; omega
        · cases e
      · rw [if_neg h]
        exact ⟨fun _ => .inl ⟨t, s, a, rfl, by omega⟩, fun _ => rfl⟩
    | CapLLGR v =>
      show (if _ then _ else _) = _ ↔ _
      by_cases h : ∀ l ∈ v, l.staleTime.toNat < 2 ^ 24
      · rw [if_pos h]
        refine ⟨fun hh => (by cases hh), ?_⟩
        rintro (⟨t', s', a', e, h'⟩ | ⟨v', l, e, hl, h'⟩)
        · cases e
        · cases e
          have := h l hl
          omega
      · rw [if_neg h]
        refine ⟨fun _ => .inr ?_, fun _ => rfl⟩
        simp only [Classical.not_forall] at h
        obtain ⟨l, hl, h⟩ := h
        exact ⟨v, l, rfl, hl, by omega⟩
    | _ =>
      refine ⟨fun hh => (by cases hh), ?_⟩
      rintro (⟨t', s', a', e, h'⟩ | ⟨v', l, e, hl, h'⟩) <;> cases e
  have hcr : ∀ c, capFate c ≠ .crash := by
    intro c
    cases c with
    | CapGR t s a => show (if _ then _ else _) ≠ _; split <;> intro h <;> cases h
    | CapLLGR v => show (if _ then _ else _) ≠ _; split <;> intro h <;> cases h
    | _ => intro h; cases h
  have h1 : ∀ l : List BgpCapability, Fate.all capFate l = .refused ↔ ∃ c ∈ l, capFate c = .refused := by
    intro l
    induction l with
    | nil => simp [Fate.all]
    | cons c l ih =>
      rw [Fate.all]
      cases hc : capFate c with
      | sent w =>
        cases hl : Fate.all capFate l with
        | sent v => rw [hl] at ih; simp only [Fate.andThen, List.mem_cons, exists_eq_or_imp, hc, ← ih]; simp
        | refused => rw [hl] at ih; simp only [Fate.andThen, List.mem_cons, exists_eq_or_imp, ← ih]; simp
        | crash => rw [hl] at ih; simp only [Fate.andThen, List.mem_cons, exists_eq_or_imp, hc, ← ih]; simp
      | refused => simp [Fate.andThen, hc]
      | crash => exact absurd hc (hcr c)
  have h2 : openFate m = .refused ↔ Fate.all capFate m.caps = .refused := by
    unfold openFate Fate.octets
    cases Fate.all capFate m.caps <;> simp [Fate.andThen]
  rw [h2, h1]
  constructor
  · rintro ⟨c, hc, h⟩
    rcases (h0 c).1 h with ⟨t, s, a, rfl, h'⟩ | ⟨v, l, rfl, hl, h'⟩
    · exact .inl ⟨t, s, a, hc, h'⟩
    · exact .inr ⟨v, l, hc, hl, h'⟩
  · rintro (⟨t, s, a, hc, h⟩ | ⟨v, l, hc, hl, h⟩)
    · exact ⟨_, hc, (h0 _).2 (.inl ⟨t, s, a, rfl, h⟩)⟩
    · exact ⟨_, hc, (h0 _).2 (.inr ⟨v, l, rfl, hl, h⟩)⟩

example : openFate ⟨1, 180, 1, [.CapFQDN [97] [98], .CapLLGR [⟨1, 1, 0, 5⟩, ⟨2, 1, 0, 0x1000000⟩]]⟩ = .refused := rfl

/-- **C117**, NOTIFICATION: always the same four octets. -/
theorem C117_notification (m : BgpNotificationMessage) : Ends m.encodeTo (.octets (notifWire m)) := ends_writes (notif_writes m)

example : BgpNotificationMessage.encodeTo ⟨6, 2, 0x0102⟩ (List.replicate 5 9) = .ok ([6, 2, 1, 2, 9], 4) := rfl

/-- **C117**, messages with their header: the body is encoded behind the first 19 octets of the buffer, and the header then
put in front; whatever the outcome of the body, that of the message is `messageFate` of it. -/
theorem C117_message (ty : BgpMessageType) (enc : Enc) (fate : Fate) (h : Ends enc fate) :
    Ends (fun buf => do
      let (buf, n) ← onFrom buf 19 enc
      prepareMessageBuf buf ty n) (messageFate .checked ty fate) := by
  have := ends_message .checked ty h
  refine ends_nonempty this fun buf _ => ?_
  rw [embEnc_checked]
  unfold encodeEmbedded
  rw [Nat.zero_add]
  cases onFrom buf 19 enc with
  | ok r =>
    simp only [Res.ok_bind]
    have := onFrom_append [] r.1 0 (fun b => prepareMessageBuf b ty r.2) rfl
    simp only [List.nil_append] at this
    rw [this]
    cases prepareMessageBuf r.1 ty r.2 <;> simp
  | _ => rfl

example : messageFate .checked .Keepalive (.octets []) = .octets (List.replicate 16 255 ++ [0, 19, 4]) ∧
    messageFate .checked .Update .refused = .refused := ⟨rfl, rfl⟩

/-- **C117**, sending: the octets written to the connection are those of `messageFate`. -/
theorem C117_send (ty : BgpMessageType) (enc : Enc) (fate : Fate) (h : Ends enc fate) :
    Transmits (fun buf => do
      let (buf, n) ← onFrom buf 19 enc
      let (_, out) ← sendMessageBuf buf ty n
      .ok out) (messageFate .checked ty fate) := by
  obtain ⟨room, h⟩ := ends_case (C117_message ty enc fate h)
  refine ⟨room, fun buf hb => ?_⟩
  have h := h buf hb
  have e : (do
      let (buf, n) ← onFrom buf 19 enc
      let (_, out) ← sendMessageBuf buf ty n
      .ok out : Res Bytes) = ((do
      let (buf, n) ← onFrom buf 19 enc
      prepareMessageBuf buf ty n) >>= fun r => rslice r.1 0 r.2) := by
    cases onFrom buf 19 enc with
    | ok r =>
      simp only [Res.ok_bind, send_eq_prepare]
      cases prepareMessageBuf r.1 ty r.2 with
      | ok q => simp only [Res.ok_bind]; cases rslice q.1 0 q.2 <;> rfl
      | _ => rfl
    | _ => rfl
  simp only [e]
  cases hf : messageFate .checked ty fate with
  | sent pat =>
    rw [hf] at h
    obtain ⟨w, rest, f1, e1, -⟩ := h
    refine ⟨w, f1, ?_⟩
    rw [e1]
    simp only [Res.ok_bind, List.nil_append, List.length_nil, Nat.zero_add]
    exact rslice_append_zero _ _ _ rfl
  | refused => rw [hf] at h; exact err_bind h
  | crash =>
    rw [hf] at h
    simp only [EndCase] at h
    rw [h]; rfl

example : (do
      let (buf, n) ← onFrom (List.replicate 30 9) 19 (BgpNotificationMessage.encodeTo ⟨6, 2, 0x0102⟩)
      let (_, out) ← sendMessageBuf buf .Notification n
      .ok out : Res Bytes) = .ok (List.replicate 16 255 ++ [0, 23, 3, 6, 2, 1, 2]) := rfl

/-- **C117**, sending: of a body of 65536 octets or more, only those beyond the last multiple of 65536 are counted, and as many
from its beginning are sent. -/
theorem C117_long_body (ty : BgpMessageType) (enc : Enc) (w : Bytes) (k n : Nat) (h : Ends enc (.octets w))
    (hw : w.length = 65536 * k + n) (hn : n ≤ 65516) :
    Transmits (fun buf => do
      let (buf, n) ← onFrom buf 19 enc
      let (_, out) ← sendMessageBuf buf ty n
      .ok out) (.octets (message ty (w.take n))) := by
  have := C117_send ty enc _ h
  have e : messageFate .checked ty (.octets w) = .octets (message ty (w.take n)) := by
    have hm : w.length % 65536 = n := by omega
    unfold Fate.octets messageFate
    simp only [List.length_map, hm, if_pos hn]
    have : (w.take n).length = n := by simp; omega
    rw [message, this, List.map_append, List.map_take]
  rw [e] at this
  exact this

/-- a body of 65538 octets: two are sent -/
example : Ends (fun b => copyAt b 0 65538 (List.replicate 65538 7) >>= fun r => .ok (r, 65538)) (.octets (List.replicate 65538 7)) ∧
    (List.replicate 65538 (7 : U8)).length = 65536 * 1 + 2 ∧
    message .Update ((List.replicate 65538 (7 : U8)).take 2) = List.replicate 16 255 ++ [0, 21, 2, 7, 7] := by
  refine ⟨ends_writes fun buf hb => ?_, by rw [List.length_replicate], ?_⟩
  · rw [List.length_replicate] at hb
    have := cur_copyAt [] buf (List.replicate 65538 7) 0 65538 rfl (by rw [List.length_replicate]; rfl)
      (by rw [List.length_replicate]; exact hb)
    simp only [List.nil_append] at this
    rw [this, List.length_replicate]; rfl
  · rw [List.take_replicate]; rfl

/-- **C117**, BMP: every BMP message, of whatever contents, has the outcome `bmpFate` says. -/
theorem C117_bmp (x : BmpMessage) : Ends x.encodeTo (bmpFate .checked x) := by
  rw [← bmpEnc_checked]
  exact ends_bmp .checked x

example : bmpFate .checked (.Initiation ⟨none, some [97], some [98, 99]⟩) = .octets [4, 0, 0, 0, 1, 97, 0, 0, 0, 2, 98, 99] ∧
    bmpFate .checked .StatisticsReport = .crash := ⟨rfl, rfl⟩
/-- a route monitoring message with a next hop of the other family is refused -/
example : bmpFate .checked (.RouteMonitoring ⟨⟨0, 0, ⟨0, 0⟩, .v4 0x0a000001, 65001, 1, 0⟩, ⟨.None, .None, [.NextHop ⟨.v6 1⟩]⟩⟩) = .refused ∧
    bmpFate .checked (.RouteMonitoring ⟨⟨0, 0, ⟨0, 0⟩, .v4 0x0a000001, 65001, 1, 0⟩, ⟨.None, .None, [.Origin ⟨.Egp⟩]⟩⟩) =
      .octets ([0, 0, 0, 0, 0, 0, 0, 0, 0, 0, 0] ++ List.replicate 12 0 ++ [10, 0, 0, 1, 0, 0, 0xfd, 0xe9, 0, 0, 0, 1] ++
        List.replicate 8 0 ++ List.replicate 16 255 ++ [0, 27, 2, 0, 0, 0, 4, 64, 1, 1, 1]) := ⟨rfl, rfl⟩

/-- **C117**, BMP: of the three texts of an initiation only their order is sent, not which is which: messages with the same texts
in the same order have the same outcome. -/
theorem C117_initiation_texts (x y : BmpMessageInitiation)
    (h : [x.str0, x.sysDescr, x.sysName].filterMap id = [y.str0, y.sysDescr, y.sysName].filterMap id) :
    Ends (BmpMessage.encodeTo (.Initiation x)) (bmpFate .checked (.Initiation y)) := by
  have e : ∀ z : BmpMessageInitiation, optInfo 0 z.str0 ++ optInfo 0 z.sysDescr ++ optInfo 0 z.sysName =
      ([z.str0, z.sysDescr, z.sysName].filterMap id).flatMap (infoWire 0) := by
    rintro ⟨_ | a, _ | b, _ | c⟩ <;> simp [optInfo]
  have := C117_bmp (.Initiation x)
  simp only [bmpFate, e, h] at this ⊢
  exact this

example : BmpMessage.encodeTo (.Initiation ⟨some [97], none, none⟩) (List.replicate 6 9) =
    BmpMessage.encodeTo (.Initiation ⟨none, none, some [97]⟩) (List.replicate 6 9) ∧
    BmpMessage.encodeTo (.Initiation ⟨some [97], none, none⟩) (List.replicate 6 9) = .ok ([4, 0, 0, 0, 1, 97], 6) := ⟨rfl, rfl⟩

end Zbgp.Props
