import Verif.Spec.Dumper
import Verif.Lemmas.UpdateReads
import Verif.Lemmas.OpenReads
import Verif.Lemmas.Bmp

/-! # Helper lemmas: the example program -/

namespace Zbgp

open Spec BgpSessionParams

theorem head_take {s : Bytes} {size : Nat} {ty : BgpMessageType} {rest : Bytes} (h : HeadIs s size ty rest) :
    recvMessageHead s = if size < 19 then .panic else .ok ((ty, size - 19), rest) := by
  obtain ⟨hn, rfl⟩ := h
  unfold recvMessageHead
  rw [if_neg (by simp; omega)]
  have e1 : List.take 19 (List.replicate 16 (255 : U8) ++ (be 2 size ++ (be 1 (typeCode ty) ++ rest))) =
      List.replicate 16 255 ++ (be 2 size ++ (be 1 (typeCode ty) ++ [])) := by
    rw [show List.replicate 16 (255 : U8) ++ (be 2 size ++ (be 1 (typeCode ty) ++ rest)) =
      (List.replicate 16 255 ++ (be 2 size ++ (be 1 (typeCode ty) ++ []))) ++ rest by simp, List.take_left' (by simp)]
  have e2 : List.drop 19 (List.replicate 16 (255 : U8) ++ (be 2 size ++ (be 1 (typeCode ty) ++ rest))) = rest := by
    rw [show List.replicate 16 (255 : U8) ++ (be 2 size ++ (be 1 (typeCode ty) ++ rest)) =
      (List.replicate 16 255 ++ (be 2 size ++ (be 1 (typeCode ty) ++ []))) ++ rest by simp, List.drop_left' (by simp)]
  rw [e1, e2, head_form size ty [] hn]
  split <;> rfl

theorem head_cases (s : Bytes) : (NoHead s ∧ ∃ e, recvMessageHead s = .err e) ∨ ∃ size ty rest, HeadIs s size ty rest := by
  by_cases h : ∃ size ty rest, HeadIs s size ty rest
  · exact .inr h
  · refine .inl ⟨h, ?_⟩
    unfold recvMessageHead
    by_cases hl : s.length < 19
    · exact ⟨_, if_pos hl⟩
    · rw [if_neg hl]
      rcases head_other (s.take 19) with he | ⟨n, t, rest, he, hn⟩
      · cases hd : decodeMessageHead (s.take 19) with
        | err e => exact ⟨e, rfl⟩
        | ok _ => rw [hd] at he; exact absurd he id
        | panic => rw [hd] at he; exact absurd he id
        | hang => rw [hd] at he; exact absurd he id
      · refine absurd ⟨n, t, rest ++ s.drop 19, hn, ?_⟩ h
        conv => lhs; rw [← List.take_append_drop 19 s, he]
        simp

theorem head_message (ty : BgpMessageType) (body rest : Bytes) (hl : body.length ≤ 65516) :
    HeadIs (message ty body ++ rest) (body.length + 19) ty (body ++ rest) := by
  refine ⟨by omega, ?_⟩
  simp [message, header]

theorem message_of_head {s : Bytes} {size : Nat} {ty : BgpMessageType} {rest : Bytes} (h : HeadIs s size ty rest)
    (hs : 19 ≤ size) (hr : ¬ rest.length + 19 < size) :
    s = message ty (rest.take (size - 19)) ++ rest.drop (size - 19) ∧ (rest.take (size - 19)).length = size - 19 ∧
      (rest.take (size - 19)).length ≤ 65516 := by
  obtain ⟨hn, rfl⟩ := h
  have hl : (rest.take (size - 19)).length = size - 19 := by simp; omega
  refine ⟨?_, hl, by omega⟩
  unfold message header
  rw [hl, Nat.sub_add_cancel hs]
  simp

theorem head_inj {s : Bytes} {n n' : Nat} {t t' : BgpMessageType} {r r' : Bytes} (h : HeadIs s n t r) (h' : HeadIs s n' t' r') :
    n = n' ∧ t = t' ∧ r = r' := by
  obtain ⟨hn, rfl⟩ := h
  obtain ⟨hn', e⟩ := h'
  have e1 := List.append_cancel_left e
  have e2 := List.append_inj e1 (by simp)
  have e3 := List.append_inj e2.2 (by simp)
  have a : n = n' := be_inj (n := 2) (by omega) (by omega) e2.1
  refine ⟨a, ?_, e3.2⟩
  have := e3.1
  revert this
  cases t <;> cases t' <;> first | (intro _; rfl) | (intro h; exact absurd h (by decide))

theorem notification_short (body : Bytes) (h : body.length < 2) (self : BgpNotificationMessage) :
    ∃ e, self.decodeFrom body = .err e := ⟨_, by unfold BgpNotificationMessage.decodeFrom; rw [if_pos h]⟩

theorem notification_long (body : Bytes) (h : ¬ body.length < 2) (self : BgpNotificationMessage) :
    ∃ m, self.decodeFrom body = .ok m := by
  match body, h with
  | [], h => simp at h
  | [_], h => simp at h
  | [a, b], _ => exact ⟨_, rfl⟩
  | [a, b, c], _ => exact ⟨_, rfl⟩
  | a :: b :: c :: d :: r, _ =>
    exact ⟨⟨a, b, _⟩, by unfold BgpNotificationMessage.decodeFrom; simp [idx]; rfl⟩

theorem update_new (p : BgpSessionParams) (body : Bytes) (m : BgpUpdateMessage) :
    BgpUpdateMessage.new.decodeFrom p body = .ok m ↔ UpdateRead p body m.withdraws m.attrs m.updates := by
  rw [(update_exactly .new p body).ok]
  constructor
  · rintro ⟨l, h, e⟩
    rw [e]
    exact h
  · intro h
    exact ⟨_, h, rfl⟩

/-- the loop does what is specified -/
theorem loop_dumps (p : BgpSessionParams) : ∀ fuel s, s.length < fuel →
    Dumps p s (lifecycleLoop p fuel s).1 (lifecycleLoop p fuel s).2 := by
  intro fuel
  induction fuel with
  | zero => intro s h; omega
  | succ fuel ih =>
    intro s hf
    rcases head_cases s with ⟨h, e, he⟩ | ⟨size, ty, rest, h⟩
    · unfold lifecycleLoop
      rw [he]
      exact .noHead s e h
    · have ht := head_take h
      have hlen : s.length = rest.length + 19 := by rw [h.2]; simp; omega
      unfold lifecycleLoop
      by_cases hs : size < 19
      · rw [ht, if_pos hs]
        exact .tiny s rest size ty h hs
      rw [ht, if_neg hs]
      simp only
      by_cases hk : ty = .Keepalive
      · subst hk
        rw [if_pos rfl]
        exact .keepalive s rest size _ _ h (by omega) (ih rest (by omega))
      rw [if_neg hk, if_neg (by have := h.1; omega)]
      by_cases hc : rest.length < size - 19
      · rw [if_pos hc]
        exact .cut s rest size ty _ h (by omega) hk (by omega)
      rw [if_neg hc]
      obtain ⟨e1, e2, e3⟩ := message_of_head h (by omega) (by omega)
      have hd : (rest.drop (size - 19)).length < fuel := by simp; omega
      generalize rest.take (size - 19) = body at *
      generalize rest.drop (size - 19) = tail at *
      subst e1
      match ty, hk with
      | .Keepalive, hk => exact absurd rfl hk
      | .Open, _ => exact .openAgain body tail e3
      | .Notification, _ =>
        simp only
        by_cases hb : body.length < 2
        · obtain ⟨e, he⟩ := notification_short body hb .new
          rw [he]
          exact .badNotification body tail e hb
        · obtain ⟨m, hm⟩ := notification_long body hb .new
          rw [hm]
          exact .notification body tail m e3 ((notification_iff .new body m).1 hm)
      | .Update, _ =>
        simp only
        have hex := update_exactly .new p body
        cases hu : BgpUpdateMessage.new.decodeFrom p body with
        | ok m => exact .update body tail m _ _ e3 ((update_new p body m).1 hu) (ih tail hd)
        | err e =>
          refine .badUpdate body tail e _ _ e3 ?_ ?_ (ih tail hd)
          · rintro ⟨w, l, u, h⟩
            have := (update_new p body ⟨u, w, l⟩).2 h
            rw [hu] at this; cases this
          · intro hc
            have := hex.crash.2 hc
            rw [hu] at this; cases this
        | panic => exact .crash body tail e3 (hex.crash.1 hu)
        | hang => exact absurd hu hex.noHang

theorem loop_message (p : BgpSessionParams) (fuel : Nat) (ty : BgpMessageType) (body rest : Bytes)
    (hl : body.length ≤ 65516) (hk : ty ≠ .Keepalive) :
    lifecycleLoop p (fuel + 1) (message ty body ++ rest) =
      match ty with
        | .Open => ([.incorrectOpen], .ok ())
        | .Keepalive => lifecycleLoop p fuel rest
        | .Notification =>
          match BgpNotificationMessage.new.decodeFrom body with
          | .ok m => ([.notification m], .ok ())
          | .err e => ([.notificationError e], .ok ())
          | .panic => ([], .panic)
          | .hang => ([], .hang)
        | .Update =>
          match BgpUpdateMessage.new.decodeFrom p body with
          | .ok m => (.update m :: (lifecycleLoop p fuel rest).1, (lifecycleLoop p fuel rest).2)
          | .err e => (.updateError e :: (lifecycleLoop p fuel rest).1, (lifecycleLoop p fuel rest).2)
          | .panic => ([], .panic)
          | .hang => ([], .hang) := by
  have h := head_take (head_message ty body rest hl)
  rw [if_neg (by omega)] at h
  conv => lhs; unfold lifecycleLoop
  rw [h]
  simp only
  rw [if_neg hk, if_neg (by omega), if_neg (by simp), Nat.add_sub_cancel, List.take_left' rfl, List.drop_left' rfl]
  cases ty <;> rfl

/-- there is nothing else that is specified -/
theorem dumps_loop (p : BgpSessionParams) {s : Bytes} {es : List DumperEvent} {o : Res Unit} (h : Dumps p s es o) :
    ∀ fuel, s.length < fuel → (lifecycleLoop p fuel s).1.map forget = es.map forget ∧
      forgetEnd (lifecycleLoop p fuel s).2 = forgetEnd o := by
  induction h with
  | noHead s e h =>
    intro fuel hf
    match fuel, hf with
    | f + 1, _ =>
      rcases head_cases s with ⟨-, e', he⟩ | hx
      · unfold lifecycleLoop; rw [he]; exact ⟨rfl, rfl⟩
      · exact absurd hx h
  | tiny s rest size ty h hs =>
    intro fuel hf
    match fuel, hf with
    | f + 1, _ =>
      unfold lifecycleLoop; rw [head_take h, if_pos hs]; exact ⟨rfl, rfl⟩
  | keepalive s rest size es o h hs hr ih =>
    intro fuel hf
    have hlen : s.length = rest.length + 19 := by rw [h.2]; simp; omega
    match fuel, hf with
    | f + 1, hf =>
      unfold lifecycleLoop; rw [head_take h, if_neg (by omega)]
      simp only [if_pos]
      exact ih f (by omega)
  | cut s rest size ty e h hs hk hc =>
    intro fuel hf
    match fuel, hf with
    | f + 1, hf =>
      unfold lifecycleLoop; rw [head_take h, if_neg (by omega)]
      simp only
      rw [if_neg hk, if_neg (by have := h.1; omega), if_pos (by omega)]
      exact ⟨rfl, rfl⟩
  | openAgain body rest hl =>
    intro fuel hf
    match fuel, hf with
    | f + 1, hf => rw [loop_message p f _ body rest hl (by simp)]; exact ⟨rfl, rfl⟩
  | notification body rest m hl h =>
    intro fuel hf
    match fuel, hf with
    | f + 1, hf =>
      rw [loop_message p f _ body rest hl (by simp), (notification_iff .new body m).2 h]; exact ⟨rfl, rfl⟩
  | badNotification body rest e hl =>
    intro fuel hf
    obtain ⟨e', he⟩ := notification_short body hl .new
    match fuel, hf with
    | f + 1, hf =>
      rw [loop_message p f _ body rest (by omega) (by simp), he]; exact ⟨rfl, rfl⟩
  | update body rest m es o hl h hr ih =>
    intro fuel hf
    match fuel, hf with
    | f + 1, hf =>
      rw [loop_message p f _ body rest hl (by simp), (update_new p body m).2 h]
      have := ih f (by simp [message, header_length] at hf; omega)
      exact ⟨by simp [this.1], this.2⟩
  | badUpdate body rest e es o hl h hc hr ih =>
    intro fuel hf
    match fuel, hf with
    | f + 1, hf =>
      rw [loop_message p f _ body rest hl (by simp)]
      have hex := update_exactly .new p body
      have := ih f (by simp [message, header_length] at hf; omega)
      cases hu : BgpUpdateMessage.new.decodeFrom p body with
      | ok m => exact absurd ⟨_, _, _, (update_new p body m).1 hu⟩ h
      | err e' => exact ⟨by simp [this.1, forget], this.2⟩
      | panic => exact absurd (hex.crash.1 hu) hc
      | hang => exact absurd hu hex.noHang
  | crash body rest hl h =>
    intro fuel hf
    match fuel, hf with
    | f + 1, hf =>
      rw [loop_message p f _ body rest hl (by simp), (update_exactly .new p body).crash.2 h]; exact ⟨rfl, rfl⟩

/-! ## the start -/

/-- the loop of `check_caps` -/
def capStep (p : BgpSessionParams) (cap : BgpCapability) : BgpSessionParams :=
  match cap with
  | .CapASN32 n => { p with hasAs32bit := true, asNum := n }
  | _ => p

theorem checkCaps_fold (p : BgpSessionParams) :
    p.checkCaps = p.caps.foldl capStep { p with hasAs32bit := false } := by
  unfold checkCaps
  congr 1

theorem checkCaps_fields (caps : List BgpCapability) : ∀ q : BgpSessionParams,
    caps.foldl capStep q =
      { q with hasAs32bit := q.hasAs32bit || caps.any isASN32, asNum := lastAs q.asNum caps } := by
  induction caps with
  | nil => intro q; simp [lastAs]
  | cons c cs ih =>
    intro q
    rw [List.foldl_cons, ih]
    cases c <;> simp [lastAs, isASN32, capStep]

theorem checkCaps_settled (p : BgpSessionParams) (m : BgpOpenMessage) :
    { p with holdTime := m.holdTime, caps := m.caps }.checkCaps = settled p m := by
  unfold settled
  rw [checkCaps_fold, checkCaps_fields]
  simp only [Bool.false_or]
  congr 1
  rw [Bool.eq_iff_iff]
  simp only [List.any_eq_true, decide_eq_true_iff]
  constructor
  · rintro ⟨c, hc, h⟩
    cases c <;> first | exact ⟨_, hc⟩ | cases h
  · rintro ⟨n, hn⟩
    exact ⟨_, hn, rfl⟩

theorem answer_message (p : BgpSessionParams) (buf body rest : Bytes) (hb : buf.length = 4096) (hl : body.length ≤ 4096) :
    dumperAnswer p buf (message .Open body ++ rest) =
      (p.openMessage.decodeFrom body >>= fun m => .ok (settled p m, rest)) := by
  have h := head_take (head_message .Open body rest (by omega))
  rw [if_neg (by omega)] at h
  unfold dumperAnswer
  rw [h]
  simp only [Res.ok_bind]
  rw [if_neg (by simp), Nat.add_sub_cancel, rslice_ok (by omega) (by omega), Res.ok_bind, if_neg (by simp),
    List.take_left' rfl, List.drop_left' rfl]
  congr 1
  funext m
  rw [checkCaps_settled]

theorem answer_head (p : BgpSessionParams) {buf s rest : Bytes} {size : Nat} {ty : BgpMessageType} (hb : buf.length = 4096)
    (h : HeadIs s size ty rest) : (size < 19 → dumperAnswer p buf s = .panic) ∧
    (19 ≤ size → ty ≠ .Open → ∃ e, dumperAnswer p buf s = .err e) ∧
    (4096 + 19 < size → ty = .Open → dumperAnswer p buf s = .panic) ∧
    (19 ≤ size → size ≤ 4096 + 19 → rest.length + 19 < size → ty = .Open → ∃ e, dumperAnswer p buf s = .err e) := by
  have ht := head_take h
  refine ⟨fun hs => ?_, fun hs ho => ?_, fun hs ho => ?_, fun h1 h2 h3 ho => ?_⟩
  · unfold dumperAnswer; rw [ht, if_pos hs]; rfl
  · unfold dumperAnswer; rw [ht, if_neg (by omega)]
    simp only [Res.ok_bind]
    rw [if_pos ho]
    exact ⟨_, rfl⟩
  · unfold dumperAnswer; rw [ht, if_neg (by omega)]
    simp only [Res.ok_bind]
    rw [if_neg (by simp [ho])]
    have : rslice buf 0 (size - 19) = .panic := by unfold rslice; rw [if_neg (by omega)]
    rw [this]; rfl
  · unfold dumperAnswer; rw [ht, if_neg (by omega)]
    simp only [Res.ok_bind]
    rw [if_neg (by simp [ho]), rslice_ok (by omega) (by omega), Res.ok_bind, if_pos (by omega)]
    exact ⟨_, rfl⟩

theorem open_cases (self : BgpOpenMessage) (hret : ∀ b, (self.decodeFrom b).Returns) (b : Bytes) :
    (∃ m, OpenRead b m ∧ self.decodeFrom b = .ok m) ∨ ((¬ ∃ m, OpenRead b m) ∧ ∃ e, self.decodeFrom b = .err e) := by
  cases h : self.decodeFrom b with
  | ok m => exact .inl ⟨m, (open_iff self b m).1 h, rfl⟩
  | err e =>
    refine .inr ⟨?_, e, rfl⟩
    rintro ⟨m, hm⟩
    rw [(open_iff self b m).2 hm] at h; cases h
  | panic => exact absurd (hret b) (by rw [h]; exact id)
  | hang => exact absurd (hret b) (by rw [h]; exact id)

theorem answer_starts (p : BgpSessionParams) (hret : ∀ b, (p.openMessage.decodeFrom b).Returns) (buf s : Bytes)
    (hb : buf.length = 4096) : Starts p s (dumperAnswer p buf s) := by
  rcases head_cases s with ⟨h, e, he⟩ | ⟨size, ty, rest, h⟩
  · have : dumperAnswer p buf s = .err e := by unfold dumperAnswer; rw [he]; rfl
    rw [this]; exact .noHead s e h
  obtain ⟨h1, h2, h3, h4⟩ := answer_head p hb h
  by_cases hs : size < 19
  · rw [h1 hs]; exact .tiny s rest size ty h hs
  by_cases ho : ty = .Open
  swap
  · obtain ⟨e, he⟩ := h2 (by omega) ho
    rw [he]; exact .other s rest size ty e h (by omega) ho
  by_cases hl : 4096 + 19 < size
  · rw [h3 hl ho]; subst ho; exact .large s rest size h hl
  by_cases hc : rest.length + 19 < size
  · obtain ⟨e, he⟩ := h4 (by omega) (by omega) hc ho
    rw [he]; subst ho; exact .cut s rest size e h (by omega) (by omega) hc
  obtain ⟨e1, e2, -⟩ := message_of_head h (by omega) hc
  subst ho
  generalize rest.take (size - 19) = body at *
  generalize rest.drop (size - 19) = tail at *
  subst e1
  have hb' : body.length ≤ 4096 := by omega
  rw [answer_message p buf body tail hb hb']
  rcases open_cases p.openMessage hret body with ⟨m, hm, he⟩ | ⟨hm, e, he⟩
  · rw [he]; exact .answer body tail m hb' hm
  · rw [he]; exact .refused body tail e hb' hm

theorem starts_answer (p : BgpSessionParams) (hret : ∀ b, (p.openMessage.decodeFrom b).Returns) (buf : Bytes) {s : Bytes}
    {o : Res (BgpSessionParams × Bytes)} (hb : buf.length = 4096) (h : Starts p s o) :
    forgetEnd (dumperAnswer p buf s) = forgetEnd o := by
  cases h with
  | noHead _ e h =>
    rcases head_cases s with ⟨-, e', he⟩ | hx
    · unfold dumperAnswer; rw [he]; rfl
    · exact absurd hx h
  | tiny _ rest size ty h hs => rw [(answer_head p hb h).1 hs]
  | other _ rest size ty e h hs ho => obtain ⟨e', he⟩ := (answer_head p hb h).2.1 hs ho; rw [he]; rfl
  | large _ rest size h hs => rw [(answer_head p hb h).2.2.1 hs rfl]
  | cut _ rest size e h hs hl hc => obtain ⟨e', he⟩ := (answer_head p hb h).2.2.2 hs hl hc rfl; rw [he]; rfl
  | refused body rest e hl h =>
    rw [answer_message p buf body rest hb hl]
    rcases open_cases p.openMessage hret body with ⟨m, hm, he⟩ | ⟨hm, e', he⟩
    · exact absurd ⟨m, hm⟩ h
    · rw [he]; rfl
  | answer body rest m hl h =>
    rw [answer_message p buf body rest hb hl, (open_iff _ body m).2 h]; rfl

/-- the OPEN of the program -/
theorem dumperOpen_ok (p : BgpSessionParams) (hc : ∀ c ∈ p.caps, CapEncodable c)
    (hb : 29 + (capsParams p.caps).length ≤ 4096) :
    ∃ buf, buf.length = 4096 ∧ dumperOpen p =
      .ok (buf, message .Open (openWire p.asNum.toNat p.holdTime.toNat p.routerId.toNat (capsParams p.caps))) := by
  have hw := writes_open p.openMessage hc
  have hlen := openWire_length p.asNum.toNat p.holdTime.toNat p.routerId.toNat (capsParams p.caps)
  have e0 : openWire p.openMessage.asNum.toNat p.openMessage.holdTime.toNat p.openMessage.routerId.toNat
    (capsParams p.openMessage.caps) = openWire p.asNum.toNat p.holdTime.toNat p.routerId.toNat (capsParams p.caps) := rfl
  rw [e0] at hw
  generalize openWire p.asNum.toNat p.holdTime.toNat p.routerId.toNat (capsParams p.caps) = w at *
  have hbuf : (List.replicate 4096 (255 : U8)).length = 4096 := List.length_replicate
  generalize hB : List.replicate 4096 (255 : U8) = B at hbuf
  have h1 : onFrom B 19 p.openMessage.encodeTo =
      .ok (B.take 19 ++ (w ++ (B.drop 19).drop w.length), w.length) := by
    unfold onFrom
    rw [if_pos (by omega), hw _ (by simp; omega)]
    rfl
  have h2 : prepareMessageBuf (B.take 19 ++ (w ++ (B.drop 19).drop w.length)) .Open w.length =
      .ok (header .Open w.length ++ (w ++ (B.drop 19).drop w.length), w.length + 19) := by
    rw [prepare_ok _ _ _ (by omega) (by simp; omega), List.drop_left' (by simp; omega)]
  refine ⟨header .Open w.length ++ (w ++ (B.drop 19).drop w.length), by simp [header_length]; omega, ?_⟩
  unfold dumperOpen
  simp only
  rw [hB, h1]
  simp only [Res.ok_bind]
  rw [h2]
  simp only [Res.ok_bind]
  rw [← List.append_assoc, rslice_append_zero _ _ _ (by simp [header_length]; omega)]
  rfl

end Zbgp
