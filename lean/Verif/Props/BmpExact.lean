import Verif.Spec.Exact
import Verif.Props.OpenExact
import Verif.Props.Bmp
import Verif.Props.Relay
import Verif.Props.Debug

/-!
# C113: exactly which BMP messages come back unchanged
-/

namespace Zbgp.Props

open Zbgp Spec

/-! ## BGP messages inside -/

theorem take_add_append {α : Type} (a b : List α) (k : Nat) : (a ++ b).take (a.length + k) = a ++ b.take k := List.take_length_add_append _

theorem header_inj {ty : BgpMessageType} {a b : Nat} (ha : a ≤ 65516) (hb : b ≤ 65516) (h : header ty a = header ty b) : a = b := by
  unfold header at h
  have h := List.append_cancel_left h
  have h := (List.append_inj h (by simp)).1
  have := congrArg unbe h
  rw [unbe_be, unbe_be, Nat.mod_eq_of_lt (by omega), Nat.mod_eq_of_lt (by omega)] at this
  omega

theorem embedded_ok {ty : BgpMessageType} {enc : Enc} [KeepsSize enc] {buf buf' : Bytes} {c n : Nat}
    (h : encodeEmbedded ty enc buf c = .ok (buf', n)) :
    ∃ u t k, enc u = .ok (t, k) ∧ u.length = t.length ∧ u.length + 19 + c = buf.length ∧ k ≤ t.length ∧ k % 65536 ≤ 65516 ∧
      n = c + 19 + k % 65536 ∧ buf' = buf.take c ++ (header ty (k % 65536) ++ t) := by
  unfold encodeEmbedded at h
  obtain ⟨⟨b1, k⟩, h1, h⟩ := Res.bind_eq_ok.1 h
  obtain ⟨⟨b2, l⟩, h2, h⟩ := Res.bind_eq_ok.1 h
  simp only [Res.ok.injEq, Prod.mk.injEq] at h
  obtain ⟨rfl, rfl⟩ := h
  unfold onFrom at h1
  split at h1
  case isFalse => cases h1
  rename_i hc
  obtain ⟨⟨t, k'⟩, h3, h1⟩ := Res.bind_eq_ok.1 h1
  simp only [Res.ok.injEq, Prod.mk.injEq] at h1
  obtain ⟨rfl, rfl⟩ := h1
  have hs : t.length = (buf.drop (c + 19)).length := KeepsSize.post (f := enc) _ _ h3
  have ht : t.length = buf.length - (c + 19) := by rw [hs, List.length_drop]
  have hl : (buf.take (c + 19)).length = c + 19 := by simp; omega
  unfold onFrom at h2
  rw [if_pos (by rw [List.length_append, hl]; omega)] at h2
  obtain ⟨⟨t2, l2⟩, h4, h2⟩ := Res.bind_eq_ok.1 h2
  simp only [Res.ok.injEq, Prod.mk.injEq] at h2
  obtain ⟨rfl, rfl⟩ := h2
  dsimp only at h4
  have hd : ((buf.take (c + 19) ++ t).drop c).length = 19 + t.length := by
    rw [List.length_drop, List.length_append, hl]; omega
  by_cases hk : k' + 19 ≤ ((buf.take (c + 19) ++ t).drop c).length
  · rw [prepare_eq _ _ _ hk] at h4
    split at h4
    · rename_i hn
      simp only [Res.ok.injEq, Prod.mk.injEq] at h4
      obtain ⟨rfl, rfl⟩ := h4
      refine ⟨_, t, k', h3, hs.symm, by rw [List.length_drop]; omega, by omega, hn, by omega, ?_⟩
      rw [List.drop_drop, List.drop_left' hl]
      rw [List.take_append_of_le_length (by omega), List.take_take, Nat.min_eq_left (by omega)]
    · cases h4
  · unfold BgpSessionParams.prepareMessageBuf at h4
    rw [if_pos (by omega)] at h4
    cases h4

/-- What is read of the octets written for a BGP message inside. -/
theorem embedded_back {α : Type} {ty : BgpMessageType} {R : Bytes → α → Prop} {t rest r : Bytes} {k : Nat} {m : α} (hk : k ≤ 65516)
    (ht : k ≤ t.length) (h : EmbeddedRead ty R (header ty k ++ (t.take k ++ rest)) m r) : R (t.take k) m ∧ r = rest := by
  obtain ⟨body, e, hl, hr⟩ := h
  rw [message, List.append_assoc] at e
  obtain ⟨e1, e2⟩ := List.append_inj e (by simp [header_length])
  have e3 := header_inj hk hl e1
  obtain ⟨rfl, rfl⟩ := List.append_inj e2 (by rw [List.length_take]; omega)
  exact ⟨hr, rfl⟩

/-! ## OPEN messages inside -/

/-- The octets the capabilities take, each in a parameter of its own. -/
def capsTotal (l : List BgpCapability) : Nat := (l.map fun c => 2 + c.bytesLen).sum

theorem bytesLen_two (c : BgpCapability) : 2 ≤ c.bytesLen := by cases c <;> simp [BgpCapability.bytesLen] <;> omega

theorem cap_takes {code : U8} {data : Bytes} {o : Option BgpCapability} (h : CapRead code data o) :
    ∀ c ∈ o, c.bytesLen = data.length + 2 := by
  intro c hc
  cases h with
  | mp data c' h =>
    cases hc
    cases c <;> simp [capValue] at h <;> (rw [← h]; simp [BgpCapability.bytesLen])
  | gr w b afis hw h =>
    cases hc
    have := entries_length (R := GrEntryRead) (k := 4) (by rintro b x ⟨f, rfl, _⟩; simp) h
    simp [BgpCapability.bytesLen]; omega
  | addPath b v h =>
    cases hc
    have := entries_length (R := AddPathEntryRead) (k := 4) (by rintro b x ⟨f, rfl, _⟩; simp) h
    simp [BgpCapability.bytesLen]; omega
  | llgr b v h =>
    cases hc
    have := entries_length (R := LlgrEntryRead) (k := 7) (by rintro b x ⟨rfl, _⟩; simp) h
    simp [BgpCapability.bytesLen]; omega
  | fqdn host hl' hu => cases hc; simp [BgpCapability.bytesLen, fqdnValue]; omega
  | rr => cases hc; rfl
  | asn32 n => cases hc; simp [BgpCapability.bytesLen]
  | err => cases hc; rfl
  | bfd => cases hc; rfl
  | mpOther => cases hc
  | other => cases hc

theorem caps_take {b : Bytes} {l : List BgpCapability} (h : CapsRead b l) : capsTotal l ≤ 2 * b.length := by
  induction h with
  | done => simp [capsTotal]
  | cap code data rest o l hd h hr ih =>
    rw [List.length_append, tlv_length]
    cases o with
    | none => simp only [Option.toList_none, List.nil_append]; omega
    | some c =>
      have := cap_takes h c rfl
      simp only [Option.toList_some, List.cons_append, List.nil_append, capsTotal, List.map_cons, List.sum_cons] at ih ⊢
      omega

theorem params_take {b : Bytes} {l : List BgpCapability} (h : ParamsRead b l) : capsTotal l ≤ 2 * b.length := by
  induction h with
  | done => simp [capsTotal]
  | param body rest l l' hl h hr ih =>
    have := caps_take h
    simp only [capsTotal, List.map_append, List.sum_append, List.length_append, capParam, tlv_length] at *
    omega

theorem caps_report {caps : List BgpCapability} {t t' : Bytes} {k : Nat} (h : BgpOpenMessage.encodeCaps caps t = .ok (t', k)) :
    k = capsTotal caps := by
  induction caps generalizing t t' k with
  | nil => simp only [BgpOpenMessage.encodeCaps, Res.ok.injEq, Prod.mk.injEq] at h; simp [← h.2, capsTotal]
  | cons c cs ih =>
    obtain ⟨b, w, u, u', k, hb, hf, hw, hu, hlen, rfl, rfl⟩ := encodeCaps_cons h
    have := ih hu
    simp only [capsTotal, List.map_cons, List.sum_cons] at this ⊢
    omega

theorem open_reports {m : BgpOpenMessage} {buf buf' : Bytes} {n : Nat} (h : m.encodeTo buf = .ok (buf', n)) :
    n = 10 + capsTotal m.caps := by
  unfold BgpOpenMessage.encodeTo at h
  split at h
  · cases h
  obtain ⟨b1, g1, h⟩ := Res.bind_eq_ok.1 h
  obtain ⟨b2, g2, h⟩ := Res.bind_eq_ok.1 h
  obtain ⟨b3, g3, h⟩ := Res.bind_eq_ok.1 h
  obtain ⟨b4, g4, h⟩ := Res.bind_eq_ok.1 h
  obtain ⟨b5, g5, h⟩ := Res.bind_eq_ok.1 h
  obtain ⟨⟨b6, k⟩, g6, h⟩ := Res.bind_eq_ok.1 h
  simp only [Res.ok.injEq, Prod.mk.injEq] at h
  obtain ⟨rfl, rfl⟩ := h
  unfold onFrom at g6
  split at g6
  · obtain ⟨⟨t', k'⟩, g7, g6⟩ := Res.bind_eq_ok.1 g6
    simp only [Res.ok.injEq, Prod.mk.injEq] at g6
    obtain ⟨-, rfl⟩ := g6
    rw [caps_report g7]
  · cases g6

/-- An OPEN message inside that is read as it was written. -/
theorem open_inside {m : BgpOpenMessage} {u t : Bytes} {k : Nat} (he : m.encodeTo u = .ok (t, k)) (hk : k % 65536 ≤ 65516)
    (hr : OpenRead (t.take (k % 65536)) m) : OpenOk m := by
  have hn := open_reports he
  have hlt : k < 65536 := by
    obtain ⟨as, len, params, e, -, hp⟩ := hr
    have h1 := params_take hp
    have h2 := congrArg List.length e
    simp only [List.length_take, List.length_append, List.length_cons, be_length] at h2
    omega
  rw [Nat.mod_eq_of_lt hlt] at hr hk
  obtain ⟨h1, h2, h3⟩ := (C113_open_exactly m u .new).1 ⟨t, k, he, (open_iff _ _ _).2 hr⟩
  refine ⟨h2, h1, ?_⟩
  obtain ⟨b2, n2, g1, g2, -⟩ := C05_open_round_trip m h2 u h3 .new
  rw [he] at g1
  cases g1
  have hl := congrArg List.length g2
  rw [openWire_length, List.length_take] at hl
  have : t.length = u.length := (KeepsSize.post (f := m.encodeTo) _ _ he)
  omega

/-! ## The messages -/

theorem typed_ok {code : U8} {enc : Enc} {buf buf' : Bytes} {n : Nat} (h : BmpMessage.encodeTyped code enc buf = .ok (buf', n)) :
    ∃ u t k, enc u = .ok (t, k) ∧ u.length + 1 = buf.length ∧ buf'.take n = code :: t.take k := by
  unfold BmpMessage.encodeTyped at h
  obtain ⟨b1, h1, h⟩ := Res.bind_eq_ok.1 h
  obtain ⟨⟨b2, k⟩, h2, h⟩ := Res.bind_eq_ok.1 h
  simp only [Res.ok.injEq, Prod.mk.injEq] at h
  obtain ⟨rfl, rfl⟩ := h
  match buf, h1 with
  | [], h1 => simp at h1
  | x :: buf, h1 =>
  simp at h1
  subst h1
  unfold onFrom at h2
  rw [if_pos (by simp)] at h2
  obtain ⟨⟨t, k'⟩, h3, h2⟩ := Res.bind_eq_ok.1 h2
  simp only [Res.ok.injEq, Prod.mk.injEq] at h2
  obtain ⟨rfl, rfl⟩ := h2
  refine ⟨_, t, k', h3, by simp, ?_⟩
  rw [Nat.add_comm 1]
  simp

/-- **C113, peer up.** A peer-up comes back unchanged, from some buffer, if and only if both addresses are told apart from others
in their fields and both OPEN messages can be put on the wire. -/
theorem C113_peer_up (m : BmpMessagePeerUp) :
    ComesBack (.PeerUpNotification m) (fun _ => True) ↔
      Distinct m.peer.peeraddress ∧ Distinct m.localaddress ∧ OpenOk m.msg1 ∧ OpenOk m.msg2 := by
  constructor
  · rintro ⟨buf, buf', n, -, he, hd⟩
    have hr := ((bmp_exactly _).ok _).1 hd
    unfold BmpMessage.encodeTo at he
    split at he
    · cases he
    obtain ⟨u, t, k, he, -, e⟩ := typed_ok he
    rw [e] at hr
    cases hr with
    | up b _ hr =>
    obtain ⟨opens, rest1, rest2, eb, d1, d2, r1, r2⟩ := hr
    refine ⟨d1, d2, ?_⟩
    unfold BmpMessagePeerUp.encodeTo at he
    split at he
    · cases he
    rename_i hu
    obtain ⟨⟨b1, c⟩, g1, he⟩ := Res.bind_eq_ok.1 he
    obtain ⟨⟨b2, _⟩, g2, he⟩ := Res.bind_eq_ok.1 he
    obtain ⟨b3, g3, he⟩ := Res.bind_eq_ok.1 he
    obtain ⟨b4, g4, he⟩ := Res.bind_eq_ok.1 he
    obtain ⟨⟨b5, c2⟩, g5, he⟩ := Res.bind_eq_ok.1 he
    have hc : c = 42 := by
      rw [peerHeader_clears m.peer u (by rw [peerHeaderWire_length]; omega)] at g1
      cases g1
      exact peerHeaderWire_length _
    subst hc
    obtain ⟨u1, t1, k1, e1, l1, z1, s1, o1, rfl, rfl⟩ := embedded_ok g5
    obtain ⟨u2, t2, k2, e2, l2, z2, s2, o2, rfl, rfl⟩ := embedded_ok he
    have hl4 : (b4.take 62).length = 62 := by rw [List.length_take]; omega
    have m1 : k1 % 65536 ≤ t1.length := le_trans (Nat.mod_le _ _) s1
    have m2 : k2 % 65536 ≤ t2.length := le_trans (Nat.mod_le _ _) s2
    have htake : List.take (42 + 16 + 2 + 2 + 19 + k1 % 65536)
        (b4.take 62 ++ (header .Open (k1 % 65536) ++ t1)) = b4.take 62 ++ (header .Open (k1 % 65536) ++ t1.take (k1 % 65536)) := by
      have e1 : 42 + 16 + 2 + 2 + 19 + k1 % 65536 = (b4.take 62).length + ((header .Open (k1 % 65536)).length + k1 % 65536) := by
        rw [hl4, header_length]; omega
      rw [e1, take_add_append, take_add_append]
    have hA : (b4.take 62 ++ (header .Open (k1 % 65536) ++ t1.take (k1 % 65536))).length = 42 + 16 + 2 + 2 + 19 + k1 % 65536 := by
      rw [List.length_append, List.length_append, hl4, header_length, List.length_take]; omega
    have htake2 : List.take (42 + 16 + 2 + 2 + 19 + k1 % 65536 + 19 + k2 % 65536)
        (List.take (42 + 16 + 2 + 2 + 19 + k1 % 65536) (b4.take 62 ++ (header .Open (k1 % 65536) ++ t1)) ++
          (header .Open (k2 % 65536) ++ t2)) =
        b4.take 62 ++ (header .Open (k1 % 65536) ++ (t1.take (k1 % 65536) ++
          (header .Open (k2 % 65536) ++ (t2.take (k2 % 65536) ++ [])))) := by
      rw [htake]
      have e1 : 42 + 16 + 2 + 2 + 19 + k1 % 65536 + 19 + k2 % 65536 =
          (b4.take 62 ++ (header .Open (k1 % 65536) ++ t1.take (k1 % 65536))).length +
            ((header .Open (k2 % 65536)).length + k2 % 65536) := by
        rw [hA, header_length]; omega
      rw [e1, take_add_append, take_add_append]
      simp
    have ep : ∀ w, peerHeaderWire m.peer ++ (bmpAddr m.localaddress ++ (be 2 m.localport.toNat ++ (be 2 m.remoteport.toNat ++ w))) =
        (peerHeaderWire m.peer ++ (bmpAddr m.localaddress ++ (be 2 m.localport.toNat ++ be 2 m.remoteport.toNat))) ++ w := by
      intro w; simp
    rw [show (62 : Nat) = 42 + 16 + 2 + 2 from rfl] at htake2
    rw [htake2, ep] at eb
    obtain ⟨-, eo⟩ := List.append_inj eb (by
      rw [hl4]
      simp [peerHeaderWire_length]
      cases m.localaddress <;> simp [bmpAddr])
    rw [← eo] at r1
    obtain ⟨r1, e⟩ := embedded_back o1 m1 r1
    rw [e] at r2
    obtain ⟨r2, -⟩ := embedded_back o2 m2 r2
    exact ⟨open_inside e1 o1 r1, open_inside e2 o2 r2⟩
  · rintro ⟨d1, d2, o1, o2⟩
    obtain ⟨buf', n, h1, h2⟩ := C58_peer_up_of_opens_partial m (by
      rintro x (rfl | rfl)
      · exact o1
      · exact o2) d1 d2 (List.replicate (121 + (capsParams m.msg1.caps).length + (capsParams m.msg2.caps).length) 0) (by simp)
    exact ⟨_, buf', n, trivial, h1, h2⟩

/-- **C113, peer down.** -/
theorem C113_peer_down (m : BmpMessagePeerDown) :
    ComesBack (.PeerDownNotification m) (fun _ => True) ↔ Distinct m.peer.peeraddress := by
  constructor
  · rintro ⟨buf, buf', n, -, he, hd⟩
    have hr := ((bmp_exactly _).ok _).1 hd
    generalize buf'.take n = b at hr
    cases hr with
    | down b _ hr => exact hr.choose_spec.2.1
  · intro d
    obtain ⟨buf', n, h1, -, h2⟩ := C58_peer_down_partial m d (List.replicate ((peerDownWire m).length + 1) 0) (by simp)
    exact ⟨_, buf', n, trivial, h1, h2⟩

theorem lastOf_ok {ty : Nat} {l : List (Nat × Bytes)} (h : ∀ t ∈ l, t.1 < 65536 ∧ InfoOk t.2) {s : Bytes}
    (hs : lastOf ty l = some s) : InfoOk s := by
  obtain ⟨t, ht, rfl⟩ := Option.map_eq_some_iff.1 hs
  exact (h t (List.mem_filter.1 (List.mem_of_getLast? ht)).1).2

/-- **C113, initiation.** Only the free text comes back, if it is a text of at most 65535 octets; a message with a system
description or name never does. -/
theorem C113_initiation (m : BmpMessageInitiation) :
    ComesBack (.Initiation m) (fun _ => True) ↔ m.sysDescr = none ∧ m.sysName = none ∧ ∀ s, m.str0 = some s → InfoOk s := by
  constructor
  · rintro ⟨buf, buf', n, -, he, hd⟩
    have hr := ((bmp_exactly _).ok _).1 hd
    have hok : ∀ s, (m.str0 = some s ∨ m.sysDescr = some s ∨ m.sysName = some s) → InfoOk s := by
      generalize buf'.take n = b at hr
      cases hr with
      | initiation b _ hr =>
        obtain ⟨l, -, h, rfl⟩ := hr
        rintro s (hs | hs | hs) <;> exact lastOf_ok h hs
    have hx : ¬ (m.sysDescr ≠ none ∨ m.sysName ≠ none) := by
      intro hx
      unfold BmpMessage.encodeTo at he
      split at he
      · cases he
      obtain ⟨u, t, k, he, -, e⟩ := typed_ok he
      have e2 := emits_take (emits_of_writes (init_writes m)) he
      obtain ⟨b2, n2, g1, g2, -, g4⟩ := C57_initiation_as_written m hok
        (List.replicate ((optInfo 0 m.str0 ++ (optInfo 0 m.sysDescr ++ optInfo 0 m.sysName)).length + 1) 0) (by simp)
      rw [g2, ← e2, ← e, hd] at g4
      simp only [Res.ok.injEq, BmpMessage.Initiation.injEq] at g4
      rw [g4] at hx
      simp at hx
    refine ⟨?_, ?_, fun s hs => hok s (.inl hs)⟩
    · cases h : m.sysDescr with
      | none => rfl
      | some s => exact absurd (.inl (by rw [h]; simp)) hx
    · cases h : m.sysName with
      | none => rfl
      | some s => exact absurd (.inr (by rw [h]; simp)) hx
  · rintro ⟨h1, h2, h3⟩
    obtain ⟨buf', n, g1, -, -, g2⟩ := C57_initiation_round_trip_partial m h1 h2 h3
      (List.replicate ((optInfo 0 m.str0).length + 1) 0) (by simp)
    exact ⟨_, buf', n, trivial, g1, g2⟩

theorem termination_ok {b : Bytes} {m : BmpMessageTermination} (h : TerminationRead b m) : ∀ s, m.str0 = some s → InfoOk s := by
  induction h with
  | done => intro b hb; cases hb
  | text s rest x h hr ih =>
    intro b hb
    cases hx : x.str0 with
    | none => rw [hx] at hb; cases hb; exact h
    | some t => rw [hx] at hb; cases hb; exact ih _ hx
  | reason v rest rest' r x hv h hr ih => exact ih
  | other ty v rest x ht ht' hv hr ih => exact ih

/-- **C113, termination.** -/
theorem C113_termination (m : BmpMessageTermination) :
    ComesBack (.Termination m) (fun _ => True) ↔ ∀ s, m.str0 = some s → InfoOk s := by
  constructor
  · rintro ⟨buf, buf', n, -, he, hd⟩
    have hr := ((bmp_exactly _).ok _).1 hd
    generalize buf'.take n = b at hr
    cases hr with
    | termination b _ hr => exact termination_ok hr
  · intro h
    obtain ⟨buf', n, g1, -, -, x, g2, rfl⟩ := C57_termination_round_trip m h
      (List.replicate ((terminationWire m).length + 1) 0) (by simp)
    exact ⟨_, buf', n, trivial, g1, g2⟩

/-- **C113, route monitoring.** From a buffer of up to 65578 octets (more can not be announced in the header of the BGP message
inside), a message comes back unchanged if and only if the address is told apart and the UPDATE comes back unchanged in the
session of the peer header and is not too long for a BGP message. -/
theorem C113_route_monitoring (m : BmpMessageRouteMonitoring) :
    ComesBack (.RouteMonitoring m) (fun N => N ≤ 65578) ↔
      Distinct m.peer.peeraddress ∧ AsSent (headerParams m.peer) m.update ∧
      (updateWire (headerParams m.peer) m.update).length ≤ 65516 := by
  have hlen : (updateWire (headerParams m.peer) m.update).length = 4 + (addrsWire m.update.withdraws).length +
      (attrsWire (headerParams m.peer) m.update.attrs).length + (addrsWire m.update.updates).length := by
    simp [updateWire, updateBytes]; omega
  constructor
  · rintro ⟨buf, buf', n, hbuf, he, hd⟩
    have hr := ((bmp_exactly _).ok _).1 hd
    unfold BmpMessage.encodeTo at he
    split at he
    · cases he
    obtain ⟨u, t, k, he, hul, e⟩ := typed_ok he
    rw [e] at hr
    generalize eb : (0 :: t.take k : Bytes) = bb at hr
    cases hr with
    | monitoring h p body rest x hdist hp hl hu =>
    subst hp
    simp only [List.cons.injEq, true_and] at eb
    refine ⟨hdist, ?_⟩
    unfold BmpMessageRouteMonitoring.encodeTo at he
    split at he
    · cases he
    rename_i hu62
    obtain ⟨⟨b1, c⟩, g1, he⟩ := Res.bind_eq_ok.1 he
    have g1' := g1
    rw [peerHeader_clears h u (by rw [peerHeaderWire_length]; omega)] at g1
    simp only [Res.ok.injEq, Prod.mk.injEq] at g1
    have hc : c = 42 := by rw [← g1.2, peerHeaderWire_length]
    have hb1 : b1.length = u.length := KeepsSize.post (f := h.encodeTo) _ _ g1'
    subst hc
    rw [headerParams_eq] at he
    obtain ⟨u1, t1, k1, e1, l1, z1, s1, o1, rfl, rfl⟩ := embedded_ok he
    have hk : k1 < 65536 := by omega
    rw [Nat.mod_eq_of_lt hk] at *
    have hl1 : (b1.take 42).length = 42 := by rw [List.length_take]; omega
    have ht : List.take (42 + 19 + k1) (b1.take 42 ++ (header .Update k1 ++ t1)) = b1.take 42 ++ (header .Update k1 ++ (t1.take k1 ++ [])) := by
      have e1 : 42 + 19 + k1 = (b1.take 42).length + ((header .Update k1).length + k1) := by
        rw [hl1, header_length]; omega
      rw [e1, take_add_append, take_add_append]
      simp
    rw [ht] at eb
    obtain ⟨-, eo⟩ := List.append_inj eb (by rw [hl1, peerHeaderWire_length])
    rw [← eo] at hu
    obtain ⟨r1, -⟩ := embedded_back o1 s1 hu
    have hback : BgpUpdateMessage.new.decodeFrom (headerParams h) (t1.take k1) = .ok x :=
      ((update_exactly .new (headerParams h) _).ok x).2 ⟨x.attrs, r1, rfl⟩
    obtain ⟨c1, c2, c3, c4, c5, c6⟩ := (C93_messages (headerParams h) x).1 ⟨_, t1, k1, e1, hback⟩
    refine ⟨⟨c1, ?_⟩, ?_⟩
    · rw [c2, c3, c4]
    · have hw := update_writes (headerParams h) x c1 c5 (fits_of_total _ _ c6)
      have := (emits_ok (emits_of_writes hw) e1)
      obtain ⟨e2, -⟩ := this
      rw [e2] at o1
      exact o1
  · rintro ⟨d, ⟨hp, hs⟩, hl⟩
    have hemb := C58_update_embeds (headerParams m.peer) m.update hp hl hs
    rw [← headerParams_eq] at hemb hl
    obtain ⟨buf', n, g1, -, g2⟩ := C58_route_monitoring_partial m _ hemb d
      (List.replicate (62 + (updateWire (.ofPeerHeader m.peer) m.update).length) 0) (by simp)
    exact ⟨_, buf', n, by simp; omega, g1, g2⟩

/-- **C113, the other two.** Statistics reports and route mirroring messages can not be sent at all. -/
theorem C113_not_sent (buf : Bytes) (h : buf ≠ []) :
    BmpMessage.encodeTo .StatisticsReport buf = .panic ∧ BmpMessage.encodeTo .RouteMirroring buf = .panic := by
  cases buf with
  | nil => exact absurd rfl h
  | cons x b => exact ⟨rfl, rfl⟩

/-- **C113, received BMP messages.** Of the messages that were received, all terminations and peer-downs can be sent on and are then
read as the same again; an initiation only without system description and name; a peer-up only without FQDN capabilities, and if
the capabilities fit, one to a parameter. -/
theorem C113_bmp_received (b : Bytes) (x : BmpMessage) (h : BmpMessage.decodeFrom b = .ok x) :
    (∀ m, x = .Termination m → ComesBack x (fun _ => True)) ∧
    (∀ m, x = .PeerDownNotification m → ComesBack x (fun _ => True)) ∧
    (∀ m, x = .Initiation m → (ComesBack x (fun _ => True) ↔ m.sysDescr = none ∧ m.sysName = none)) ∧
    (∀ m, x = .PeerUpNotification m → (ComesBack x (fun _ => True) ↔
      ∀ o, o = m.msg1 ∨ o = m.msg2 → (∀ c ∈ o.caps, ∀ host domain, c ≠ .CapFQDN host domain) ∧ (capsParams o.caps).length ≤ 65506)) := by
  have hr := ((bmp_exactly _).ok _).1 h
  refine ⟨?_, ?_, ?_, ?_⟩
  · rintro m rfl
    cases hr with
    | termination b _ hr => exact (C113_termination m).2 (termination_ok hr)
  · rintro m rfl
    cases hr with
    | down b _ hr => exact (C113_peer_down m).2 hr.choose_spec.2.1
  · rintro m rfl
    cases hr with
    | initiation b _ hr =>
      obtain ⟨l, -, hl, rfl⟩ := hr
      rw [C113_initiation]
      exact ⟨fun h => ⟨h.1, h.2.1⟩, fun h => ⟨h.1, h.2, fun s hs => lastOf_ok hl hs⟩⟩
  · rintro m rfl
    cases hr with
    | up b _ hr =>
      obtain ⟨opens, rest1, rest2, -, d1, d2, ⟨b1, -, -, r1⟩, ⟨b2, -, -, r2⟩⟩ := hr
      have key : ∀ (o : BgpOpenMessage) (b : Bytes), OpenRead b o →
          (OpenOk o ↔ (∀ c ∈ o.caps, ∀ host domain, c ≠ .CapFQDN host domain) ∧ (capsParams o.caps).length ≤ 65506) := by
        rintro o b ⟨as, len, params, -, ha, hp⟩
        constructor
        · rintro ⟨h1, -, h3⟩
          exact ⟨fun c hc => encodable_notFQDN (h1 c hc), h3⟩
        · rintro ⟨hn, hl⟩
          refine ⟨fun c hc => ?_, by rw [ha]; exact as.isLt, hl⟩
          rcases params_encodable hp c hc with h | ⟨host, -, rfl⟩
          · exact h
          · exact absurd rfl (hn _ hc _ _)
      rw [C113_peer_up, key _ _ r1, key _ _ r2]
      constructor
      · rintro ⟨-, -, h1, h2⟩ o (rfl | rfl)
        · exact h1
        · exact h2
      · intro h
        exact ⟨d1, d2, h _ (.inl rfl), h _ (.inr rfl)⟩

/-! ## Messages that come back, and that do not -/

example : ComesBack (.PeerUpNotification up4) (fun _ => True) ∧
    ¬ ComesBack (.PeerUpNotification { up4 with localaddress := .v6 1 }) (fun _ => True) ∧
    ¬ ComesBack (.PeerUpNotification { up4 with msg2 := { open4 with asNum := 70000 } }) (fun _ => True) := by
  obtain ⟨h1, h2, h3⟩ := up4_opens
  refine ⟨(C113_peer_up _).2 ⟨h2, h3, h1 _ (.inl rfl), h1 _ (.inr rfl)⟩, ?_, ?_⟩
  · rw [C113_peer_up]
    rintro ⟨-, h, -⟩
    exact absurd h (by decide)
  · rw [C113_peer_up]
    rintro ⟨-, -, -, h⟩
    exact absurd h.2.1 (by decide)

example : ComesBack (.PeerDownNotification ⟨peer4, .Remote⟩) (fun _ => True) ∧
    ¬ ComesBack (.PeerDownNotification ⟨{ peer4 with peeraddress := .v6 1 }, .Remote⟩) (fun _ => True) := by
  rw [C113_peer_down, C113_peer_down]
  decide

example : ComesBack (.Initiation ⟨some [72, 105], none, none⟩) (fun _ => True) ∧
    ¬ ComesBack (.Initiation ⟨some [72, 105], none, some [82]⟩) (fun _ => True) := by
  rw [C113_initiation, C113_initiation]
  exact ⟨⟨rfl, rfl, fun s h => by cases h; exact ⟨by decide, by decide⟩⟩, by simp⟩

example : ComesBack (.Termination ⟨some [72, 105], some 1⟩) (fun _ => True) ∧
    ¬ ComesBack (.Termination ⟨some [255], some 1⟩) (fun _ => True) := by
  rw [C113_termination, C113_termination]
  exact ⟨fun s h => by cases h; exact ⟨by decide, by decide⟩, fun h => absurd (h _ rfl) (fun h => absurd h.1 (by decide))⟩

example : BmpMessage.decodeFrom [4, 0, 0, 0, 2, 72, 105] = .ok (.Initiation ⟨some [72, 105], none, none⟩) ∧
    BmpMessage.decodeFrom [4, 0, 1, 0, 2, 72, 105] = .ok (.Initiation ⟨none, some [72, 105], none⟩) := ⟨rfl, rfl⟩

example : ComesBack (.RouteMonitoring ⟨peer4, update4⟩) (fun N => N ≤ 65578) ∧
    ¬ ComesBack (.RouteMonitoring ⟨{ peer4 with peeraddress := .v6 1 }, update4⟩) (fun N => N ≤ 65578) := by
  rw [C113_route_monitoring, C113_route_monitoring]
  constructor
  · have hp : PartsOk (headerParams peer4) update4 := by
      refine ⟨.inr ⟨⟨false, rfl⟩, ?_, ?_⟩, .inr ⟨⟨false, rfl⟩, ?_, ?_⟩, ?_⟩
      · simp [update4, AddrsWF, NlriKind.WF, NlriKind.bits]
      · intro f ap h _
        simp only [update4, kindOf, Option.some.injEq, Prod.mk.injEq] at h
        obtain ⟨rfl, rfl⟩ := h
        decide
      · simp [update4, AddrsWF, NlriKind.WF, NlriKind.bits]
      · intro f ap h _
        simp only [update4, kindOf, Option.some.injEq, Prod.mk.injEq] at h
        obtain ⟨rfl, rfl⟩ := h
        decide
      · intro a ha
        simp only [update4, List.mem_cons, List.not_mem_nil, or_false] at ha
        rcases ha with rfl | rfl | rfl | rfl
        · exact ⟨trivial, by decide⟩
        · exact ⟨.inr rfl, by decide⟩
        · exact ⟨rfl, by decide⟩
        · exact ⟨by simp [AttrOk, Spec.Ascending], by decide⟩
    exact ⟨by decide, ⟨hp, rfl⟩, by decide⟩
  · rintro ⟨h, -⟩
    exact absurd h (by decide)

end Zbgp.Props
