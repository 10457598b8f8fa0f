import Verif.Props.Buffers
import Verif.Lemmas.Truncated
import Verif.Props.Open

/-!
# C113: exactly which OPEN messages come back unchanged
-/

namespace Zbgp.Props

open Zbgp Spec

/-! ## Whatever is read from an OPEN can be written, but for the FQDN capability -/

theorem entries_length {α : Type} {R : Bytes → α → Prop} {k : Nat} (hR : ∀ b x, R b x → b.length = k) {b : Bytes} {l : List α}
    (h : EntriesRead R b l) : b.length = k * l.length := by
  induction h with
  | done => simp
  | entry b rest x xs h hr ih => simp [hR _ _ h, ih, Nat.mul_add]; omega

theorem entries_all {α : Type} {R : Bytes → α → Prop} {P : α → Prop} (hR : ∀ b x, R b x → P x) {b : Bytes} {l : List α}
    (h : EntriesRead R b l) : ∀ x ∈ l, P x := by
  induction h with
  | done => simp
  | entry b rest x xs h hr ih =>
    intro y hy
    rcases List.mem_cons.1 hy with rfl | hy
    · exact hR _ _ h
    · exact ih y hy

theorem cap_encodable {code : U8} {data : Bytes} {o : Option BgpCapability} (h : CapRead code data o) (hl : data.length + 2 ≤ 255) :
    ∀ c ∈ o, CapEncodable c ∨ ∃ host, host.length + 4 ≤ 255 ∧ c = .CapFQDN host [] := by
  intro c hc
  cases h with
  | mp data c' h =>
    cases hc
    left
    cases c <;> simp [capValue] at h <;> exact ⟨trivial, by decide⟩
  | gr w b afis hw h =>
    cases hc
    left
    have := entries_length (R := GrEntryRead) (k := 4) (by rintro b x ⟨f, rfl, _⟩; simp) h
    rw [List.length_append, be_length] at hl
    refine ⟨?_, ?_⟩
    · show (BitVec.ofNat 16 (w % 2 ^ 12)).toNat < 2 ^ 12
      rw [BitVec.toNat_ofNat]; omega
    · rw [capTlv_length _ (by simp)]; simp only [BgpCapability.bytesLen]; omega
  | addPath b v h =>
    cases hc
    left
    have := entries_length (R := AddPathEntryRead) (k := 4) (by rintro b x ⟨f, rfl, _⟩; simp) h
    exact ⟨trivial, by rw [capTlv_length _ (by simp)]; simp only [BgpCapability.bytesLen]; omega⟩
  | llgr b v h =>
    cases hc
    left
    have := entries_length (R := LlgrEntryRead) (k := 7) (by rintro b x ⟨rfl, _⟩; simp) h
    exact ⟨entries_all (R := LlgrEntryRead) (fun _ _ h => h.2) h,
      by rw [capTlv_length _ (by simp)]; simp only [BgpCapability.bytesLen]; omega⟩
  | fqdn host hl' hu =>
    cases hc
    right
    refine ⟨host, ?_, rfl⟩
    simp [fqdnValue] at hl
    omega
  | rr => cases hc; exact .inl ⟨trivial, by decide⟩
  | asn32 n => cases hc; exact .inl ⟨trivial, by rw [capTlv_length _ (by simp)]; simp [BgpCapability.bytesLen]⟩
  | err => cases hc; exact .inl ⟨trivial, by decide⟩
  | bfd => cases hc; exact .inl ⟨trivial, by decide⟩
  | mpOther => cases hc
  | other => cases hc

theorem caps_encodable {b : Bytes} {l : List BgpCapability} (h : CapsRead b l) (hl : b.length ≤ 255) :
    ∀ c ∈ l, CapEncodable c ∨ ∃ host, host.length + 4 ≤ 255 ∧ c = .CapFQDN host [] := by
  induction h with
  | done => simp
  | cap code data rest o l hd h hr ih =>
    rw [List.length_append, tlv_length] at hl
    intro c hc
    rcases List.mem_append.1 hc with hc | hc
    · exact cap_encodable h (by omega) c (by simpa using hc)
    · exact ih (by omega) c hc

theorem params_encodable {b : Bytes} {l : List BgpCapability} (h : ParamsRead b l) :
    ∀ c ∈ l, CapEncodable c ∨ ∃ host, host.length + 4 ≤ 255 ∧ c = .CapFQDN host [] := by
  induction h with
  | done => simp
  | param body rest l l' hl h hr ih =>
    intro c hc
    rcases List.mem_append.1 hc with hc | hc
    · exact caps_encodable h hl c hc
    · exact ih c hc

/-! ## What the writer of capabilities puts down -/

theorem encodeCaps_cons {c : BgpCapability} {cs : List BgpCapability} {t t' : Bytes} {n : Nat}
    (h : BgpOpenMessage.encodeCaps (c :: cs) t = .ok (t', n)) :
    ∃ b w u u' k, b.length = c.bytesLen ∧ c.fillBuffer b = .ok w ∧ w.length = b.length ∧
      BgpOpenMessage.encodeCaps cs u = .ok (u', k) ∧ u.length + 2 + c.bytesLen = t.length ∧ n = 2 + c.bytesLen + k ∧
      t' = 2 :: BitVec.ofNat 8 c.bytesLen :: (w ++ u') := by
  simp only [BgpOpenMessage.encodeCaps] at h
  obtain ⟨t1, h1, h⟩ := Res.bind_eq_ok.1 h
  obtain ⟨t2, h2, h⟩ := Res.bind_eq_ok.1 h
  obtain ⟨⟨t3, _⟩, h3, h⟩ := Res.bind_eq_ok.1 h
  obtain ⟨⟨t4, k⟩, h4, h⟩ := Res.bind_eq_ok.1 h
  simp only [Res.ok.injEq, Prod.mk.injEq] at h
  obtain ⟨rfl, rfl⟩ := h
  unfold onSliceE at h3
  split at h3
  · rename_i hs
    obtain ⟨⟨t5, _⟩, h5, h3⟩ := Res.bind_eq_ok.1 h3
    obtain ⟨w, h6, h5⟩ := Res.bind_eq_ok.1 h5
    simp only [Res.ok.injEq, Prod.mk.injEq] at h5 h3
    obtain ⟨rfl, -⟩ := h5
    obtain ⟨rfl, -⟩ := h3
    match t, h1 with
    | [], h1 => simp [setIdx] at h1
    | x :: t, h1 =>
    simp [setIdx] at h1
    subst h1
    match t, h2 with
    | [], h2 => simp [setIdx] at h2
    | y :: t, h2 =>
    simp [setIdx] at h2
    subst h2
    simp only [List.length_cons] at hs
    have hw : w.length = ((List.take (c.bytesLen + 2) (2#8 :: BitVec.ofNat 8 c.bytesLen :: t)).drop 2).length :=
      (Fills.post (f := c.fillBuffer) _ _ h6).2.1
    have hb : ((List.take (c.bytesLen + 2) (2#8 :: BitVec.ofNat 8 c.bytesLen :: t)).drop 2).length = c.bytesLen := by
      simp; omega
    unfold onFrom at h4
    split at h4
    · obtain ⟨⟨u', k'⟩, h7, h4⟩ := Res.bind_eq_ok.1 h4
      simp only [Res.ok.injEq, Prod.mk.injEq] at h4
      obtain ⟨rfl, rfl⟩ := h4
      refine ⟨_, w, _, u', k', hb, h6, hw, h7, ?_, rfl, ?_⟩
      · simp; omega
      · have e : 2 + c.bytesLen = w.length + 2 := by omega
        rw [e]
        simp
    · cases h4
  · cases h3

/-- The FQDN capability is written as its code, the host name (over the length), the length of the domain name, the domain
name, and two octets that stay as they were. -/
theorem fqdn_written {h b w : Bytes} (hb : b.length = (BgpCapability.CapFQDN h []).bytesLen)
    (he : (BgpCapability.CapFQDN h []).fillBuffer b = .ok w) : ∃ x y, w = 73 :: (h ++ [0, x, y]) := by
  simp only [BgpCapability.bytesLen, List.length_nil, Nat.add_zero] at hb
  unfold BgpCapability.fillBuffer at he
  rw [if_neg (by simp [BgpCapability.bytesLen]; omega)] at he
  match b, hb with
  | p :: t, hb =>
  have e0 : setIdx (p :: t) 0 73 = .ok (73 :: t) := by simp [setIdx]
  simp only [e0, Res.ok_bind] at he
  match t, hb with
  | q :: t, hb =>
  have e1 : setIdx (73 :: q :: t) 1 (BitVec.ofNat 8 h.length) = .ok (73 :: BitVec.ofNat 8 h.length :: t) := by simp [setIdx]
  simp only [e1, Res.ok_bind] at he
  generalize ht : BitVec.ofNat 8 h.length :: t = t1 at he
  have hl : t1.length = h.length + 3 := by rw [← ht]; simp at hb ⊢; omega
  have e2 : copyAt (73 :: t1) 1 (1 + h.length) h = .ok (73 :: (h ++ t1.drop h.length)) := by
    have := copyAt_drop [73] t1 h 1 (1 + h.length) rfl rfl (by omega)
    simpa using this
  simp only [e2, Res.ok_bind] at he
  obtain ⟨z, x, y, e3⟩ : ∃ z x y, t1.drop h.length = [z, x, y] := by
    have : (t1.drop h.length).length = 3 := by simp; omega
    match t1.drop h.length, this with
    | [z, x, y], _ => exact ⟨z, x, y, rfl⟩
  rw [e3] at he
  have e4 : setIdx (73 :: (h ++ [z, x, y])) (1 + h.length) (BitVec.ofNat 8 0) = .ok (73 :: (h ++ [0, x, y])) := by
    have := setIdx_append (p := 73 :: h) (t := [z, x, y]) (i := 1 + h.length) (x := BitVec.ofNat 8 0) (by simp; omega)
    rw [show 1 + h.length - (73 :: h : Bytes).length = 0 by simp; omega] at this
    simpa using this
  simp only [List.length_nil, e4, Res.ok_bind] at he
  have e5 := copyAt_drop (73 :: (h ++ [0])) [x, y] [] (2 + h.length) (2 + h.length + 0) (by simp; omega) (by simp; omega) (by simp)
  simp only [List.cons_append, List.append_assoc, List.nil_append, List.length_nil, List.drop_zero] at e5
  rw [e5] at he
  cases he
  exact ⟨x, y, rfl⟩

/-- Written like that, it is never read as the same. -/
theorem fqdn_changed (h : Bytes) (hl : h.length + 4 ≤ 255) (x y : U8) :
    BitVec.ofNat 8 (h.length + 2) :: BitVec.ofNat 8 h.length :: (h ++ [0]) ≠ h ++ [0, x, y] := by
  intro e
  have nz : ∀ i, i < h.length → h[i]? ≠ some 0 := by
    intro i
    induction i using Nat.strongRecOn with
    | _ i ih =>
      intro hi e0
      have e1 : (h ++ [0, x, y])[i]? = some 0 := by rw [List.getElem?_append_left hi, e0]
      rw [← e] at e1
      match i, hi, e1, ih with
      | 0, hi, e1, _ =>
        have := congrArg BitVec.toNat (Option.some.inj e1)
        simp at this; omega
      | 1, hi, e1, _ =>
        have := congrArg BitVec.toNat (Option.some.inj e1)
        simp at this; omega
      | i + 2, hi, e1, ih =>
        simp only [List.getElem?_cons_succ] at e1
        rw [List.getElem?_append_left (by omega)] at e1
        exact ih i (by omega) (by omega) e1
  have e1 : (h ++ [0, x, y])[h.length]? = some 0 := by
    rw [List.getElem?_append_right (by omega)]; simp
  rw [← e] at e1
  match hk : h.length, e1 with
  | 0, e1 => simp at e1
  | 1, e1 => simp at e1
  | k + 2, e1 =>
    simp only [List.getElem?_cons_succ] at e1
    rw [List.getElem?_append_left (by omega)] at e1
    exact nz k (by omega) e1

/-- What a parameter list that begins with the parameter of one capability is read as. -/
theorem paramsRead_cons {body rest : Bytes} {l : List BgpCapability} (hb : body.length ≤ 255)
    (h : ParamsRead (2 :: BitVec.ofNat 8 body.length :: (body ++ rest)) l) :
    ∃ l1 l2, CapsRead body l1 ∧ ParamsRead rest l2 ∧ l = l1 ++ l2 := by
  generalize e : (2 :: BitVec.ofNat 8 body.length :: (body ++ rest) : Bytes) = bb at h
  cases h with
  | done b h => rw [← e] at h; simp at h
  | param body' rest' l l' hl h hr =>
    have e2 : capParam body' = 2 :: BitVec.ofNat 8 body'.length :: body' := by simp [capParam, tlv, be]
    rw [e2] at e
    simp only [List.cons_append, List.cons.injEq, true_and] at e
    have hn : body.length = body'.length := by
      have := congrArg BitVec.toNat e.1
      simp at this; omega
    obtain ⟨rfl, rfl⟩ := List.append_inj e.2 hn
    exact ⟨_, _, h, hr, rfl⟩

/-- The capabilities are written and read back as the same only if they can be put on the wire. -/
theorem caps_back {caps : List BgpCapability} {t t' : Bytes} {n : Nat} (he : BgpOpenMessage.encodeCaps caps t = .ok (t', n))
    (hr : ParamsRead (t'.take n) caps) : (∀ c ∈ caps, CapEncodable c) ∧ n ≤ t.length := by
  have hall := params_encodable hr
  induction caps generalizing t t' n with
  | nil => simp only [BgpOpenMessage.encodeCaps, Res.ok.injEq, Prod.mk.injEq] at he; simp [← he.2]
  | cons c cs ih =>
    obtain ⟨b, w, u, u', k, hb, hf, hw, hu, hlen, rfl, rfl⟩ := encodeCaps_cons he
    have htake : (2 :: BitVec.ofNat 8 c.bytesLen :: (w ++ u') : Bytes).take (2 + c.bytesLen + k) =
        2 :: BitVec.ofNat 8 w.length :: (w ++ u'.take k) := by
      rw [show 2 + c.bytesLen + k = (c.bytesLen + k) + 1 + 1 by omega, List.take_succ_cons, List.take_succ_cons]
      rw [show c.bytesLen = w.length by omega, List.take_length_add_append]
    rw [htake] at hr
    have hle : w.length ≤ 255 := by
      rw [hw, hb]
      rcases hall c (by simp) with hc | ⟨host, hc, rfl⟩
      · rw [← capTlv_length c (encodable_notFQDN hc)]; exact hc.2
      · simp [BgpCapability.bytesLen]; omega
    obtain ⟨l1, l2, h1, h2, e⟩ := paramsRead_cons hle hr
    have hc : CapEncodable c := by
      rcases hall c (by simp) with hc | ⟨host, hc, rfl⟩
      · exact hc
      · exfalso
        obtain ⟨x, y, rfl⟩ := fqdn_written hb hf
        generalize eb : (73 :: (host ++ [0, x, y]) : Bytes) = bb at h1
        cases h1 with
        | done => cases eb
        | cap code data rest o l hd h hr' =>
          rw [tlv_u8] at eb
          simp only [List.cons_append, List.cons.injEq] at eb
          obtain ⟨rfl, eb⟩ := eb
          cases h with
          | fqdn host' hl' hu =>
            simp only [Option.toList_some, List.cons_append, List.nil_append, List.cons.injEq, BgpCapability.CapFQDN.injEq, and_true] at e
            obtain ⟨rfl, -⟩ := e
            have e2 : rest = [] := by
              have := congrArg List.length eb
              simp only [fqdnValue, List.length_append, List.length_cons, List.length_nil, be_length] at this
              exact List.eq_nil_of_length_eq_zero (by omega)
            subst e2
            apply fqdn_changed host hc x y
            rw [eb]
            simp [fqdnValue, be]
          | other _ _ h => exact absurd h (by decide)
    have hwt : w = capTlv c := by rw [fillBuffer_ok c hc b hb] at hf; cases hf; rfl
    have e1 : l1 = [c] := by
      refine capsRead_unique hle h1 ?_
      have h3 := (caps_iff ((capTlv c).length + 1) (capTlv c) [] (by omega) [c] []).1 (by
        have := decodeCaps_items [.known c] (by intro i hi; simp at hi; subst hi; exact hc) [] ((capTlv c).length + 1) (by
          have := capItem_length (.known c) hc
          simp [CapItem.wire] at this ⊢; omega)
        simpa [CapItem.wire, knownOf] using this)
      rw [hwt]; exact h3.1
    subst e1
    simp only [List.cons_append, List.nil_append, List.cons.injEq, true_and] at e
    subst e
    obtain ⟨h3, h4⟩ := ih hu h2 (fun c hc => hall c (by simp [hc]))
    refine ⟨?_, by omega⟩
    intro c' hc'
    rcases List.mem_cons.1 hc' with rfl | hc'
    · exact hc
    · exact h3 c' hc'

/-- **C113, OPEN.** An OPEN message that is encoded into a buffer, whatever is in it, and decoded again into an object, whatever
that held, comes back unchanged if and only if its AS number has two octets, all its capabilities can be put on the wire (which
no FQDN capability can) and the buffer has room for it. -/
theorem C113_open_exactly (m : BgpOpenMessage) (buf : Bytes) (self : BgpOpenMessage) :
    (∃ buf' n, m.encodeTo buf = .ok (buf', n) ∧ self.decodeFrom (buf'.take n) = .ok m) ↔
      m.asNum.toNat < 65536 ∧ (∀ c ∈ m.caps, CapEncodable c) ∧ 10 + (capsParams m.caps).length ≤ buf.length := by
  constructor
  · rintro ⟨buf', n, he, hd⟩
    obtain ⟨as, len, params, hb, ha, hp⟩ := (open_iff _ _ _).1 hd
    unfold BgpOpenMessage.encodeTo at he
    split at he
    · cases he
    rename_i hbuf
    obtain ⟨b1, g1, he⟩ := Res.bind_eq_ok.1 he
    obtain ⟨b2, g2, he⟩ := Res.bind_eq_ok.1 he
    obtain ⟨b3, g3, he⟩ := Res.bind_eq_ok.1 he
    obtain ⟨b4, g4, he⟩ := Res.bind_eq_ok.1 he
    obtain ⟨b5, g5, he⟩ := Res.bind_eq_ok.1 he
    obtain ⟨⟨b6, k⟩, g6, he⟩ := Res.bind_eq_ok.1 he
    simp only [Res.ok.injEq, Prod.mk.injEq] at he
    obtain ⟨rfl, rfl⟩ := he
    have s1 : ∀ {a b : Bytes} {i : Nat} {v : U8}, setIdx a i v = .ok b → b.length = a.length := by
      intro a b i v h; unfold setIdx at h; split at h <;> cases h; simp
    have s2 : ∀ {a b : Bytes} {i j : Nat} {v : Bytes}, copyAt a i j v = .ok b → b.length = a.length := by
      intro a b i j v h; unfold copyAt at h; split at h <;> cases h; simp; omega
    have hlen : b5.length = buf.length := by rw [s1 g5, s2 g4, s2 g3, s2 g2, s1 g1]
    unfold onFrom at g6
    rw [if_pos (by omega)] at g6
    obtain ⟨⟨t', k'⟩, g7, g6⟩ := Res.bind_eq_ok.1 g6
    simp only [Res.ok.injEq, Prod.mk.injEq] at g6
    obtain ⟨rfl, rfl⟩ := g6
    have hpar : params = t'.take k' := by
      have h1 : (b5.take 10).length = 10 := by simp; omega
      have h2 : (b5.take 10 ++ t').take (10 + k') = b5.take 10 ++ t'.take k' := by
        generalize b5.take 10 = q at h1 ⊢
        rw [← h1, List.take_length_add_append]
      rw [h2] at hb
      have h3 := congrArg (List.drop 10) hb
      rw [List.drop_left' h1] at h3
      rw [h3]
      simp [be]
    rw [hpar] at hp
    obtain ⟨c1, c2⟩ := caps_back g7 hp
    refine ⟨by rw [ha]; exact as.isLt, c1, ?_⟩
    have hw := writes_encodeCaps m.caps c1
    by_cases hr : (capsParams m.caps).length ≤ (b5.drop 10).length
    · rw [List.length_drop, hlen] at hr; omega
    · exfalso
      apply hr
      refine le_trans ?_ c2
      -- the number reported is the length of the parameters
      have key : ∀ (caps : List BgpCapability) (t t' : Bytes) (k : Nat), (∀ c ∈ caps, CapEncodable c) →
          BgpOpenMessage.encodeCaps caps t = .ok (t', k) → k = (capsParams caps).length := by
        intro caps
        induction caps with
        | nil => intro t t' k _ h; simp only [BgpOpenMessage.encodeCaps, Res.ok.injEq, Prod.mk.injEq] at h; simp [← h.2, capsParams]
        | cons c cs ih =>
          intro t t' k hc h
          obtain ⟨b, w, u, u', k', hb, hf, hw, hu, hlen, rfl, rfl⟩ := encodeCaps_cons h
          have := ih _ _ _ (fun c h => hc c (by simp [h])) hu
          have h2 := capTlv_length c (encodable_notFQDN (hc c (by simp)))
          simp only [capsParams, List.flatMap_cons, List.length_append, capParam, tlv_length] at this ⊢
          omega
      exact le_of_eq (key _ _ _ _ c1 g7).symm
  · rintro ⟨ha, hc, hb⟩
    obtain ⟨buf', n, h1, -, -, -, h5⟩ := C05_open_round_trip m hc buf hb self
    rw [if_pos ha] at h5
    exact ⟨buf', n, h1, h5⟩

/-- a message that comes back and one that does not -/
example : (∃ buf' n, (⟨65000, 180, 1, [.CapRR, .CapGR 100 true []]⟩ : BgpOpenMessage).encodeTo (List.replicate 100 7) = .ok (buf', n) ∧
      BgpOpenMessage.new.decodeFrom (buf'.take n) = .ok ⟨65000, 180, 1, [.CapRR, .CapGR 100 true []]⟩) ∧
    ¬ ∃ buf' n, (⟨65000, 180, 1, [.CapFQDN [104] []]⟩ : BgpOpenMessage).encodeTo (List.replicate 100 7) = .ok (buf', n) ∧
      BgpOpenMessage.new.decodeFrom (buf'.take n) = .ok ⟨65000, 180, 1, [.CapFQDN [104] []]⟩ := by
  rw [C113_open_exactly, C113_open_exactly]
  refine ⟨⟨by decide, ?_, by decide⟩, ?_⟩
  · intro c hc
    simp at hc
    rcases hc with rfl | rfl <;> exact ⟨by first | trivial | decide, by decide⟩
  · rintro ⟨-, h, -⟩
    exact (h (.CapFQDN [104] []) (by simp)).1

/-- **C113, received OPENs.** An OPEN that was received can be sent on, and is then read as the same again, if and only if it has
no FQDN capability. -/
theorem C113_received (self : BgpOpenMessage) (b : Bytes) (m : BgpOpenMessage) (h : self.decodeFrom b = .ok m) (buf : Bytes)
    (hb : 10 + (capsParams m.caps).length ≤ buf.length) (self' : BgpOpenMessage) :
    (∃ buf' n, m.encodeTo buf = .ok (buf', n) ∧ self'.decodeFrom (buf'.take n) = .ok m) ↔
      ∀ c ∈ m.caps, ∀ host domain, c ≠ .CapFQDN host domain := by
  obtain ⟨as, len, params, -, ha, hp⟩ := (open_iff _ _ _).1 h
  rw [C113_open_exactly]
  constructor
  · rintro ⟨-, h, -⟩ c hc
    exact encodable_notFQDN (h c hc)
  · intro hn
    refine ⟨by rw [ha]; exact as.isLt, fun c hc => ?_, hb⟩
    rcases params_encodable hp c hc with h | ⟨host, -, rfl⟩
    · exact h
    · exact absurd rfl (hn _ hc _ _)

/-- an OPEN that is received with an FQDN capability, and one without -/
example : BgpOpenMessage.new.decodeFrom [4, 0, 1, 0, 180, 10, 0, 0, 1, 7, 2, 5, 73, 3, 1, 104, 0] =
      .ok ⟨1, 180, 0x0a000001, [.CapFQDN [104] []]⟩ ∧
    BgpOpenMessage.new.decodeFrom [4, 0, 1, 0, 180, 10, 0, 0, 1, 4, 2, 2, 2, 0] = .ok ⟨1, 180, 0x0a000001, [.CapRR]⟩ := by decide

end Zbgp.Props
