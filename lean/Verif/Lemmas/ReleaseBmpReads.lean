import Verif.Props.Release
import Verif.Lemmas.BmpReads
import Verif.Spec.ReleaseBmp

/-! # What a build without overflow checks reads: BMP messages -/

namespace Zbgp

open Spec BgpSessionParams

theorem announced_length (ty : BgpMessageType) (n : Nat) : (announced ty n).length = 19 := by simp [announced]

theorem typeCode_inj {t u : BgpMessageType} (h : be 1 (typeCode t) = be 1 (typeCode u)) : t = u := by
  cases t <;> cases u <;> first | rfl | (exact absurd h (by decide))

theorem announced_inj {t u : BgpMessageType} {n k : Nat} {a b : Bytes} (hn : n < 65536) (hk : k < 65536)
    (h : announced t n ++ a = announced u k ++ b) : t = u ∧ n = k ∧ a = b := by
  obtain ⟨h1, h2⟩ := List.append_inj h (by simp [announced_length])
  unfold announced at h1
  have h1 := List.append_cancel_left h1
  obtain ⟨h3, h4⟩ := List.append_inj h1 (by simp)
  exact ⟨typeCode_inj h4, be2_inj (by omega) (by omega) h3, h2⟩

theorem w_embedded_exactly {α : Type} (ty : BgpMessageType) {dec : Bytes → Res α} {R : Bytes → α → Prop} {C : Bytes → Prop}
    (h : ∀ b, Exactly (dec b) (R b) (C b)) (p b : Bytes) :
    Exactly (decodeEmbeddedIn .release ty dec (p ++ b) p.length)
      (fun y => ∃ rest, WrapEmbeddedRead ty R b y.1 rest ∧ y.2 + rest.length = p.length + b.length)
      (WrapEmbeddedCrash ty C b) := by
  have hf : rfrom (p ++ b) p.length = .ok b := rfrom_append _ _ _ rfl
  have hh := Props.C103_header_read_exactly b
  rcases hh.cases with ⟨⟨t, len⟩, L, tail, hL, e, e2⟩ | hc | he
  · have hd := (hh.ok (t, len)).2 ⟨L, tail, hL, e, e2⟩
    simp only at e e2
    change b = announced t L ++ tail at e
    unfold decodeEmbeddedIn
    rw [hf, Res.ok_bind, hd, Res.ok_bind]
    simp only
    by_cases ht : t = ty
    · subst ht
      rw [if_neg (by simp)]
      by_cases hlt : tail.length < len
      · have : rslice (p ++ b) (p.length + 19) (p.length + 19 + len) = .panic := by
          unfold rslice
          rw [if_neg (by rw [e]; simp [announced_length]; omega)]
        rw [this]
        refine .of_cases ?_ (fun _ => rfl) (.inr (.inl ⟨L, tail, e, hL, .inl (by omega)⟩))
        rintro ⟨m, q⟩ ⟨rest, ⟨n, body, e3, hn, hb, -⟩, -⟩
        rw [e] at e3
        obtain ⟨-, rfl, rfl⟩ := announced_inj hL hn e3
        simp at hlt; omega
      · obtain ⟨body, rest, rfl, hb, -⟩ := exists_split len (by omega : len ≤ tail.length)
        have : rslice (p ++ b) (p.length + 19) (p.length + 19 + len) = .ok body := by
          rw [e]
          have := rslice_append_mid (p ++ announced t L) body rest (p.length + 19) (p.length + 19 + len)
            (by simp [announced_length]) (by simp [announced_length, hb])
          simpa using this
        rw [this, Res.ok_bind]
        refine ((h body).map _).congr ?_ ?_
        · rintro ⟨m, q⟩
          constructor
          · rintro ⟨a, ha, e3⟩
            cases e3
            exact ⟨rest, ⟨L, body, e, hL, by omega, ha⟩, by rw [e]; simp [announced_length]; omega⟩
          · rintro ⟨rest', ⟨n, body', e3, hn, hb', hr⟩, hq⟩
            rw [e] at e3
            obtain ⟨-, rfl, e4⟩ := announced_inj hL hn e3
            obtain ⟨rfl, rfl⟩ := List.append_inj e4 (by omega)
            refine ⟨m, hr, ?_⟩
            simp only at hq
            rw [e] at hq
            simp [announced_length] at hq
            congr 1
            omega
        · constructor
          · intro hc
            exact ⟨L, body ++ rest, e, hL, .inr (by rw [← e2, List.take_left' hb]; exact hc)⟩
          · rintro ⟨n, rest', e3, hn, hc⟩
            rw [e] at e3
            obtain ⟨-, rfl, rfl⟩ := announced_inj hL hn e3
            rw [← e2] at hc
            rcases hc with hc | hc
            · simp at hc; omega
            · rwa [List.take_left' hb] at hc
    · rw [if_pos (by simpa using ht)]
      refine .of_cases ?_ ?_ (.inr (.inr trivial))
      · rintro ⟨m, q⟩ ⟨rest, ⟨n, body, e3, hn, -⟩, -⟩
        rw [e] at e3
        exact absurd (announced_inj hL hn e3).1 ht
      · rintro ⟨n, rest, e3, hn, -⟩
        rw [e] at e3
        exact absurd (announced_inj hL hn e3).1 ht
  · exact hc.elim
  · have hn : ∀ n rest, n < 65536 → b ≠ announced ty n ++ rest := by
      intro n rest hn e
      have := (hh.ok (ty, (n + 65517) % 65536)).2 ⟨n, rest, hn, e, rfl⟩
      rw [this] at he
      exact he
    refine .of_cases ?_ ?_ (.inr (.inr ?_))
    · rintro ⟨m, q⟩ ⟨rest, ⟨n, body, e3, h1, -⟩, -⟩
      exact absurd e3 (hn _ _ h1)
    · rintro ⟨n, rest, e3, h1, -⟩
      exact absurd e3 (hn _ _ h1)
    · unfold decodeEmbeddedIn
      rw [hf, Res.ok_bind]
      cases hd : decodeMessageHeadIn .release b <;> rw [hd] at he <;> first | exact he.elim | trivial

/-- what is read, without the position behind it -/
abbrev fstOf {α : Type} (r : Res (α × Nat)) : Res α := r >>= fun y => .ok y.1

theorem w_update_exactly (p : BgpSessionParams) (b : Bytes) :
    Exactly (BgpUpdateMessage.new.decodeFromIn .release p b)
      (fun (u : BgpUpdateMessage) => WrapUpdateRead p b u.withdraws u.attrs u.updates) (WrapUpdateCrash p b) := by
  refine (Rel.update_exactly _ p b).congr (fun u => ?_) Iff.rfl
  constructor
  · rintro ⟨l, h, e⟩
    simp only [BgpUpdateMessage.new, List.nil_append] at e
    rw [e]; exact h
  · intro h; exact ⟨_, h, by simp [BgpUpdateMessage.new]⟩

theorem open_exactly' (b : Bytes) : Exactly (BgpOpenMessage.new.decodeFrom b) (OpenRead b) (NoBody b) where
  ok := open_iff _ b
  crash := by
    have := Props.C06_open_decode_total BgpOpenMessage.new b
    constructor
    · intro h; rw [h] at this; simp at this
    · exact False.elim
  noHang := by
    have := Props.C06_open_decode_total BgpOpenMessage.new b
    intro h; rw [h] at this; simp at this

theorem notif_exactly' (b : Bytes) :
    Exactly (BgpNotificationMessage.new.decodeFrom b) (NotificationRead 0 b) (NoBody b) where
  ok := notification_iff _ b
  crash := by
    have := (Props.C10_notification_total .new .new b).1
    constructor
    · intro h; rw [h] at this; simp at this
    · exact False.elim
  noHang := by
    have := (Props.C10_notification_total .new .new b).1
    intro h; rw [h] at this; simp at this

/-- behind the per-peer header -/
theorem w_rmon_exactly (f : BmpMessagePeerHeader → BgpSessionParams) (b : Bytes) :
    Exactly (if b.length < 62 then (.err .insufficientBufferSize : Res BmpMessageRouteMonitoring) else do
        let (peer, pos) ← BmpMessagePeerHeader.decodeFrom b
        let (update, _) ← decodeEmbeddedIn .release .Update (BgpUpdateMessage.new.decodeFromIn .release (f peer)) b pos
        .ok ⟨peer, update⟩)
      (fun m => ∃ body rest, b = peerHeaderWire m.peer ++ body ∧ Distinct m.peer.peeraddress ∧ 20 ≤ body.length ∧
        WrapEmbeddedRead .Update (fun b (u : BgpUpdateMessage) => WrapUpdateRead (f m.peer) b u.withdraws u.attrs u.updates)
          body m.update rest)
      (∃ h body, b = peerHeaderWire h ++ body ∧ Distinct h.peeraddress ∧ 20 ≤ body.length ∧
        WrapEmbeddedCrash .Update (WrapUpdateCrash (f h)) body) := by
  by_cases hb : b.length < 62
  · rw [if_pos hb]
    refine .of_cases ?_ ?_ (.inr (.inr trivial))
    · rintro m ⟨body, rest, rfl, -, h, -⟩; simp [peerHeaderWire_length] at hb; omega
    · rintro ⟨h, body, rfl, -, h, -⟩; simp [peerHeaderWire_length] at hb; omega
  rw [if_neg hb]
  obtain ⟨x, t, rfl, hd⟩ := peerHeader_exists b (by omega)
  simp [peerHeaderWire_length] at hb
  rw [peerHeader_reads' x hd, Res.ok_bind]
  have := w_embedded_exactly .Update (w_update_exactly (f x)) (peerHeaderWire x) t
  rw [peerHeaderWire_length] at this
  have hinj : ∀ {h : BmpMessagePeerHeader} {body : Bytes}, Distinct h.peeraddress →
      peerHeaderWire x ++ t = peerHeaderWire h ++ body → h = x ∧ t = body := by
    intro h body hd' e
    obtain ⟨e1, e2⟩ := List.append_inj e (by simp [peerHeaderWire_length])
    exact ⟨(peerHeader_inj hd hd' e1).symm, e2⟩
  refine (this.map fun y => (⟨x, y.1⟩ : BmpMessageRouteMonitoring)).congr ?_ ?_
  · rintro ⟨h, u⟩
    constructor
    · rintro ⟨⟨u', q⟩, ⟨rest, h1, -⟩, e⟩
      cases e
      exact ⟨t, rest, rfl, hd, by omega, h1⟩
    · rintro ⟨body, rest, e, hd', hl, h1⟩
      obtain ⟨rfl, rfl⟩ := hinj hd' e
      obtain ⟨n, w, e3, -⟩ := id h1
      exact ⟨(u, 42 + t.length - rest.length), ⟨rest, h1, by
        have := congrArg List.length e3
        simp at this
        simp only
        omega⟩, rfl⟩
  · constructor
    · intro hc; exact ⟨x, t, rfl, hd, by omega, hc⟩
    · rintro ⟨h, body, e, hd', -, hc⟩
      obtain ⟨rfl, rfl⟩ := hinj hd' e
      exact hc

theorem read_rest_le {α : Type} {ty : BgpMessageType} {R : Bytes → α → Prop} {b rest : Bytes} {m : α}
    (h : WrapEmbeddedRead ty R b m rest) : ∃ c, b = c ++ rest := by
  obtain ⟨n, body, rfl, -⟩ := h
  exact ⟨announced ty n ++ body, by simp⟩

/-- two OPEN messages behind octets that are skipped -/
theorem w_opens_exactly (p b : Bytes) :
    Exactly (do
        let (m1, pos) ← decodeEmbeddedIn .release .Open BgpOpenMessage.new.decodeFrom (p ++ b) p.length
        let (m2, pos) ← decodeEmbeddedIn .release .Open BgpOpenMessage.new.decodeFrom (p ++ b) pos
        .ok (m1, m2, pos))
      (fun y => ∃ r1 r2, WrapEmbeddedRead .Open OpenRead b y.1 r1 ∧ WrapEmbeddedRead .Open OpenRead r1 y.2.1 r2 ∧
        y.2.2 + r2.length = p.length + b.length)
      (WrapEmbeddedCrash .Open NoBody b ∨
        ∃ m rest, WrapEmbeddedRead .Open OpenRead b m rest ∧ WrapEmbeddedCrash .Open NoBody rest) := by
  have h1 := w_embedded_exactly .Open open_exactly' p b
  have h2 := h1.bind (f := fun y => do
      let (m2, pos) ← decodeEmbeddedIn .release .Open BgpOpenMessage.new.decodeFrom (p ++ b) y.2
      .ok (y.1, m2, pos))
    (R' := fun y z => z.1 = y.1 ∧ ∃ r1 r2, WrapEmbeddedRead .Open OpenRead b y.1 r1 ∧
      WrapEmbeddedRead .Open OpenRead r1 z.2.1 r2 ∧ z.2.2 + r2.length = p.length + b.length)
    (C' := fun y => ∃ rest, WrapEmbeddedRead .Open OpenRead b y.1 rest ∧ y.2 + rest.length = p.length + b.length ∧
      WrapEmbeddedCrash .Open NoBody rest) ?_
  · refine h2.congr ?_ ?_
    · rintro ⟨m1, m2, q⟩
      constructor
      · rintro ⟨y, -, rfl, r1, r2, h3, h4, h5⟩; exact ⟨r1, r2, h3, h4, h5⟩
      · rintro ⟨r1, r2, h3, h4, h5⟩
        obtain ⟨c, e⟩ := read_rest_le h3
        refine ⟨(m1, (p ++ c).length), ⟨r1, h3, ?_⟩, rfl, r1, r2, h3, h4, h5⟩
        have := congrArg List.length e
        simp at this ⊢; omega
    · refine or_congr Iff.rfl ?_
      constructor
      · rintro ⟨y, -, rest, h3, -, h4⟩; exact ⟨y.1, rest, h3, h4⟩
      · rintro ⟨m, rest, h3, h4⟩
        obtain ⟨c, e⟩ := read_rest_le h3
        have hl : (p ++ c).length + rest.length = p.length + b.length := by
          have := congrArg List.length e
          simp at this ⊢; omega
        exact ⟨(m, (p ++ c).length), ⟨rest, h3, hl⟩, rest, h3, hl, h4⟩
  · rintro ⟨m1, q⟩ ⟨r1, h3, h4⟩
    obtain ⟨c, rfl⟩ := read_rest_le h3
    have hq : q = (p ++ c).length := by simp at h4 ⊢; omega
    subst hq
    have h5 := w_embedded_exactly .Open open_exactly' (p ++ c) r1
    rw [List.append_assoc] at h5
    have hdet : ∀ r, WrapEmbeddedRead .Open OpenRead (c ++ r1) m1 r → r = r1 := by
      intro r h6
      obtain ⟨n, w, e1, hn, hw, -⟩ := h3
      obtain ⟨n', w', e1', hn', hw', -⟩ := h6
      rw [e1] at e1'
      obtain ⟨-, rfl, e2⟩ := announced_inj hn hn' e1'
      exact (List.append_inj e2 (by omega)).2.symm
    refine (h5.map fun z => (m1, z.1, z.2)).congr ?_ ?_
    · rintro ⟨m, m2, q⟩
      constructor
      · rintro ⟨⟨a, k⟩, ⟨r2, h6, h7⟩, e⟩
        cases e
        exact ⟨rfl, r1, r2, h3, h6, by simp at h7 ⊢; omega⟩
      · rintro ⟨e, r, r2, h6, h7, h8⟩
        cases e
        obtain rfl := hdet r h6
        exact ⟨(m2, q), ⟨r2, h7, by simp at h8 ⊢; omega⟩, rfl⟩
    · constructor
      · intro hc; exact ⟨r1, h3, h4, hc⟩
      · rintro ⟨r, h6, -, hc⟩
        obtain rfl := hdet r h6
        exact hc

theorem w_peerUp_exactly (b : Bytes) :
    Exactly (fstOf (BmpMessagePeerUp.decodeFromIn .release b)) (WrapPeerUpRead b)
      (∃ h addr body, b = peerHeaderWire h ++ (addr ++ body) ∧ addr.length = 20 ∧
        (WrapEmbeddedCrash .Open NoBody body ∨
          ∃ m rest, WrapEmbeddedRead .Open OpenRead body m rest ∧ WrapEmbeddedCrash .Open NoBody rest)) := by
  unfold BmpMessagePeerUp.decodeFromIn
  by_cases hb : b.length < 62
  · rw [if_pos hb]
    refine .of_cases ?_ ?_ (.inr (.inr trivial))
    · rintro m ⟨opens, r1, r2, rfl, -⟩; simp [peerHeaderWire_length, bmpAddr_length] at hb; omega
    · rintro ⟨h, a, body, rfl, h1, -⟩; simp [peerHeaderWire_length] at hb; omega
  rw [if_neg hb]
  obtain ⟨x, t, rfl, hd⟩ := peerHeader_exists b (by omega)
  simp [peerHeaderWire_length] at hb
  obtain ⟨a, t, rfl, ha⟩ := bmpAddr_exists t (by omega)
  simp [bmpAddr_length] at hb
  obtain ⟨lp, hlp, e1⟩ := exists_be 2 (show 2 ≤ t.length by omega)
  obtain ⟨rp, hrp, e2⟩ := exists_be 2 (show 2 ≤ (t.drop 2).length by simp; omega)
  rw [e2] at e1
  generalize (t.drop 2).drop 2 = t' at *
  subst e1
  rw [peerHeader_reads' x hd]
  have r0 : rfrom (peerHeaderWire x ++ (bmpAddr a ++ (be 2 lp ++ (be 2 rp ++ t')))) 42 = .ok (bmpAddr a ++ (be 2 lp ++ (be 2 rp ++ t'))) :=
    rfrom_append _ _ _ (by simp [peerHeaderWire_length])
  have r1 : rfrom (peerHeaderWire x ++ (bmpAddr a ++ (be 2 lp ++ (be 2 rp ++ t')))) (42 + 16) = .ok (be 2 lp ++ (be 2 rp ++ t')) := by
    have := rfrom_append (peerHeaderWire x ++ bmpAddr a) (be 2 lp ++ (be 2 rp ++ t')) (42 + 16) (by simp [peerHeaderWire_length, bmpAddr_length])
    simpa using this
  have r2 : rfrom (peerHeaderWire x ++ (bmpAddr a ++ (be 2 lp ++ (be 2 rp ++ t')))) (42 + 18) = .ok (be 2 rp ++ t') := by
    have := rfrom_append (peerHeaderWire x ++ (bmpAddr a ++ be 2 lp)) (be 2 rp ++ t') (42 + 18) (by simp [peerHeaderWire_length, bmpAddr_length])
    simpa using this
  simp only [Res.ok_bind]
  rw [r0, Res.ok_bind, bmpAddr_reads, Res.ok_bind, r1, Res.ok_bind, getn16_be, Res.ok_bind, r2, Res.ok_bind, getn16_be, Res.ok_bind,
    addrRead_distinct ha]
  have e : peerHeaderWire x ++ (bmpAddr a ++ (be 2 lp ++ (be 2 rp ++ t'))) =
    (peerHeaderWire x ++ (bmpAddr a ++ (be 2 lp ++ be 2 rp))) ++ t' := by simp
  have el : 42 + 20 = (peerHeaderWire x ++ (bmpAddr a ++ (be 2 lp ++ be 2 rp))).length := by
    simp [peerHeaderWire_length, bmpAddr_length]
  have key := (w_opens_exactly (peerHeaderWire x ++ (bmpAddr a ++ (be 2 lp ++ be 2 rp))) t').map
    fun y => (⟨x, a, BitVec.ofNat 16 lp, BitVec.ofNat 16 rp, y.1, y.2.1⟩ : BmpMessagePeerUp)
  rw [← e, ← el] at key
  refine (show Exactly _ _ _ from ?_ : Exactly _ _ _)
  have hcrash : (∃ h addr body, peerHeaderWire x ++ (bmpAddr a ++ (be 2 lp ++ (be 2 rp ++ t'))) = peerHeaderWire h ++ (addr ++ body) ∧
      addr.length = 20 ∧ (WrapEmbeddedCrash .Open NoBody body ∨
        ∃ m rest, WrapEmbeddedRead .Open OpenRead body m rest ∧ WrapEmbeddedCrash .Open NoBody rest)) ↔
      (WrapEmbeddedCrash .Open NoBody t' ∨
        ∃ m rest, WrapEmbeddedRead .Open OpenRead t' m rest ∧ WrapEmbeddedCrash .Open NoBody rest) := by
    constructor
    · rintro ⟨h, ad, body, e3, hl, hc⟩
      have e4 := (List.append_inj e3 (by simp [peerHeaderWire_length])).2
      have e5 : (bmpAddr a ++ (be 2 lp ++ be 2 rp)) ++ t' = ad ++ body := by simpa using e4
      rw [(List.append_inj e5 (by simp [bmpAddr_length, hl])).2]
      exact hc
    · intro hc
      exact ⟨x, bmpAddr a ++ (be 2 lp ++ be 2 rp), t', by simp, by simp [bmpAddr_length], hc⟩
  rw [hcrash]
  have heq : ∀ (r : Nat → Res (BgpOpenMessage × Nat)) (f : BgpOpenMessage → BgpOpenMessage → BmpMessagePeerUp) (k : Nat),
      fstOf (do
        let __x ← r k
        let __y ← r __x.2
        .ok (f __x.1 __y.1, __y.2)) =
      (do
        let __x ← r k
        let __y ← r __x.2
        .ok (__x.1, __y.1, __y.2)) >>= fun y => .ok (f y.1 y.2.1) := by
    intro r f k
    cases h1 : r k with
    | ok y => simp only [Res.ok_bind]; cases h2 : r y.2 <;> rfl
    | _ => rfl
  have := heq (decodeEmbeddedIn .release .Open BgpOpenMessage.new.decodeFrom
    (peerHeaderWire x ++ (bmpAddr a ++ (be 2 lp ++ (be 2 rp ++ t')))))
    (fun m1 m2 => ⟨x, a, BitVec.ofNat 16 lp, BitVec.ofNat 16 rp, m1, m2⟩) (42 + 20)
  refine (this ▸ key).congr ?_ Iff.rfl
  rintro ⟨h, a', lp', rp', m1, m2⟩
  constructor
  · rintro ⟨⟨y1, y2, q⟩, ⟨q1, q2, h3, h4, -⟩, e3⟩
    cases e3
    exact ⟨t', q1, q2, by simp only [be2_ofNat], hd, ha, h3, h4⟩
  · rintro ⟨opens, q1, q2, e3, hd', ha', h3, h4⟩
    simp only at e3 hd' ha' h3 h4
    obtain ⟨e4, e5⟩ := List.append_inj e3 (by simp [peerHeaderWire_length])
    obtain rfl := peerHeader_inj hd hd' e4
    obtain ⟨e6, e7⟩ := List.append_inj e5 (by simp [bmpAddr_length])
    obtain rfl := bmpAddr_inj ha ha' e6
    obtain ⟨e8, e9⟩ := List.append_inj e7 (by simp)
    obtain ⟨e10, rfl⟩ := List.append_inj e9 (by simp)
    have e8 := be_inj hlp lp'.isLt e8
    have e10 := be_inj hrp rp'.isLt e10
    subst e8 e10
    obtain ⟨c, ec⟩ := read_rest_le h3
    obtain ⟨c2, ec2⟩ := read_rest_le h4
    refine ⟨(m1, m2, (62 + t'.length) - q2.length), ⟨q1, q2, h3, h4, ?_⟩, by simp⟩
    have := congrArg List.length ec
    have := congrArg List.length ec2
    simp at *
    omega

theorem w_reason_exactly (x : BmpMessagePeerHeader) (c : U8) (t : Bytes) :
    Exactly (fstOf (BmpMessagePeerDown.decodeReasonIn .release c (peerHeaderWire x ++ c :: t) 43)) (WrapReasonRead (c :: t))
      ((c = 1 ∨ c = 3) ∧ WrapEmbeddedCrash .Notification NoBody t) := by
  have he := w_embedded_exactly .Notification notif_exactly' (peerHeaderWire x ++ [c]) t
  have e1 : (peerHeaderWire x ++ [c]) ++ t = peerHeaderWire x ++ c :: t := by simp
  have e2 : (peerHeaderWire x ++ [c]).length = 43 := by simp [peerHeaderWire_length]
  rw [e1, e2] at he
  have hpos : ∀ {m : BgpNotificationMessage} {rest : Bytes}, WrapEmbeddedRead .Notification (NotificationRead 0) t m rest →
      (43 + t.length - rest.length) + rest.length = 43 + t.length := by
    intro m rest h
    obtain ⟨d, e⟩ := read_rest_le h
    have := congrArg List.length e
    simp at this; omega
  have hmap : ∀ f : BgpNotificationMessage → BmpMessagePeerDownReason,
      fstOf (decodeEmbeddedIn .release .Notification BgpNotificationMessage.new.decodeFrom (peerHeaderWire x ++ c :: t) 43 >>=
        fun y => .ok (f y.1, y.2)) =
      decodeEmbeddedIn .release .Notification BgpNotificationMessage.new.decodeFrom (peerHeaderWire x ++ c :: t) 43 >>=
        fun y => .ok (f y.1) := by
    intro f
    cases decodeEmbeddedIn .release .Notification BgpNotificationMessage.new.decodeFrom (peerHeaderWire x ++ c :: t) 43 <;> rfl
  have hc : ∀ k : Nat, k < 256 → (c.toNat = k ↔ c = BitVec.ofNat 8 k) := fun k hk => toNat_eq_iff8 c k hk
  unfold BmpMessagePeerDown.decodeReasonIn
  split
  · rename_i h1
    rw [hc 1 (by omega)] at h1
    subst h1
    refine (show Exactly _ _ _ from hmap .AdministrativelyClosed ▸ he.map _).congr (fun r => ?_) (by simp)
    constructor
    · rintro ⟨y, ⟨rest, h2, -⟩, rfl⟩; exact .admin _ rest _ h2
    · intro h
      cases h with
      | admin _ rest m hr => exact ⟨(m, _), ⟨rest, hr, hpos hr⟩, rfl⟩
  · rename_i h1
    rw [hc 2 (by omega)] at h1
    subst h1
    have s1 : Build.release.subN (peerHeaderWire x ++ (2#8 : U8) :: t).length 43 = .ok t.length := by
      unfold Build.subN
      simp only [List.length_append, peerHeaderWire_length, List.length_cons]
      rw [if_pos (by omega)]
      congr 1
      omega
    rw [s1, Res.ok_bind]
    by_cases ht : t.length < 2
    · rw [if_pos ht]
      refine .of_cases (fun r h => ?_) (by simp) (.inr (.inr trivial))
      cases h with
      | state s rest => simp at ht
    · rw [if_neg ht]
      obtain ⟨s, hs, e⟩ := exists_be 2 (show 2 ≤ t.length by omega)
      generalize t.drop 2 = t' at e
      subst e
      have e2 : rslice (peerHeaderWire x ++ (2#8 : U8) :: (be 2 s ++ t')) 43 (43 + 2) = .ok (be 2 s) := by
        have := rslice_append_mid (peerHeaderWire x ++ [2#8]) (be 2 s) t' 43 (43 + 2) (by simp [peerHeaderWire_length]) (by simp [peerHeaderWire_length])
        simpa using this
      rw [e2, Res.ok_bind, unbe_be, Nat.mod_eq_of_lt hs]
      have hr := WrapReasonRead.state (BitVec.ofNat 16 s) t'
      rw [be2_ofNat] at hr
      refine .of_cases (fun r h => ?_) (by simp) (.inl ⟨_, hr⟩)
      generalize hg : be 2 s ++ t' = w at h
      cases h with
      | state s' rest =>
        have := be_inj hs s'.isLt (List.append_inj hg (by simp)).1
        subst this
        simp
  · rename_i h1
    rw [hc 3 (by omega)] at h1
    subst h1
    refine (show Exactly _ _ _ from hmap .RemoteNotification ▸ he.map _).congr (fun r => ?_) (by simp)
    constructor
    · rintro ⟨y, ⟨rest, h2, -⟩, rfl⟩; exact .notification _ rest _ h2
    · intro h
      cases h with
      | notification _ rest m hr => exact ⟨(m, _), ⟨rest, hr, hpos hr⟩, rfl⟩
  · rename_i h1
    rw [hc 4 (by omega)] at h1
    subst h1
    exact .of_cases (fun r h => by cases h; rfl) (by simp) (.inl ⟨_, .remote _⟩)
  · rename_i h1
    rw [hc 5 (by omega)] at h1
    subst h1
    exact .of_cases (fun r h => by cases h; rfl) (by simp) (.inl ⟨_, .disabled _⟩)
  · rename_i h1 h2 h3 h4 h5
    refine .of_cases (fun r h => ?_) ?_ (.inr (.inr trivial))
    · exfalso
      cases h
      · exact h1 rfl
      · exact h2 rfl
      · exact h3 rfl
      · exact h4 rfl
      · exact h5 rfl
    · rintro ⟨rfl | rfl, -⟩
      · exact absurd rfl h1
      · exact absurd rfl h3

theorem w_peerDown_exactly (b : Bytes) :
    Exactly (fstOf (BmpMessagePeerDown.decodeFromIn .release b)) (WrapPeerDownRead b)
      (∃ h code body, b = peerHeaderWire h ++ code :: body ∧ (code = 1 ∨ code = 3) ∧
        WrapEmbeddedCrash .Notification NoBody body) := by
  unfold BmpMessagePeerDown.decodeFromIn
  have hne : ∀ {t : Bytes} {r : BmpMessagePeerDownReason}, WrapReasonRead t r → t ≠ [] := by
    intro t r h; cases h <;> simp
  by_cases hb : b.length < 43
  · rw [if_pos hb]
    refine .of_cases ?_ ?_ (.inr (.inr trivial))
    · rintro m ⟨rest, rfl, -, h⟩
      have := List.length_pos_iff.2 (hne h)
      simp [peerHeaderWire_length] at hb; omega
    · rintro ⟨h, cd, body, rfl, h1, -⟩; simp [peerHeaderWire_length] at hb; omega
  rw [if_neg hb]
  obtain ⟨x, t, rfl, hd⟩ := peerHeader_exists b (by omega)
  simp [peerHeaderWire_length] at hb
  match t, hb with
  | [], hb => simp at hb
  | c :: t, _ =>
    rw [peerHeader_reads' x hd]
    simp only [Res.ok_bind]
    have hi : idx (peerHeaderWire x ++ c :: t) 42 = .ok c := by simp [idx, peerHeaderWire_length]
    rw [hi, Res.ok_bind]
    have heq : fstOf (BmpMessagePeerDown.decodeReasonIn .release c (peerHeaderWire x ++ c :: t) (42 + 1) >>=
          fun y => Res.ok ((⟨x, y.1⟩ : BmpMessagePeerDown), y.2)) =
        fstOf (BmpMessagePeerDown.decodeReasonIn .release c (peerHeaderWire x ++ c :: t) 43) >>= fun r => .ok ⟨x, r⟩ := by
      cases BmpMessagePeerDown.decodeReasonIn .release c (peerHeaderWire x ++ c :: t) 43 <;> rfl
    refine (show Exactly _ _ _ from heq ▸ (w_reason_exactly x c t).map _).congr ?_ ?_
    · rintro ⟨h, r⟩
      constructor
      · rintro ⟨r', h1, e⟩
        cases e
        exact ⟨_, rfl, hd, h1⟩
      · rintro ⟨rest, e, hd', h1⟩
        obtain ⟨e1, rfl⟩ := List.append_inj e (by simp [peerHeaderWire_length])
        obtain rfl := peerHeader_inj hd hd' e1
        exact ⟨r, h1, rfl⟩
    · constructor
      · rintro ⟨h1, h2⟩; exact ⟨x, c, t, rfl, h1, h2⟩
      · rintro ⟨h, cd, body, e, h1, h2⟩
        have e1 := (List.append_inj e (by simp [peerHeaderWire_length])).2
        cases e1
        exact ⟨h1, h2⟩

theorem fst_exactly {α : Type} {r : Res (α × Nat)} {R : α → Prop} {C : Prop} (h : ∀ m, (∃ n, r = .ok (m, n)) ↔ R m)
    (hc : r.Returns ↔ ¬ C) (hh : r ≠ .hang) : Exactly (fstOf r) R C := by
  cases r with
  | ok y =>
    refine ⟨fun x => ?_, ?_, by simp⟩
    · rw [← h]
      constructor
      · intro e; cases e; exact ⟨y.2, rfl⟩
      · rintro ⟨n, e⟩; cases e; rfl
    · simp at hc; simp [hc]
  | err e =>
    refine ⟨fun x => ?_, ?_, by simp⟩
    · rw [← h]; simp
    · simp at hc; simp [hc]
  | panic =>
    refine ⟨fun x => ?_, ?_, by simp⟩
    · rw [← h]; simp
    · simp at hc; simp [hc]
  | hang => exact absurd rfl hh

theorem init_exactly (b : Bytes) : Exactly (fstOf (BmpMessageInitiation.decodeFrom b)) (InitiationRead b) False := by
  have hr : (BmpMessageInitiation.decodeFrom b).Returns := initLoop_returns _ _ _ (by omega) _
  exact fst_exactly (init_read_iff b) (by simpa using hr) (fun e => by rw [e] at hr; simp at hr)

theorem w_term_exactly (b : Bytes) :
    Exactly (fstOf (BmpMessageTermination.decodeFromIn .release b)) (TerminationRead b) (TermCrash b) := by
  have e : BmpMessageTermination.decodeFromIn .release b = BmpMessageTermination.decodeFrom b :=
    termLoop_release b b.length 0 (by omega) .new
  rw [e]
  refine fst_exactly (term_read_iff b) (term_returns_iff b) ?_
  exact nh_termLoop _ _ _ (by omega) _

theorem w_bmpRead_cons (f : BmpMessagePeerHeader → BgpSessionParams) (c : U8) (b : Bytes) (msg : BmpMessage) :
    WrapBmpRead (fun h p => p = f h) (c :: b) msg ↔
      (c = 0 ∧ ∃ m : BmpMessageRouteMonitoring, (∃ body rest, b = peerHeaderWire m.peer ++ body ∧ Distinct m.peer.peeraddress ∧ 20 ≤ body.length ∧
        WrapEmbeddedRead .Update (fun b (u : BgpUpdateMessage) => WrapUpdateRead (f m.peer) b u.withdraws u.attrs u.updates) body m.update rest) ∧
        msg = .RouteMonitoring m) ∨
      (c = 1 ∧ msg = .StatisticsReport) ∨
      (c = 2 ∧ ∃ m, WrapPeerDownRead b m ∧ msg = .PeerDownNotification m) ∨
      (c = 3 ∧ ∃ m, WrapPeerUpRead b m ∧ msg = .PeerUpNotification m) ∨
      (c = 4 ∧ ∃ m, InitiationRead b m ∧ msg = .Initiation m) ∨
      (c = 5 ∧ ∃ m, TerminationRead b m ∧ msg = .Termination m) ∨
      (c = 6 ∧ msg = .RouteMirroring) := by
  constructor
  · intro h
    cases h with
    | monitoring h p body rest u hd hp hl hu => subst hp; exact .inl ⟨rfl, ⟨h, u⟩, ⟨body, rest, rfl, hd, hl, hu⟩, rfl⟩
    | statistics => exact .inr (.inl ⟨rfl, rfl⟩)
    | down _ m h => exact .inr (.inr (.inl ⟨rfl, m, h, rfl⟩))
    | up _ m h => exact .inr (.inr (.inr (.inl ⟨rfl, m, h, rfl⟩)))
    | initiation _ m h => exact .inr (.inr (.inr (.inr (.inl ⟨rfl, m, h, rfl⟩))))
    | termination _ m h => exact .inr (.inr (.inr (.inr (.inr (.inl ⟨rfl, m, h, rfl⟩)))))
    | mirroring => exact .inr (.inr (.inr (.inr (.inr (.inr ⟨rfl, rfl⟩)))))
  · rintro (⟨rfl, ⟨h, u⟩, ⟨body, rest, rfl, hd, hl, hu⟩, rfl⟩ | ⟨rfl, rfl⟩ | ⟨rfl, m, h, rfl⟩ | ⟨rfl, m, h, rfl⟩ |
      ⟨rfl, m, h, rfl⟩ | ⟨rfl, m, h, rfl⟩ | ⟨rfl, rfl⟩)
    · exact .monitoring h _ body rest u hd rfl hl hu
    · exact .statistics _
    · exact .down _ m h
    · exact .up _ m h
    · exact .initiation _ m h
    · exact .termination _ m h
    · exact .mirroring _

theorem w_bmpCrash_cons (f : BmpMessagePeerHeader → BgpSessionParams) (c : U8) (b : Bytes) :
    WrapBmpCrash (fun h p => p = f h) (c :: b) ↔
      (c = 0 ∧ ∃ h body, b = peerHeaderWire h ++ body ∧ Distinct h.peeraddress ∧ 20 ≤ body.length ∧
        WrapEmbeddedCrash .Update (WrapUpdateCrash (f h)) body) ∨
      (c = 2 ∧ ∃ h code body, b = peerHeaderWire h ++ code :: body ∧ (code = 1 ∨ code = 3) ∧
        WrapEmbeddedCrash .Notification NoBody body) ∨
      (c = 3 ∧ ∃ h addr body, b = peerHeaderWire h ++ (addr ++ body) ∧ addr.length = 20 ∧
        (WrapEmbeddedCrash .Open NoBody body ∨
          ∃ m rest, WrapEmbeddedRead .Open OpenRead body m rest ∧ WrapEmbeddedCrash .Open NoBody rest)) ∨
      (c = 5 ∧ TermCrash b) := by
  unfold WrapBmpCrash
  simp only [List.cons.injEq, reduceCtorEq, false_or]
  constructor
  · rintro (⟨h, p, body, ⟨e1, e2⟩, h1, rfl, h2⟩ | ⟨h, cd, body, ⟨e1, e2⟩, h1⟩ | ⟨h, a, body, ⟨e1, e2⟩, h1⟩ | ⟨body, ⟨e1, rfl⟩, h1⟩)
    · exact .inl ⟨e1, h, body, e2, h1, h2⟩
    · exact .inr (.inl ⟨e1, h, cd, body, e2, h1⟩)
    · exact .inr (.inr (.inl ⟨e1, h, a, body, e2, h1⟩))
    · exact .inr (.inr (.inr ⟨e1, h1⟩))
  · rintro (⟨e1, h, body, e2, h1, h2⟩ | ⟨e1, h, cd, body, e2, h1⟩ | ⟨e1, h, a, body, e2, h1⟩ | ⟨e1, h1⟩)
    · exact .inl ⟨h, _, body, ⟨e1, e2⟩, h1, rfl, h2⟩
    · exact .inr (.inl ⟨h, cd, body, ⟨e1, e2⟩, h1⟩)
    · exact .inr (.inr (.inl ⟨h, a, body, ⟨e1, e2⟩, h1⟩))
    · exact .inr (.inr (.inr ⟨b, ⟨e1, rfl⟩, h1⟩))

/-- how the results for each type are put together -/
theorem w_assemble (f : BmpMessagePeerHeader → BgpSessionParams) (c : U8) (b : Bytes) (r : Res BmpMessage)
    (rm : Res BmpMessageRouteMonitoring)
    (hrm : Exactly rm (fun m => ∃ body rest, b = peerHeaderWire m.peer ++ body ∧ Distinct m.peer.peeraddress ∧ 20 ≤ body.length ∧
        WrapEmbeddedRead .Update (fun b (u : BgpUpdateMessage) => WrapUpdateRead (f m.peer) b u.withdraws u.attrs u.updates)
          body m.update rest)
      (∃ h body, b = peerHeaderWire h ++ body ∧ Distinct h.peeraddress ∧ 20 ≤ body.length ∧
        WrapEmbeddedCrash .Update (WrapUpdateCrash (f h)) body))
    (h0 : c = 0 → r = rm >>= fun m => .ok (.RouteMonitoring m))
    (h1 : c = 1 → r = .ok .StatisticsReport)
    (h2 : c = 2 → r = fstOf (BmpMessagePeerDown.decodeFromIn .release b) >>= fun m => .ok (.PeerDownNotification m))
    (h3 : c = 3 → r = fstOf (BmpMessagePeerUp.decodeFromIn .release b) >>= fun m => .ok (.PeerUpNotification m))
    (h4 : c = 4 → r = fstOf (BmpMessageInitiation.decodeFrom b) >>= fun m => .ok (.Initiation m))
    (h5 : c = 5 → r = fstOf (BmpMessageTermination.decodeFromIn .release b) >>= fun m => .ok (.Termination m))
    (h6 : c = 6 → r = .ok .RouteMirroring)
    (h7 : 7 ≤ c.toNat → r.IsErr) :
    Exactly r (WrapBmpRead (fun h p => p = f h) (c :: b)) (WrapBmpCrash (fun h p => p = f h) (c :: b)) := by
  rcases bmp_cases c with rfl | rfl | rfl | rfl | rfl | rfl | rfl | h
  · rw [h0 rfl]
    exact (hrm.map _).congr (fun m => by rw [w_bmpRead_cons]; simp) (by rw [w_bmpCrash_cons]; simp)
  · rw [h1 rfl]
    refine .of_cases (fun m h => ?_) (fun h => ?_) (.inl ⟨_, .statistics _⟩)
    · rw [w_bmpRead_cons] at h; simp at h; rw [h]
    · rw [w_bmpCrash_cons] at h; simp at h
  · rw [h2 rfl]
    exact ((w_peerDown_exactly b).map _).congr (fun m => by rw [w_bmpRead_cons]; simp) (by rw [w_bmpCrash_cons]; simp)
  · rw [h3 rfl]
    exact ((w_peerUp_exactly b).map _).congr (fun m => by rw [w_bmpRead_cons]; simp) (by rw [w_bmpCrash_cons]; simp)
  · rw [h4 rfl]
    exact ((init_exactly b).map _).congr (fun m => by rw [w_bmpRead_cons]; simp) (by rw [w_bmpCrash_cons]; simp)
  · rw [h5 rfl]
    exact ((w_term_exactly b).map _).congr (fun m => by rw [w_bmpRead_cons]; simp) (by rw [w_bmpCrash_cons]; simp)
  · rw [h6 rfl]
    refine .of_cases (fun m h => ?_) (fun h => ?_) (.inl ⟨_, .mirroring _⟩)
    · rw [w_bmpRead_cons] at h; simp at h; rw [h]
    · rw [w_bmpCrash_cons] at h; simp at h
  · have e : ∀ k, k < 7 → c ≠ BitVec.ofNat 8 k := by
      rintro k hk rfl; simp at h; omega
    have e0 := e 0 (by omega)
    have e1 := e 1 (by omega)
    have e2 := e 2 (by omega)
    have e3 := e 3 (by omega)
    have e4 := e 4 (by omega)
    have e5 := e 5 (by omega)
    have e6 := e 6 (by omega)
    refine .of_cases (fun m h => ?_) (fun h => ?_) (.inr (.inr (h7 h)))
    · rw [w_bmpRead_cons] at h
      rcases h with ⟨h, -⟩ | ⟨h, -⟩ | ⟨h, -⟩ | ⟨h, -⟩ | ⟨h, -⟩ | ⟨h, -⟩ | ⟨h, -⟩
      · exact absurd h e0
      · exact absurd h e1
      · exact absurd h e2
      · exact absurd h e3
      · exact absurd h e4
      · exact absurd h e5
      · exact absurd h e6
    · rw [w_bmpCrash_cons] at h
      rcases h with ⟨h, -⟩ | ⟨h, -⟩ | ⟨h, -⟩ | ⟨h, -⟩
      · exact absurd h e0
      · exact absurd h e2
      · exact absurd h e3
      · exact absurd h e5

theorem fst_bind {α β : Type} (r : Res (α × Nat)) (g : α → β) :
    (r >>= fun y => (.ok (g y.1) : Res β)) = fstOf r >>= fun m => .ok (g m) := by cases r <;> rfl

theorem w_bmp_exactly (b : Bytes) : Exactly (BmpMessage.decodeFromIn .release b)
    (WrapBmpRead (fun h p => p = headerParams h) b) (WrapBmpCrash (fun h p => p = headerParams h) b) := by
  cases b with
  | nil =>
    refine .of_cases (fun m h => by cases h) (fun _ => ?_) (.inr (.inl (.inl rfl)))
    simp [BmpMessage.decodeFromIn, idx]
  | cons c b =>
    rw [← headerParams_eq]
    refine w_assemble _ c b _ _ (w_rmon_exactly _ b) ?_ ?_ ?_ ?_ ?_ ?_ ?_ ?_ <;> (try rintro rfl) <;> (try intro h7) <;>
      unfold BmpMessage.decodeFromIn <;> rw [idx_cons_zero, Res.ok_bind] <;> (try simp only [rfrom_cons_one, Res.ok_bind])
    · change (do let (x, _) ← BmpMessageRouteMonitoring.decodeFromIn .release b; Res.ok (BmpMessage.RouteMonitoring x)) = _
      unfold BmpMessageRouteMonitoring.decodeFromIn
      split
      · rfl
      · cases BmpMessagePeerHeader.decodeFrom b with
        | ok y =>
          simp only [Res.ok_bind]
          cases decodeEmbeddedIn .release .Update (BgpUpdateMessage.new.decodeFromIn .release (.ofPeerHeader y.1)) b y.2 <;> rfl
        | _ => rfl
    · rfl
    · exact fst_bind _ _
    · exact fst_bind _ _
    · exact fst_bind _ _
    · exact fst_bind _ _
    · rfl
    · match hc : c.toNat, h7 with
      | n + 7, _ => trivial

theorem w_session_exactly (s : BMPSession) (b : Bytes) : Exactly (s.decodeFromIn .release b).1
    (WrapBmpRead (fun h p => p = s.params h) b) (WrapBmpCrash (fun h p => p = s.params h) b) := by
  cases b with
  | nil =>
    refine .of_cases (fun m h => by cases h) (fun _ => ?_) (.inr (.inl (.inl rfl)))
    simp [BMPSession.decodeFromIn, idx]
  | cons c b =>
    refine w_assemble _ c b _ _ (w_rmon_exactly _ b) ?_ ?_ ?_ ?_ ?_ ?_ ?_ ?_ <;> (try rintro rfl) <;> (try intro h7) <;>
      unfold BMPSession.decodeFromIn <;> rw [idx_cons_zero] <;> (try simp only [rfrom_cons_one, Res.ok_bind])
    · change (do let x ← s.decodeRmIn .release b; Res.ok (BmpMessage.RouteMonitoring x)) = _
      rfl
    · rfl
    · change (match BmpMessagePeerDown.decodeFromIn .release b with
        | .ok (x, _) => ((.ok (.PeerDownNotification x), ⟨BTree.remove (.ofPeer x.peer) s.sessions⟩) : Res BmpMessage × BMPSession)
        | .err e => (.err e, s)
        | .panic => (.panic, s)
        | .hang => (.hang, s)).1 = _
      cases BmpMessagePeerDown.decodeFromIn .release b <;> rfl
    · change (match BmpMessagePeerUp.decodeFromIn .release b with
        | .ok (x, _) => ((.ok (.PeerUpNotification x), ⟨BTree.insert (.ofPeer x.peer) x s.sessions⟩) : Res BmpMessage × BMPSession)
        | .err e => (.err e, s)
        | .panic => (.panic, s)
        | .hang => (.hang, s)).1 = _
      cases BmpMessagePeerUp.decodeFromIn .release b <;> rfl
    · exact fst_bind _ _
    · exact fst_bind _ _
    · rfl
    · match hc : c.toNat, h7 with
      | n + 7, _ => trivial

theorem fstOf_ok {α : Type} {r : Res (α × Nat)} {m : α} (h : fstOf r = .ok m) : ∃ n, r = .ok (m, n) := by
  cases r with
  | ok y => cases h; exact ⟨y.2, rfl⟩
  | err e => cases h
  | panic => cases h
  | hang => cases h

theorem w_peerUpIs_unique {b : Bytes} {m m' : BmpMessagePeerUp} (h : WrapPeerUpIs b m) (h' : WrapPeerUpIs b m') : m = m' := by
  obtain ⟨c, rfl, h⟩ := h
  obtain ⟨d, e, h'⟩ := h'
  cases e
  exact (w_peerUp_exactly c).unique h h'

theorem w_peerDownIs_unique {b : Bytes} {m m' : BmpMessagePeerDown} (h : WrapPeerDownIs b m) (h' : WrapPeerDownIs b m') : m = m' := by
  obtain ⟨c, rfl, h⟩ := h
  obtain ⟨d, e, h'⟩ := h'
  cases e
  exact (w_peerDown_exactly c).unique h h'

theorem w_peerUp_not_down {b : Bytes} {m : BmpMessagePeerUp} {m' : BmpMessagePeerDown} (h : WrapPeerUpIs b m)
    (h' : WrapPeerDownIs b m') : False := by
  obtain ⟨c, rfl, -⟩ := h
  obtain ⟨d, e, -⟩ := h'
  cases e

theorem w_session_up (s : BMPSession) {b : Bytes} {m : BmpMessagePeerUp} (h : WrapPeerUpIs b m) :
    (s.decodeFromIn .release b).2 = ⟨BTree.insert (.ofPeer m.peer) m s.sessions⟩ := by
  obtain ⟨c, rfl, h⟩ := h
  obtain ⟨n, hn⟩ := fstOf_ok (((w_peerUp_exactly c).ok m).2 h)
  unfold BMPSession.decodeFromIn
  rw [idx_cons_zero]
  simp only [rfrom_cons_one, Res.ok_bind, hn]
  rfl

theorem w_session_down (s : BMPSession) {b : Bytes} {m : BmpMessagePeerDown} (h : WrapPeerDownIs b m) :
    (s.decodeFromIn .release b).2 = ⟨BTree.remove (.ofPeer m.peer) s.sessions⟩ := by
  obtain ⟨c, rfl, h⟩ := h
  obtain ⟨n, hn⟩ := fstOf_ok (((w_peerDown_exactly c).ok m).2 h)
  unfold BMPSession.decodeFromIn
  rw [idx_cons_zero]
  simp only [rfrom_cons_one, Res.ok_bind, hn]
  rfl

theorem w_session_other (s : BMPSession) {b : Bytes} (h1 : ∀ m, ¬ WrapPeerUpIs b m) (h2 : ∀ m, ¬ WrapPeerDownIs b m) :
    (s.decodeFromIn .release b).2 = s := by
  cases b with
  | nil => rfl
  | cons c b =>
    unfold BMPSession.decodeFromIn
    rw [idx_cons_zero]
    simp only [rfrom_cons_one, Res.ok_bind]
    rcases bmp_cases c with rfl | rfl | rfl | rfl | rfl | rfl | rfl | h
    · rfl
    · rfl
    · rw [show (2 : U8).toNat = 2 from rfl]
      simp only
      cases hd : BmpMessagePeerDown.decodeFromIn .release b with
      | ok r => exact absurd ⟨b, rfl, ((w_peerDown_exactly b).ok r.1).1 (by rw [hd]; rfl)⟩ (h2 r.1)
      | _ => rfl
    · rw [show (3 : U8).toNat = 3 from rfl]
      simp only
      cases hd : BmpMessagePeerUp.decodeFromIn .release b with
      | ok r => exact absurd ⟨b, rfl, ((w_peerUp_exactly b).ok r.1).1 (by rw [hd]; rfl)⟩ (h1 r.1)
      | _ => rfl
    · rfl
    · rfl
    · rfl
    · match c.toNat, h with
      | n + 7, _ => rfl

theorem w_after_concat (hist : List Bytes) (b : Bytes) :
    afterRelease (hist ++ [b]) = ((afterRelease hist).decodeFromIn .release b).2 := by
  simp [afterRelease]

theorem w_lastUp_concat (hist : List Bytes) (b : Bytes) (rd : BgpRD) (ip : IpAddr) (m : BmpMessagePeerUp) :
    WrapLastUp (hist ++ [b]) rd ip m ↔ (WrapPeerUpIs b m ∧ OfPeer rd ip m.peer) ∨ (¬ WrapAbout rd ip b ∧ WrapLastUp hist rd ip m) := by
  constructor
  · rintro ⟨pre, b', post, e, h1, h2, h3⟩
    rcases List.eq_nil_or_concat post with rfl | ⟨post, c, rfl⟩
    · have := List.append_inj' e (by simp)
      cases this.2
      exact .inl ⟨h1, h2⟩
    · simp only [List.concat_eq_append] at e h3
      rw [show pre ++ b' :: (post ++ [c]) = (pre ++ b' :: post) ++ [c] by simp] at e
      have := List.append_inj' e (by simp)
      cases this.2
      exact .inr ⟨h3 b (by simp), pre, b', post, this.1, h1, h2, fun x hx => h3 x (by simp [hx])⟩
  · rintro (⟨h1, h2⟩ | ⟨h, pre, b', post, rfl, h1, h2, h3⟩)
    · exact ⟨hist, b, [], by simp, h1, h2, by simp⟩
    · refine ⟨pre, b', post ++ [b], by simp, h1, h2, ?_⟩
      intro x hx
      simp only [List.mem_append, List.mem_singleton] at hx
      rcases hx with hx | rfl
      · exact h3 x hx
      · exact h

/-- the table after a history -/
theorem w_after_table (hist : List Bytes) : Ascending (afterRelease hist).sessions ∧
    ∀ rd ip m, ((⟨rd, ip⟩ : BgpSessionKey), m) ∈ (afterRelease hist).sessions ↔ WrapLastUp hist rd ip m := by
  generalize hn : hist.length = n
  induction n generalizing hist with
  | zero =>
    have := List.length_eq_zero_iff.1 hn
    subst this
    refine ⟨by simp [afterRelease, BMPSession.default, Ascending], ?_⟩
    intro rd ip m
    simp only [afterRelease, BMPSession.default, List.foldl_nil, List.not_mem_nil, false_iff]
    rintro ⟨pre, b, post, e, -⟩
    simp at e
  | succ n ih =>
    rcases List.eq_nil_or_concat hist with rfl | ⟨hist, b, rfl⟩
    · simp at hn
    simp only [List.concat_eq_append] at hn ⊢
    obtain ⟨ih1, ih2⟩ := ih hist (by simpa using hn)
    rw [w_after_concat]
    by_cases hu : ∃ m, WrapPeerUpIs b m
    · obtain ⟨m0, hu⟩ := hu
      rw [w_session_up _ hu]
      refine ⟨btree_insert_ascending lawful_key key_ext _ ih1 _ _, ?_⟩
      intro rd ip m
      rw [btree_mem_insert lawful_key key_ext _ ih1, w_lastUp_concat, ih2, ← ofPeer_iff]
      have ha : WrapAbout rd ip b ↔ OfPeer rd ip m0.peer := by
        constructor
        · rintro (⟨m', h, ho⟩ | ⟨m', h, ho⟩)
          · rw [w_peerUpIs_unique hu h]; exact ho
          · exact absurd h (fun h => w_peerUp_not_down hu h)
        · intro h; exact .inl ⟨m0, hu, h⟩
      rw [ha, ne_eq, ← ofPeer_iff]
      constructor
      · rintro (⟨h, rfl⟩ | h)
        · exact .inl ⟨hu, h⟩
        · exact .inr h
      · rintro (⟨h, ho⟩ | h)
        · cases w_peerUpIs_unique hu h
          exact .inl ⟨ho, rfl⟩
        · exact .inr h
    by_cases hd : ∃ m, WrapPeerDownIs b m
    · obtain ⟨m0, hd⟩ := hd
      rw [w_session_down _ hd]
      refine ⟨btree_remove_ascending lawful_key key_ext _ ih1 _, ?_⟩
      intro rd ip m
      rw [btree_mem_remove lawful_key key_ext _ ih1, w_lastUp_concat, ih2, ne_eq, ← ofPeer_iff]
      have ha : WrapAbout rd ip b ↔ OfPeer rd ip m0.peer := by
        constructor
        · rintro (⟨m', h, ho⟩ | ⟨m', h, ho⟩)
          · exact absurd hd (fun h' => w_peerUp_not_down h h')
          · rw [w_peerDownIs_unique hd h]; exact ho
        · intro h; exact .inr ⟨m0, hd, h⟩
      rw [ha]
      constructor
      · intro h; exact .inr h
      · rintro (⟨h, -⟩ | h)
        · exact absurd ⟨m, h⟩ hu
        · exact h
    · have h1 : ∀ m, ¬ WrapPeerUpIs b m := fun m h => hu ⟨m, h⟩
      have h2 : ∀ m, ¬ WrapPeerDownIs b m := fun m h => hd ⟨m, h⟩
      rw [w_session_other _ h1 h2]
      refine ⟨ih1, ?_⟩
      intro rd ip m
      rw [ih2, w_lastUp_concat]
      constructor
      · intro h
        refine .inr ⟨?_, h⟩
        rintro (⟨m', h, -⟩ | ⟨m', h, -⟩)
        · exact h1 _ h
        · exact h2 _ h
      · rintro (⟨h, -⟩ | ⟨-, h⟩)
        · exact absurd h (h1 m)
        · exact h

theorem w_params_after (hist : List Bytes) (h : BmpMessagePeerHeader) :
    (∀ m, WrapLastUp hist h.peerdistinguisher h.peeraddress m → (afterRelease hist).params h = .ofOpen (peerOpen m)) ∧
    ((¬ ∃ m, WrapLastUp hist h.peerdistinguisher h.peeraddress m) → (afterRelease hist).params h = .ofPeerHeader h) := by
  obtain ⟨h1, h2⟩ := w_after_table hist
  constructor
  · intro m hm
    rw [← h2] at hm
    have := (btree_get_iff lawful_key key_ext _ h1 _ _).2 hm
    unfold BMPSession.params
    rw [show BgpSessionKey.ofPeer h = ⟨h.peerdistinguisher, h.peeraddress⟩ from rfl, this]
    simp only [peerOpen, beq_iff_eq]
    rw [eq_comm]
    split <;> rename_i hc
    · rw [if_pos hc.symm]
    · rw [if_neg (fun hh => hc hh.symm)]
  · intro hn
    unfold BMPSession.params
    cases hg : BTree.get (BgpSessionKey.ofPeer h) (afterRelease hist).sessions with
    | none => rfl
    | some m =>
      exfalso
      have := (btree_get_iff lawful_key key_ext _ h1 _ _).1 hg
      exact hn ⟨m, (h2 _ _ _).1 this⟩

theorem w_paramsAfter_iff (hist : List Bytes) (h : BmpMessagePeerHeader) (p : BgpSessionParams) :
    WrapParamsAfter hist h p ↔ p = (afterRelease hist).params h := by
  obtain ⟨h1, h2⟩ := w_params_after hist h
  rw [openParams_eq] at h1
  rw [headerParams_eq] at h2
  unfold WrapParamsAfter
  constructor
  · rintro (⟨m, hm, rfl⟩ | ⟨hn, rfl⟩)
    · exact (h1 m hm).symm
    · exact (h2 hn).symm
  · rintro rfl
    by_cases hc : ∃ m, WrapLastUp hist h.peerdistinguisher h.peeraddress m
    · obtain ⟨m, hm⟩ := hc
      exact .inl ⟨m, hm, h1 m hm⟩
    · exact .inr ⟨hc, h2 hc⟩

theorem w_after_exactly (hist : List Bytes) (b : Bytes) :
    Exactly ((afterRelease hist).decodeFromIn .release b).1 (WrapBmpRead (WrapParamsAfter hist) b) (WrapBmpCrash (WrapParamsAfter hist) b) := by
  have : WrapParamsAfter hist = fun h p => p = (afterRelease hist).params h := by
    funext h p; exact propext (w_paramsAfter_iff hist h p)
  rw [this]
  exact w_session_exactly _ b

end Zbgp
