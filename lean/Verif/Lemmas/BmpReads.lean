import Verif.Lemmas.Bmp
import Verif.Lemmas.OpenReads
import Verif.Lemmas.UpdateReads
import Verif.Props.Session

/-! # The BMP decoders read exactly what the specification says -/

namespace Zbgp

open Spec

attribute [-simp] List.length_flatMap List.length_flatten

/-! ## Embedded messages -/

theorem embeddedDec_eq {α : Type} (ty : BgpMessageType) {dec : Bytes → Res α} {R : Bytes → α → Prop}
    (h : ∀ b m, dec b = .ok m ↔ R b m) : EmbeddedDec ty dec = EmbeddedRead ty R := by
  have : (fun b m => dec b = .ok m) = R := by funext b m; exact propext (h b m)
  funext b m rest
  unfold EmbeddedDec
  rw [this]

theorem embeddedDecCrash_eq {α : Type} (ty : BgpMessageType) {dec : Bytes → Res α} {C : Bytes → Prop}
    (h : ∀ b, ¬ (dec b).Returns ↔ C b) : EmbeddedDecCrash ty dec = EmbeddedCrash ty C := by
  have : (fun b => ¬ (dec b).Returns) = C := by funext b; exact propext (h b)
  funext b
  unfold EmbeddedDecCrash
  rw [this]

theorem openDec_eq : EmbeddedDec .Open BgpOpenMessage.new.decodeFrom = EmbeddedRead .Open OpenRead :=
  embeddedDec_eq _ (open_iff _)

theorem notifDec_eq : EmbeddedDec .Notification BgpNotificationMessage.new.decodeFrom =
    EmbeddedRead .Notification (NotificationRead 0) :=
  embeddedDec_eq _ (notification_iff _)

theorem updateDec_eq (p : BgpSessionParams) : EmbeddedDec .Update (BgpUpdateMessage.new.decodeFrom p) =
    EmbeddedRead .Update (fun b (u : BgpUpdateMessage) => UpdateRead p b u.withdraws u.attrs u.updates) := by
  refine embeddedDec_eq _ fun b m => ?_
  rw [update_read_iff]
  constructor
  · rintro ⟨l, h, e⟩
    have : m.attrs = l := by simpa [BgpUpdateMessage.new] using e
    rw [this]; exact h
  · intro h
    exact ⟨_, h, by simp [BgpUpdateMessage.new]⟩

theorem openCrash_eq : EmbeddedDecCrash .Open BgpOpenMessage.new.decodeFrom = EmbeddedCrash .Open NoBody :=
  embeddedDecCrash_eq _ fun b => by simp [NoBody, Props.C06_open_decode_total]

theorem notifCrash_eq : EmbeddedDecCrash .Notification BgpNotificationMessage.new.decodeFrom =
    EmbeddedCrash .Notification NoBody :=
  embeddedDecCrash_eq _ fun b => by
    have := (Props.C10_notification_total .new .new b).1
    simp [NoBody, this]

theorem updateCrash_eq (p : BgpSessionParams) :
    EmbeddedDecCrash .Update (BgpUpdateMessage.new.decodeFrom p) = EmbeddedCrash .Update (UpdateCrash p) :=
  embeddedDecCrash_eq _ fun b => (update_exactly _ p b).not_returns

/-- what is read, with the position behind it -/
theorem embedded_ok_iff {α : Type} (ty : BgpMessageType) (dec : Bytes → Res α) (p b : Bytes) (m : α) :
    (∃ n, decodeEmbedded ty dec (p ++ b) p.length = .ok (m, n)) ↔ ∃ rest, EmbeddedDec ty dec b m rest := by
  constructor
  · rintro ⟨n, h⟩
    obtain ⟨body, rest, e, h1, h2, -⟩ := embedded_ok h
    exact ⟨rest, body, e, h1, h2⟩
  · rintro ⟨rest, body, rfl, h1, h2⟩
    exact ⟨_, embedded_reads ty h2 h1 p rest⟩

/-! ## Per-peer headers and addresses -/

theorem bmpAddr_exists (b : Bytes) (h : 16 ≤ b.length) : ∃ a t, b = bmpAddr a ++ t ∧ Distinct a := by
  obtain ⟨v5, h5, e5⟩ := exists_be 16 h
  simp only [Nat.reducePow] at h5
  by_cases hc : v5 < 2 ^ 32
  · refine ⟨.v4 (BitVec.ofNat 32 v5), b.drop 16, ?_, trivial⟩
    have := be_split 12 4 v5
    simp only [Nat.reduceAdd, Nat.reducePow] at this
    rw [this, show v5 / 4294967296 = 0 by omega] at e5
    simp only [bmpAddr, BitVec.toNat_ofNat]
    rw [Nat.mod_eq_of_lt (by omega)]
    exact e5
  · refine ⟨.v6 (BitVec.ofNat 128 v5), b.drop 16, ?_, ?_⟩
    · simp only [bmpAddr, BitVec.toNat_ofNat]
      rw [Nat.mod_eq_of_lt (by omega)]
      exact e5
    · simp only [Distinct, BitVec.toNat_ofNat]
      rw [Nat.mod_eq_of_lt (by omega)]
      omega

theorem bmpAddr_inj {a a' : IpAddr} (h : Distinct a) (h' : Distinct a') (e : bmpAddr a = bmpAddr a') : a = a' := by
  have r := bmpAddr_reads a []
  rw [e, bmpAddr_reads, addrRead_distinct h, addrRead_distinct h'] at r
  exact (Res.ok.inj r).symm

theorem peerHeader_inj {h h' : BmpMessagePeerHeader} (hd : Distinct h.peeraddress) (hd' : Distinct h'.peeraddress)
    (e : peerHeaderWire h = peerHeaderWire h') : h = h' := by
  have a := peerHeader_reads' h hd []
  rw [e, peerHeader_reads' h' hd' []] at a
  cases a
  rfl

/-! ## Peer up -/

theorem peerUp_read_iff (b : Bytes) (m : BmpMessagePeerUp) :
    (∃ n, BmpMessagePeerUp.decodeFrom b = .ok (m, n)) ↔ PeerUpRead b m := by
  unfold PeerUpRead
  rw [← openDec_eq]
  constructor
  · rintro ⟨n, h⟩
    unfold BmpMessagePeerUp.decodeFrom at h
    by_cases hb : b.length < 62
    · rw [if_pos hb] at h; cases h
    rw [if_neg hb] at h
    obtain ⟨x, t, rfl, hd⟩ := peerHeader_exists b (by omega)
    simp [peerHeaderWire_length] at hb
    obtain ⟨a, t, rfl, ha⟩ := bmpAddr_exists t (by omega)
    simp [bmpAddr_length] at hb
    obtain ⟨lp, hlp, e1⟩ := exists_be 2 (show 2 ≤ t.length by omega)
    obtain ⟨rp, hrp, e2⟩ := exists_be 2 (show 2 ≤ (t.drop 2).length by simp; omega)
    rw [e2] at e1
    generalize (t.drop 2).drop 2 = t' at *
    subst e1
    rw [peerHeader_reads' x hd] at h
    have r0 : rfrom (peerHeaderWire x ++ (bmpAddr a ++ (be 2 lp ++ (be 2 rp ++ t')))) 42 = .ok (bmpAddr a ++ (be 2 lp ++ (be 2 rp ++ t'))) :=
      rfrom_append _ _ _ (by simp [peerHeaderWire_length])
    have r1 : rfrom (peerHeaderWire x ++ (bmpAddr a ++ (be 2 lp ++ (be 2 rp ++ t')))) (42 + 16) = .ok (be 2 lp ++ (be 2 rp ++ t')) := by
      have := rfrom_append (peerHeaderWire x ++ bmpAddr a) (be 2 lp ++ (be 2 rp ++ t')) (42 + 16) (by simp [peerHeaderWire_length, bmpAddr_length])
      simpa using this
    have r2 : rfrom (peerHeaderWire x ++ (bmpAddr a ++ (be 2 lp ++ (be 2 rp ++ t')))) (42 + 18) = .ok (be 2 rp ++ t') := by
      have := rfrom_append (peerHeaderWire x ++ (bmpAddr a ++ be 2 lp)) (be 2 rp ++ t') (42 + 18) (by simp [peerHeaderWire_length, bmpAddr_length])
      simpa using this
    simp only [Res.ok_bind] at h
    rw [r0, Res.ok_bind, bmpAddr_reads, Res.ok_bind, r1, Res.ok_bind, getn16_be, Res.ok_bind, r2, Res.ok_bind, getn16_be, Res.ok_bind,
      addrRead_distinct ha] at h
    obtain ⟨⟨m1, n1⟩, d1, h⟩ := Res.bind_eq_ok.1 h
    have e : peerHeaderWire x ++ (bmpAddr a ++ (be 2 lp ++ (be 2 rp ++ t'))) =
      (peerHeaderWire x ++ (bmpAddr a ++ (be 2 lp ++ be 2 rp))) ++ t' := by simp
    have el : 42 + 20 = (peerHeaderWire x ++ (bmpAddr a ++ (be 2 lp ++ be 2 rp))).length := by
      simp [peerHeaderWire_length, bmpAddr_length]
    rw [e, el] at d1
    obtain ⟨w1, s1, rfl, l1, f1, rfl⟩ := embedded_ok d1
    simp only at h
    obtain ⟨⟨m2, n2⟩, d2, h⟩ := Res.bind_eq_ok.1 h
    rw [e, ← List.append_assoc] at d2
    obtain ⟨w2, s2, rfl, l2, f2, rfl⟩ := embedded_ok d2
    cases h
    refine ⟨_, _, s2, ?_, hd, ha, ⟨w1, rfl, l1, f1⟩, ⟨w2, rfl, l2, f2⟩⟩
    simp only [be2_ofNat]
  · rintro ⟨opens, r1, r2, rfl, hd, ha, ⟨w1, rfl, l1, d1⟩, ⟨w2, rfl, l2, d2⟩⟩
    have := peerUp_reads m w1 w2 r2 m.msg1 m.msg2 d1 d2 l1 l2
    rw [addrRead_distinct hd, addrRead_distinct ha] at this
    refine ⟨(peerUpWire m w1 w2).length, ?_⟩
    simp only [peerUpWire, List.append_assoc] at this ⊢
    exact this

/-! ## Peer down -/

theorem reason_read_iff (x : BmpMessagePeerHeader) (c : U8) (t : Bytes) (r : BmpMessagePeerDownReason) :
    (∃ n, BmpMessagePeerDown.decodeReason c (peerHeaderWire x ++ c :: t) 43 = .ok (r, n)) ↔ ReasonRead (c :: t) r := by
  have he := fun m => embedded_ok_iff .Notification BgpNotificationMessage.new.decodeFrom (peerHeaderWire x ++ [c]) t m
  simp only [List.append_assoc, List.cons_append, List.nil_append, List.length_append, List.length_cons, List.length_nil,
    peerHeaderWire_length, Nat.reduceAdd] at he
  rw [notifDec_eq] at he
  have hc : ∀ k : Nat, k < 256 → (c.toNat = k ↔ c = BitVec.ofNat 8 k) := fun k hk => toNat_eq_iff8 c k hk
  unfold BmpMessagePeerDown.decodeReason
  split
  · rename_i h1
    rw [hc 1 (by omega)] at h1
    subst h1
    constructor
    · rintro ⟨n, h⟩
      obtain ⟨⟨m, k⟩, hm, h⟩ := Res.bind_eq_ok.1 h
      cases h
      obtain ⟨rest, hr⟩ := (he m).1 ⟨_, hm⟩
      exact .admin _ rest m hr
    · intro h
      cases h with
      | admin _ rest m hr =>
        obtain ⟨n, hn⟩ := (he m).2 ⟨rest, hr⟩
        exact ⟨n, by rw [hn]; rfl⟩
  · rename_i h1
    rw [hc 2 (by omega)] at h1
    subst h1
    have s1 : subN (peerHeaderWire x ++ (2#8 : U8) :: t).length 43 = .ok t.length := by
      unfold subN
      rw [if_pos (by simp [peerHeaderWire_length]; omega)]
      congr 1
      simp [peerHeaderWire_length]
      omega
    rw [s1, Res.ok_bind]
    by_cases ht : t.length < 2
    · rw [if_pos ht]
      constructor
      · rintro ⟨n, h⟩; cases h
      · intro h
        cases h with
        | state s rest => simp at ht
    · rw [if_neg ht]
      obtain ⟨s, hs, e⟩ := exists_be 2 (show 2 ≤ t.length by omega)
      generalize t.drop 2 = t' at e
      subst e
      have e2 : rslice (peerHeaderWire x ++ (2#8 : U8) :: (be 2 s ++ t')) 43 (43 + 2) = .ok (be 2 s) := by
        have := rslice_append_mid (peerHeaderWire x ++ [2#8]) (be 2 s) t' 43 (43 + 2) (by simp [peerHeaderWire_length]) (by simp [peerHeaderWire_length])
        simpa using this
      rw [e2, Res.ok_bind, unbe_be, Nat.mod_eq_of_lt hs]
      constructor
      · rintro ⟨n, h⟩
        cases h
        have := ReasonRead.state (BitVec.ofNat 16 s) t'
        rw [be2_ofNat] at this
        exact this
      · intro h
        generalize hg : be 2 s ++ t' = w at h
        cases h with
        | state s' rest =>
          have := be_inj hs s'.isLt (List.append_inj hg (by simp)).1
          subst this
          exact ⟨_, by simp; rfl⟩
  · rename_i h1
    rw [hc 3 (by omega)] at h1
    subst h1
    constructor
    · rintro ⟨n, h⟩
      obtain ⟨⟨m, k⟩, hm, h⟩ := Res.bind_eq_ok.1 h
      cases h
      obtain ⟨rest, hr⟩ := (he m).1 ⟨_, hm⟩
      exact .notification _ rest m hr
    · intro h
      cases h with
      | notification _ rest m hr =>
        obtain ⟨n, hn⟩ := (he m).2 ⟨rest, hr⟩
        exact ⟨n, by rw [hn]; rfl⟩
  · rename_i h1
    rw [hc 4 (by omega)] at h1
    subst h1
    constructor
    · rintro ⟨n, h⟩; cases h; exact .remote _
    · intro h; cases h; exact ⟨_, rfl⟩
  · rename_i h1
    rw [hc 5 (by omega)] at h1
    subst h1
    constructor
    · rintro ⟨n, h⟩; cases h; exact .disabled _
    · intro h; cases h; exact ⟨_, rfl⟩
  · rename_i h1 h2 h3 h4 h5
    constructor
    · rintro ⟨n, h⟩; cases h
    · intro h
      exfalso
      cases h
      · exact h1 rfl
      · exact h2 rfl
      · exact h3 rfl
      · exact h4 rfl
      · exact h5 rfl

theorem peerDown_read_iff (b : Bytes) (m : BmpMessagePeerDown) :
    (∃ n, BmpMessagePeerDown.decodeFrom b = .ok (m, n)) ↔ PeerDownRead b m := by
  unfold PeerDownRead BmpMessagePeerDown.decodeFrom
  constructor
  · rintro ⟨n, h⟩
    by_cases hb : b.length < 43
    · rw [if_pos hb] at h; cases h
    rw [if_neg hb] at h
    obtain ⟨x, t, rfl, hd⟩ := peerHeader_exists b (by omega)
    simp [peerHeaderWire_length] at hb
    match t, hb with
    | [], hb => simp at hb
    | c :: t, _ =>
      rw [peerHeader_reads' x hd] at h
      simp only [Res.ok_bind] at h
      have hi : idx (peerHeaderWire x ++ c :: t) 42 = .ok c := by simp [idx, peerHeaderWire_length]
      rw [hi, Res.ok_bind] at h
      obtain ⟨⟨r, k⟩, hr, h⟩ := Res.bind_eq_ok.1 h
      cases h
      exact ⟨_, rfl, hd, (reason_read_iff x c t r).1 ⟨_, hr⟩⟩
  · rintro ⟨rest, rfl, hd, h⟩
    obtain ⟨c, t, rfl⟩ : ∃ c t, rest = c :: t := by
      generalize m.reason = r at h
      cases h <;> exact ⟨_, _, rfl⟩
    obtain ⟨n, hn⟩ := (reason_read_iff m.peer c t m.reason).2 h
    refine ⟨n, ?_⟩
    rw [if_neg (by simp [peerHeaderWire_length]; omega), peerHeader_reads' m.peer hd]
    simp only [Res.ok_bind]
    have hi : idx (peerHeaderWire m.peer ++ c :: t) 42 = .ok c := by simp [idx, peerHeaderWire_length]
    rw [hi, Res.ok_bind, hn]
    rfl

/-! ## Initiation -/

theorem info_inv {b : Bytes} {x : BmpInfoVal} {n : Nat} (h : BmpInfoVal.decodeFrom b = .ok (x, n)) :
    ∃ rest, b = infoWire x.infotype.toNat x.info ++ rest ∧ InfoOk x.info ∧ n = 4 + x.info.length := by
  unfold BmpInfoVal.decodeFrom at h
  by_cases hb : b.length < 4
  · rw [if_pos hb] at h; cases h
  rw [if_neg hb] at h
  obtain ⟨ty, hty, e⟩ := exists_be 2 (show 2 ≤ b.length by omega)
  obtain ⟨k, hk, e2⟩ := exists_be 2 (show 2 ≤ (b.drop 2).length by simp; omega)
  rw [e2] at e
  generalize (b.drop 2).drop 2 = v at e
  subst e
  have hk' : (BitVec.ofNat 16 k).toNat = k := by simp; omega
  rw [getn16_be, Res.ok_bind, rslice_be_skip (by omega) (by omega), rslice_be_hit, Res.ok_bind, getn16_two] at h
  simp only [Res.ok_bind, hk'] at h
  by_cases hv : k > (be 2 ty ++ (be 2 k ++ v)).length - 4
  · rw [if_pos hv] at h; cases h
  rw [if_neg hv] at h
  simp at hv
  obtain ⟨s, hs, h⟩ := Res.bind_eq_ok.1 h
  rw [rslice_be_skip (by omega) (by omega), rslice_be_skip (by omega) (by omega), rslice_ok (by omega) (by omega)] at hs
  cases hs
  obtain ⟨s, hs, h⟩ := Res.bind_eq_ok.1 h
  unfold BgpCapability.fromUtf8 at hs
  split at hs
  case isFalse => cases hs
  rename_i hu
  cases hs
  cases h
  have hl : (v.take k).length = k := by simp; omega
  have hty' : (BitVec.ofNat 16 ty).toNat = ty := by simp; omega
  have e4 : 4 + k - 2 - 2 = k := by omega
  refine ⟨v.drop k, ?_, ⟨(utf8Valid_iff _).1 hu, ?_⟩, ?_⟩
  · simp [infoWire, hty', e4, hl]
  · simp; omega
  · simp; omega

theorem initLoop_inv (fuel : Nat) (pre rest : Bytes) (ret x : BmpMessageInitiation) (n : Nat)
    (h : BmpMessageInitiation.loop (pre ++ rest) fuel pre.length ret = .ok (x, n)) :
    ∃ l : List (Nat × Bytes), rest = (l.flatMap fun t => infoWire t.1 t.2) ∧ (∀ t ∈ l, t.1 < 65536 ∧ InfoOk t.2) ∧
      x = l.foldl initStep ret := by
  induction fuel generalizing pre rest ret with
  | zero =>
    rw [BmpMessageInitiation.loop] at h
    split at h
    · cases h
    · rename_i hr
      cases h
      refine ⟨[], ?_, by simp, rfl⟩
      have : rest.length = 0 := by simp at hr ⊢; exact hr
      simpa using this
  | succ fuel ih =>
    rw [BmpMessageInitiation.loop] at h
    split at h
    · rw [rfrom_append _ _ _ rfl, Res.ok_bind] at h
      obtain ⟨⟨c, k⟩, hc, h⟩ := Res.bind_eq_ok.1 h
      obtain ⟨r, rfl, ho, rfl⟩ := info_inv hc
      have e : pre.length + (4 + c.info.length) = (pre ++ infoWire c.infotype.toNat c.info).length := by
        simp [infoWire_length]
      simp only [e] at h
      rw [← List.append_assoc] at h
      obtain ⟨l, rfl, hl, hx⟩ := ih _ _ _ h
      refine ⟨(c.infotype.toNat, c.info) :: l, by simp, ?_, ?_⟩
      · intro t ht
        simp only [List.mem_cons] at ht
        rcases ht with rfl | ht
        · exact ⟨c.infotype.isLt, ho⟩
        · exact hl t ht
      · rw [hx, List.foldl_cons]
        rfl
    · rename_i hr
      cases h
      refine ⟨[], ?_, by simp, rfl⟩
      have : rest.length = 0 := by simp at hr ⊢; exact hr
      simpa using this

theorem init_read_iff (b : Bytes) (m : BmpMessageInitiation) :
    (∃ n, BmpMessageInitiation.decodeFrom b = .ok (m, n)) ↔ InitiationRead b m := by
  constructor
  · rintro ⟨n, h⟩
    obtain ⟨l, e, hl, -⟩ := initLoop_inv _ [] b _ m n h
    subst e
    rw [init_decode l hl] at h
    cases h
    exact ⟨l, rfl, hl, rfl⟩
  · rintro ⟨l, rfl, hl, rfl⟩
    exact ⟨_, init_decode l hl⟩

/-! ## Termination -/

/-- what a loop that began with `ret` has read, if the rest reads as `x` -/
def termOver (ret x : BmpMessageTermination) : BmpMessageTermination :=
  ⟨x.str0.or ret.str0, x.reason.or ret.reason⟩

theorem termLoop_iff_stop (pre rest : Bytes) (fuel : Nat) (ret x : BmpMessageTermination) (h4 : rest.length < 4) :
    (∃ n, BmpMessageTermination.loop (pre ++ rest) fuel pre.length ret = .ok (x, n)) ↔
      ∃ y, TerminationRead rest y ∧ x = termOver ret y := by
  rw [termLoop_stop _ _ _ _ h4]
  constructor
  · rintro ⟨n, h⟩
    cases h
    exact ⟨_, .done _ h4, rfl⟩
  · rintro ⟨y, hy, rfl⟩
    cases hy with
    | done _ _ => exact ⟨_, rfl⟩
    | text s r x h hr => simp [infoWire_length] at h4; omega
    | reason v r r' c x hv h hr => simp [infoWire_length] at h4; omega
    | other ty v r x ht ht' hv hr => simp [infoWire_length] at h4; omega

theorem termLoop_iff (k : Nat) (pre rest : Bytes) (hk : rest.length ≤ k) (fuel : Nat) (hf : rest.length ≤ fuel)
    (ret x : BmpMessageTermination) :
    (∃ n, BmpMessageTermination.loop (pre ++ rest) fuel pre.length ret = .ok (x, n)) ↔
      ∃ y, TerminationRead rest y ∧ x = termOver ret y := by
  induction k generalizing pre rest fuel ret with
  | zero => exact termLoop_iff_stop _ _ _ _ _ (by omega)
  | succ k ih =>
    by_cases h4 : rest.length < 4
    · exact termLoop_iff_stop _ _ _ _ _ h4
    obtain ⟨ty, hty, e⟩ := exists_be 2 (show 2 ≤ rest.length by omega)
    obtain ⟨n, hn, e2⟩ := exists_be 2 (show 2 ≤ (rest.drop 2).length by simp; omega)
    rw [e2] at e
    generalize (rest.drop 2).drop 2 = v at *
    subst e
    simp only [Nat.reducePow] at hty hn
    simp only [List.length_append, be_length] at hk hf
    obtain ⟨fuel, rfl⟩ : ∃ f, fuel = f + 1 := ⟨fuel - 1, by omega⟩
    have split : ∀ (ty' : Nat) (s r : Bytes), ty' < 65536 → s.length ≤ 65535 →
        be 2 ty ++ (be 2 n ++ v) = infoWire ty' s ++ r → ty = ty' ∧ n = s.length ∧ v = s ++ r := by
      intro ty' s r h1 h2 e
      simp only [infoWire, List.append_assoc] at e
      have e1 := List.append_inj e (by simp)
      have e2 := List.append_inj e1.2 (by simp)
      exact ⟨be2_inj hty h1 e1.1, be2_inj hn (by omega) e2.1, e2.2⟩
    by_cases hv : v.length < n
    · rw [termLoop_short _ _ _ _ _ _ hv hn]
      constructor
      · rintro ⟨_, h⟩; cases h
      · rintro ⟨y, hy, -⟩
        exfalso
        generalize hg : be 2 ty ++ (be 2 n ++ v) = w at hy
        cases hy with
        | done _ h => rw [← hg] at h; simp at h; omega
        | text s r x h hr =>
          obtain ⟨-, rfl, rfl⟩ := split _ _ _ (by omega) h.2 hg
          simp at hv
        | reason s r r' c x hs h hr =>
          obtain ⟨-, rfl, rfl⟩ := split _ _ _ (by omega) hs hg
          simp at hv
        | other ty s r x ht ht' hs hr =>
          obtain ⟨-, rfl, rfl⟩ := split _ _ _ ht' hs hg
          simp at hv
    have hl : (v.take n).length = n := by simp; omega
    have ev : be 2 ty ++ (be 2 n ++ v) = infoWire ty (v.take n) ++ v.drop n := by
      simp [infoWire, hl]
    have hrec := fun ret' => ih (pre ++ infoWire ty (v.take n)) (v.drop n) (by simp; omega) fuel (by simp; omega) ret'
    have hstep := termLoop_step pre (v.take n) (v.drop n) ty fuel ret hty (by omega)
    rw [← ev] at hstep
    rw [hstep]
    unfold termStep
    match ty, hty with
    | 0, _ =>
      simp only [BgpCapability.fromUtf8]
      by_cases hu : BgpCapability.utf8Valid (v.take n) = true
      · simp only [hu, if_true, Res.ok_bind]
        rw [hrec]
        constructor
        · rintro ⟨y, hy, rfl⟩
          have hr := TerminationRead.text _ _ _ ⟨(utf8Valid_iff _).1 hu, by omega⟩ hy
          rw [← ev] at hr
          refine ⟨_, hr, ?_⟩
          cases y with | mk a b => cases a <;> rfl
        · rintro ⟨y, hy, rfl⟩
          generalize hg : be 2 0 ++ (be 2 n ++ v) = w at hy
          cases hy with
          | done _ h => rw [← hg] at h; simp at h; omega
          | text s r x h hr =>
            obtain ⟨-, rfl, rfl⟩ := split _ _ _ (by omega) h.2 hg
            rw [List.take_left' rfl, List.drop_left' rfl]
            refine ⟨x, hr, ?_⟩
            cases x with | mk a b => cases a <;> rfl
          | reason s r r' c x hs h hr => have := (split _ _ _ (by omega) hs hg).1; omega
          | other ty s r x ht ht' hs hr => have := (split _ _ _ ht' hs hg).1; omega
      · simp only [hu, if_false]
        constructor
        · rintro ⟨_, h⟩; cases h
        · rintro ⟨y, hy, rfl⟩
          exfalso
          generalize hg : be 2 0 ++ (be 2 n ++ v) = w at hy
          cases hy with
          | done _ h => rw [← hg] at h; simp at h; omega
          | text s r x h hr =>
            obtain ⟨-, rfl, rfl⟩ := split _ _ _ (by omega) h.2 hg
            rw [List.take_left' rfl] at hu
            exact hu ((utf8Valid_iff _).2 h.1)
          | reason s r r' c x hs h hr => have := (split _ _ _ (by omega) hs hg).1; omega
          | other ty s r x ht ht' hs hr => have := (split _ _ _ ht' hs hg).1; omega
    | 1, _ =>
      simp only [List.take_append_drop]
      by_cases h2 : v.length < 2
      · have : getn16 v = .panic := by
          match v, h2 with
          | [], _ => rfl
          | [_], _ => rfl
        rw [this]
        constructor
        · rintro ⟨_, h⟩; cases h
        · rintro ⟨y, hy, rfl⟩
          exfalso
          generalize hg : be 2 1 ++ (be 2 n ++ v) = w at hy
          cases hy with
          | done _ h => rw [← hg] at h; simp at h; omega
          | text s r x h hr => have := (split _ _ _ (by omega) h.2 hg).1; omega
          | reason s r r' c x hs h hr =>
            obtain ⟨-, rfl, rfl⟩ := split _ _ _ (by omega) hs hg
            rw [h] at h2
            simp at h2
          | other ty s r x ht ht' hs hr => have := (split _ _ _ ht' hs hg).1; omega
      · obtain ⟨c, hc, er⟩ := exists_be 2 (show 2 ≤ v.length by omega)
        have : getn16 v = .ok (BitVec.ofNat 16 c) := by rw [er]; exact getn16_be _ _
        rw [this]
        simp only [Res.ok_bind]
        rw [hrec]
        constructor
        · rintro ⟨y, hy, rfl⟩
          have hr := TerminationRead.reason (v.take n) _ (v.drop 2) (BitVec.ofNat 16 c) _ (by omega)
            (by rw [be2_ofNat, List.take_append_drop]; exact er) hy
          rw [← ev] at hr
          refine ⟨_, hr, ?_⟩
          cases y with | mk a b => cases b <;> rfl
        · rintro ⟨y, hy, rfl⟩
          generalize hg : be 2 1 ++ (be 2 n ++ v) = w at hy
          cases hy with
          | done _ h => rw [← hg] at h; simp at h; omega
          | text s r x h hr => have := (split _ _ _ (by omega) h.2 hg).1; omega
          | reason s r r' c' x hs h hr =>
            obtain ⟨-, rfl, rfl⟩ := split _ _ _ (by omega) hs hg
            rw [h] at er
            have := be_inj c'.isLt hc (List.append_inj er (by simp)).1
            subst this
            rw [List.drop_left' rfl]
            refine ⟨x, hr, ?_⟩
            cases x with | mk a b => cases b <;> simp [termOver]
          | other ty s r x ht ht' hs hr => have := (split _ _ _ ht' hs hg).1; omega
    | ty + 2, hty =>
      simp only [Res.ok_bind]
      rw [hrec]
      constructor
      · rintro ⟨y, hy, rfl⟩
        refine ⟨y, ?_, rfl⟩
        rw [ev]
        exact .other _ _ _ _ (by omega) hty (by omega) hy
      · rintro ⟨y, hy, rfl⟩
        generalize hg : be 2 (ty + 2) ++ (be 2 n ++ v) = w at hy
        cases hy with
        | done _ h => rw [← hg] at h; simp at h; omega
        | text s r x h hr => have := (split _ _ _ (by omega) h.2 hg).1; omega
        | reason s r r' c x hs h hr => have := (split _ _ _ (by omega) hs hg).1; omega
        | other ty s r x ht ht' hs hr =>
          obtain ⟨-, rfl, rfl⟩ := split _ _ _ ht' hs hg
          rw [List.drop_left' rfl]
          exact ⟨y, hr, rfl⟩

theorem term_read_iff (b : Bytes) (m : BmpMessageTermination) :
    (∃ n, BmpMessageTermination.decodeFrom b = .ok (m, n)) ↔ TerminationRead b m := by
  have := termLoop_iff b.length [] b (Nat.le_refl _) b.length (Nat.le_refl _) .new m
  simp only [List.nil_append, List.length_nil] at this
  unfold BmpMessageTermination.decodeFrom
  rw [this]
  constructor
  · rintro ⟨y, hy, rfl⟩
    cases y
    simpa [termOver, BmpMessageTermination.new] using hy
  · intro h
    refine ⟨m, h, ?_⟩
    cases m
    simp [termOver, BmpMessageTermination.new]

/-! ## Session parameters -/

theorem headerParams_eq : BgpSessionParams.ofPeerHeader = headerParams := by
  funext h
  unfold BgpSessionParams.ofPeerHeader headerParams BgpSessionParams.new
  cases h.peeraddress <;> rfl

theorem openParams_eq : BgpSessionParams.ofOpen = openParams := by
  have key : ∀ (l : List BgpCapability) (p : BgpSessionParams),
      l.foldl Props.checkStep p = { p with hasAs32bit := p.hasAs32bit || !(asns l).isEmpty, asNum := (asns l).getLast?.getD p.asNum } := by
    intro l
    induction l with
    | nil => intro p; simp [asns]
    | cons c l ih =>
      intro p
      rw [List.foldl_cons, ih]
      cases c with
      | CapASN32 n =>
        have : asns (.CapASN32 n :: l) = n :: asns l := rfl
        rw [this]
        simp only [Bool.true_or, List.isEmpty_cons, Bool.not_false, Bool.or_true]
        congr 1
        cases asns l with
        | nil => rfl
        | cons a t => simp only [List.getLast?_cons_cons]; simp [List.getLast?_cons, Option.getD]
      | _ => rfl
  funext o
  unfold BgpSessionParams.ofOpen
  rw [Props.checkCaps_eq, key]
  simp [openParams]

/-! ## Whole messages -/

theorem rmon_read_iff (f : BmpMessagePeerHeader → BgpSessionParams) (b : Bytes) (m : BmpMessageRouteMonitoring) :
    (∃ n, (if b.length < 62 then (.err .insufficientBufferSize : Res (BmpMessageRouteMonitoring × Nat)) else do
      let (peer, pos) ← BmpMessagePeerHeader.decodeFrom b
      let (update, pos) ← decodeEmbedded .Update (BgpUpdateMessage.new.decodeFrom (f peer)) b pos
      .ok (⟨peer, update⟩, pos)) = .ok (m, n)) ↔
    ∃ body rest, b = peerHeaderWire m.peer ++ body ∧ Distinct m.peer.peeraddress ∧ 20 ≤ body.length ∧
      EmbeddedRead .Update (fun b (u : BgpUpdateMessage) => UpdateRead (f m.peer) b u.withdraws u.attrs u.updates) body m.update rest := by
  by_cases hb : b.length < 62
  · rw [if_pos hb]
    constructor
    · rintro ⟨n, h⟩; cases h
    · rintro ⟨body, rest, rfl, -, h2, -⟩
      simp [peerHeaderWire_length] at hb
      omega
  rw [if_neg hb]
  obtain ⟨x, t, rfl, hd⟩ := peerHeader_exists b (by omega)
  rw [peerHeader_reads' x hd]
  simp only [Res.ok_bind]
  have he := fun u => embedded_ok_iff .Update (BgpUpdateMessage.new.decodeFrom (f x)) (peerHeaderWire x) t u
  rw [peerHeaderWire_length, updateDec_eq] at he
  simp [peerHeaderWire_length] at hb
  constructor
  · rintro ⟨n, h⟩
    obtain ⟨⟨u, k⟩, hu, h⟩ := Res.bind_eq_ok.1 h
    cases h
    obtain ⟨rest, hr⟩ := (he u).1 ⟨_, hu⟩
    exact ⟨t, rest, rfl, hd, by omega, hr⟩
  · rintro ⟨body, rest, e, hd', -, hr⟩
    have e1 := List.append_inj e (by simp [peerHeaderWire_length])
    have := peerHeader_inj hd hd' e1.1
    subst this
    rw [← e1.2] at hr
    obtain ⟨n, hn⟩ := (he m.update).2 ⟨rest, hr⟩
    exact ⟨n, by rw [hn]; rfl⟩

theorem bmpRead_cons (f : BmpMessagePeerHeader → BgpSessionParams) (c : U8) (b : Bytes) (msg : BmpMessage) :
    BmpRead (fun h p => p = f h) (c :: b) msg ↔
      (c = 0 ∧ ∃ m : BmpMessageRouteMonitoring, (∃ body rest, b = peerHeaderWire m.peer ++ body ∧ Distinct m.peer.peeraddress ∧ 20 ≤ body.length ∧
        EmbeddedRead .Update (fun b (u : BgpUpdateMessage) => UpdateRead (f m.peer) b u.withdraws u.attrs u.updates) body m.update rest) ∧
        msg = .RouteMonitoring m) ∨
      (c = 1 ∧ msg = .StatisticsReport) ∨
      (c = 2 ∧ ∃ m, PeerDownRead b m ∧ msg = .PeerDownNotification m) ∨
      (c = 3 ∧ ∃ m, PeerUpRead b m ∧ msg = .PeerUpNotification m) ∨
      (c = 4 ∧ ∃ m, InitiationRead b m ∧ msg = .Initiation m) ∨
      (c = 5 ∧ ∃ m, TerminationRead b m ∧ msg = .Termination m) ∨
      (c = 6 ∧ msg = .RouteMirroring) := by
  constructor
  · intro h
    cases h with
    | monitoring h p body rest u hd hp hl hu =>
      subst hp
      exact .inl ⟨rfl, ⟨h, u⟩, ⟨body, rest, rfl, hd, hl, hu⟩, rfl⟩
    | statistics => exact .inr (.inl ⟨rfl, rfl⟩)
    | down _ m h => exact .inr (.inr (.inl ⟨rfl, m, h, rfl⟩))
    | up _ m h => exact .inr (.inr (.inr (.inl ⟨rfl, m, h, rfl⟩)))
    | initiation _ m h => exact .inr (.inr (.inr (.inr (.inl ⟨rfl, m, h, rfl⟩))))
    | termination _ m h => exact .inr (.inr (.inr (.inr (.inr (.inl ⟨rfl, m, h, rfl⟩)))))
    | mirroring => exact .inr (.inr (.inr (.inr (.inr (.inr ⟨rfl, rfl⟩)))))
  · rintro (⟨rfl, m, ⟨body, rest, rfl, hd, hl, hu⟩, rfl⟩ | ⟨rfl, rfl⟩ | ⟨rfl, m, h, rfl⟩ | ⟨rfl, m, h, rfl⟩ | ⟨rfl, m, h, rfl⟩ |
      ⟨rfl, m, h, rfl⟩ | ⟨rfl, rfl⟩)
    · exact .monitoring _ _ _ _ _ hd rfl hl hu
    · exact .statistics _
    · exact .down _ _ h
    · exact .up _ _ h
    · exact .initiation _ _ h
    · exact .termination _ _ h
    · exact .mirroring _

theorem bind_fst_ok {α β : Type} {r : Res (α × Nat)} {g : α → β} {y : β} {R : α → Prop} (h : ∀ m, (∃ n, r = .ok (m, n)) ↔ R m) :
    (do let (m, _) ← r; .ok (g m) : Res β) = .ok y ↔ ∃ m, R m ∧ y = g m := by
  constructor
  · intro e
    obtain ⟨⟨m, n⟩, hm, e⟩ := Res.bind_eq_ok.1 e
    cases e
    exact ⟨m, (h m).1 ⟨n, hm⟩, rfl⟩
  · rintro ⟨m, hm, rfl⟩
    obtain ⟨n, hn⟩ := (h m).2 hm
    rw [hn]; rfl

theorem bmp_nil (f : BmpMessagePeerHeader → BgpSessionParams) (msg : BmpMessage) : ¬ BmpRead (fun h p => p = f h) [] msg := by
  intro h; cases h

theorem bmp_read_iff (b : Bytes) (msg : BmpMessage) :
    BmpMessage.decodeFrom b = .ok msg ↔ BmpRead (fun h p => p = headerParams h) b msg := by
  cases b with
  | nil => simp [BmpMessage.decodeFrom, idx, bmp_nil]
  | cons c b =>
    rw [bmpRead_cons]
    unfold BmpMessage.decodeFrom
    rw [idx_cons_zero, Res.ok_bind]
    simp only [rfrom_cons_one, Res.ok_bind]
    rcases bmp_cases c with rfl | rfl | rfl | rfl | rfl | rfl | rfl | h
    · have := bind_fst_ok (g := BmpMessage.RouteMonitoring) (y := msg) (rmon_read_iff headerParams b)
      rw [← headerParams_eq] at this
      rw [← headerParams_eq]
      simpa [BmpMessageRouteMonitoring.decodeFrom] using this
    · simp [eq_comm]
    · simpa using bind_fst_ok (g := BmpMessage.PeerDownNotification) (y := msg) (peerDown_read_iff b)
    · simpa using bind_fst_ok (g := BmpMessage.PeerUpNotification) (y := msg) (peerUp_read_iff b)
    · simpa using bind_fst_ok (g := BmpMessage.Initiation) (y := msg) (init_read_iff b)
    · simpa using bind_fst_ok (g := BmpMessage.Termination) (y := msg) (term_read_iff b)
    · simp [eq_comm]
    · have e : ∀ k, k < 7 → c ≠ BitVec.ofNat 8 k := by
        rintro k hk rfl; simp at h; omega
      match hc : c.toNat, h with
      | n + 7, _ =>
        constructor
        · intro h; cases h
        · rintro (⟨h, -⟩ | ⟨h, -⟩ | ⟨h, -⟩ | ⟨h, -⟩ | ⟨h, -⟩ | ⟨h, -⟩ | ⟨h, -⟩)
          · exact absurd h (e 0 (by omega))
          · exact absurd h (e 1 (by omega))
          · exact absurd h (e 2 (by omega))
          · exact absurd h (e 3 (by omega))
          · exact absurd h (e 4 (by omega))
          · exact absurd h (e 5 (by omega))
          · exact absurd h (e 6 (by omega))

theorem session_read_iff (s : BMPSession) (b : Bytes) (msg : BmpMessage) :
    (s.decodeFrom b).1 = .ok msg ↔ BmpRead (fun h p => p = s.params h) b msg := by
  cases b with
  | nil => simp [BMPSession.decodeFrom, idx, bmp_nil]
  | cons c b =>
    rw [bmpRead_cons]
    unfold BMPSession.decodeFrom
    rw [idx_cons_zero]
    simp only [rfrom_cons_one, Res.ok_bind]
    rcases bmp_cases c with rfl | rfl | rfl | rfl | rfl | rfl | rfl | h
    · have := bind_fst_ok (g := BmpMessage.RouteMonitoring) (y := msg) (rmon_read_iff s.params b)
      rw [show (0 : U8).toNat = 0 from rfl]
      simp only [true_and]
      have e0 : ¬ (0 : U8) = 1 ∧ ¬ (0 : U8) = 2 ∧ ¬ (0 : U8) = 3 ∧ ¬ (0 : U8) = 4 ∧ ¬ (0 : U8) = 5 ∧ ¬ (0 : U8) = 6 := by decide
      simp only [e0.1, e0.2.1, e0.2.2.1, e0.2.2.2.1, e0.2.2.2.2.1, e0.2.2.2.2.2, false_and, or_false]
      rw [← this]
      unfold BMPSession.decodeRm
      split
      · simp
      cases BmpMessagePeerHeader.decodeFrom b with
      | ok r =>
        simp only [Res.ok_bind]
        cases decodeEmbedded .Update (BgpUpdateMessage.new.decodeFrom (s.params r.1)) b r.2 <;> simp
      | err e => simp
      | panic => simp
      | hang => simp
    · simp [eq_comm]
    · have := bind_fst_ok (g := BmpMessage.PeerDownNotification) (y := msg) (peerDown_read_iff b)
      rw [show (2 : U8).toNat = 2 from rfl]
      simp only
      cases hd : BmpMessagePeerDown.decodeFrom b <;> rw [hd] at this <;> simpa using this
    · have := bind_fst_ok (g := BmpMessage.PeerUpNotification) (y := msg) (peerUp_read_iff b)
      rw [show (3 : U8).toNat = 3 from rfl]
      simp only
      cases hd : BmpMessagePeerUp.decodeFrom b <;> rw [hd] at this <;> simpa using this
    · simpa using bind_fst_ok (g := BmpMessage.Initiation) (y := msg) (init_read_iff b)
    · simpa using bind_fst_ok (g := BmpMessage.Termination) (y := msg) (term_read_iff b)
    · simp [eq_comm]
    · have e : ∀ k, k < 7 → c ≠ BitVec.ofNat 8 k := by
        rintro k hk rfl; simp at h; omega
      match hc : c.toNat, h with
      | n + 7, _ =>
        constructor
        · intro h; cases h
        · rintro (⟨h, -⟩ | ⟨h, -⟩ | ⟨h, -⟩ | ⟨h, -⟩ | ⟨h, -⟩ | ⟨h, -⟩ | ⟨h, -⟩)
          · exact absurd h (e 0 (by omega))
          · exact absurd h (e 1 (by omega))
          · exact absurd h (e 2 (by omega))
          · exact absurd h (e 3 (by omega))
          · exact absurd h (e 4 (by omega))
          · exact absurd h (e 5 (by omega))
          · exact absurd h (e 6 (by omega))

theorem bmpDecCrash_iff (f : BmpMessagePeerHeader → BgpSessionParams) (b : Bytes) :
    BmpDecCrash f b ↔ BmpCrash (fun h p => p = f h) b := by
  unfold BmpDecCrash BmpCrash
  rw [openCrash_eq, openDec_eq, notifCrash_eq]
  simp only [updateCrash_eq]
  constructor
  · rintro (h | ⟨h, body, h1, h2, h3⟩ | h)
    · exact .inl h
    · exact .inr (.inl ⟨h, _, body, h1, h2, rfl, h3⟩)
    · exact .inr (.inr h)
  · rintro (h | ⟨h, p, body, h1, h2, rfl, h3⟩ | h)
    · exact .inl h
    · exact .inr (.inl ⟨h, body, h1, h2, h3⟩)
    · exact .inr (.inr h)

theorem bmp_exactly (b : Bytes) : Exactly (BmpMessage.decodeFrom b) (BmpRead (fun h p => p = headerParams h) b)
    (BmpCrash (fun h p => p = headerParams h) b) where
  ok msg := bmp_read_iff b msg
  crash := by
    rw [← bmpDecCrash_iff, ← headerParams_eq, ← not_iff_not, ← bmp_returns_iff]
    have := nh_bmp b
    cases h : BmpMessage.decodeFrom b <;> simp
    exact this h
  noHang := nh_bmp b

theorem session_exactly (s : BMPSession) (b : Bytes) : Exactly (s.decodeFrom b).1 (BmpRead (fun h p => p = s.params h) b)
    (BmpCrash (fun h p => p = s.params h) b) where
  ok msg := session_read_iff s b msg
  crash := by
    rw [← bmpDecCrash_iff, ← not_iff_not, ← session_returns_iff]
    have := nh_session s b
    cases h : (s.decodeFrom b).1 <;> simp
    exact this h
  noHang := nh_session s b

/-! ## Histories -/

theorem peerUpDec_eq : PeerUpDec = PeerUpIs := by
  funext b m
  apply propext
  unfold PeerUpDec PeerUpIs
  constructor
  · rintro ⟨body, n, e, h⟩; exact ⟨body, e, (peerUp_read_iff body m).1 ⟨n, h⟩⟩
  · rintro ⟨body, e, h⟩
    obtain ⟨n, h⟩ := (peerUp_read_iff body m).2 h
    exact ⟨body, n, e, h⟩

theorem peerDownDec_eq : PeerDownDec = PeerDownIs := by
  funext b m
  apply propext
  unfold PeerDownDec PeerDownIs
  constructor
  · rintro ⟨body, n, e, h⟩; exact ⟨body, e, (peerDown_read_iff body m).1 ⟨n, h⟩⟩
  · rintro ⟨body, e, h⟩
    obtain ⟨n, h⟩ := (peerDown_read_iff body m).2 h
    exact ⟨body, n, e, h⟩

theorem lastUpDec_eq : LastUpDec = LastUp := by
  funext hist rd ip m
  unfold LastUpDec LastUp AboutDec About
  rw [peerUpDec_eq, peerDownDec_eq]

theorem paramsAfter_iff (hist : List Bytes) (h : BmpMessagePeerHeader) (p : BgpSessionParams) :
    ParamsAfter hist h p ↔ p = (after hist).params h := by
  obtain ⟨h1, h2⟩ := params_after hist h
  rw [lastUpDec_eq, openParams_eq] at h1
  rw [lastUpDec_eq, headerParams_eq] at h2
  unfold ParamsAfter
  constructor
  · rintro (⟨m, hm, rfl⟩ | ⟨hn, rfl⟩)
    · exact (h1 m hm).symm
    · exact (h2 hn).symm
  · rintro rfl
    by_cases hc : ∃ m, LastUp hist h.peerdistinguisher h.peeraddress m
    · obtain ⟨m, hm⟩ := hc
      exact .inl ⟨m, hm, h1 m hm⟩
    · exact .inr ⟨hc, h2 hc⟩

theorem after_exactly (hist : List Bytes) (b : Bytes) :
    Exactly ((after hist).decodeFrom b).1 (BmpRead (ParamsAfter hist) b) (BmpCrash (ParamsAfter hist) b) := by
  have : ParamsAfter hist = fun h p => p = (after hist).params h := by
    funext h p; exact propext (paramsAfter_iff hist h p)
  rw [this]
  exact session_exactly _ b

end Zbgp
