import Verif.Lemmas.Bmp
import Verif.Spec.Local

/-! # Decoders: what they report and what they look at -/

namespace Zbgp

open Spec

/-- both have at least `k` octets, and the first `k` are the same -/
def Agree (k : Nat) (b b' : Bytes) : Prop := k ≤ b.length ∧ k ≤ b'.length ∧ b.take k = b'.take k

theorem agree_take {k : Nat} {b : Bytes} (h : k ≤ b.length) (rest : Bytes) : Agree k b (b.take k ++ rest) :=
  ⟨h, by simp; omega, by rw [List.take_left' (by simp; omega)]⟩

theorem local_of_agree {α : Type} {dec : Bytes → Res (α × Nat)}
    (h : ∀ b x n, dec b = .ok (x, n) → n ≤ b.length ∧ ∀ b', Agree n b b' → dec b' = .ok (x, n)) : Local dec :=
  fun b x n hd => ⟨(h b x n hd).1, fun rest => (h b x n hd).2 _ (agree_take (h b x n hd).1 rest)⟩

theorem agree_of_local {α : Type} {dec : Bytes → Res (α × Nat)} (h : Local dec) {b b' : Bytes} {x : α} {n k : Nat}
    (hd : dec b = .ok (x, n)) (ha : Agree k b b') (hk : n ≤ k) : dec b' = .ok (x, n) := by
  obtain ⟨h1, h2⟩ := h b x n hd
  have := h2 (b'.drop n)
  have e : b.take n = b'.take n := by
    have := congrArg (List.take n) ha.2.2
    rwa [List.take_take, List.take_take, Nat.min_eq_left hk] at this
  rwa [e, List.take_append_drop] at this

theorem agree_get {k : Nat} {b b' : Bytes} (ha : Agree k b b') {i : Nat} (hi : i < k) : b[i]? = b'[i]? := by
  have := congrArg (fun l => l[i]?) ha.2.2
  simpa [hi] using this

theorem agree_idx {k : Nat} {b b' : Bytes} (ha : Agree k b b') {i : Nat} (hi : i < k) : idx b' i = idx b i := by
  unfold idx; rw [agree_get ha hi]

theorem agree_drop {k : Nat} {b b' : Bytes} (ha : Agree k b b') (i : Nat) : Agree (k - i) (b.drop i) (b'.drop i) := by
  obtain ⟨h1, h2, h3⟩ := ha
  refine ⟨by simp; omega, by simp; omega, ?_⟩
  rw [List.take_drop, List.take_drop]
  by_cases h : i ≤ k
  · rw [show i + (k - i) = k by omega, h3]
  · have : k - i = 0 := by omega
    rw [this, Nat.add_zero, List.drop_of_length_le (by simp), List.drop_of_length_le (by simp)]

theorem agree_rfrom {k : Nat} {b b' : Bytes} (ha : Agree k b b') {i : Nat} (hi : i ≤ k) :
    rfrom b i = .ok (b.drop i) ∧ rfrom b' i = .ok (b'.drop i) :=
  ⟨rfrom_ok (Nat.le_trans hi ha.1), rfrom_ok (Nat.le_trans hi ha.2.1)⟩

theorem agree_rslice {k : Nat} {b b' : Bytes} (ha : Agree k b b') {s e : Nat} (he : e ≤ k) : rslice b' s e = rslice b s e := by
  unfold rslice
  by_cases h : s ≤ e
  · rw [if_pos ⟨h, Nat.le_trans he ha.2.1⟩, if_pos ⟨h, Nat.le_trans he ha.1⟩]
    congr 1
    apply List.ext_getElem?
    intro i
    have h1 := ha.1
    have h2 := ha.2.1
    simp only [List.getElem?_take, List.getElem?_drop]
    split
    · rw [agree_get ha (by omega)]
    · rfl
  · rw [if_neg (by omega), if_neg (by omega)]

theorem agree_getn16 {k : Nat} {b b' : Bytes} (ha : Agree k b b') (hk : 2 ≤ k) : getn16 b' = getn16 b := by
  unfold getn16; rw [agree_idx ha (by omega), agree_idx ha (by omega)]

theorem agree_getn32 {k : Nat} {b b' : Bytes} (ha : Agree k b b') (hk : 4 ≤ k) : getn32 b' = getn32 b := by
  unfold getn32; rw [agree_idx ha (by omega), agree_idx ha (by omega), agree_idx ha (by omega), agree_idx ha (by omega)]

theorem agree_getn64 {k : Nat} {b b' : Bytes} (ha : Agree k b b') (hk : 8 ≤ k) : getn64 b' = getn64 b := by
  unfold getn64; rw [agree_getn32 ha (by omega), agree_rslice ha (by omega)]

theorem agree_addrV4 {k : Nat} {b b' : Bytes} (ha : Agree k b b') (hk : 4 ≤ k) : decodeAddrV4 b' = decodeAddrV4 b := by
  have h1 := ha.1; have h2 := ha.2.1
  unfold decodeAddrV4
  rw [if_neg (by omega), if_neg (by omega), agree_idx ha (by omega), agree_idx ha (by omega), agree_idx ha (by omega), agree_idx ha (by omega)]

theorem agree_addrV6 {k : Nat} {b b' : Bytes} (ha : Agree k b b') (hk : 16 ≤ k) : decodeAddrV6 b' = decodeAddrV6 b := by
  have h1 := ha.1; have h2 := ha.2.1
  unfold decodeAddrV6
  rw [if_neg (by omega), if_neg (by omega)]
  simp only [agree_rslice ha (show 2 ≤ k by omega), agree_rslice ha (show 4 ≤ k by omega), agree_rslice ha (show 6 ≤ k by omega),
    agree_rslice ha (show 8 ≤ k by omega), agree_rslice ha (show 10 ≤ k by omega), agree_rslice ha (show 12 ≤ k by omega),
    agree_rslice ha (show 14 ≤ k by omega), agree_rslice ha (show 16 ≤ k by omega)]

theorem agree_rd {k : Nat} {b b' : Bytes} (ha : Agree k b b') (hk : 8 ≤ k) : BgpRD.decodeFrom b' = BgpRD.decodeFrom b := by
  have h1 := ha.1; have h2 := ha.2.1
  unfold BgpRD.decodeFrom
  rw [if_pos (by omega), if_pos (by omega), agree_rslice ha (by omega), agree_rslice ha (by omega)]

theorem agree_bmpAddr {k : Nat} {b b' : Bytes} (ha : Agree k b b') (hk : 16 ≤ k) : decodeBmpAddr b' = decodeBmpAddr b := by
  have h1 := ha.1; have h2 := ha.2.1
  obtain ⟨e1, e2⟩ := agree_rfrom ha (show 12 ≤ k by omega)
  have e3 := agree_addrV4 (agree_drop ha 12) (by omega)
  unfold decodeBmpAddr
  rw [if_neg (by omega), if_neg (by omega)]
  simp only [agree_idx ha (show 0 < k by omega), agree_idx ha (show 1 < k by omega), agree_idx ha (show 2 < k by omega),
    agree_idx ha (show 3 < k by omega), agree_idx ha (show 4 < k by omega), agree_idx ha (show 5 < k by omega),
    agree_idx ha (show 6 < k by omega), agree_idx ha (show 7 < k by omega), agree_idx ha (show 8 < k by omega),
    agree_idx ha (show 9 < k by omega), agree_idx ha (show 10 < k by omega), agree_idx ha (show 11 < k by omega),
    e1, e2, Res.ok_bind, e3, agree_addrV6 ha hk]

/-! ## BMP -/

theorem agree_peerHeader {k : Nat} {b b' : Bytes} (ha : Agree k b b') (hk : 42 ≤ k) :
    BmpMessagePeerHeader.decodeFrom b' = BmpMessagePeerHeader.decodeFrom b := by
  have h1 := ha.1; have h2 := ha.2.1
  unfold BmpMessagePeerHeader.decodeFrom
  rw [if_neg (by omega), if_neg (by omega), agree_idx ha (by omega), agree_idx ha (by omega)]
  have f : ∀ i, i ≤ 42 → rfrom b i = .ok (b.drop i) ∧ rfrom b' i = .ok (b'.drop i) := fun i hi => agree_rfrom ha (by omega)
  simp only [(f 2 (by omega)).1, (f 2 (by omega)).2, (f 10 (by omega)).1, (f 10 (by omega)).2, (f 26 (by omega)).1,
    (f 26 (by omega)).2, (f 30 (by omega)).1, (f 30 (by omega)).2, (f 34 (by omega)).1, (f 34 (by omega)).2, Res.ok_bind,
    agree_rd (agree_drop ha 2) (by omega), agree_bmpAddr (agree_drop ha 10) (by omega), agree_getn32 (agree_drop ha 26) (by omega),
    agree_addrV4 (agree_drop ha 30) (by omega), agree_getn64 (agree_drop ha 34) (by omega)]

theorem peerHeader_consumes {b : Bytes} {x : BmpMessagePeerHeader} {n : Nat} (h : BmpMessagePeerHeader.decodeFrom b = .ok (x, n)) :
    n = 42 ∧ 42 ≤ b.length := by
  unfold BmpMessagePeerHeader.decodeFrom at h
  split at h
  · cases h
  · repeat' (obtain ⟨_, -, h⟩ := Res.bind_eq_ok.1 h)
    cases h
    omega

theorem local_peerHeader : Local BmpMessagePeerHeader.decodeFrom := by
  refine local_of_agree fun b x n h => ?_
  obtain ⟨rfl, hb⟩ := peerHeader_consumes h
  exact ⟨hb, fun b' ha => by rw [agree_peerHeader ha (by omega), h]⟩

theorem local_commonHeader : Local BmpMessageHeader.decodeFrom := by
  refine local_of_agree fun b x n h => ?_
  have h0 := h
  unfold BmpMessageHeader.decodeFrom at h
  split at h
  · cases h
  rename_i hb
  obtain ⟨v, hv, h⟩ := Res.bind_eq_ok.1 h
  split at h
  · cases h
  obtain ⟨t, ht, h⟩ := Res.bind_eq_ok.1 h
  obtain ⟨u, hu, h⟩ := Res.bind_eq_ok.1 h
  cases h
  refine ⟨by omega, fun b' ha => ?_⟩
  have h2 := ha.2.1
  rw [← h0]
  unfold BmpMessageHeader.decodeFrom
  rw [if_neg (by omega), if_neg hb, agree_idx ha (by omega), agree_rslice ha (by omega)]

theorem local_info : Local BmpInfoVal.decodeFrom := by
  refine local_of_agree fun b x n h => ?_
  unfold BmpInfoVal.decodeFrom at h
  split at h
  · cases h
  rename_i hb
  obtain ⟨tp, htp, h⟩ := Res.bind_eq_ok.1 h
  obtain ⟨t, ht, h⟩ := Res.bind_eq_ok.1 h
  obtain ⟨l, hl, h⟩ := Res.bind_eq_ok.1 h
  simp only at h
  split at h
  · cases h
  rename_i hln
  obtain ⟨s, hs, h⟩ := Res.bind_eq_ok.1 h
  obtain ⟨u, hu, h⟩ := Res.bind_eq_ok.1 h
  cases h
  refine ⟨by omega, fun b' ha => ?_⟩
  have h2 := ha.2.1
  unfold BmpInfoVal.decodeFrom
  rw [if_neg (by omega), agree_getn16 ha (by omega), htp, Res.ok_bind, agree_rslice ha (by omega), ht, Res.ok_bind, hl, Res.ok_bind]
  simp only
  rw [if_neg (by omega), agree_rslice ha (by omega), hs, Res.ok_bind, hu]
  rfl

theorem embedded_agree {α : Type} {ty : BgpMessageType} {dec : Bytes → Res α} {b : Bytes} {m : α} {p pos : Nat}
    (h : decodeEmbedded ty dec b p = .ok (m, pos)) :
    p + 19 ≤ pos ∧ pos ≤ b.length ∧ ∀ b', Agree pos b b' → decodeEmbedded ty dec b' p = .ok (m, pos) := by
  by_cases hp : p ≤ b.length
  · have hl : (b.take p).length = p := by simp; omega
    have h0 := h
    rw [← List.take_append_drop p b] at h
    have h' : decodeEmbedded ty dec (b.take p ++ b.drop p) (b.take p).length = .ok (m, pos) := by rw [hl]; exact h
    obtain ⟨body, rest, e, hb, hd, hpos⟩ := embedded_ok h'
    rw [List.length_append, hl, message_length] at hpos
    have hlen := congrArg List.length e
    rw [List.length_append, List.length_drop, message_length] at hlen
    refine ⟨by omega, by omega, fun b' ha => ?_⟩
    have e2 : b' = b'.take p ++ (message ty body ++ b'.drop pos) := by
      have e3 : b'.take pos = b.take p ++ message ty body := by
        rw [← ha.2.2, hpos, List.take_add, e, List.take_left' (by simp [message_length])]
      have e4 : b'.take p = b.take p := by
        have := congrArg (List.take p) e3
        rwa [List.take_take, Nat.min_eq_left (by omega), List.take_left' hl] at this
      rw [e4, ← List.append_assoc, ← e3, List.take_append_drop]
    have := embedded_reads ty hd hb (b'.take p) (b'.drop pos)
    rw [← e2] at this
    have hl' : (b'.take p).length = p := by have := ha.2.1; simp; omega
    rw [List.length_append, hl', message_length, show p + (19 + body.length) = pos by omega] at this
    exact this
  · unfold decodeEmbedded rfrom at h
    rw [if_neg hp] at h
    cases h

theorem local_routeMonitoring : Local BmpMessageRouteMonitoring.decodeFrom := by
  refine local_of_agree fun b x n h => ?_
  unfold BmpMessageRouteMonitoring.decodeFrom at h
  split at h
  · cases h
  obtain ⟨⟨peer, k⟩, h1, h⟩ := Res.bind_eq_ok.1 h
  obtain ⟨⟨u, pos⟩, h2, h⟩ := Res.bind_eq_ok.1 h
  cases h
  obtain ⟨rfl, -⟩ := peerHeader_consumes h1
  obtain ⟨e1, e2, e3⟩ := embedded_agree h2
  refine ⟨e2, fun b' ha => ?_⟩
  have hpos : 62 ≤ n := by
    by_contra hc
    have hn : n = 61 := by omega
    have hl : (b.take 42).length = 42 := by simp; omega
    have h3 := h2
    rw [← List.take_append_drop 42 b] at h3
    have h3' : decodeEmbedded .Update (BgpUpdateMessage.new.decodeFrom (BgpSessionParams.ofPeerHeader peer))
      (b.take 42 ++ b.drop 42) (b.take 42).length = .ok (u, n) := by rw [hl]; exact h3
    obtain ⟨body, rest, e, hb, hd, hp⟩ := embedded_ok h3'
    rw [List.length_append, hl, message_length] at hp
    have : body = [] := List.length_eq_zero_iff.1 (by omega)
    subst this
    cases hd
  have hb2 := ha.2.1
  unfold BmpMessageRouteMonitoring.decodeFrom
  rw [if_neg (by omega), agree_peerHeader ha (by omega), h1, Res.ok_bind]
  simp only
  rw [e3 b' ha]
  rfl

theorem local_peerUp : Local BmpMessagePeerUp.decodeFrom := by
  refine local_of_agree fun b x n h => ?_
  unfold BmpMessagePeerUp.decodeFrom at h
  split at h
  · cases h
  rename_i hb
  obtain ⟨⟨peer, k⟩, h1, h⟩ := Res.bind_eq_ok.1 h
  obtain ⟨rfl, -⟩ := peerHeader_consumes h1
  simp only [rfrom_ok (show 42 ≤ b.length by omega), rfrom_ok (show 42 + 16 ≤ b.length by omega),
    rfrom_ok (show 42 + 18 ≤ b.length by omega), Res.ok_bind] at h
  obtain ⟨la, h2, h⟩ := Res.bind_eq_ok.1 h
  obtain ⟨lp, h3, h⟩ := Res.bind_eq_ok.1 h
  obtain ⟨rp, h4, h⟩ := Res.bind_eq_ok.1 h
  obtain ⟨⟨m1, p1⟩, h5, h⟩ := Res.bind_eq_ok.1 h
  obtain ⟨⟨m2, p2⟩, h6, h⟩ := Res.bind_eq_ok.1 h
  cases h
  obtain ⟨e1, e2, e3⟩ := embedded_agree h5
  obtain ⟨f1, f2, f3⟩ := embedded_agree h6
  simp only at f1 f2 f3 e1 e2 e3
  refine ⟨f2, fun b' ha => ?_⟩
  have hb2 := ha.2.1
  have ha1 : Agree p1 b b' := by
    refine ⟨by omega, by omega, ?_⟩
    have := congrArg (List.take p1) ha.2.2
    rwa [List.take_take, List.take_take, Nat.min_eq_left (by omega)] at this
  unfold BmpMessagePeerUp.decodeFrom
  rw [if_neg (by omega), agree_peerHeader ha (by omega), h1, Res.ok_bind]
  simp only [rfrom_ok (show 42 ≤ b'.length by omega), rfrom_ok (show 42 + 16 ≤ b'.length by omega),
    rfrom_ok (show 42 + 18 ≤ b'.length by omega), Res.ok_bind]
  rw [agree_bmpAddr (agree_drop ha 42) (by omega), h2, Res.ok_bind, agree_getn16 (agree_drop ha (42 + 16)) (by omega), h3, Res.ok_bind,
    agree_getn16 (agree_drop ha (42 + 18)) (by omega), h4, Res.ok_bind, e3 b' ha1, Res.ok_bind]
  simp only
  rw [f3 b' ha]
  rfl

theorem local_peerDown : Local BmpMessagePeerDown.decodeFrom := by
  refine local_of_agree fun b x n h => ?_
  unfold BmpMessagePeerDown.decodeFrom at h
  split at h
  · cases h
  rename_i hb
  obtain ⟨⟨peer, k⟩, h1, h⟩ := Res.bind_eq_ok.1 h
  obtain ⟨rfl, -⟩ := peerHeader_consumes h1
  obtain ⟨code, h2, h⟩ := Res.bind_eq_ok.1 h
  obtain ⟨⟨r, p⟩, h3, h⟩ := Res.bind_eq_ok.1 h
  cases h
  have key : 43 ≤ n ∧ n ≤ b.length ∧ ∀ b', Agree n b b' → BmpMessagePeerDown.decodeReason code b' 43 = .ok (r, n) := by
    unfold BmpMessagePeerDown.decodeReason at h3 ⊢
    have hs : code.toNat = 1 ∨ code.toNat = 2 ∨ code.toNat = 3 ∨ code.toNat = 4 ∨ code.toNat = 5 ∨
      (code.toNat ≠ 1 ∧ code.toNat ≠ 2 ∧ code.toNat ≠ 3 ∧ code.toNat ≠ 4 ∧ code.toNat ≠ 5) := by omega
    rcases hs with hc | hc | hc | hc | hc | hc
    · simp only [hc] at h3 ⊢
      obtain ⟨⟨m, p⟩, h4, h⟩ := Res.bind_eq_ok.1 h3
      cases h
      obtain ⟨e1, e2, e3⟩ := embedded_agree h4
      exact ⟨by simp at e1; omega, e2, fun b' ha => by rw [e3 b' ha]; rfl⟩
    · simp only [hc] at h3 ⊢
      obtain ⟨l, h4, h⟩ := Res.bind_eq_ok.1 h3
      split at h
      · cases h
      rename_i hl
      have hl2 : l = b.length - 43 := by
        unfold subN at h4
        rw [if_pos (by omega)] at h4
        cases h4; rfl
      obtain ⟨s, h5, h⟩ := Res.bind_eq_ok.1 h
      cases h
      refine ⟨by omega, by omega, fun b' ha => ?_⟩
      have := ha.2.1
      unfold subN
      rw [if_pos (by omega), Res.ok_bind, if_neg (by omega), agree_rslice ha (by omega), h5]
      rfl
    · simp only [hc] at h3 ⊢
      obtain ⟨⟨m, p⟩, h4, h⟩ := Res.bind_eq_ok.1 h3
      cases h
      obtain ⟨e1, e2, e3⟩ := embedded_agree h4
      exact ⟨by simp at e1; omega, e2, fun b' ha => by rw [e3 b' ha]; rfl⟩
    · simp only [hc] at h3 ⊢
      cases h3
      exact ⟨by omega, by omega, fun b' ha => rfl⟩
    · simp only [hc] at h3 ⊢
      cases h3
      exact ⟨by omega, by omega, fun b' ha => rfl⟩
    · exfalso
      revert h3
      split <;> first | omega | (intro h; cases h)
  obtain ⟨e1, e2, e3⟩ := key
  refine ⟨e2, fun b' ha => ?_⟩
  have hb2 := ha.2.1
  unfold BmpMessagePeerDown.decodeFrom
  rw [if_neg (by omega), agree_peerHeader ha (by omega), h1, Res.ok_bind]
  simp only
  rw [agree_idx ha (by omega), h2, Res.ok_bind, e3 b' ha]
  rfl

theorem initLoop_consumes (b : Bytes) (fuel pos : Nat) (hp : pos ≤ b.length) (ret x : BmpMessageInitiation) (n : Nat)
    (h : BmpMessageInitiation.loop b fuel pos ret = .ok (x, n)) : n = b.length := by
  induction fuel generalizing pos ret with
  | zero =>
    unfold BmpMessageInitiation.loop at h
    split at h
    · cases h
    · cases h; omega
  | succ fuel ih =>
    unfold BmpMessageInitiation.loop at h
    split at h
    · simp only at h
      rw [rfrom_ok (by omega), Res.ok_bind] at h
      obtain ⟨⟨c, k⟩, h2, h3⟩ := Res.bind_eq_ok.1 h
      have := (local_info _ _ _ h2).1
      refine ih _ ?_ _ h3
      simp at this; omega
    · cases h; omega

theorem termLoop_consumes (b : Bytes) (fuel pos : Nat) (hp : pos ≤ b.length) (ret x : BmpMessageTermination) (n : Nat)
    (h : BmpMessageTermination.loop b fuel pos ret = .ok (x, n)) : n ≤ b.length ∧ b.length < n + 4 := by
  have e : ∀ p, p ≤ b.length → subN b.length p = .ok (b.length - p) := by
    intro p hp; unfold subN; rw [if_pos hp]
  induction fuel generalizing pos ret with
  | zero =>
    unfold BmpMessageTermination.loop at h
    rw [e _ hp, Res.ok_bind] at h
    split at h
    · cases h
    · cases h; omega
  | succ fuel ih =>
    unfold BmpMessageTermination.loop at h
    rw [e _ hp, Res.ok_bind] at h
    split at h
    · simp only at h
      obtain ⟨t1, -, h⟩ := Res.bind_eq_ok.1 h
      obtain ⟨t2, -, h⟩ := Res.bind_eq_ok.1 h
      obtain ⟨t3, -, h⟩ := Res.bind_eq_ok.1 h
      obtain ⟨t4, -, h⟩ := Res.bind_eq_ok.1 h
      rw [e _ (by omega), Res.ok_bind] at h
      split at h
      · cases h
      · split at h
        · obtain ⟨_, -, h⟩ := Res.bind_eq_ok.1 h
          obtain ⟨_, -, h⟩ := Res.bind_eq_ok.1 h
          exact ih _ (by omega) _ h
        · obtain ⟨_, -, h⟩ := Res.bind_eq_ok.1 h
          obtain ⟨_, -, h⟩ := Res.bind_eq_ok.1 h
          exact ih _ (by omega) _ h
        · exact ih _ (by omega) _ h
    · cases h; omega

/-! ## Capabilities, VPLS -/

theorem local_capability : Local BgpCapability.fromBuffer := by
  refine local_of_agree fun b x n h => ?_
  unfold BgpCapability.fromBuffer at h
  split at h
  · cases h
  obtain ⟨c, h1, h⟩ := Res.bind_eq_ok.1 h
  obtain ⟨l, h2, h⟩ := Res.bind_eq_ok.1 h
  simp only at h
  split at h
  · cases h
  obtain ⟨d, h3, h⟩ := Res.bind_eq_ok.1 h
  obtain ⟨o, h4, h⟩ := Res.bind_eq_ok.1 h
  have hn : n = 2 + l.toNat := by cases o <;> cases h <;> rfl
  subst hn
  refine ⟨by omega, fun b' ha => ?_⟩
  have := ha.2.1
  unfold BgpCapability.fromBuffer
  rw [if_neg (by omega), agree_idx ha (by omega), h1, Res.ok_bind, agree_idx ha (by omega), h2, Res.ok_bind]
  simp only
  rw [if_neg (by omega), agree_rslice ha (by omega), h3, Res.ok_bind, h4]
  exact h

theorem local_longItem {T : Type} [BgpItemLong T] : Local (decodeLongItem (T := T)) := by
  refine local_of_agree fun b x n h => ?_
  unfold decodeLongItem at h
  obtain ⟨s, h1, h⟩ := Res.bind_eq_ok.1 h
  obtain ⟨l, h2, h⟩ := Res.bind_eq_ok.1 h
  obtain ⟨d, h3, h⟩ := Res.bind_eq_ok.1 h
  obtain ⟨o, h4, h⟩ := Res.bind_eq_ok.1 h
  cases h
  have hb := (rslice_eq_ok.1 h3)
  refine ⟨by omega, fun b' ha => ?_⟩
  unfold decodeLongItem
  rw [agree_rslice ha (by omega), h1, Res.ok_bind, h2, Res.ok_bind]
  simp only
  rw [agree_rslice ha (by omega), h3, Res.ok_bind, h4]
  rfl

/-! ## EVPN and MVPN -/

/-- successful runs report at most the octets there are -/
def Within {α : Type} (dec : Bytes → Res (α × Nat)) : Prop := ∀ b x n, dec b = .ok (x, n) → n ≤ b.length

theorem labels_within {bits : U8} {b t : Bytes} {i n : Nat} {x : MplsLabels} (ht : rfrom b i = .ok t)
    (h : MplsLabels.extractBits bits t = .ok (x, n)) : i + n ≤ b.length := by
  obtain ⟨h1, rfl⟩ := rfrom_eq_ok.1 ht
  have := (labels_local _ _ _ _ h).1
  simp at this; omega

theorem addrV4_within {b t : Bytes} {i : Nat} {x : IPv4} (ht : rfrom b i = .ok t) (h : decodeAddrV4 t = .ok x) : i + 4 ≤ b.length := by
  obtain ⟨h1, rfl⟩ := rfrom_eq_ok.1 ht
  by_contra hc
  rw [decodeAddrV4_short (by simp; omega)] at h
  cases h

theorem addrV6_within {b t : Bytes} {i : Nat} {x : IPv6} (ht : rfrom b i = .ok t) (h : decodeAddrV6 t = .ok x) : i + 16 ≤ b.length := by
  obtain ⟨h1, rfl⟩ := rfrom_eq_ok.1 ht
  by_contra hc
  rw [decodeAddrV6_short (by simp; omega)] at h
  cases h

theorem within_ip {b : Bytes} {p n : Nat} {x : IpAddr} (h : evpnReadIp b p = .ok (x, n)) : n ≤ b.length := by
  unfold evpnReadIp at h
  obtain ⟨l, -, h⟩ := Res.bind_eq_ok.1 h
  split at h
  · obtain ⟨t, h1, h⟩ := Res.bind_eq_ok.1 h
    obtain ⟨a, h2, h⟩ := Res.bind_eq_ok.1 h
    cases h
    have := addrV4_within h1 h2; omega
  split at h
  · obtain ⟨t, h1, h⟩ := Res.bind_eq_ok.1 h
    obtain ⟨a, h2, h⟩ := Res.bind_eq_ok.1 h
    cases h
    have := addrV6_within h1 h2; omega
  · cases h

theorem within_evpn1 (mode : BgpTransportMode) : Within (BgpAddrItem.decodeFrom (T := BgpEVPN1) mode) := by
  intro b x n h
  simp only [BgpAddrItem.decodeFrom] at h
  obtain ⟨rd, -, h⟩ := Res.bind_eq_ok.1 h
  obtain ⟨_, -, h⟩ := Res.bind_eq_ok.1 h
  obtain ⟨_, -, h⟩ := Res.bind_eq_ok.1 h
  obtain ⟨_, -, h⟩ := Res.bind_eq_ok.1 h
  obtain ⟨_, -, h⟩ := Res.bind_eq_ok.1 h
  obtain ⟨_, -, h⟩ := Res.bind_eq_ok.1 h
  obtain ⟨_, -, h⟩ := Res.bind_eq_ok.1 h
  obtain ⟨t, h1, h⟩ := Res.bind_eq_ok.1 h
  obtain ⟨l, h2, h⟩ := Res.bind_eq_ok.1 h
  cases h
  exact labels_within h1 h2

theorem within_evpn2 (mode : BgpTransportMode) : Within (BgpAddrItem.decodeFrom (T := BgpEVPN2) mode) := by
  intro b x n h
  simp only [BgpAddrItem.decodeFrom] at h
  obtain ⟨rd, -, h⟩ := Res.bind_eq_ok.1 h
  obtain ⟨_, -, h⟩ := Res.bind_eq_ok.1 h
  obtain ⟨_, -, h⟩ := Res.bind_eq_ok.1 h
  obtain ⟨_, -, h⟩ := Res.bind_eq_ok.1 h
  obtain ⟨_, -, h⟩ := Res.bind_eq_ok.1 h
  obtain ⟨_, -, h⟩ := Res.bind_eq_ok.1 h
  split at h
  · cases h
  obtain ⟨_, -, h⟩ := Res.bind_eq_ok.1 h
  obtain ⟨_, -, h⟩ := Res.bind_eq_ok.1 h
  obtain ⟨_, -, h⟩ := Res.bind_eq_ok.1 h
  obtain ⟨⟨ip, k⟩, -, h⟩ := Res.bind_eq_ok.1 h
  obtain ⟨_, -, h⟩ := Res.bind_eq_ok.1 h
  obtain ⟨t, h1, h⟩ := Res.bind_eq_ok.1 h
  obtain ⟨l, h2, h⟩ := Res.bind_eq_ok.1 h
  cases h
  exact labels_within h1 h2

theorem within_evpn3 (mode : BgpTransportMode) : Within (BgpAddrItem.decodeFrom (T := BgpEVPN3) mode) := by
  intro b x n h
  simp only [BgpAddrItem.decodeFrom] at h
  obtain ⟨rd, -, h⟩ := Res.bind_eq_ok.1 h
  obtain ⟨_, -, h⟩ := Res.bind_eq_ok.1 h
  obtain ⟨_, -, h⟩ := Res.bind_eq_ok.1 h
  obtain ⟨⟨ip, k⟩, h1, h⟩ := Res.bind_eq_ok.1 h
  cases h
  exact within_ip h1

theorem within_evpn4 (mode : BgpTransportMode) : Within (BgpAddrItem.decodeFrom (T := BgpEVPN4) mode) := by
  intro b x n h
  simp only [BgpAddrItem.decodeFrom] at h
  obtain ⟨rd, -, h⟩ := Res.bind_eq_ok.1 h
  obtain ⟨_, -, h⟩ := Res.bind_eq_ok.1 h
  obtain ⟨_, -, h⟩ := Res.bind_eq_ok.1 h
  obtain ⟨⟨ip, k⟩, h1, h⟩ := Res.bind_eq_ok.1 h
  cases h
  exact within_ip h1

theorem within_evpn5 (mode : BgpTransportMode) : Within (BgpAddrItem.decodeFrom (T := BgpEVPN5) mode) := by
  intro b x n h
  simp only [BgpAddrItem.decodeFrom] at h
  obtain ⟨rd, -, h⟩ := Res.bind_eq_ok.1 h
  obtain ⟨_, -, h⟩ := Res.bind_eq_ok.1 h
  obtain ⟨_, -, h⟩ := Res.bind_eq_ok.1 h
  obtain ⟨_, -, h⟩ := Res.bind_eq_ok.1 h
  obtain ⟨_, -, h⟩ := Res.bind_eq_ok.1 h
  obtain ⟨_, -, h⟩ := Res.bind_eq_ok.1 h
  obtain ⟨⟨ip, gw, k⟩, -, h⟩ := Res.bind_eq_ok.1 h
  obtain ⟨_, -, h⟩ := Res.bind_eq_ok.1 h
  obtain ⟨t, h1, h⟩ := Res.bind_eq_ok.1 h
  obtain ⟨l, h2, h⟩ := Res.bind_eq_ok.1 h
  cases h
  exact labels_within h1 h2

theorem framedDec_evpn (mode : BgpTransportMode) : StaysInFrame (BgpEVPN.decodeFrom mode) := by
  intro b x n h
  have h0 := h
  unfold BgpEVPN.decodeFrom at h
  obtain ⟨ty, h1, h⟩ := Res.bind_eq_ok.1 h
  obtain ⟨len, h2, h⟩ := Res.bind_eq_ok.1 h
  simp only at h
  split at h
  · cases h
  rename_i hlen
  have hb : ∀ {t : Bytes}, rslice b 2 (2 + len.toNat) = .ok t → t.length = len.toNat := by
    intro t ht
    obtain ⟨-, -, rfl⟩ := rslice_eq_ok.1 ht
    simp; omega
  refine ⟨len, by simpa [idx_eq_ok] using h2, ?_⟩
  have hn : 2 ≤ n ∧ n ≤ 2 + len.toNat := by
    split at h
    · obtain ⟨t, h3, h⟩ := Res.bind_eq_ok.1 h
      obtain ⟨⟨r, k⟩, h4, h⟩ := Res.bind_eq_ok.1 h
      cases h
      have := within_evpn1 _ _ _ _ h4; have := hb h3; simp only; omega
    split at h
    · obtain ⟨t, h3, h⟩ := Res.bind_eq_ok.1 h
      obtain ⟨⟨r, k⟩, h4, h⟩ := Res.bind_eq_ok.1 h
      cases h
      have := within_evpn2 _ _ _ _ h4; have := hb h3; simp only; omega
    split at h
    · obtain ⟨t, h3, h⟩ := Res.bind_eq_ok.1 h
      obtain ⟨⟨r, k⟩, h4, h⟩ := Res.bind_eq_ok.1 h
      cases h
      have := within_evpn3 _ _ _ _ h4; have := hb h3; simp only; omega
    split at h
    · obtain ⟨t, h3, h⟩ := Res.bind_eq_ok.1 h
      obtain ⟨⟨r, k⟩, h4, h⟩ := Res.bind_eq_ok.1 h
      cases h
      have := within_evpn4 _ _ _ _ h4; have := hb h3; simp only; omega
    split at h
    · obtain ⟨t, h3, h⟩ := Res.bind_eq_ok.1 h
      obtain ⟨⟨r, k⟩, h4, h⟩ := Res.bind_eq_ok.1 h
      cases h
      have := within_evpn5 _ _ _ _ h4; have := hb h3; simp only; omega
    · cases h
  refine ⟨hn.1, hn.2, by omega, fun rest => ?_⟩
  have ha := agree_take (show 2 + len.toNat ≤ b.length by omega) rest
  have hb2 := ha.2.1
  rw [← h0]
  unfold BgpEVPN.decodeFrom
  rw [agree_idx ha (by omega), h1, Res.ok_bind, Res.ok_bind, agree_idx ha (by omega), h2, Res.ok_bind, Res.ok_bind]
  simp only
  rw [if_neg hlen, if_neg (show ¬(b.take (2 + len.toNat) ++ rest).length < len.toNat + 2 by omega),
    agree_rslice ha (by omega)]

theorem within_mvpn1 (mode : BgpTransportMode) : Within (BgpAddrItem.decodeFrom (T := BgpMVPN1) mode) := by
  intro b x n h
  simp only [BgpAddrItem.decodeFrom] at h
  obtain ⟨⟨rd, k⟩, -, h⟩ := Res.bind_eq_ok.1 h
  split at h
  · obtain ⟨t, h1, h⟩ := Res.bind_eq_ok.1 h
    obtain ⟨_, -, h⟩ := Res.bind_eq_ok.1 h
    cases h
    have := (rslice_eq_ok.1 h1).2.1; simp only at this ⊢; omega
  split at h
  · obtain ⟨t, h1, h⟩ := Res.bind_eq_ok.1 h
    obtain ⟨_, -, h⟩ := Res.bind_eq_ok.1 h
    cases h
    have := (rslice_eq_ok.1 h1).2.1; simp only at this ⊢; omega
  · cases h

theorem rd_consumes {b : Bytes} {x : BgpRD} {n : Nat} (h : BgpRD.decodeFrom b = .ok (x, n)) : n = 8 := by
  by_cases hb : 8 ≤ b.length
  · obtain ⟨r, h1, -⟩ := rd_decode_eq hb
    rw [h1] at h; cases h; rfl
  · rw [rd_decode_short (by omega)] at h; cases h

theorem within_mvpn2 (mode : BgpTransportMode) : Within (BgpAddrItem.decodeFrom (T := BgpMVPN2) mode) := by
  intro b x n h
  simp only [BgpAddrItem.decodeFrom] at h
  split at h
  · obtain ⟨⟨rd, k⟩, h1, h⟩ := Res.bind_eq_ok.1 h
    obtain ⟨_, -, h⟩ := Res.bind_eq_ok.1 h
    obtain ⟨_, -, h⟩ := Res.bind_eq_ok.1 h
    cases h
    have := rd_consumes h1; simp only; omega
  · cases h

theorem mvpn3_size {mode : BgpTransportMode} {b : Bytes} {x : BgpMVPN3} {n : Nat}
    (h : BgpAddrItem.decodeFrom (T := BgpMVPN3) mode b = .ok (x, n)) : (n = 22 ∨ n = 58) ∧ n ≤ b.length := by
  simp only [BgpAddrItem.decodeFrom] at h
  obtain ⟨_, -, h⟩ := Res.bind_eq_ok.1 h
  split at h
  · obtain ⟨_, -, h⟩ := Res.bind_eq_ok.1 h
    obtain ⟨_, -, h⟩ := Res.bind_eq_ok.1 h
    split at h
    · cases h
    · repeat' (obtain ⟨_, -, h⟩ := Res.bind_eq_ok.1 h)
      cases h; omega
  split at h
  · obtain ⟨_, -, h⟩ := Res.bind_eq_ok.1 h
    obtain ⟨_, -, h⟩ := Res.bind_eq_ok.1 h
    split at h
    · cases h
    · repeat' (obtain ⟨_, -, h⟩ := Res.bind_eq_ok.1 h)
      cases h; omega
  · cases h

theorem within_mvpn3 (mode : BgpTransportMode) : Within (BgpAddrItem.decodeFrom (T := BgpMVPN3) mode) :=
  fun _ _ _ h => (mvpn3_size h).2

theorem within_mvpn4 (mode : BgpTransportMode) : Within (BgpAddrItem.decodeFrom (T := BgpMVPN4) mode) := by
  intro b x n h
  rw [show BgpAddrItem.decodeFrom (T := BgpMVPN4) mode b = (do
    let t ← idx b 0
    let bad ← (if t ≠ 3 then .ok true else do .ok (decide ((← idx b 1) ≠ 22)) : Res Bool)
    if bad then .err .dynStr else do
      match BgpAddrItem.decodeFrom (T := BgpMVPN3) mode (← rfrom b 2) with
      | .err _ => .err .dynStr
      | .panic => .panic
      | .hang => .hang
      | .ok s => do .ok (⟨s.1, ← decodeAddr (← rfrom b (2 + s.2))⟩, s.2 + 6)) from rfl] at h
  obtain ⟨_, -, h⟩ := Res.bind_eq_ok.1 h
  obtain ⟨_, -, h⟩ := Res.bind_eq_ok.1 h
  split at h
  · cases h
  obtain ⟨t, -, h⟩ := Res.bind_eq_ok.1 h
  split at h
  · cases h
  · cases h
  · cases h
  · rename_i s _
    obtain ⟨t, h1, h⟩ := Res.bind_eq_ok.1 h
    obtain ⟨a, h2, h⟩ := Res.bind_eq_ok.1 h
    cases h
    obtain ⟨h3, rfl⟩ := rfrom_eq_ok.1 h1
    unfold decodeAddr at h2
    split at h2
    · rename_i hl; simp at hl; omega
    split at h2
    · rename_i hl; simp at hl; omega
    · cases h2

theorem within_mvpn5 (mode : BgpTransportMode) : Within (BgpAddrItem.decodeFrom (T := BgpMVPN5) mode) := by
  intro b x n h
  simp only [BgpAddrItem.decodeFrom] at h
  obtain ⟨_, -, h⟩ := Res.bind_eq_ok.1 h
  split at h
  · obtain ⟨_, -, h⟩ := Res.bind_eq_ok.1 h
    obtain ⟨_, -, h⟩ := Res.bind_eq_ok.1 h
    split at h
    · cases h
    · repeat' (obtain ⟨_, -, h⟩ := Res.bind_eq_ok.1 h)
      cases h; omega
  split at h
  · obtain ⟨_, -, h⟩ := Res.bind_eq_ok.1 h
    obtain ⟨_, -, h⟩ := Res.bind_eq_ok.1 h
    split at h
    · cases h
    · repeat' (obtain ⟨_, -, h⟩ := Res.bind_eq_ok.1 h)
      cases h; omega
  · cases h

theorem within_mvpn67 (mode : BgpTransportMode) : Within (BgpAddrItem.decodeFrom (T := BgpMVPN67) mode) := by
  intro b x n h
  simp only [BgpAddrItem.decodeFrom] at h
  obtain ⟨_, -, h⟩ := Res.bind_eq_ok.1 h
  split at h
  · obtain ⟨_, -, h⟩ := Res.bind_eq_ok.1 h
    obtain ⟨_, -, h⟩ := Res.bind_eq_ok.1 h
    split at h
    · cases h
    · repeat' (obtain ⟨_, -, h⟩ := Res.bind_eq_ok.1 h)
      cases h; omega
  split at h
  · obtain ⟨_, -, h⟩ := Res.bind_eq_ok.1 h
    obtain ⟨_, -, h⟩ := Res.bind_eq_ok.1 h
    split at h
    · cases h
    · repeat' (obtain ⟨_, -, h⟩ := Res.bind_eq_ok.1 h)
      cases h; omega
  · cases h

theorem framedDec_mvpn (mode : BgpTransportMode) : StaysInFrame (BgpMVPN.decodeFrom mode) := by
  intro b x n h
  have h0 := h
  unfold BgpMVPN.decodeFrom at h
  obtain ⟨ty, h1, h⟩ := Res.bind_eq_ok.1 h
  obtain ⟨len, h2, h⟩ := Res.bind_eq_ok.1 h
  simp only at h
  refine ⟨len, by simpa [idx_eq_ok] using h2, ?_⟩
  have hb : ∀ {t : Bytes}, rslice b 2 (2 + len.toNat) = .ok t → 2 + len.toNat ≤ b.length ∧ t.length = len.toNat := by
    intro t ht
    obtain ⟨-, h1, rfl⟩ := rslice_eq_ok.1 ht
    simp; omega
  have hn : 2 ≤ n ∧ n ≤ 2 + len.toNat ∧ 2 + len.toNat ≤ b.length := by
    split at h
    · obtain ⟨t, h3, h⟩ := Res.bind_eq_ok.1 h
      obtain ⟨⟨r, k⟩, h4, h⟩ := Res.bind_eq_ok.1 h
      cases h
      have := within_mvpn1 _ _ _ _ h4; have := hb h3; simp only; omega
    split at h
    · obtain ⟨t, h3, h⟩ := Res.bind_eq_ok.1 h
      obtain ⟨⟨r, k⟩, h4, h⟩ := Res.bind_eq_ok.1 h
      cases h
      have := within_mvpn2 _ _ _ _ h4; have := hb h3; simp only; omega
    split at h
    · obtain ⟨t, h3, h⟩ := Res.bind_eq_ok.1 h
      obtain ⟨⟨r, k⟩, h4, h⟩ := Res.bind_eq_ok.1 h
      cases h
      have := within_mvpn3 _ _ _ _ h4; have := hb h3; simp only; omega
    split at h
    · obtain ⟨t, h3, h⟩ := Res.bind_eq_ok.1 h
      obtain ⟨⟨r, k⟩, h4, h⟩ := Res.bind_eq_ok.1 h
      cases h
      have := within_mvpn4 _ _ _ _ h4; have := hb h3; simp only; omega
    split at h
    · obtain ⟨t, h3, h⟩ := Res.bind_eq_ok.1 h
      obtain ⟨⟨r, k⟩, h4, h⟩ := Res.bind_eq_ok.1 h
      cases h
      have := within_mvpn5 _ _ _ _ h4; have := hb h3; simp only; omega
    split at h
    · obtain ⟨t, h3, h⟩ := Res.bind_eq_ok.1 h
      obtain ⟨⟨r, k⟩, h4, h⟩ := Res.bind_eq_ok.1 h
      cases h
      have := within_mvpn67 _ _ _ _ h4; have := hb h3; simp only; omega
    split at h
    · obtain ⟨t, h3, h⟩ := Res.bind_eq_ok.1 h
      obtain ⟨⟨r, k⟩, h4, h⟩ := Res.bind_eq_ok.1 h
      cases h
      have := within_mvpn67 _ _ _ _ h4; have := hb h3; simp only; omega
    · cases h
  refine ⟨hn.1, hn.2.1, hn.2.2, fun rest => ?_⟩
  have ha := agree_take hn.2.2 rest
  rw [← h0]
  unfold BgpMVPN.decodeFrom
  rw [agree_idx ha (by omega), h1, Res.ok_bind, Res.ok_bind, agree_idx ha (by omega), h2, Res.ok_bind, Res.ok_bind]
  simp only
  rw [agree_rslice ha (by omega)]

/-! ## Flow specifications -/

theorem local_fsVal : Local (fun b => do let r ← fsDecodeVal b; .ok ((r.1, r.2.1), r.2.2)) := by
  refine local_of_agree fun b x n h => ?_
  obtain ⟨r, hr, h0⟩ := Res.bind_eq_ok.1 h
  clear h
  cases h0
  have h := hr
  have key : r.2.2 ≤ b.length ∧ ∀ b', Agree r.2.2 b b' → fsDecodeVal b' = .ok r := by
    unfold fsDecodeVal at h ⊢
    obtain ⟨op, h1, h⟩ := Res.bind_eq_ok.1 h
    simp only at h
    split at h
    · rename_i hs
      obtain ⟨v, h2, h⟩ := Res.bind_eq_ok.1 h
      cases h
      have hl : 1 < b.length := by rw [idx_eq_ok] at h2; exact (List.getElem?_eq_some_iff.1 h2).1
      refine ⟨hl, fun b' ha => ?_⟩
      simp only at ha
      rw [agree_idx ha (by omega), h1, Res.ok_bind]
      simp only
      rw [if_pos hs, agree_idx ha (by omega), h2]
      rfl
    split at h
    · rename_i hs0 hs
      obtain ⟨t, h2, h⟩ := Res.bind_eq_ok.1 h
      obtain ⟨v, h3, h⟩ := Res.bind_eq_ok.1 h
      cases h
      obtain ⟨h4, rfl⟩ := rfrom_eq_ok.1 h2
      have hl : 3 ≤ b.length := by
        unfold getn16 at h3
        obtain ⟨_, -, h3⟩ := Res.bind_eq_ok.1 h3
        obtain ⟨_, h5, h3⟩ := Res.bind_eq_ok.1 h3
        rw [idx_eq_ok] at h5
        have := (List.getElem?_eq_some_iff.1 h5).1
        simp at this; omega
      refine ⟨hl, fun b' ha => ?_⟩
      simp only at ha
      rw [agree_idx ha (by omega), h1, Res.ok_bind]
      simp only
      rw [if_neg hs0, if_pos hs, (agree_rfrom ha (by omega)).2, Res.ok_bind, agree_getn16 (agree_drop ha 1) (by omega), h3]
      rfl
    split at h
    · rename_i hs0 hs1 hs
      obtain ⟨t, h2, h⟩ := Res.bind_eq_ok.1 h
      obtain ⟨v, h3, h⟩ := Res.bind_eq_ok.1 h
      cases h
      obtain ⟨h4, rfl⟩ := rfrom_eq_ok.1 h2
      have hl : 5 ≤ b.length := by
        unfold getn32 at h3
        obtain ⟨_, -, h3⟩ := Res.bind_eq_ok.1 h3
        obtain ⟨_, -, h3⟩ := Res.bind_eq_ok.1 h3
        obtain ⟨_, -, h3⟩ := Res.bind_eq_ok.1 h3
        obtain ⟨_, h5, h3⟩ := Res.bind_eq_ok.1 h3
        rw [idx_eq_ok] at h5
        have := (List.getElem?_eq_some_iff.1 h5).1
        simp at this; omega
      refine ⟨hl, fun b' ha => ?_⟩
      simp only at ha
      rw [agree_idx ha (by omega), h1, Res.ok_bind]
      simp only
      rw [if_neg hs0, if_neg hs1, if_pos hs, (agree_rfrom ha (by omega)).2, Res.ok_bind, agree_getn32 (agree_drop ha 1) (by omega), h3]
      rfl
    · cases h
  exact ⟨key.1, fun b' ha => by rw [key.2 b' ha]; rfl⟩

theorem within_fsVal {b : Bytes} {r : U8 × U32 × Nat} (h : fsDecodeVal b = .ok r) : r.2.2 ≤ b.length :=
  (local_fsVal b (r.1, r.2.1) r.2.2 (by simp only [h, Res.ok_bind])).1

class FSOperWithin (I : Type) [FSOperItem I] : Prop where
  within : Within (FSOperItem.decodeFrom (T := I))

instance : FSOperWithin FSOperValItem where
  within b x n h := by
    obtain ⟨r, h1, h⟩ := Res.bind_eq_ok.1 h
    cases h; exact within_fsVal h1
instance : FSOperWithin FSOperMaskItem where
  within b x n h := by
    obtain ⟨r, h1, h⟩ := Res.bind_eq_ok.1 h
    cases h; exact within_fsVal h1

theorem getOps_end {T I : Type} [FSItem T] [FSOperItem I] [FSOperEnds I] [FSOperWithin I] {c : FSOperVec I → BgpFlowSpec T}
    {b : Bytes} {pos nlen n : Nat} {x : BgpFlowSpec T} (h : BgpFlowSpec.getOps c b pos nlen = .ok (x, n)) :
    n = nlen ∧ nlen ≤ b.length ∧ pos < nlen := by
  unfold BgpFlowSpec.getOps FSOperVec.decodeFrom at h
  obtain ⟨t, h1, h⟩ := Res.bind_eq_ok.1 h
  obtain ⟨r, h2, h⟩ := Res.bind_eq_ok.1 h
  obtain ⟨⟨l, m⟩, h3, h2⟩ := Res.bind_eq_ok.1 h2
  cases h2
  cases h
  have := decList_take FSOperEnds.progress FSOperWithin.within _ h3
  obtain ⟨h4, h5, rfl⟩ := rslice_eq_ok.1 h1
  simp only at this ⊢
  simp at this
  omega

theorem getOps_agree {T I : Type} [FSItem T] [FSOperItem I] {c : FSOperVec I → BgpFlowSpec T}
    {b b' : Bytes} {pos nlen : Nat} (ha : Agree nlen b b') : BgpFlowSpec.getOps c b' pos nlen = BgpFlowSpec.getOps c b pos nlen := by
  unfold BgpFlowSpec.getOps
  rw [agree_rslice ha (Nat.le_refl _)]

theorem getBody_end {T : Type} [FSItem T] (b : Bytes) (pos nlen : Nat) :
    Post (BgpFlowSpec.getBody (T := T) b pos nlen) fun r => FsIsOps r.1 → r.2 = nlen ∧ nlen ≤ b.length ∧ pos < nlen := by
  unfold BgpFlowSpec.getBody
  refine post_bind post_true fun code _ => ?_
  have hp : ∀ (k : T → BgpFlowSpec T), (∀ a, ¬ FsIsOps (k a)) →
      Post (BgpFlowSpec.getPrefix k b pos nlen) fun r => FsIsOps r.1 → r.2 = nlen ∧ nlen ≤ b.length ∧ pos < nlen := by
    intro k hk
    unfold BgpFlowSpec.getPrefix
    exact post_bind post_true fun _ _ => post_bind post_true fun _ _ => post_ok fun h => (hk _ h).elim
  repeat' first
    | exact post_err | exact hp _ (fun _ h => h) | exact fun r h _ => getOps_end h | refine post_ite ?_ ?_

theorem getBody_agree {T : Type} [FSItem T] {b : Bytes} {pos nlen n : Nat} {x : BgpFlowSpec T}
    (hx : FsIsOps x) (h : BgpFlowSpec.getBody b pos nlen = .ok (x, n)) :
    n = nlen ∧ nlen ≤ b.length ∧ pos < nlen ∧ ∀ b', Agree n b b' → BgpFlowSpec.getBody b' pos nlen = .ok (x, n) := by
  obtain ⟨h3, h1, h2⟩ := getBody_end b pos nlen _ h hx
  simp only at h3
  subst h3
  refine ⟨rfl, h1, h2, fun b' ha => ?_⟩
  have hp : ∀ (k : T → BgpFlowSpec T), BgpFlowSpec.getPrefix k b' pos n = BgpFlowSpec.getPrefix k b pos n := by
    intro k
    unfold BgpFlowSpec.getPrefix
    rw [agree_rslice ha (Nat.le_refl _)]
  rw [← h]
  unfold BgpFlowSpec.getBody
  rw [agree_idx ha h2]
  simp only [getOps_agree ha, hp]

theorem local_fs {T : Type} [FSItem T] {b : Bytes} {x : BgpFlowSpec T} {n : Nat} (hx : FsIsOps x)
    (h : BgpFlowSpec.decodeFrom b = .ok (x, n)) :
    n ≤ b.length ∧ ∀ rest, BgpFlowSpec.decodeFrom (b.take n ++ rest) = .ok (x, n) := by
  have key : n ≤ b.length ∧ ∀ b', Agree n b b' → BgpFlowSpec.decodeFrom b' = .ok (x, n) := by
    unfold BgpFlowSpec.decodeFrom at h ⊢
    obtain ⟨b0, h1, h⟩ := Res.bind_eq_ok.1 h
    split at h
    · rename_i hc
      obtain ⟨v, h2, h⟩ := Res.bind_eq_ok.1 h
      obtain ⟨h3, h4, h5, h6⟩ := getBody_agree hx h
      refine ⟨by omega, fun b' ha => ?_⟩
      rw [agree_idx ha (by omega), h1, Res.ok_bind, if_pos hc, agree_getn16 ha (by omega), h2, Res.ok_bind]
      exact h6 b' ha
    · rename_i hc
      obtain ⟨h3, h4, h5, h6⟩ := getBody_agree hx h
      refine ⟨by omega, fun b' ha => ?_⟩
      rw [agree_idx ha (by omega), h1, Res.ok_bind, if_neg hc]
      exact h6 b' ha
  exact ⟨key.1, fun rest => key.2 _ (agree_take key.1 rest)⟩

end Zbgp
