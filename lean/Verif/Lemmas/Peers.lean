import Verif.Lemmas.ReleaseBmpReads
import Verif.Spec.Peers

/-!
# Lemmas for C124
-/

namespace Zbgp

open Spec

/-- the octets of a peer -/
def keyOctets (rd : BgpRD) (ip : IpAddr) : Bytes := be 4 rd.rdh.toNat ++ (be 4 rd.rdl.toNat ++ bmpAddr ip)

theorem peerOctets_header (c : U8) (h : BmpMessagePeerHeader) (t : Bytes) :
    peerOctets (c :: (peerHeaderWire h ++ t)) = keyOctets h.peerdistinguisher h.peeraddress := by
  unfold peerOctets peerHeaderWire keyOctets
  rw [List.drop_succ_cons]
  have h1 : (be 1 h.peertype.toNat).length = 1 := be_length ..
  have h2 : (be 1 h.flags.toNat).length = 1 := be_length ..
  rw [List.append_assoc, ← List.drop_drop (i := 1) (j := 1), List.drop_left' h1, List.append_assoc, List.drop_left' h2]
  simp only [← List.append_assoc]
  rw [List.append_assoc, List.append_assoc, List.append_assoc]
  exact List.take_left' (by simp [be_length, bmpAddr_length])

theorem keyOctets_inj {rd rd' : BgpRD} {ip ip' : IpAddr} (hd : Distinct ip) (hd' : Distinct ip')
    (h : keyOctets rd ip = keyOctets rd' ip') : rd = rd' ∧ ip = ip' := by
  have e := peerHeader_inj (h := ⟨0, 0, rd, ip, 0, 0, 0⟩) (h' := ⟨0, 0, rd', ip', 0, 0, 0⟩) hd hd' (by
    unfold keyOctets at h
    obtain ⟨h1, h2⟩ := List.append_inj h (by simp [be_length])
    obtain ⟨h3, h4⟩ := List.append_inj h2 (by simp [be_length])
    unfold peerHeaderWire
    simp only [h1, h3, h4])
  cases e
  exact ⟨rfl, rfl⟩

theorem header_octets {c : U8} {b : Bytes} {h : BmpMessagePeerHeader} {n : Nat} (hh : BmpMessagePeerHeader.decodeFrom b = .ok (h, n)) :
    Distinct h.peeraddress ∧ peerOctets (c :: b) = keyOctets h.peerdistinguisher h.peeraddress := by
  have hl : 42 ≤ b.length := by
    unfold BmpMessagePeerHeader.decodeFrom at hh
    by_contra hc
    rw [if_pos (by omega)] at hh
    cases hh
  obtain ⟨x, t, rfl, hx⟩ := peerHeader_exists b hl
  rw [peerHeader_reads' x hx] at hh
  cases hh
  exact ⟨hx, peerOctets_header c _ t⟩

theorem about_octets {rd : BgpRD} {ip : IpAddr} {b : Bytes} (h : About rd ip b) : peerOctets b = keyOctets rd ip := by
  rcases h with ⟨m, ⟨body, rfl, opens, r1, r2, rfl, -⟩, rfl, rfl⟩ | ⟨m, ⟨body, rfl, rest, rfl, -⟩, rfl, rfl⟩ <;>
    exact peerOctets_header _ _ _

theorem w_about_octets {rd : BgpRD} {ip : IpAddr} {b : Bytes} (h : WrapAbout rd ip b) : peerOctets b = keyOctets rd ip := by
  rcases h with ⟨m, ⟨body, rfl, opens, r1, r2, rfl, -⟩, rfl, rfl⟩ | ⟨m, ⟨body, rfl, rest, rfl, -⟩, rfl, rfl⟩ <;>
    exact peerOctets_header _ _ _

/-- the session matters only by the parameters for the peer of the message -/
theorem session_congr {s s' : BMPSession} {b : Bytes}
    (h : ∀ x n c t, b = c :: t → BmpMessagePeerHeader.decodeFrom t = .ok (x, n) → s.params x = s'.params x) :
    (s.decodeFrom b).1 = (s'.decodeFrom b).1 := by
  cases b with
  | nil => rfl
  | cons c t =>
    have hrm : s.decodeRm t = s'.decodeRm t := by
      unfold BMPSession.decodeRm
      split
      · rfl
      · cases hh : BmpMessagePeerHeader.decodeFrom t with
        | ok r =>
          obtain ⟨r1, r2⟩ := r
          rw [Res.ok_bind, Res.ok_bind]
          simp only [h r1 r2 c t rfl hh]
        | _ => rfl
    unfold BMPSession.decodeFrom
    rw [idx_cons_zero]
    simp only [rfrom_cons_one, Res.ok_bind, hrm]
    split <;> first
      | rfl
      | (split <;> rfl)

theorem w_session_congr {s s' : BMPSession} {b : Bytes}
    (h : ∀ x n c t, b = c :: t → BmpMessagePeerHeader.decodeFrom t = .ok (x, n) → s.params x = s'.params x) :
    (s.decodeFromIn .release b).1 = (s'.decodeFromIn .release b).1 := by
  cases b with
  | nil => rfl
  | cons c t =>
    have hrm : s.decodeRmIn .release t = s'.decodeRmIn .release t := by
      unfold BMPSession.decodeRmIn
      split
      · rfl
      · cases hh : BmpMessagePeerHeader.decodeFrom t with
        | ok r =>
          obtain ⟨r1, r2⟩ := r
          rw [Res.ok_bind, Res.ok_bind]
          simp only [h r1 r2 c t rfl hh]
        | _ => rfl
    unfold BMPSession.decodeFromIn
    rw [idx_cons_zero]
    simp only [rfrom_cons_one, Res.ok_bind, hrm]
    split <;> first
      | rfl
      | (split <;> rfl)

theorem aboutDec_eq : AboutDec = About := by
  funext rd ip b
  unfold AboutDec About
  rw [peerUpDec_eq, peerDownDec_eq]

theorem lastUp_filter {f : Bytes → Bool} {rd : BgpRD} {ip : IpAddr} (hf : ∀ b, About rd ip b → f b = true) (hist : List Bytes)
    (m : BmpMessagePeerUp) : LastUp (hist.filter f) rd ip m ↔ LastUp hist rd ip m := by
  have hc : ∀ (hist : List Bytes) b, LastUp (hist ++ [b]) rd ip m ↔ (PeerUpIs b m ∧ OfPeer rd ip m.peer) ∨ (¬ About rd ip b ∧ LastUp hist rd ip m) := by
    intro hist b
    have := lastUp_concat hist b rd ip m
    rwa [lastUpDec_eq, aboutDec_eq, peerUpDec_eq] at this
  induction hist using List.reverseRecOn with
  | nil => exact Iff.rfl
  | append_singleton l b ih =>
    have ih : LastUp (l.filter f) rd ip m ↔ LastUp l rd ip m := ih
    rw [List.filter_append, hc]
    cases hb : f b with
    | true => rw [List.filter_cons_of_pos hb, List.filter_nil, hc, ih]
    | false =>
      have hn : ¬ About rd ip b := fun h => by rw [hf b h] at hb; cases hb
      rw [List.filter_cons_of_neg (by simp [hb]), List.filter_nil, List.append_nil, ih]
      exact ⟨fun h => .inr ⟨hn, h⟩, fun h => h.elim (fun h => absurd (.inl ⟨m, h⟩) hn) (fun h => h.2)⟩

theorem w_lastUp_filter {f : Bytes → Bool} {rd : BgpRD} {ip : IpAddr} (hf : ∀ b, WrapAbout rd ip b → f b = true) (hist : List Bytes)
    (m : BmpMessagePeerUp) : WrapLastUp (hist.filter f) rd ip m ↔ WrapLastUp hist rd ip m := by
  induction hist using List.reverseRecOn with
  | nil => exact Iff.rfl
  | append_singleton l b ih =>
    rw [List.filter_append, w_lastUp_concat]
    cases hb : f b with
    | true => rw [List.filter_cons_of_pos hb, List.filter_nil, w_lastUp_concat, ih]
    | false =>
      have hn : ¬ WrapAbout rd ip b := fun h => by rw [hf b h] at hb; cases hb
      rw [List.filter_cons_of_neg (by simp [hb]), List.filter_nil, List.append_nil, ih]
      exact ⟨fun h => .inr ⟨hn, h⟩, fun h => h.elim (fun h => absurd (.inl ⟨m, h⟩) hn) (fun h => h.2)⟩

/-- the octets of the peer -/
def ofOctets (k b : Bytes) : Bool := peerOctets b == k

theorem params_filter (hist : List Bytes) (h : BmpMessagePeerHeader) :
    (after (hist.filter (ofOctets (keyOctets h.peerdistinguisher h.peeraddress)))).params h = (after hist).params h := by
  have hf := lastUp_filter (f := ofOctets (keyOctets h.peerdistinguisher h.peeraddress)) (rd := h.peerdistinguisher) (ip := h.peeraddress)
    (fun b hb => by rw [ofOctets, about_octets hb]; exact beq_self_eq_true _) hist
  have := (paramsAfter_iff hist h ((after hist).params h)).2 rfl
  refine ((paramsAfter_iff _ h _).1 ?_).symm
  unfold ParamsAfter at this ⊢
  simpa only [hf] using this

theorem w_params_filter (hist : List Bytes) (h : BmpMessagePeerHeader) :
    (afterRelease (hist.filter (ofOctets (keyOctets h.peerdistinguisher h.peeraddress)))).params h = (afterRelease hist).params h := by
  have hf := w_lastUp_filter (f := ofOctets (keyOctets h.peerdistinguisher h.peeraddress)) (rd := h.peerdistinguisher) (ip := h.peeraddress)
    (fun b hb => by rw [ofOctets, w_about_octets hb]; exact beq_self_eq_true _) hist
  have := (w_paramsAfter_iff hist h ((afterRelease hist).params h)).2 rfl
  refine ((w_paramsAfter_iff _ h _).1 ?_).symm
  unfold WrapParamsAfter at this ⊢
  simpa only [hf] using this

theorem readAll_concat (s : BMPSession) (hist : List Bytes) (b : Bytes) :
    readAll s (hist ++ [b]) = readAll s hist ++ [(b, ((hist.foldl (fun s b => (s.decodeFrom b).2) s).decodeFrom b).1)] := by
  induction hist generalizing s with
  | nil => rfl
  | cons a l ih => rw [List.cons_append, readAll, ih]; rfl

theorem readAllRelease_concat (s : BMPSession) (hist : List Bytes) (b : Bytes) :
    readAllRelease s (hist ++ [b]) = readAllRelease s hist ++
      [(b, ((hist.foldl (fun s b => (s.decodeFromIn .release b).2) s).decodeFromIn .release b).1)] := by
  induction hist generalizing s with
  | nil => rfl
  | cons a l ih => rw [List.cons_append, readAllRelease, ih]; rfl

theorem readAll_filter (k : Bytes) (hist : List Bytes) :
    (readAll .default hist).filter (fun r => peerOctets r.1 == k) = readAll .default (hist.filter fun b => peerOctets b == k) := by
  induction hist using List.reverseRecOn with
  | nil => rfl
  | append_singleton l b ih =>
    rw [readAll_concat, List.filter_append, List.filter_append, ih]
    by_cases hb : peerOctets b = k
    · rw [List.filter_cons_of_pos (by simp [hb]), List.filter_cons_of_pos (by simp [hb]), List.filter_nil, List.filter_nil,
        readAll_concat]
      congr 3
      refine session_congr (s := after l) (s' := after (l.filter fun b => peerOctets b == k)) fun x n c t e hx => ?_
      subst e
      have := (header_octets (c := c) hx).2
      rw [hb] at this
      subst this
      exact (params_filter l x).symm
    · rw [List.filter_cons_of_neg (by simp [hb]), List.filter_cons_of_neg (by simp [hb]), List.filter_nil, List.filter_nil,
        List.append_nil, List.append_nil]

theorem readAllRelease_filter (k : Bytes) (hist : List Bytes) :
    (readAllRelease .default hist).filter (fun r => peerOctets r.1 == k) =
      readAllRelease .default (hist.filter fun b => peerOctets b == k) := by
  induction hist using List.reverseRecOn with
  | nil => rfl
  | append_singleton l b ih =>
    rw [readAllRelease_concat, List.filter_append, List.filter_append, ih]
    by_cases hb : peerOctets b = k
    · rw [List.filter_cons_of_pos (by simp [hb]), List.filter_cons_of_pos (by simp [hb]), List.filter_nil, List.filter_nil,
        readAllRelease_concat]
      congr 3
      refine w_session_congr (s := afterRelease l) (s' := afterRelease (l.filter fun b => peerOctets b == k)) fun x n c t e hx => ?_
      subst e
      have := (header_octets (c := c) hx).2
      rw [hb] at this
      subst this
      exact (w_params_filter l x).symm
    · rw [List.filter_cons_of_neg (by simp [hb]), List.filter_cons_of_neg (by simp [hb]), List.filter_nil, List.filter_nil,
        List.append_nil, List.append_nil]

end Zbgp
