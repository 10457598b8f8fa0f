import Verif.Lemmas.Peers

/-!
# Lemmas for C125
-/

namespace Zbgp

open Spec

theorem after_append (h rest : List Bytes) : after (h ++ rest) = rest.foldl (fun s b => (s.decodeFrom b).2) (after h) := by
  unfold after
  rw [List.foldl_append]

theorem afterRelease_append (h rest : List Bytes) :
    afterRelease (h ++ rest) = rest.foldl (fun s b => (s.decodeFromIn .release b).2) (afterRelease h) := by
  unfold afterRelease
  rw [List.foldl_append]

theorem readAll_congr {f : Bytes → Bool} {h h' : List Bytes}
    (hc : ∀ rest x, f x = true → ((after (h ++ rest)).decodeFrom x).1 = ((after (h' ++ rest)).decodeFrom x).1) (rest : List Bytes) :
    (readAll (after h) rest).filter (fun r => f r.1) = (readAll (after h') rest).filter fun r => f r.1 := by
  induction rest using List.reverseRecOn with
  | nil => rfl
  | append_singleton l b ih =>
    rw [readAll_concat, readAll_concat, List.filter_append, List.filter_append, ih, ← after_append, ← after_append]
    cases hb : f b with
    | true => rw [hc l b hb]
    | false => rw [List.filter_cons_of_neg (by simp [hb]), List.filter_cons_of_neg (by simp [hb])]

theorem readAllRelease_congr {f : Bytes → Bool} {h h' : List Bytes}
    (hc : ∀ rest x, f x = true →
      ((afterRelease (h ++ rest)).decodeFromIn .release x).1 = ((afterRelease (h' ++ rest)).decodeFromIn .release x).1) (rest : List Bytes) :
    (readAllRelease (afterRelease h) rest).filter (fun r => f r.1) = (readAllRelease (afterRelease h') rest).filter fun r => f r.1 := by
  induction rest using List.reverseRecOn with
  | nil => rfl
  | append_singleton l b ih =>
    rw [readAllRelease_concat, readAllRelease_concat, List.filter_append, List.filter_append, ih, ← afterRelease_append, ← afterRelease_append]
    cases hb : f b with
    | true => rw [hc l b hb]
    | false => rw [List.filter_cons_of_neg (by simp [hb]), List.filter_cons_of_neg (by simp [hb])]

theorem lastUp_concat' (hist : List Bytes) (b : Bytes) (rd : BgpRD) (ip : IpAddr) (m : BmpMessagePeerUp) :
    LastUp (hist ++ [b]) rd ip m ↔ (PeerUpIs b m ∧ OfPeer rd ip m.peer) ∨ (¬ About rd ip b ∧ LastUp hist rd ip m) := by
  have := lastUp_concat hist b rd ip m
  rwa [lastUpDec_eq, aboutDec_eq, peerUpDec_eq] at this

/-- two histories with the same last peer-up of a peer keep it through whatever follows -/
theorem lastUp_append {h h' : List Bytes} {rd : BgpRD} {ip : IpAddr} (e : ∀ m, LastUp h rd ip m ↔ LastUp h' rd ip m) (rest : List Bytes)
    (m : BmpMessagePeerUp) : LastUp (h ++ rest) rd ip m ↔ LastUp (h' ++ rest) rd ip m := by
  induction rest using List.reverseRecOn with
  | nil => rw [List.append_nil, List.append_nil]; exact e m
  | append_singleton l b ih =>
    have ih : LastUp (h ++ l) rd ip m ↔ LastUp (h' ++ l) rd ip m := ih
    rw [← List.append_assoc, ← List.append_assoc, lastUp_concat', lastUp_concat', ih]

theorem w_lastUp_append {h h' : List Bytes} {rd : BgpRD} {ip : IpAddr} (e : ∀ m, WrapLastUp h rd ip m ↔ WrapLastUp h' rd ip m)
    (rest : List Bytes) (m : BmpMessagePeerUp) : WrapLastUp (h ++ rest) rd ip m ↔ WrapLastUp (h' ++ rest) rd ip m := by
  induction rest using List.reverseRecOn with
  | nil => rw [List.append_nil, List.append_nil]; exact e m
  | append_singleton l b ih =>
    have ih : WrapLastUp (h ++ l) rd ip m ↔ WrapLastUp (h' ++ l) rd ip m := ih
    rw [← List.append_assoc, ← List.append_assoc, w_lastUp_concat, w_lastUp_concat, ih]

theorem params_congr {hist hist' : List Bytes} {h : BmpMessagePeerHeader}
    (e : ∀ m, LastUp hist h.peerdistinguisher h.peeraddress m ↔ LastUp hist' h.peerdistinguisher h.peeraddress m) :
    (after hist).params h = (after hist').params h := by
  have := (paramsAfter_iff hist h ((after hist).params h)).2 rfl
  refine (paramsAfter_iff hist' h _).1 ?_
  unfold ParamsAfter at this ⊢
  simpa only [e] using this

theorem w_params_congr {hist hist' : List Bytes} {h : BmpMessagePeerHeader}
    (e : ∀ m, WrapLastUp hist h.peerdistinguisher h.peeraddress m ↔ WrapLastUp hist' h.peerdistinguisher h.peeraddress m) :
    (afterRelease hist).params h = (afterRelease hist').params h := by
  have := (w_paramsAfter_iff hist h ((afterRelease hist).params h)).2 rfl
  refine (w_paramsAfter_iff hist' h _).1 ?_
  unfold WrapParamsAfter at this ⊢
  simpa only [e] using this

/-- histories that agree about the peer of a set of messages read them alike -/
theorem reads_congr {f : Bytes → Bool} {h h' : List Bytes}
    (e : ∀ x hd n c t, f x = true → x = c :: t → BmpMessagePeerHeader.decodeFrom t = .ok (hd, n) →
      ∀ m, LastUp h hd.peerdistinguisher hd.peeraddress m ↔ LastUp h' hd.peerdistinguisher hd.peeraddress m) (rest : List Bytes) :
    (readAll (after h) rest).filter (fun r => f r.1) = (readAll (after h') rest).filter fun r => f r.1 :=
  readAll_congr (fun rest x hx => session_congr fun hd n c t e1 e2 => params_congr fun m =>
    lastUp_append (e x hd n c t hx e1 e2) rest m) rest

theorem w_reads_congr {f : Bytes → Bool} {h h' : List Bytes}
    (e : ∀ x hd n c t, f x = true → x = c :: t → BmpMessagePeerHeader.decodeFrom t = .ok (hd, n) →
      ∀ m, WrapLastUp h hd.peerdistinguisher hd.peeraddress m ↔ WrapLastUp h' hd.peerdistinguisher hd.peeraddress m) (rest : List Bytes) :
    (readAllRelease (afterRelease h) rest).filter (fun r => f r.1) = (readAllRelease (afterRelease h') rest).filter fun r => f r.1 :=
  readAllRelease_congr (fun rest x hx => w_session_congr fun hd n c t e1 e2 => w_params_congr fun m =>
    w_lastUp_append (e x hd n c t hx e1 e2) rest m) rest

theorem filter_true {α : Type} (l : List α) : l.filter (fun _ => true) = l := List.filter_eq_self.2 fun _ _ => rfl

/-- the message is one of those that change the table, whichever peer it is about -/
theorem about_of {b x t : Bytes} {c : U8} {hd : BmpMessagePeerHeader} {n : Nat} (h : (∃ m, PeerUpIs b m) ∨ ∃ m, PeerDownIs b m)
    (e : x = c :: t) (hh : BmpMessagePeerHeader.decodeFrom t = .ok (hd, n)) (ho : peerOctets x = peerOctets b) :
    About hd.peerdistinguisher hd.peeraddress b := by
  subst e
  obtain ⟨d1, o1⟩ := header_octets (c := c) hh
  rcases h with ⟨m, h⟩ | ⟨m, h⟩
  · have d2 : Distinct m.peer.peeraddress := by obtain ⟨_, _, _, _, _, _, d, _⟩ := h; exact d
    have o2 := about_octets (.inl ⟨m, h, rfl, rfl⟩)
    rw [o1, o2] at ho
    obtain ⟨r1, r2⟩ := keyOctets_inj d1 d2 ho
    exact .inl ⟨m, h, r1.symm, r2.symm⟩
  · have d2 : Distinct m.peer.peeraddress := by obtain ⟨_, _, _, _, d, _⟩ := h; exact d
    have o2 := about_octets (.inr ⟨m, h, rfl, rfl⟩)
    rw [o1, o2] at ho
    obtain ⟨r1, r2⟩ := keyOctets_inj d1 d2 ho
    exact .inr ⟨m, h, r1.symm, r2.symm⟩

theorem w_about_of {b x t : Bytes} {c : U8} {hd : BmpMessagePeerHeader} {n : Nat}
    (h : (∃ m, WrapPeerUpIs b m) ∨ ∃ m, WrapPeerDownIs b m)
    (e : x = c :: t) (hh : BmpMessagePeerHeader.decodeFrom t = .ok (hd, n)) (ho : peerOctets x = peerOctets b) :
    WrapAbout hd.peerdistinguisher hd.peeraddress b := by
  subst e
  obtain ⟨d1, o1⟩ := header_octets (c := c) hh
  rcases h with ⟨m, h⟩ | ⟨m, h⟩
  · have d2 : Distinct m.peer.peeraddress := by obtain ⟨_, _, _, _, _, _, d, _⟩ := h; exact d
    have o2 := w_about_octets (.inl ⟨m, h, rfl, rfl⟩)
    rw [o1, o2] at ho
    obtain ⟨r1, r2⟩ := keyOctets_inj d1 d2 ho
    exact .inl ⟨m, h, r1.symm, r2.symm⟩
  · have d2 : Distinct m.peer.peeraddress := by obtain ⟨_, _, _, _, d, _⟩ := h; exact d
    have o2 := w_about_octets (.inr ⟨m, h, rfl, rfl⟩)
    rw [o1, o2] at ho
    obtain ⟨r1, r2⟩ := keyOctets_inj d1 d2 ho
    exact .inr ⟨m, h, r1.symm, r2.symm⟩

theorem up_not_down {b : Bytes} {m : BmpMessagePeerUp} {m' : BmpMessagePeerDown} (h : PeerUpIs b m) (h' : PeerDownIs b m') : False := by
  obtain ⟨_, rfl, _⟩ := h
  obtain ⟨_, e, _⟩ := h'
  cases e

theorem w_up_not_down {b : Bytes} {m : BmpMessagePeerUp} {m' : BmpMessagePeerDown} (h : WrapPeerUpIs b m) (h' : WrapPeerDownIs b m') :
    False := by
  obtain ⟨_, rfl, _⟩ := h
  obtain ⟨_, e, _⟩ := h'
  cases e

end Zbgp
