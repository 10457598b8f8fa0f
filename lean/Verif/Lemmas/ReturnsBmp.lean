import Verif.Spec.ReturnsBmp
import Verif.Lemmas.ReturnsUpdate
import Verif.Lemmas.ReleaseBmpReads
import Verif.Props.OutcomeRelease
import Verif.Props.BmpExact

/-!
# Lemmas for C121: BMP messages without overflow checks
-/

namespace Zbgp

open Spec

/-! ## Messages that are cut off -/

section items
variable {T : Type} [WrapReads T] [UncheckedForm T] [NlriKind T] [LengthOctet T]

theorem prefixes_need (hR : ∀ bits t (x : T) m, WrapReads.Read bits t x m → m ≤ t.length ∧ ∀ f, UncheckedForm.form x = some f → f.2.length = m)
    {v : List T} {pat : List (Option U8)} {b : Bytes} {n : Nat} (h : Fate.all (prefixFate .release) v = .sent pat)
    (hr : ItemsRead 0 (@NlriRead T (wrapReads T)) b v n) : pat.length ≤ b.length := by
  induction v generalizing pat b n with
  | nil => cases h; simp
  | cons x v ih =>
    obtain ⟨q, r, h1, h2, rfl⟩ := andThen_sent h
    cases hr with
    | item _ _ n _ m h3 h4 h5 =>
      obtain ⟨bits, t, k, rfl, h6, rfl⟩ := h4
      obtain ⟨h7, h8⟩ := hR _ _ _ _ h6
      have := ih h2 h5
      unfold prefixFate prefixForm at h1
      cases hf : UncheckedForm.form x with
      | none => simp only [hf] at h1; cases h1
      | some f =>
        simp only [hf] at h1
        cases h1
        have := h8 f hf
        simp only [List.length_append, List.length_map, List.length_cons, List.length_drop] at *
        omega

theorem pathIds_need (hR : ∀ bits t (x : T) m, WrapReads.Read bits t x m → m ≤ t.length ∧ ∀ f, UncheckedForm.form x = some f → f.2.length = m)
    {v : List (WithPathId T)} {pat : List (Option U8)} {b : Bytes} {n : Nat} (h : Fate.all (pathIdFate .release) v = .sent pat)
    (hr : ItemsRead 4 (@PathIdRead T (wrapReads T)) b v n) : pat.length ≤ b.length := by
  induction v generalizing pat b n with
  | nil => cases h; simp
  | cons x v ih =>
    obtain ⟨q, r, h1, h2, rfl⟩ := andThen_sent h
    cases hr with
    | item _ _ n _ m h3 h4 h5 =>
      obtain ⟨t', m', rfl, ⟨bits, t, k, rfl, h6, rfl⟩, rfl⟩ := h4
      obtain ⟨h7, h8⟩ := hR _ _ _ _ h6
      have := ih h2 h5
      rw [pathIdFate_eq] at h1
      unfold formFate prefixForm at h1
      cases hf : UncheckedForm.form x.nlri with
      | none => simp only [hf] at h1; cases h1
      | some f =>
        simp only [hf] at h1
        cases h1
        have := h8 f hf
        simp only [List.length_append, List.length_map, List.length_cons, List.length_drop, be_length] at *
        omega

end items

theorem v4_needs (bits : Nat) (t : Bytes) (x : BgpAddrV4) (m : Nat) (h : WrapReads.Read bits t x m) :
    m ≤ t.length ∧ ∀ f, UncheckedForm.form x = some f → f.2.length = m := by
  obtain ⟨h1, rfl, h2, h3, -⟩ := h
  refine ⟨h2, fun f hf => ?_⟩
  simp only [UncheckedForm.form, uncheckedOctets] at hf
  rw [if_pos (by omega)] at hf
  cases hf
  simp only [prefixBody, List.length_take, be_length, h3]
  unfold octets; omega

theorem v6_needs (bits : Nat) (t : Bytes) (x : BgpAddrV6) (m : Nat) (h : WrapReads.Read bits t x m) :
    m ≤ t.length ∧ ∀ f, UncheckedForm.form x = some f → f.2.length = m := by
  obtain ⟨h1, rfl, h2, h3, -⟩ := h
  refine ⟨h2, fun f hf => ?_⟩
  simp only [UncheckedForm.form, uncheckedOctets] at hf
  rw [if_pos (by omega)] at hf
  cases hf
  simp only [prefixBody, List.length_take, be_length, h3]
  unfold octets; omega

/-- prefixes of the session are read as they were sent only if all their octets are there -/
theorem section_need {p : BgpSessionParams} {x : BgpAddrs} {pat : List (Option U8)} {b : Bytes}
    (h : sectionFate .release p x = .sent pat) (hr : WrapNlriIs p b x) : pat.length ≤ b.length := by
  obtain ⟨n, hn⟩ := hr
  obtain ⟨ap, hk⟩ := wrapAddrs_kind hn
  rw [section_inside hk] at h
  have hs : sessionFamily p = .ipv4Unicast ∨ sessionFamily p = .ipv6Unicast := by
    unfold sessionFamily; cases p.peerMode <;> simp
  rcases hs with hs | hs <;> rw [hs] at hn <;> simp only [WrapAddrs, WrapField] at hn <;> split at hn <;> obtain ⟨v, rfl, hv⟩ := hn
  · exact pathIds_need v4_needs h hv
  · exact prefixes_need v4_needs h hv
  · exact pathIds_need v6_needs h hv
  · exact prefixes_need v6_needs h hv

/-- an UPDATE is read as it was sent from the beginning of its octets only if this is all of them -/
theorem message_need {p : BgpSessionParams} {m : BgpUpdateMessage} {pat : List (Option U8)} {b c : Bytes}
    (h : updateFate .release p m = .sent pat) (hf : Fits pat b) (hc : c <+: b)
    (hr : WrapUpdateRead p c m.withdraws m.attrs m.updates) : c = b := by
  obtain ⟨qw, qa, qu, h1, hl, h2, h3, rfl⟩ := update_sent h
  obtain ⟨w, t, rfl, f1, f2⟩ := fits_counted hf
  obtain ⟨a, u, rfl, f3, f4⟩ := fits_counted f2
  rw [fits_length f1] at hl
  obtain ⟨w', a', u', rfl, l1, l2, r1, r2, r3⟩ := hr
  obtain ⟨z, e⟩ := hc
  rw [updateBytes] at e
  simp only [List.append_assoc] at e
  obtain ⟨e1, k1⟩ := List.append_inj e (by simp)
  obtain ⟨k2, k3⟩ := List.append_inj k1 (be_inj (n := 2) (by omega) (by omega) e1)
  obtain ⟨e2, k4⟩ := List.append_inj k3 (by simp)
  subst k2
  have hla : a'.length ≤ a.length := by
    rw [← be2_mod a.length] at e2
    have := be_inj (n := 2) (by omega) (Nat.mod_lt _ (by decide)) e2
    have := Nat.mod_le a.length 65536
    omega
  have hp : a' <+: a := by
    refine List.prefix_of_prefix_length_le ⟨u' ++ z, rfl⟩ ?_ hla
    rw [k4]
    exact List.prefix_append _ _
  obtain ⟨-, rfl, -⟩ := attrs_only h2 f3 r2 hp
  have k5 := List.append_cancel_left k4
  have := section_need h3 r3
  rw [fits_length f4, ← k5, List.length_append] at this
  have hz : z = [] := List.eq_nil_of_length_eq_zero (by omega)
  subst hz
  rw [List.append_nil] at k5
  rw [k5]
  simp [updateBytes]

theorem fits_more : ∀ {p : List (Option U8)} {w : Bytes} (q : List (Option U8)), Fits p w → ∃ z, Fits (p ++ q) (w ++ z) := by
  intro p w q h
  refine ⟨q.map fun o => o.getD 0, fits_append h ?_⟩
  induction q with
  | nil => trivial
  | cons o q ih => exact ⟨by cases o <;> simp, ih⟩

/-- the octets of an UPDATE that comes back -/
theorem message_octets {p : BgpSessionParams} {m : BgpUpdateMessage} (h : MessageBack p m) :
    ∃ w, updateFate .release p m = .octets w := by
  obtain ⟨-, ⟨ap, hk, hi, -⟩, -, ⟨w, h1, hl⟩, ⟨a, h2, -⟩⟩ := h
  obtain ⟨u, hu⟩ := (coll p (sessionFamily p) m.updates).sent hi
  refine ⟨be 2 w.length ++ w ++ (be 2 a.length ++ a ++ u), ?_⟩
  unfold updateFate withdrawnFate attributesFate
  rw [h1, h2, section_inside hk, hu]
  simp only [Fate.octets, List.length_map, if_pos hl, Fate.andThen, counted, List.map_append, List.append_assoc]

/-! ## BGP messages inside -/

/-- a message of which at least the header was sent is read with what was sent of its body -/
theorem inside_split {α : Type} {ty : BgpMessageType} {R : Bytes → α → Prop} {q : List (Option U8)} {w tail rest : Bytes} {m : α} {s : Nat}
    (hs : s = (q.length + 19) % 65536) (h19 : 19 ≤ s) (hw : Fits (((header ty q.length).map some ++ q).take s) w)
    (hr : WrapEmbeddedRead ty R (w ++ tail) m rest) :
    ∃ v, w = header ty q.length ++ v ∧ v.length = s - 19 ∧ Fits (q.take (s - 19)) v ∧ R v m ∧ rest = tail := by
  have hl : ((header ty q.length).map some : List (Option U8)).length = 19 := by rw [List.length_map, header_length]
  rw [List.take_append, List.take_of_length_le (by omega), hl] at hw
  obtain ⟨a, v, rfl, f1, f2⟩ := fits_split hw
  obtain rfl := fits_some_eq f1
  have hv : v.length = s - 19 := by
    rw [← fits_length f2, List.length_take]
    have := Nat.mod_le (q.length + 19) 65536
    omega
  obtain ⟨n, body, e, hn, hb, hR⟩ := hr
  unfold header announced at e
  simp only [List.append_assoc] at e
  have e := List.append_cancel_left e
  obtain ⟨e1, e⟩ := List.append_inj e (by simp)
  have e := List.append_cancel_left e
  rw [← be2_mod] at e1
  have := be_inj (n := 2) (Nat.mod_lt _ (by decide)) (by omega) e1
  obtain ⟨rfl, rfl⟩ := List.append_inj e (by omega)
  exact ⟨v, rfl, hv, f2, hR, rfl⟩

/-- what is needed to read a message -/
theorem inside_length {α : Type} {ty : BgpMessageType} {R : Bytes → α → Prop} {b rest : Bytes} {m : α}
    (hr : WrapEmbeddedRead ty R b m rest) : ∃ body, R body m ∧ b.length = 19 + body.length + rest.length := by
  obtain ⟨n, body, rfl, -, -, hR⟩ := hr
  exact ⟨body, hR, by simp [announced]; omega⟩

/-- the octets sent of a message -/
theorem inside_sent {ty : BgpMessageType} {q : List (Option U8)} {w : Bytes} {s : Nat} (hs : s = (q.length + 19) % 65536)
    (hw : Fits (((header ty q.length).map some ++ q).take s) w) : w.length = s := by
  rw [← fits_length hw, List.length_take, List.length_append, List.length_map, header_length]
  have := Nat.mod_le (q.length + 19) 65536
  omega

/-! ## Route monitoring -/

theorem monitoring_back {x : BmpMessageRouteMonitoring} {pat : List (Option U8)} {w : Bytes}
    (h : bmpFate .release (.RouteMonitoring x) = .sent pat) (hf : Fits pat w) :
    WrapBmpRead (fun h p => p = headerParams h) w (.RouteMonitoring x) ↔ BmpBack (.RouteMonitoring x) := by
  obtain ⟨a, c, h1, h2, rfl⟩ := andThen_sent h
  cases h1
  obtain ⟨w1, w2, rfl, f1, f2⟩ := fits_split hf
  obtain rfl := fits_some_eq f1
  cases hu : updateFate .release (headerParams x.peer) x.update with
  | refused => rw [hu] at h2; cases h2
  | crash => rw [hu] at h2; cases h2
  | sent q =>
    rw [hu] at h2
    cases h2
    constructor
    · intro hr
      generalize e : (0 :: peerHeaderWire x.peer ++ w2 : Bytes) = b at hr
      cases hr with
      | monitoring h p body rest u hd hp hl hu' =>
      subst hp
      simp only [List.cons_append, List.cons.injEq, true_and] at e
      have e := List.append_cancel_left e
      subst e
      have hl := inside_sent rfl f2
      rw [show w2 = w2 ++ [] by simp] at hu'
      obtain ⟨v, rfl, hv, fv, hR, -⟩ := inside_split rfl (by omega) f2 hu'
      obtain ⟨z, hz⟩ := fits_more (q.drop ((q.length + 19) % 65536 - 19)) fv
      rw [List.take_append_drop] at hz
      have hvz := message_need hu hz ⟨z, rfl⟩ hR
      rw [← hvz] at hz
      have hm := (message_back hu hz).1 hR
      obtain ⟨o, ho⟩ := message_octets hm
      refine ⟨hd, hm, o, ho, ?_⟩
      dsimp only at hu
      rw [ho] at hu
      cases hu
      have := fits_length hz
      rw [List.length_map] at this hv
      have := Nat.mod_lt (o.length + 19) (y := 65536) (by decide)
      omega
    · rintro ⟨hd, hm, o, ho, hl⟩
      rw [ho] at hu
      cases hu
      rw [List.length_map, Nat.mod_eq_of_lt (by omega), List.take_of_length_le (by simp [header_length]; omega), ← List.map_append] at f2
      obtain rfl := fits_some_eq f2
      have hR := (message_back ho (fits_some o)).2 hm
      have h4 : 4 ≤ o.length := by
        obtain ⟨_, _, _, rfl, -⟩ := hR
        simp [updateBytes]; omega
      exact .monitoring x.peer _ _ [] x.update hd rfl (by simp [header_length]; omega)
        ⟨o.length + 19, o, by simp [header, announced], by omega, by omega, hR⟩

/-! ## Peer up -/

theorem openFate_length {m : BgpOpenMessage} {q : List (Option U8)} (h : openFate m = .sent q) : q.length = 10 + Props.capsTotal m.caps := by
  obtain ⟨room, he⟩ := Props.C117_open m
  rw [h] at he
  obtain ⟨w, rest, f, e, -⟩ := he (List.replicate room 0) (by simp)
  rw [fits_length f]
  exact Props.open_reports e

theorem openRead_length {b : Bytes} {m : BgpOpenMessage} (h : OpenRead b m) : Props.capsTotal m.caps + 20 ≤ 2 * b.length := by
  obtain ⟨as, len, params, rfl, -, hp⟩ := h
  have := Props.params_take hp
  simp only [List.length_append, List.length_cons, be_length]
  omega

theorem messageFate_sent {ty : BgpMessageType} {f : Fate} {pat : List (Option U8)} (h : messageFate .release ty f = .sent pat) :
    ∃ q, f = .sent q ∧ pat = ((header ty q.length).map some ++ q).take ((q.length + 19) % 65536) := by
  cases f with
  | sent q => cases h; exact ⟨q, rfl, rfl⟩
  | refused => cases h
  | crash => cases h

/-- a peer-up that comes back has OPEN messages short enough for the length in a BGP header, and is read the same with overflow checks -/
theorem up_short {x : BmpMessagePeerUp} {pat : List (Option U8)} {w : Bytes}
    (h : bmpFate .release (.PeerUpNotification x) = .sent pat) (hf : Fits pat w)
    (hr : WrapBmpRead (fun h p => p = headerParams h) w (.PeerUpNotification x)) :
    (∃ c, bmpFate .checked (.PeerUpNotification x) = .sent c) ∧
      BmpRead (fun h p => p = headerParams h) w (.PeerUpNotification x) := by
  obtain ⟨a, c, h1, h2, rfl⟩ := andThen_sent h
  cases h1
  obtain ⟨p1, p2, h4, h3, rfl⟩ := andThen_sent h2
  obtain ⟨q1, g1, rfl⟩ := messageFate_sent h4
  obtain ⟨q2, g2, rfl⟩ := messageFate_sent h3
  obtain ⟨w1, w23, rfl, f1, f23⟩ := fits_split hf
  obtain rfl := fits_some_eq f1
  obtain ⟨w2, w3, rfl, f2, f3⟩ := fits_split f23
  have l1 := openFate_length g1
  have l2 := openFate_length g2
  generalize eb : (3 :: (peerHeaderWire x.peer ++ bmpAddr x.localaddress ++ be 2 x.localport.toNat ++ be 2 x.remoteport.toNat) ++
    (w2 ++ w3) : Bytes) = b at hr
  cases hr with
  | up b _ hr =>
  obtain ⟨opens, rest1, rest2, e, d1, d2, r1, r2⟩ := hr
  simp only [List.cons_append, List.cons.injEq, true_and] at eb
  rw [e] at eb
  simp only [List.append_assoc] at eb
  have eo : opens = w2 ++ w3 := by
    have eb := List.append_cancel_left eb
    have eb := List.append_cancel_left eb
    have eb := List.append_cancel_left eb
    exact (List.append_cancel_left eb).symm
  subst eo
  have s1 := inside_sent rfl f2
  have s2 := inside_sent rfl f3
  obtain ⟨b1, o1, n1⟩ := inside_length r1
  obtain ⟨b2, o2, n2⟩ := inside_length r2
  have t1 := openRead_length o1
  have t2 := openRead_length o2
  rw [List.length_append] at n1
  by_cases k1 : (q1.length + 19) % 65536 < 19
  · exfalso; omega
  · obtain ⟨v1, rfl, j1, -, o1', rfl⟩ := inside_split rfl (by omega) f2 r1
    by_cases k2 : (q2.length + 19) % 65536 < 19
    · exfalso; omega
    · rw [show rest1 = rest1 ++ [] by simp] at r2
      obtain ⟨v2, rfl, j2, -, o2', rfl⟩ := inside_split rfl (by omega) f3 r2
      have u1 := openRead_length o1'
      have u2 := openRead_length o2'
      have z1 : v1.length = q1.length := by omega
      have z2 : v2.length = q2.length := by omega
      have m1 : q1.length ≤ 65516 := by omega
      have m2 : q2.length ≤ 65516 := by omega
      constructor
      · rw [bmpFate, g1, g2]
        simp only [messageFate, Nat.mod_eq_of_lt (show q1.length < 65536 by omega), Nat.mod_eq_of_lt (show q2.length < 65536 by omega),
          if_pos m1, if_pos m2, Fate.andThen, Fate.octets]
        exact ⟨_, rfl⟩
      · rw [e]
        refine .up _ _ ⟨_, header .Open q2.length ++ v2, [], rfl, d1, d2, ⟨v1, ?_, by omega, o1'⟩, ⟨v2, ?_, by omega, o2'⟩⟩
        · rw [message, z1]
        · rw [message, z2]; simp

/-! ## All messages -/

/-- what is encoded and read by a build with overflow checks is also by one without -/
theorem also_unchecked {x : BmpMessage} {buf : Bytes}
    (h : ∃ buf' n, x.encodeTo buf = .ok (buf', n) ∧ BmpMessage.decodeFrom (buf'.take n) = .ok x) :
    ∃ buf' n, x.encodeToIn .release buf = .ok (buf', n) ∧ BmpMessage.decodeFromIn .release (buf'.take n) = .ok x := by
  obtain ⟨buf', n, h1, h2⟩ := h
  refine ⟨buf', n, ?_, ?_⟩
  · rcases bsim_bmpEnc x buf with h | h
    · rw [h1] at h; cases h
    · rw [h, h1]
  · rcases bsim_bmpDec (buf'.take n) with h | h
    · rw [h2] at h; cases h
    · rw [h, h2]

/-- the octets sent for a message that is read again -/
theorem bmp_sent {x : BmpMessage} : ∃ room, ∀ buf : Bytes, room ≤ buf.length →
    (∃ buf' n, x.encodeToIn .release buf = .ok (buf', n) ∧ BmpMessage.decodeFromIn .release (buf'.take n) = .ok x) →
    ∃ pat w rest, bmpFate .release x = .sent pat ∧ Fits pat w ∧ x.encodeToIn .release buf = .ok (w ++ rest, w.length) ∧
      WrapBmpRead (fun h p => p = headerParams h) w x := by
  obtain ⟨room, he⟩ := Props.C118_bmp x
  refine ⟨room, fun buf hb ⟨buf', n, h1, h2⟩ => ?_⟩
  cases hf : bmpFate .release x with
  | sent pat =>
    rw [hf] at he
    obtain ⟨w, rest, f, e, -⟩ := he buf hb
    rw [e] at h1
    simp only [Res.ok.injEq, Prod.mk.injEq] at h1
    obtain ⟨rfl, rfl⟩ := h1
    rw [List.take_left' rfl] at h2
    exact ⟨pat, w, rest, rfl, f, e, ((w_bmp_exactly _).ok _).1 h2⟩
  | refused =>
    rw [hf] at he
    have := he buf hb
    rw [h1] at this
    exact this.elim
  | crash =>
    rw [hf] at he
    have := he buf hb
    rw [h1] at this
    cases this

theorem up_back (x : BmpMessagePeerUp) : ∃ room, ∀ buf : Bytes, room ≤ buf.length →
    (∃ buf' n, (BmpMessage.PeerUpNotification x).encodeToIn .release buf = .ok (buf', n) ∧
      BmpMessage.decodeFromIn .release (buf'.take n) = .ok (.PeerUpNotification x)) → BmpBack (.PeerUpNotification x) := by
  obtain ⟨room, h⟩ := bmp_sent (x := .PeerUpNotification x)
  obtain ⟨room', he⟩ := Props.C117_bmp (.PeerUpNotification x)
  refine ⟨room + room', fun buf hb hx => ?_⟩
  obtain ⟨pat, w, rest, h1, h2, h3, h4⟩ := h buf (by omega) hx
  obtain ⟨⟨c, hc⟩, hr⟩ := up_short h1 h2 h4
  rw [hc] at he
  obtain ⟨w', rest', -, e, -⟩ := he buf (by omega)
  have hee : (BmpMessage.PeerUpNotification x).encodeTo buf = .ok (w ++ rest, w.length) := by
    rcases bsim_bmpEnc (.PeerUpNotification x) buf with h | h
    · rw [e] at h; cases h
    · rw [← h, h3]
  refine (Props.C113_peer_up x).1 ⟨buf, _, _, trivial, hee, ?_⟩
  rw [List.take_left' rfl]
  exact ((bmp_exactly _).ok _).2 hr

theorem bmp_returns (x : BmpMessage) : ∃ room, ∀ buf : Bytes, room ≤ buf.length →
    ((∃ buf' n, x.encodeToIn .release buf = .ok (buf', n) ∧ BmpMessage.decodeFromIn .release (buf'.take n) = .ok x) ↔ BmpBack x) := by
  cases x with
  | RouteMonitoring x =>
    obtain ⟨room, h⟩ := bmp_sent (x := .RouteMonitoring x)
    obtain ⟨room', he⟩ := Props.C118_bmp (.RouteMonitoring x)
    refine ⟨room + room', fun buf hb => ⟨fun hx => ?_, fun hx => ?_⟩⟩
    · obtain ⟨pat, w, rest, h1, h2, -, h3⟩ := h buf (by omega) hx
      exact (monitoring_back h1 h2).1 h3
    · obtain ⟨o, ho, hl⟩ := hx.2.2
      have hs : ∃ pat, bmpFate .release (.RouteMonitoring x) = .sent pat := by
        rw [bmpFate, ho]
        exact ⟨_, rfl⟩
      obtain ⟨pat, hp⟩ := hs
      rw [hp] at he
      obtain ⟨w, rest, f, e, -⟩ := he buf (by omega)
      refine ⟨_, _, e, ?_⟩
      rw [List.take_left' rfl]
      exact ((w_bmp_exactly _).ok _).2 ((monitoring_back hp f).2 hx)
  | StatisticsReport =>
    refine ⟨1, fun buf hb => ⟨?_, False.elim⟩⟩
    rintro ⟨buf', n, h, -⟩
    cases buf with
    | nil => simp at hb
    | cons c b => cases h
  | RouteMirroring =>
    refine ⟨1, fun buf hb => ⟨?_, False.elim⟩⟩
    rintro ⟨buf', n, h, -⟩
    cases buf with
    | nil => simp at hb
    | cons c b => cases h
  | PeerDownNotification x =>
    obtain ⟨room, h⟩ := bmp_sent (x := .PeerDownNotification x)
    refine ⟨room + ((peerDownWire x).length + 1), fun buf hb => ⟨fun hx => ?_, fun hx => ?_⟩⟩
    · obtain ⟨pat, w, rest, -, -, -, h3⟩ := h buf (by omega) hx
      cases h3 with
      | down b _ hr => exact hr.choose_spec.2.1
    · obtain ⟨buf', n, h1, -, h2⟩ := Props.C58_peer_down_partial x hx buf (by omega)
      exact also_unchecked ⟨buf', n, h1, h2⟩
  | PeerUpNotification x =>
    obtain ⟨room, h⟩ := up_back x
    refine ⟨room + (121 + (capsParams x.msg1.caps).length + (capsParams x.msg2.caps).length), fun buf hb =>
      ⟨h buf (by omega), fun ⟨d1, d2, o1, o2⟩ => also_unchecked ?_⟩⟩
    exact Props.C58_peer_up_of_opens_partial x (by
      rintro x (rfl | rfl)
      · exact o1
      · exact o2) d1 d2 buf (by omega)
  | Initiation x =>
    refine ⟨(optInfo 0 x.str0).length + 1, fun buf hb => ⟨?_, fun ⟨h1, h2, h3⟩ => also_unchecked ?_⟩⟩
    · rintro ⟨buf', n, h1, h2⟩
      refine (Props.C113_initiation x).1 ⟨buf, buf', n, trivial, h1, ?_⟩
      have hr := ((w_bmp_exactly _).ok _).1 h2
      refine ((bmp_exactly _).ok _).2 ?_
      generalize buf'.take n = b at hr
      cases hr with
      | initiation b _ hr => exact .initiation b _ hr
    · obtain ⟨buf', n, g1, -, -, g2⟩ := Props.C57_initiation_round_trip_partial x h1 h2 h3 buf (by omega)
      exact ⟨buf', n, g1, g2⟩
  | Termination x =>
    refine ⟨(terminationWire x).length + 1, fun buf hb => ⟨?_, fun h => also_unchecked ?_⟩⟩
    · rintro ⟨buf', n, h1, h2⟩
      have hr := ((w_bmp_exactly _).ok _).1 h2
      generalize buf'.take n = b at hr
      cases hr with
      | termination b _ hr => exact Props.termination_ok hr
    · obtain ⟨buf', n, g1, -, -, y, g2, rfl⟩ := Props.C57_termination_round_trip x h buf (by omega)
      exact ⟨buf', n, g1, g2⟩

end Zbgp
