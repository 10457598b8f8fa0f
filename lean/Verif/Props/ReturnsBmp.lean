import Verif.Lemmas.ReturnsBmp
import Verif.Props.ReturnsMsg
import Verif.Props.AnyBuffer

/-!
# C121: exactly which BMP messages come back from the wire without overflow checks
-/

namespace Zbgp.Props

open Spec

/-- **C121**: sent and read by builds without overflow checks, a BMP message comes back unchanged exactly if it is one of `BmpBack`, in
every buffer that is large enough. -/
theorem C121_messages (x : BmpMessage) : ∃ room, ∀ buf : Bytes, room ≤ buf.length →
    ((∃ buf' n, x.encodeToIn .release buf = .ok (buf', n) ∧ BmpMessage.decodeFromIn .release (buf'.take n) = .ok x) ↔ BmpBack x) :=
  bmp_returns x

/-- **C121**: the messages that come back with overflow checks also come back without, from the same buffers. -/
theorem C121_not_fewer (x : BmpMessage) (buf : Bytes)
    (h : ∃ buf' n, x.encodeTo buf = .ok (buf', n) ∧ BmpMessage.decodeFrom (buf'.take n) = .ok x) :
    ∃ buf' n, x.encodeToIn .release buf = .ok (buf', n) ∧ BmpMessage.decodeFromIn .release (buf'.take n) = .ok x := also_unchecked h

/-- **C121**: of all kinds of messages but route monitoring, the same come back with and without overflow checks. -/
theorem C121_same (x : BmpMessage) (h : ∀ m, x ≠ .RouteMonitoring m) : ComesBack x (fun _ => True) ↔ BmpBack x := by
  cases x with
  | RouteMonitoring m => exact absurd rfl (h m)
  | StatisticsReport =>
    refine ⟨?_, False.elim⟩
    rintro ⟨buf, buf', n, -, he, -⟩
    cases buf <;> cases he
  | RouteMirroring =>
    refine ⟨?_, False.elim⟩
    rintro ⟨buf, buf', n, -, he, -⟩
    cases buf <;> cases he
  | PeerDownNotification m => exact C113_peer_down m
  | PeerUpNotification m => exact C113_peer_up m
  | Initiation m => exact C113_initiation m
  | Termination m => exact C113_termination m

/-- a termination with a reason, and a peer-down, come back -/
example : BmpBack (.Termination ⟨some [66, 121, 101], some 0⟩) ∧
    BmpBack (.PeerDownNotification ⟨⟨0, 0, ⟨0, 0⟩, .v4 0x0a000001, 65001, 0x0a000001, 0⟩, .LocalSystemState 2⟩) := by
  refine ⟨?_, trivial⟩
  rintro s h
  cases h
  exact ⟨by decide, by decide⟩

/-! ## C113, route monitoring, in buffers of every size -/

/-- an UPDATE is read as it was encoded from the beginning of its octets only if this is all of them -/
theorem update_whole {p : BgpSessionParams} {m : BgpUpdateMessage} {u t : Bytes} {k j : Nat} (he : m.encodeTo p u = .ok (t, k))
    (hk : k ≤ t.length) (hj : j ≤ k) (hr : BgpUpdateMessage.new.decodeFrom p (t.take j) = .ok m) : j = k := by
  obtain ⟨room, hs⟩ := C118_update p m
  have h1 := C67_size_independent_partial.2.2.2.2.2.2.2.2.2.1 m p u t k (List.replicate room 0) he
  have h2 : m.encodeToIn .release p (u ++ List.replicate room 0) = .ok (t ++ List.replicate room 0, k) := by
    rcases bsim_updEnc m p (u ++ List.replicate room 0) with h | h
    · rw [h1] at h; cases h
    · rw [h, h1]
  have h3 : BgpUpdateMessage.new.decodeFromIn .release p (t.take j) = .ok m := by
    rw [C102_decoders_agree.2.2.2 _ p _ (by rw [hr]; simp), hr]
  obtain ⟨l, h5, h6⟩ := ((Rel.update_exactly .new p _).ok m).1 h3
  have h7 : m.attrs = l := by rw [h6]; rfl
  cases hf : updateFate .release p m with
  | sent pat =>
    rw [hf] at hs
    obtain ⟨w, rest, f, e, -⟩ := hs (u ++ List.replicate room 0) (by simp)
    rw [h2] at e
    simp only [Res.ok.injEq, Prod.mk.injEq] at e
    obtain ⟨e, rfl⟩ := e
    have hw : w = t.take w.length := by
      rw [← List.take_append_of_le_length (l₂ := List.replicate room 0) hk, e, List.take_left' rfl]
    have hc : t.take j <+: w := by
      rw [hw]
      exact List.take_prefix_take_left hj
    have := congrArg List.length (message_need hf f hc (by rw [h7]; exact h5))
    rw [List.length_take] at this
    omega
  | refused =>
    rw [hf] at hs
    have := hs (u ++ List.replicate room 0) (by simp)
    rw [h2] at this
    exact this.elim
  | crash =>
    rw [hf] at hs
    have := hs (u ++ List.replicate room 0) (by simp)
    rw [h2] at this
    cases this

/-- **C113, route monitoring, in buffers of every size**: a message comes back unchanged, from some buffer, if and only if the address
is told apart and the UPDATE comes back unchanged in the session of the peer header and is not too long for a BGP message. Longer
ones are cut off, and never read as they were. -/
theorem C113_route_monitoring_any_buffer (m : BmpMessageRouteMonitoring) :
    ComesBack (.RouteMonitoring m) (fun _ => True) ↔
      Distinct m.peer.peeraddress ∧ AsSent (headerParams m.peer) m.update ∧
      (updateWire (headerParams m.peer) m.update).length ≤ 65516 := by
  constructor
  · rintro ⟨buf, buf', n, -, he, hd⟩
    have hr := ((bmp_exactly _).ok _).1 hd
    unfold BmpMessage.encodeTo at he
    split at he
    · cases he
    obtain ⟨u, t, k, he, hul, e⟩ := typed_ok he
    rw [e] at hr
    generalize eb : (0 :: t.take k : Bytes) = bb at hr
    cases hr with
    | monitoring h p body rest x hdist hp hl hu =>
    subst hp
    simp only [List.cons.injEq, true_and] at eb
    refine ⟨hdist, ?_⟩
    unfold BmpMessageRouteMonitoring.encodeTo at he
    split at he
    · cases he
    rename_i hu62
    obtain ⟨⟨b1, c⟩, g1, he⟩ := Res.bind_eq_ok.1 he
    have g1' := g1
    rw [peerHeader_clears h u (by rw [peerHeaderWire_length]; omega)] at g1
    simp only [Res.ok.injEq, Prod.mk.injEq] at g1
    have hc : c = 42 := by rw [← g1.2, peerHeaderWire_length]
    have hb1 : b1.length = u.length := KeepsSize.post (f := h.encodeTo) _ _ g1'
    subst hc
    rw [headerParams_eq] at he
    obtain ⟨u1, t1, k1, e1, l1, z1, s1, o1, rfl, rfl⟩ := embedded_ok he
    have hl1 : (b1.take 42).length = 42 := by rw [List.length_take]; omega
    have ht : List.take (42 + 19 + k1 % 65536) (b1.take 42 ++ (header .Update (k1 % 65536) ++ t1)) =
        b1.take 42 ++ (header .Update (k1 % 65536) ++ (t1.take (k1 % 65536) ++ [])) := by
      have e1 : 42 + 19 + k1 % 65536 = (b1.take 42).length + ((header .Update (k1 % 65536)).length + k1 % 65536) := by
        rw [hl1, header_length]; omega
      rw [e1, take_add_append, take_add_append]
      simp
    rw [ht] at eb
    obtain ⟨-, eo⟩ := List.append_inj eb (by rw [hl1, peerHeaderWire_length])
    rw [← eo] at hu
    have hle := Nat.mod_le k1 65536
    obtain ⟨r1, -⟩ := embedded_back o1 (by omega) hu
    have hback : BgpUpdateMessage.new.decodeFrom (headerParams h) (t1.take (k1 % 65536)) = .ok x :=
      ((update_exactly .new (headerParams h) _).ok x).2 ⟨x.attrs, r1, rfl⟩
    have hk := update_whole e1 s1 hle hback
    rw [hk] at hback o1
    obtain ⟨c1, c2, c3, c4, c5, c6⟩ := (C93_messages (headerParams h) x).1 ⟨_, t1, k1, e1, hback⟩
    refine ⟨⟨c1, ?_⟩, ?_⟩
    · rw [c2, c3, c4]
    · have hw := update_writes (headerParams h) x c1 c5 (fits_of_total _ _ c6)
      have := (emits_ok (emits_of_writes hw) e1)
      obtain ⟨e2, -⟩ := this
      rw [e2] at o1
      exact o1
  · intro h
    obtain ⟨buf, buf', n, -, h1, h2⟩ := (C113_route_monitoring m).2 h
    exact ⟨buf, buf', n, trivial, h1, h2⟩

/-! ## More come back without overflow checks -/

private def octetsOf : Fate → Bytes
  | .sent q => q.map fun o => o.getD 0
  | _ => []

private def monitored (ls : List U32) : BmpMessageRouteMonitoring :=
  ⟨⟨0, 0, ⟨0, 0⟩, .v4 0x0a000001, 65001, 0x0a000001, 0⟩,
    ⟨.IPV4U [], .IPV4U [], [.MPWithdraws ⟨.EVPN [.evpn2 ⟨⟨1, 2⟩, 0, ⟨#v[1, 2, 3, 4, 5, 6, 7, 8, 9]⟩, 3, ⟨1, 2, 3, 4, 5, 6⟩,
      some (.v4 0x0a000001), ⟨ls⟩⟩]⟩]⟩⟩

/-- **C121**: a route-monitoring message comes back without overflow checks that does not come back with them: one that withdraws an
EVPN MAC route with eleven labels. -/
theorem C121_more : ∃ x, BmpBack x ∧ ¬ ComesBack x (fun _ => True) := by
  refine ⟨.RouteMonitoring (monitored (List.replicate 11 16)), ⟨trivial, ?_, ?_⟩, ?_⟩
  · refine ⟨⟨false, rfl, by simp [monitored, ItemsBack], ?_⟩, ⟨false, rfl, by simp [monitored, ItemsBack], ?_⟩, ?_, ⟨[], rfl, by decide⟩, ⟨octetsOf (attrsFate .release (headerParams (monitored (List.replicate 11 16)).peer) 0 (monitored (List.replicate 11 16)).update.attrs), by rfl, by decide⟩⟩
    · intro _ w hw
      rw [← octets_inj (w := []) hw]
      decide
    · intro _ w hw
      rw [← octets_inj (w := []) hw]
      decide
    · intro a ha
      obtain rfl := List.mem_singleton.1 ha
      refine ⟨.l2Evpn, false, rfl, ?_, by simp [hasAddPath]⟩
      intro x hx
      obtain rfl := List.mem_singleton.1 hx
      exact Or.inr ⟨by simp [LabelStackWF, stackEnding], by decide⟩
  · exact ⟨octetsOf (updateFate .release (headerParams (monitored (List.replicate 11 16)).peer) (monitored (List.replicate 11 16)).update), by rfl, by decide⟩
  · intro h
    obtain ⟨-, ⟨⟨-, -, h⟩, -⟩, -⟩ := (C113_route_monitoring_any_buffer _).1 h
    rcases ((h _ (List.mem_singleton.2 rfl)).1.1 _ (List.mem_singleton.2 rfl)).1 with h | ⟨-, h⟩
    · cases h
    · exact absurd h (by decide)

end Zbgp.Props
