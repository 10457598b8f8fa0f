import Verif.Lemmas.Resync
import Verif.Props.Peers

/-!
# C125: a monitoring station that joined late, or lost messages, is in step again with the next peer-up or peer-down of a peer

`after h` is the session object of a station that has read the history `h`, `readAll` what it reads next (Spec/Bmp.lean,
Spec/Peers.lean). `PeerUpIs b m`, `PeerDownIs b m` say of the octets alone that they are a peer-up or a peer-down.
-/

namespace Zbgp.Props

open Spec

/-- **C125, in step.** Two stations, whatever each has read before: from a peer-up or peer-down that both read, they read all
messages about its peer alike, whatever else follows. -/
theorem C125_in_step (h h' : List Bytes) (b : Bytes) (hb : (∃ m, PeerUpIs b m) ∨ ∃ m, PeerDownIs b m) (rest : List Bytes) :
    (readAll (after (h ++ [b])) rest).filter (fun r => peerOctets r.1 == peerOctets b) =
      (readAll (after (h' ++ [b])) rest).filter fun r => peerOctets r.1 == peerOctets b :=
  reads_congr (f := fun x => peerOctets x == peerOctets b) (fun x hd n c t hx e hh m => by
    have ha := about_of hb e hh (by simpa using hx)
    rw [lastUp_concat', lastUp_concat']
    simp only [ha, not_true, false_and, or_false]) rest

/-- **C125, forgotten.** After the peer-down of a peer its messages are read as by a station that has read nothing. -/
theorem C125_forgotten (h : List Bytes) (b : Bytes) (m : BmpMessagePeerDown) (hb : PeerDownIs b m) (rest : List Bytes) :
    (readAll (after (h ++ [b])) rest).filter (fun r => peerOctets r.1 == peerOctets b) =
      (readAll .default rest).filter fun r => peerOctets r.1 == peerOctets b :=
  reads_congr (h' := []) (f := fun x => peerOctets x == peerOctets b) (fun x hd n c t hx e hh u => by
    have ha := about_of (.inr ⟨m, hb⟩) e hh (by simpa using hx)
    rw [lastUp_concat']
    constructor
    · rintro (⟨h1, -⟩ | ⟨h1, -⟩)
      · exact (up_not_down h1 hb).elim
      · exact absurd ha h1
    · rintro ⟨pre, _, post, e', -⟩
      cases pre <;> cases e') rest

/-- **C125, lost.** A message that is no peer-up and no peer-down - route monitoring, statistics, initiation, garbage, a message on
which the decoder stops or fails - may be lost or repeated: all that follows, about all peers, is read alike. -/
theorem C125_lost (h : List Bytes) (b : Bytes) (hu : ¬ ∃ m, PeerUpIs b m) (hd : ¬ ∃ m, PeerDownIs b m) (rest : List Bytes) :
    readAll (after (h ++ [b])) rest = readAll (after h) rest := by
  have := reads_congr (h := h ++ [b]) (h' := h) (f := fun _ => true) (fun x hdr n c t _ _ _ m => by
    rw [lastUp_concat']
    have hn : ¬ About hdr.peerdistinguisher hdr.peeraddress b := by
      rintro (⟨m, h1, -⟩ | ⟨m, h1, -⟩)
      · exact hu ⟨m, h1⟩
      · exact hd ⟨m, h1⟩
    exact ⟨fun h => h.elim (fun h => absurd ⟨m, h.1⟩ hu) (fun h => h.2), fun h => .inr ⟨hn, h⟩⟩) rest
  rwa [filter_true, filter_true] at this

/-- **C125, repeated.** A message that is read twice in a row leaves the station as if it had been read once. -/
theorem C125_repeated (h : List Bytes) (b : Bytes) (rest : List Bytes) :
    readAll (after (h ++ [b] ++ [b])) rest = readAll (after (h ++ [b])) rest := by
  have := reads_congr (h := h ++ [b] ++ [b]) (h' := h ++ [b]) (f := fun _ => true) (fun x hdr n c t _ _ _ m => by
    rw [lastUp_concat', lastUp_concat']
    tauto) rest
  rwa [filter_true, filter_true] at this

/-- **C125, order.** Two messages next to each other that are about different peers may change places. -/
theorem C125_swapped (h : List Bytes) (a b : Bytes) (hab : peerOctets a ≠ peerOctets b) (rest : List Bytes) :
    readAll (after (h ++ [a] ++ [b])) rest = readAll (after (h ++ [b] ++ [a])) rest := by
  have := reads_congr (h := h ++ [a] ++ [b]) (h' := h ++ [b] ++ [a]) (f := fun _ => true) (fun x hdr n c t _ _ _ m => by
    simp only [lastUp_concat']
    have hn : ¬ (About hdr.peerdistinguisher hdr.peeraddress a ∧ About hdr.peerdistinguisher hdr.peeraddress b) :=
      fun ⟨h1, h2⟩ => hab ((about_octets h1).trans (about_octets h2).symm)
    have h1 : PeerUpIs a m ∧ OfPeer hdr.peerdistinguisher hdr.peeraddress m.peer → About hdr.peerdistinguisher hdr.peeraddress a :=
      fun h => .inl ⟨m, h⟩
    have h2 : PeerUpIs b m ∧ OfPeer hdr.peerdistinguisher hdr.peeraddress m.peer → About hdr.peerdistinguisher hdr.peeraddress b :=
      fun h => .inl ⟨m, h⟩
    tauto) rest
  rwa [filter_true, filter_true] at this

/-- **C125, in step, without overflow checks.** -/
theorem C125_in_step_release (h h' : List Bytes) (b : Bytes) (hb : (∃ m, WrapPeerUpIs b m) ∨ ∃ m, WrapPeerDownIs b m)
    (rest : List Bytes) :
    (readAllRelease (afterRelease (h ++ [b])) rest).filter (fun r => peerOctets r.1 == peerOctets b) =
      (readAllRelease (afterRelease (h' ++ [b])) rest).filter fun r => peerOctets r.1 == peerOctets b :=
  w_reads_congr (f := fun x => peerOctets x == peerOctets b) (fun x hd n c t hx e hh m => by
    have ha := w_about_of hb e hh (by simpa using hx)
    rw [w_lastUp_concat, w_lastUp_concat]
    simp only [ha, not_true, false_and, or_false]) rest

/-- **C125, forgotten, without overflow checks.** -/
theorem C125_forgotten_release (h : List Bytes) (b : Bytes) (m : BmpMessagePeerDown) (hb : WrapPeerDownIs b m) (rest : List Bytes) :
    (readAllRelease (afterRelease (h ++ [b])) rest).filter (fun r => peerOctets r.1 == peerOctets b) =
      (readAllRelease .default rest).filter fun r => peerOctets r.1 == peerOctets b :=
  w_reads_congr (h' := []) (f := fun x => peerOctets x == peerOctets b) (fun x hd n c t hx e hh u => by
    have ha := w_about_of (.inr ⟨m, hb⟩) e hh (by simpa using hx)
    rw [w_lastUp_concat]
    constructor
    · rintro (⟨h1, -⟩ | ⟨h1, -⟩)
      · exact (w_up_not_down h1 hb).elim
      · exact absurd ha h1
    · rintro ⟨pre, _, post, e', -⟩
      cases pre <;> cases e') rest

/-- **C125, lost, without overflow checks.** -/
theorem C125_lost_release (h : List Bytes) (b : Bytes) (hu : ¬ ∃ m, WrapPeerUpIs b m) (hd : ¬ ∃ m, WrapPeerDownIs b m)
    (rest : List Bytes) :
    readAllRelease (afterRelease (h ++ [b])) rest = readAllRelease (afterRelease h) rest := by
  have := w_reads_congr (h := h ++ [b]) (h' := h) (f := fun _ => true) (fun x hdr n c t _ _ _ m => by
    rw [w_lastUp_concat]
    have hn : ¬ WrapAbout hdr.peerdistinguisher hdr.peeraddress b := by
      rintro (⟨m, h1, -⟩ | ⟨m, h1, -⟩)
      · exact hu ⟨m, h1⟩
      · exact hd ⟨m, h1⟩
    exact ⟨fun h => h.elim (fun h => absurd ⟨m, h.1⟩ hu) (fun h => h.2), fun h => .inr ⟨hn, h⟩⟩) rest
  rwa [filter_true, filter_true] at this

/-- **C125, repeated and swapped, without overflow checks.** -/
theorem C125_repeated_release (h : List Bytes) (b : Bytes) (rest : List Bytes) :
    readAllRelease (afterRelease (h ++ [b] ++ [b])) rest = readAllRelease (afterRelease (h ++ [b])) rest := by
  have := w_reads_congr (h := h ++ [b] ++ [b]) (h' := h ++ [b]) (f := fun _ => true) (fun x hdr n c t _ _ _ m => by
    rw [w_lastUp_concat, w_lastUp_concat]
    tauto) rest
  rwa [filter_true, filter_true] at this

theorem C125_swapped_release (h : List Bytes) (a b : Bytes) (hab : peerOctets a ≠ peerOctets b) (rest : List Bytes) :
    readAllRelease (afterRelease (h ++ [a] ++ [b])) rest = readAllRelease (afterRelease (h ++ [b] ++ [a])) rest := by
  have := w_reads_congr (h := h ++ [a] ++ [b]) (h' := h ++ [b] ++ [a]) (f := fun _ => true) (fun x hdr n c t _ _ _ m => by
    simp only [w_lastUp_concat]
    have hn : ¬ (WrapAbout hdr.peerdistinguisher hdr.peeraddress a ∧ WrapAbout hdr.peerdistinguisher hdr.peeraddress b) :=
      fun ⟨h1, h2⟩ => hab ((w_about_octets h1).trans (w_about_octets h2).symm)
    have h1 : WrapPeerUpIs a m ∧ OfPeer hdr.peerdistinguisher hdr.peeraddress m.peer →
        WrapAbout hdr.peerdistinguisher hdr.peeraddress a := fun h => .inl ⟨m, h⟩
    have h2 : WrapPeerUpIs b m ∧ OfPeer hdr.peerdistinguisher hdr.peeraddress m.peer →
        WrapAbout hdr.peerdistinguisher hdr.peeraddress b := fun h => .inl ⟨m, h⟩
    tauto) rest
  rwa [filter_true, filter_true] at this

/-- non-vacuity: `up4Bytes` is a peer-up, and the octets of a peer-down of the same peer are a peer-down -/
example : (∃ m, PeerUpIs up4Bytes m) ∧ PeerDownIs (2 :: peerDownWire ⟨peer4, .Remote⟩) ⟨peer4, .Remote⟩ ∧
    peerOctets up4Bytes = peerOctets (2 :: peerDownWire ⟨peer4, .Remote⟩) ∧
    peerOctets up4Bytes ≠ peerOctets (2 :: peerDownWire ⟨peer9, .Remote⟩) := by
  refine ⟨⟨up4, up4_is⟩, ⟨_, rfl, _, rfl, trivial, .remote []⟩, ?_, ?_⟩
  · rw [show peerOctets up4Bytes = keyOctets peer4.peerdistinguisher peer4.peeraddress from peerOctets_header 3 up4.peer _]
    decide
  · rw [show peerOctets up4Bytes = keyOctets peer4.peerdistinguisher peer4.peeraddress from peerOctets_header 3 up4.peer _]
    decide

/-- non-vacuity: a route monitoring message is neither; a message cut off within the peer header is neither -/
example : (∀ t, ¬ ∃ m, PeerUpIs (0 :: t) m) ∧ (∀ t, ¬ ∃ m, PeerDownIs (0 :: t) m) ∧ ¬ ∃ m, PeerUpIs [3, 0, 0] m := by
  refine ⟨?_, ?_, ?_⟩
  · rintro t ⟨m, _, e, -⟩; cases e
  · rintro t ⟨m, _, e, -⟩; cases e
  · rintro ⟨m, body, e, opens, r1, r2, e2, -⟩
    cases e
    have := congrArg List.length e2
    simp [peerHeaderWire_length] at this
    omega

/-- a peer-up that is lost does matter: without it the peer's messages are read with other parameters -/
example : (after ([] ++ [up4Bytes])).params peer4 ≠ (after []).params peer4 := by
  have h : LastUp [up4Bytes] peer4.peerdistinguisher peer4.peeraddress up4 :=
    ⟨[], up4Bytes, [], rfl, up4_is, ⟨rfl, rfl⟩, by simp⟩
  rw [List.nil_append, (params_after [up4Bytes] peer4).1 up4 (by rw [lastUpDec_eq]; exact h)]
  decide

end Zbgp.Props
