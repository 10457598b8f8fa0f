import Verif.Lemmas.Peers
import Verif.Props.Bmp

/-!
# C124: the messages of other peers do not matter for how a peer's messages are read

A monitoring station reads the messages about all peers of a router with one session object, which keeps a table between them.
`peerOctets` (Spec/Peers.lean) are the 24 octets of a message that say which peer it is about. The property is stated for all octet
sequences, not only for those that are messages: garbage, truncated messages and messages on which the decoder stops are part of a
history like all others.
-/

namespace Zbgp.Props

open Spec

/-- **C124.** Read any history with a new session object, and keep what the messages about one peer were read as: the same comes out as
when only the messages about this peer had been read. -/
theorem C124_one_peer (k : Bytes) (hist : List Bytes) :
    (readAll .default hist).filter (fun r => peerOctets r.1 == k) = readAll .default (hist.filter fun b => peerOctets b == k) :=
  readAll_filter k hist

/-- **C124, every interleaving.** Two histories with the same messages about a peer, in the same order, however many others there are
and however they are mixed: these messages are read as the same. -/
theorem C124_interleavings (k : Bytes) (hist hist' : List Bytes)
    (h : hist.filter (fun b => peerOctets b == k) = hist'.filter fun b => peerOctets b == k) :
    (readAll .default hist).filter (fun r => peerOctets r.1 == k) = (readAll .default hist').filter fun r => peerOctets r.1 == k := by
  rw [C124_one_peer, C124_one_peer, h]

/-- **C124, the next message.** What a message is read as after a history is what it is read as after the messages about its own peer. -/
theorem C124_next (hist : List Bytes) (b : Bytes) :
    ((after hist).decodeFrom b).1 = ((after (hist.filter fun a => peerOctets a == peerOctets b)).decodeFrom b).1 :=
  session_congr fun x n c t e hx => by
    subst e
    rw [(header_octets (c := c) hx).2]
    exact (params_filter hist x).symm

/-- **C124, without overflow checks.** -/
theorem C124_one_peer_release (k : Bytes) (hist : List Bytes) :
    (readAllRelease .default hist).filter (fun r => peerOctets r.1 == k) =
      readAllRelease .default (hist.filter fun b => peerOctets b == k) :=
  readAllRelease_filter k hist

/-- **C124, every interleaving, without overflow checks.** -/
theorem C124_interleavings_release (k : Bytes) (hist hist' : List Bytes)
    (h : hist.filter (fun b => peerOctets b == k) = hist'.filter fun b => peerOctets b == k) :
    (readAllRelease .default hist).filter (fun r => peerOctets r.1 == k) =
      (readAllRelease .default hist').filter fun r => peerOctets r.1 == k := by
  rw [C124_one_peer_release, C124_one_peer_release, h]

/-- **C124: which octets are the peer's.** In a message that begins with a peer header, the octets are those of the distinguisher and
of the address and nothing else; two headers with different peers have different octets, as long as no IPv6 address is written like
an IPv4 address. So type, flags, AS number and router id of a peer do *not* set it apart: messages about peers that differ only in
these are read with the same parameters. -/
theorem C124_octets (c c' : U8) (h h' : BmpMessagePeerHeader) (t t' : Bytes) (hd : Distinct h.peeraddress) (hd' : Distinct h'.peeraddress) :
    peerOctets (c :: (peerHeaderWire h ++ t)) = peerOctets (c' :: (peerHeaderWire h' ++ t')) ↔
      h.peerdistinguisher = h'.peerdistinguisher ∧ h.peeraddress = h'.peeraddress := by
  rw [peerOctets_header, peerOctets_header]
  exact ⟨keyOctets_inj hd hd', fun ⟨h1, h2⟩ => by rw [h1, h2]⟩

/-- another peer of the router -/
def peer9 : BmpMessagePeerHeader := { peer4 with peeraddress := .v4 0x0a000009 }

/-- non-vacuity: the peer down message of another peer, and garbage, between the messages of a peer are left out, and only they -/
example (rest : Bytes) :
    let rm : Bytes := 0 :: (peerHeaderWire peer4 ++ rest)
    let k := peerOctets rm
    [up4Bytes, 2 :: peerDownWire ⟨peer9, .Remote⟩, [9, 9], rm].filter (fun b => peerOctets b == k) = [up4Bytes, rm] := by
  intro rm k
  have h1 : peerOctets up4Bytes = k :=
    (peerOctets_header 3 up4.peer _).trans (peerOctets_header 0 peer4 rest).symm
  have hk : k = keyOctets peer4.peerdistinguisher peer4.peeraddress := peerOctets_header 0 peer4 rest
  have h2 : peerOctets (2 :: peerDownWire ⟨peer9, .Remote⟩) ≠ k := by rw [hk]; decide
  have h3 : peerOctets [9, 9] ≠ k := by rw [hk]; decide
  rw [List.filter_cons_of_pos (by simp [h1]), List.filter_cons_of_neg (by simpa using h2), List.filter_cons_of_neg (by simpa using h3),
    List.filter_cons_of_pos (by simp [k]), List.filter_nil]

/-- non-vacuity: what the peer itself sent before does matter: the parameters differ with and without its peer-up message -/
example : (after [up4Bytes]).params peer4 ≠ (after []).params peer4 := by
  have h : LastUp [up4Bytes] peer4.peerdistinguisher peer4.peeraddress up4 :=
    ⟨[], up4Bytes, [], rfl, up4_is, ⟨rfl, rfl⟩, by simp⟩
  rw [(params_after [up4Bytes] peer4).1 up4 (by rw [lastUpDec_eq]; exact h)]
  decide

/-- non-vacuity of `C124_octets`: a peer of another type, with other flags, AS number and router id, is the same peer; `peer9` is not -/
example : Distinct peer4.peeraddress ∧ Distinct peer9.peeraddress ∧ peer4.peeraddress ≠ peer9.peeraddress ∧
    peerOctets (0 :: (peerHeaderWire peer4 ++ [])) = peerOctets (0 :: (peerHeaderWire { peer4 with peertype := 1, asnum := 7 } ++ [])) :=
  ⟨trivial, trivial, by decide, (C124_octets 0 0 peer4 { peer4 with peertype := 1, asnum := 7 } _ _ trivial trivial).2 ⟨rfl, rfl⟩⟩

end Zbgp.Props
