import Verif.Lemmas.ReleaseBmpReads

/-! # C103: BMP messages as read without overflow checks -/

namespace Zbgp.Props

open Zbgp Spec BgpSessionParams

/-- **C103**, BMP messages: exactly what a build without overflow checks reads, where it crashes and that it ends; with
`BmpMessage::decode_from`, and with a session object after every history of messages. -/
theorem C103_bmp_read_exactly :
    (∀ b, Exactly (BmpMessage.decodeFromIn .release b) (WrapBmpRead (fun h p => p = headerParams h) b)
      (WrapBmpCrash (fun h p => p = headerParams h) b)) ∧
    ∀ hist b, Exactly ((afterRelease hist).decodeFromIn .release b).1 (WrapBmpRead (WrapParamsAfter hist) b)
      (WrapBmpCrash (WrapParamsAfter hist) b) :=
  ⟨w_bmp_exactly, w_after_exactly⟩

/-- a route monitoring message that withdraws a VPLS route with eleven labels -/
private def elevenMonitored : Bytes :=
  0 :: (List.replicate 42 0 ++ (List.replicate 16 255 ++ [0, 78, 2] ++ ([0, 0, 0, 55, 128, 15, 52, 0, 25, 65] ++
    ([0, 47, 0, 0, 0, 1, 0, 0, 0, 2, 0, 1, 0, 2, 0, 3] ++ (List.replicate 11 [0, 1, 0]).flatten))))
set_option maxRecDepth 8000 in
/-- non-vacuity: a build with checks crashes on it, one without reads it -/
example : BmpMessage.decodeFrom elevenMonitored = .panic ∧
    WrapBmpRead (fun h p => p = headerParams h) elevenMonitored
      (.RouteMonitoring ⟨⟨0, 0, ⟨0, 0⟩, .v4 0, 0, 0, 0⟩,
        ⟨.IPV4U [], .IPV4U [], [.MPWithdraws ⟨.L2VPLS [⟨⟨1, 2⟩, 1, 2, 3, ⟨List.replicate 11 16⟩⟩]⟩]⟩⟩) :=
  ⟨rfl, ((C103_bmp_read_exactly.1 elevenMonitored).ok _).1 rfl⟩
/-- a peer-down with a NOTIFICATION that announces five octets: 65522 are looked for -/
example : WrapBmpCrash (fun h p => p = headerParams h)
    (2 :: (List.replicate 42 0 ++ (1 :: (List.replicate 16 255 ++ [0, 5, 3, 6, 2])))) :=
  .inr (.inr (.inl ⟨⟨0, 0, ⟨0, 0⟩, .v4 0, 0, 0, 0⟩, 1, _, rfl, .inl rfl, 5, [6, 2], rfl, by decide, .inl (by decide)⟩))

/-- **C103**, a session object: a peer-down whose NOTIFICATION announces fewer than 19 octets crashes a checked build. Without
overflow checks it is read if 65517 octets more are behind it, whatever they are besides the first two, and then the session
of the peer is over. -/
theorem C103_peer_down_length_below_19 (s : BMPSession) (h : BmpMessagePeerHeader) (hd : Distinct h.peeraddress) (L : Nat)
    (hL : L < 19) (e sub : U8) (t : Bytes) (ht : L + 65515 ≤ t.length) :
    ∃ n : BgpNotificationMessage, n.errorCode = e ∧ n.errorSubcode = sub ∧
      (s.decodeFromIn .release (2 :: (peerHeaderWire h ++ 1 :: (announced .Notification L ++ e :: sub :: t)))) =
        (.ok (.PeerDownNotification ⟨h, .AdministrativelyClosed n⟩), ⟨BTree.remove (.ofPeer h) s.sessions⟩) ∧
      (s.decodeFrom (2 :: (peerHeaderWire h ++ 1 :: (announced .Notification L ++ e :: sub :: t)))).1 = .panic := by
  have hm : (L + 65517) % 65536 = L + 65517 := Nat.mod_eq_of_lt (by omega)
  obtain ⟨a, u, rfl, ha, -⟩ := exists_split (L + 65515) ht
  obtain ⟨v, hv, ev⟩ := exists_be 2 (show 2 ≤ a.length by omega)
  have hn : NotificationRead 0 (e :: sub :: a) ⟨e, sub, BitVec.ofNat 16 v⟩ := by
    refine .inr (.inr ⟨a.drop 2, ?_⟩)
    simp only [List.cons_append, List.nil_append, be2_ofNat]
    rw [← ev]
  have hr : WrapPeerDownIs (2 :: (peerHeaderWire h ++ 1 :: (announced .Notification L ++ e :: sub :: (a ++ u))))
      ⟨h, .AdministrativelyClosed ⟨e, sub, BitVec.ofNat 16 v⟩⟩ :=
    ⟨_, rfl, _, rfl, hd, .admin _ u _ ⟨L, e :: sub :: a, by simp, by omega, by simp; omega, hn⟩⟩
  refine ⟨⟨e, sub, BitVec.ofNat 16 v⟩, rfl, rfl, ?_, ?_⟩
  · refine Prod.ext ?_ (w_session_down s hr)
    obtain ⟨body, e1, h1⟩ := hr
    rw [e1]
    exact ((w_session_exactly s _).ok _).2 (.down _ _ h1)
  · refine (session_exactly s _).crash.2 (.inr (.inr (.inl ⟨h, 1, _, rfl, .inl rfl, L, .Notification, e :: sub :: (a ++ u), ?_, by omega, .inl hL⟩)))
    simp only [announced, List.append_assoc]

/-- non-vacuity: a length of zero, and 65515 further octets -/
example : ∃ t : Bytes, Distinct (.v4 0) ∧ 0 < 19 ∧ 0 + 65515 ≤ t.length :=
  ⟨List.replicate 65515 0, trivial, by decide, by rw [List.length_replicate]⟩

end Zbgp.Props
