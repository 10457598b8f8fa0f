import Verif.Props.Bmp

/-! # C82: OPEN, NOTIFICATION and BMP messages are read exactly as specified -/

namespace Zbgp.Props

open Zbgp Spec

/-- **C82, OPEN.** The body of an OPEN message is read as a message exactly if it is one that `OpenRead` says, whatever was in
the object before; all other octets are refused with an error. -/
theorem C82_open (self : BgpOpenMessage) (b : Bytes) : Exactly (self.decodeFrom b) (OpenRead b) False where
  ok m := open_iff self b m
  crash := by
    have := C06_open_decode_total self b
    cases h : self.decodeFrom b <;> simp_all
  noHang := nh_open self b

/-- non-vacuity: an OPEN with two parameters, three capabilities of which one is ignored, and an octet at the end, which also
is; the length octet is wrong -/
example : OpenRead [4, 0xfd, 0xe9, 0, 180, 1, 1, 1, 1, 77, 2, 6, 65, 4, 0, 1, 0, 0, 2, 4, 2, 0, 200, 0, 0]
    ⟨65001, 180, 0x01010101, [.CapASN32 65536, .CapRR]⟩ := by
  refine ⟨65001, 77, [2, 6, 65, 4, 0, 1, 0, 0, 2, 4, 2, 0, 200, 0, 0], rfl, rfl, ?_⟩
  refine .param [65, 4, 0, 1, 0, 0] [2, 4, 2, 0, 200, 0, 0] [.CapASN32 65536] [.CapRR] (by decide) ?_ ?_
  · exact .cap 65 [0, 1, 0, 0] [] (some (.CapASN32 65536)) [] (by decide) (.asn32 65536) .done
  · refine .param [2, 0, 200, 0] [0] [.CapRR] [] (by decide) ?_ (.done _ (by decide))
    refine .cap 2 [] [200, 0] (some .CapRR) [] (by decide) .rr ?_
    exact .cap 200 [] [] none [] (by decide) (.other _ _ (by decide)) .done

/-- and one that is refused: version 3 -/
example : ¬ ∃ m, OpenRead [3, 0xfd, 0xe9, 0, 180, 1, 1, 1, 1, 0] m := by
  rintro ⟨m, as, len, params, h, -⟩
  cases h

/-- **C82, NOTIFICATION.** The body of a NOTIFICATION message is read exactly as `NotificationRead` says; all other octets are
refused with an error. -/
theorem C82_notification (self : BgpNotificationMessage) (b : Bytes) :
    Exactly (self.decodeFrom b) (NotificationRead self.data b) False where
  ok m := notification_iff self b m
  crash := by
    have := (C10_notification_total self self b).1
    cases h : self.decodeFrom b <;> simp_all
  noHang := nh_notif self b

/-- non-vacuity: without data, with one octet, with more than two -/
example : NotificationRead 7 [6, 2] ⟨6, 2, 7⟩ ∧ NotificationRead 7 [6, 2, 5] ⟨6, 2, 5⟩ ∧
    NotificationRead 7 [6, 2, 1, 0, 9] ⟨6, 2, 256⟩ :=
  ⟨.inl ⟨rfl, rfl⟩, .inr (.inl ⟨5, rfl, rfl⟩), .inr (.inr ⟨[9], rfl⟩)⟩

/-- **C82, BMP without a session.** A BMP message is read exactly as `BmpRead` says, with the session parameters of the
per-peer header, and crashes exactly if it is one of `BmpCrash`; all other octets are refused with an error. -/
theorem C82_bmp (b : Bytes) : Exactly (BmpMessage.decodeFrom b) (BmpRead (fun h p => p = headerParams h) b)
    (BmpCrash (fun h p => p = headerParams h) b) := bmp_exactly b

/-- **C82, BMP with a session.** After any history of messages the session reads a BMP message exactly as `BmpRead` says, with
the session parameters that the history determines, and crashes exactly if it is one of `BmpCrash`; all other octets are refused
with an error. -/
theorem C82_bmp_session (hist : List Bytes) (b : Bytes) :
    Exactly ((after hist).decodeFrom b).1 (BmpRead (ParamsAfter hist) b) (BmpCrash (ParamsAfter hist) b) := after_exactly hist b

/-- The parameters that a history determines are unique, and there always are some. -/
theorem C82_parameters_unique (hist : List Bytes) (h : BmpMessagePeerHeader) : ∃ p, ∀ q, ParamsAfter hist h q ↔ q = p :=
  ⟨_, paramsAfter_iff hist h⟩

/-- non-vacuity: a peer-up -/
example (P) : BmpRead P up4Bytes (.PeerUpNotification up4) := by
  obtain ⟨body, h, hr⟩ := up4_is
  rw [h]
  exact .up _ _ hr

/-- an initiation with two texts of type 2, of which the last counts, and one of an unknown type -/
example (P) : BmpRead P [4, 0, 2, 0, 1, 65, 0, 9, 0, 1, 65, 0, 2, 0, 2, 0xC3, 0xA9] (.Initiation ⟨none, none, some [0xC3, 0xA9]⟩) := by
  refine .initiation _ _ ⟨[(2, [65]), (9, [65]), (2, [0xC3, 0xA9])], rfl, ?_, rfl⟩
  simp only [List.forall_mem_cons, List.not_mem_nil, false_imp_iff, implies_true, and_true]
  refine ⟨⟨by decide, by decide, by decide⟩, ⟨by decide, by decide, by decide⟩, ⟨by decide, by decide, by decide⟩⟩

/-- a termination whose reason code has length 0: its two octets are those of the next information TLV -/
example (P) : BmpRead P [5, 0, 1, 0, 0, 0, 0, 0, 0] (.Termination ⟨some [], some 0⟩) := by
  refine .termination _ _ ?_
  have h1 : TerminationRead [0, 0, 0, 0] ⟨some [], none⟩ := .text [] [] ⟨none, none⟩ ⟨by decide, by decide⟩ (.done [] (by decide))
  exact .reason [] [0, 0, 0, 0] [0, 0] 0 ⟨some [], none⟩ (by decide) rfl h1

/-- the parameters after the peer-up `up4`, and those of a peer of which nothing is known -/
example : ParamsAfter [[1, 0], up4Bytes, []] peer4 (openParams open4) ∧ ParamsAfter [] peer4 (headerParams peer4) := by
  refine ⟨.inl ⟨up4, up4_last, rfl⟩, .inr ⟨?_, rfl⟩⟩
  rintro ⟨m, pre, b, post, h, -⟩
  cases pre <;> cases h

/-- a route monitoring message with an empty UPDATE -/
example : BmpRead (fun h p => p = headerParams h) (0 :: (peerHeaderWire peer4 ++ message .Update [0, 0, 0, 0]))
    (.RouteMonitoring ⟨peer4, ⟨.IPV4U [], .IPV4U [], []⟩⟩) := by
  rw [← bmp_read_iff]
  rfl

/-- and one whose UPDATE is cut off, which crashes -/
example : BmpCrash (fun h p => p = headerParams h) (0 :: (peerHeaderWire peer4 ++ (List.replicate 16 255 ++ [0, 23, 2, 0]))) := by
  refine .inr (.inl ⟨peer4, _, _, rfl, trivial, rfl, by decide, 23, .Update, [0], rfl, by decide, .inr ⟨rfl, .inl (by decide)⟩⟩)

end Zbgp.Props
