import Verif.Lemmas.Left
import Verif.Props.Values
import Verif.Props.Messages

/-! # C106: what a decode that fails leaves in the message object -/

namespace Zbgp.Props

open Zbgp Spec

/-- **C106, the two models of `decode_from` agree.** A call of the model that returns the object after the call has the outcome
of the call of the model that returns the message, and if it succeeds the object is that message; so for UPDATE, OPEN and
NOTIFICATION. -/
theorem C106_same_outcome (p : BgpSessionParams) (buf : Bytes) :
    (∀ self : BgpUpdateMessage, self.decodeFrom p buf = ((self.decodeInto p buf).1 >>= fun _ => .ok (self.decodeInto p buf).2)) ∧
    (∀ self : BgpOpenMessage, self.decodeFrom buf = ((self.decodeInto buf).1 >>= fun _ => .ok (self.decodeInto buf).2)) ∧
    (∀ self : BgpNotificationMessage, self.decodeFrom buf = ((self.decodeInto buf).1 >>= fun _ => .ok (self.decodeInto buf).2)) :=
  ⟨fun self => of_fin (self.fin_decodeInto p buf), fun self => of_fin (self.fin_decodeInto buf),
    fun self => of_fin (self.fin_decodeInto buf)⟩

/-- **C106, UPDATE.** For every message and every object: if the call does not succeed, by an error or a panic, the object
afterwards is exactly the one that `UpdateLeft` says: the announced prefixes are those of before; if the withdrawn prefixes of
the message are read they replace those of before; and the attributes of the message up to the first one that is not read have
been put behind those of before. -/
theorem C106_update (self : BgpUpdateMessage) (p : BgpSessionParams) (buf : Bytes) (hfail : (self.decodeInto p buf).1 ≠ .ok ())
    (m : BgpUpdateMessage) : (self.decodeInto p buf).2 = m ↔ UpdateLeft p self buf m :=
  BgpUpdateMessage.left_iff self p buf m hfail

/-- non-vacuity: a message with a withdrawn prefix and two attributes of which the second has a value that is not read (an
ORIGIN without value); the first, an ORIGIN, stays in the object with the withdrawn prefix -/
example : ((⟨.IPV4U [⟨0x01000000, 8⟩], .None, [.LocalPref ⟨5⟩]⟩ : BgpUpdateMessage).decodeInto session32
    [0, 2, 8, 10, 0, 7, 0x40, 1, 1, 2, 0x40, 1, 0, 16, 1, 2]).1 ≠ .ok () ∧
  ((⟨.IPV4U [⟨0x01000000, 8⟩], .None, [.LocalPref ⟨5⟩]⟩ : BgpUpdateMessage).decodeInto session32
    [0, 2, 8, 10, 0, 7, 0x40, 1, 1, 2, 0x40, 1, 0, 16, 1, 2]).2 =
    ⟨.IPV4U [⟨0x01000000, 8⟩], .IPV4U [⟨0x0a000000, 8⟩], [.LocalPref ⟨5⟩, .Origin ⟨.Incomplete⟩]⟩ :=
  ⟨nofun, rfl⟩

/-- **C106, UPDATE objects used again.** If a call fails and the next call on the same object succeeds, the object has, before
the attributes `l` of the second message, those of before and those of the first message up to the first one that was not read.
Withdrawn and announced prefixes are those of the second message. -/
theorem C106_update_again (self : BgpUpdateMessage) (p : BgpSessionParams) (bad good : Bytes)
    (hfail : (self.decodeInto p bad).1 ≠ .ok ()) (hgood : ((self.decodeInto p bad).2.decodeInto p good).1 = .ok ()) :
    ∃ m l, UpdateLeft p self bad m ∧
      UpdateRead p good ((self.decodeInto p bad).2.decodeInto p good).2.withdraws l
        ((self.decodeInto p bad).2.decodeInto p good).2.updates ∧
      ((self.decodeInto p bad).2.decodeInto p good).2.attrs = m.attrs ++ l := by
  refine ⟨(self.decodeInto p bad).2, ?_⟩
  have h := (C106_same_outcome p good).1 (self.decodeInto p bad).2
  rw [hgood, Res.ok_bind] at h
  obtain ⟨l, h1, h2⟩ := ((C81_updates_read_exactly _ p good).ok _).1 h
  exact ⟨l, (C106_update self p bad hfail _).1 rfl, h1, h2⟩

/-- The announced prefixes never change, and no attribute that was there is lost, if the call fails. -/
theorem C106_update_keeps (self : BgpUpdateMessage) (p : BgpSessionParams) (buf : Bytes)
    (hfail : (self.decodeInto p buf).1 ≠ .ok ()) :
    (self.decodeInto p buf).2.updates = self.updates ∧ self.attrs <+: (self.decodeInto p buf).2.attrs := by
  have h := (C106_update self p buf hfail _).1 rfl
  generalize (self.decodeInto p buf).2 = m at h
  cases h with
  | untouched h => exact ⟨rfl, List.prefix_rfl⟩
  | withdraws => exact ⟨rfl, List.prefix_rfl⟩
  | attrs => exact ⟨rfl, List.prefix_append _ _⟩

/-- A program that goes on with a new object for each message, or whose calls all succeed, never sees this; one that goes on
with the object does: here the second message has one attribute, the object two. -/
theorem C106_update_not_unchanged : ∃ (p : BgpSessionParams) (bad good : Bytes),
    (BgpUpdateMessage.new.decodeInto p bad).1 ≠ .ok () ∧ (BgpUpdateMessage.new.decodeInto p bad).2 ≠ BgpUpdateMessage.new ∧
    ((BgpUpdateMessage.new.decodeInto p bad).2.decodeInto p good).1 = .ok () ∧
    ((BgpUpdateMessage.new.decodeInto p bad).2.decodeInto p good).2 ≠ (BgpUpdateMessage.new.decodeInto p good).2 := by
  refine ⟨session32, [0, 0, 0, 7, 0x40, 1, 1, 2, 0x40, 1, 0], [0, 0, 0, 4, 0x40, 1, 1, 0], nofun, ?_, rfl, ?_⟩
  · intro h
    have := congrArg (fun m => m.attrs.length) h
    revert this
    rw [show (BgpUpdateMessage.new.decodeInto session32
      [0, 0, 0, 7, 0x40, 1, 1, 2, 0x40, 1, 0]).2.attrs.length = 1 from rfl]
    nofun
  · intro h
    have := congrArg (fun m => m.attrs.length) h
    revert this
    rw [show ((BgpUpdateMessage.new.decodeInto session32
      [0, 0, 0, 7, 0x40, 1, 1, 2, 0x40, 1, 0]).2.decodeInto session32 [0, 0, 0, 4, 0x40, 1, 1, 0]).2.attrs.length = 2 from rfl,
      show (BgpUpdateMessage.new.decodeInto session32
        [0, 0, 0, 4, 0x40, 1, 1, 0]).2.attrs.length = 1 from rfl]
    nofun

/-- **C106, OPEN.** After every call, whatever its outcome, the object is exactly the one that `OpenLeft` says: unchanged if the
message is shorter than ten octets or not of version 4; otherwise nothing of the old contents is left, and the capabilities are
those up to the first thing that is not read. -/
theorem C106_open (self : BgpOpenMessage) (buf : Bytes) (m : BgpOpenMessage) :
    (self.decodeInto buf).2 = m ↔ OpenLeft self buf m :=
  BgpOpenMessage.left_iff self buf m

/-- non-vacuity: an OPEN whose second parameter is not one of capabilities -/
example : (⟨1, 2, 3, [.CapBFD]⟩ : BgpOpenMessage).decodeInto [4, 0xfd, 0xe9, 0, 180, 1, 1, 1, 1, 77, 2, 2, 2, 0, 1, 0] =
    (.err .dynStr, ⟨65001, 180, 0x01010101, [.CapRR]⟩) := by decide

/-- **C106, OPEN objects used again.** Whatever was decoded into an object before, with whatever outcome, a later call that
succeeds gives the same object as with a new one. -/
theorem C106_open_again (self self' : BgpOpenMessage) (good : Bytes) (hgood : (self.decodeInto good).1 = .ok ()) :
    self'.decodeInto good = self.decodeInto good := by
  have h := (C106_same_outcome (BgpSessionParams.new 0 0 .IPv4 0 []) good).2.1
  have h1 := h self
  rw [hgood, Res.ok_bind] at h1
  have h2 := ((C82_open self' good).ok _).2 (((C82_open self good).ok _).1 h1)
  rw [h self'] at h2
  obtain ⟨u, h3, h4⟩ := Res.bind_eq_ok.1 h2
  exact Prod.ext (h3.trans hgood.symm) (Res.ok.inj h4)

/-- non-vacuity -/
example : ((⟨1, 2, 3, [.CapBFD]⟩ : BgpOpenMessage).decodeInto [4, 0xfd, 0xe9, 0, 180, 1, 1, 1, 1, 0]).1 = .ok () := by decide

/-- **C106, NOTIFICATION.** A call that fails leaves the object unchanged. -/
theorem C106_notification (self : BgpNotificationMessage) (buf : Bytes) (hfail : (self.decodeInto buf).1 ≠ .ok ()) :
    (self.decodeInto buf).2 = self := by
  match buf with
  | [] => rfl
  | [a] => rfl
  | [a, b] => exact absurd rfl hfail
  | [a, b, c] => exact absurd rfl hfail
  | a :: b :: c :: d :: t =>
    refine absurd ?_ hfail
    unfold BgpNotificationMessage.decodeInto
    rw [if_neg (by simp)]
    simp [leave]

/-- non-vacuity -/
example : ((⟨6, 2, 7⟩ : BgpNotificationMessage).decodeInto [1]).1 ≠ .ok () := by decide

end Zbgp.Props
