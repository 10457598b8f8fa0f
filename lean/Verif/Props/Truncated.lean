import Verif.Lemmas.Truncated
import Verif.Props.Addrs

/-!
# What is read of a message that was cut off (C100)
-/

namespace Zbgp.Props

open Zbgp Zbgp.Spec

/-- **C100** for NLRI, in every session that does not guess at path identifiers, and in the others if five octets have arrived:
if octets are read, and they are read with more octets behind them, then the routes read first come first, unchanged. -/
theorem C100_collections_partial (p : BgpSessionParams) (f : Family) (b t : Bytes) (x y : BgpAddrs) (n m : Nat)
    (hf : p.fuzzyPathid = false ∨ 5 ≤ b.length)
    (h : BgpAddrs.decodeFrom p (familyCode f).1 (familyCode f).2 b = .ok (x, n))
    (h' : BgpAddrs.decodeFrom p (familyCode f).1 (familyCode f).2 (b ++ t) = .ok (y, m)) : Begins x y :=
  addrsRead_begins hf t (((addrs_exactly p f b).ok (x, n)).1 h) (((addrs_exactly p f (b ++ t)).ok (y, m)).1 h')

-- two of three prefixes
example : plainSession.fuzzyPathid = false ∧
    BgpAddrs.decodeFrom plainSession 1 1 [8, 10, 16, 10, 1] = .ok (.IPV4U [⟨0x0a000000, 8⟩, ⟨0x0a010000, 16⟩], 5) ∧
    BgpAddrs.decodeFrom plainSession 1 1 ([8, 10, 16, 10, 1] ++ [0]) = .ok (.IPV4U [⟨0x0a000000, 8⟩, ⟨0x0a010000, 16⟩, ⟨0, 0⟩], 6) := by
  refine ⟨rfl, ?_, ?_⟩ <;> decide +kernel

/-- **C100**, exactly, for NLRI in all sessions: it fails for the octets that are taken for prefixes without path identifiers
until more of them make them look like prefixes with path identifiers, and for no others. -/
theorem C100_collections_iff (p : BgpSessionParams) (f : Family) (b t : Bytes) (x y : BgpAddrs) (n m : Nat)
    (h : BgpAddrs.decodeFrom p (familyCode f).1 (familyCode f).2 b = .ok (x, n))
    (h' : BgpAddrs.decodeFrom p (familyCode f).1 (familyCode f).2 (b ++ t) = .ok (y, m)) :
    ¬ Begins x y ↔ hasAddPath f = true ∧ p.fuzzyPathid = true ∧ ReceivesAddPath p.caps (familyCode f) = false ∧
      b.length < 5 ∧ LooksAddPath (b ++ t) = true := by
  rw [addrsRead_begins_iff (((addrs_exactly p f b).ok (x, n)).1 h) (((addrs_exactly p f (b ++ t)).ok (y, m)).1 h')]
  unfold AddPathExpected
  constructor
  · intro hn
    simp only [not_or] at hn
    obtain ⟨h1, h2⟩ := hn
    have h3 : p.fuzzyPathid = true := by
      cases hp : p.fuzzyPathid
      · simp [hp] at h2
      · rfl
    have h4 : b.length < 5 := by
      by_contra h4
      exact h2 (expected_append (p := p) (b := b) (.inr (by omega)) (familyCode f) t)
    have h5 : LooksAddPath b = false := by simp [LooksAddPath]; omega
    refine ⟨by simpa using h1, h3, ?_, h4, ?_⟩
    · cases hr : ReceivesAddPath p.caps (familyCode f)
      · rfl
      · simp [hr] at h2
    · cases hl : LooksAddPath (b ++ t)
      · simp [hl, h5] at h2
      · rfl
  · rintro ⟨h1, h3, h2, h4, h6⟩
    have h5 : LooksAddPath b = false := by simp [LooksAddPath]; omega
    simp [h1, h2, h3, h5, h6]

/-- **C100 fails** in a session that guesses: of the octets of one route with a path identifier, the first is read as the default
route, which is not in the message. -/
theorem C100_guessing_fails :
    ∃ (p : BgpSessionParams) (b t : Bytes) (x y : BgpAddrs) (n m : Nat), BgpAddrs.decodeFrom p 1 1 b = .ok (x, n) ∧
      BgpAddrs.decodeFrom p 1 1 (b ++ t) = .ok (y, m) ∧ ¬ Begins x y :=
  ⟨{ plainSession with fuzzyPathid := true }, [0], [0, 0, 1, 8, 10], .IPV4U [⟨0, 0⟩], .IPV4UP [⟨1, ⟨0x0a000000, 8⟩⟩], 1, 6,
    by decide +kernel, by decide +kernel, id⟩

/-- **C100** for UPDATE: if a message is read, and also with more octets behind it, then both withdraw the same and have the same
attributes, and the routes the first announces come first among those the second announces. (In sessions that guess at path
identifiers: if five octets of announced routes have arrived.) So a message that was cut off before the announced routes is
refused unless it is complete. -/
theorem C100_update_partial (self : BgpUpdateMessage) (p : BgpSessionParams) (b t : Bytes) (m m' : BgpUpdateMessage)
    (hf : p.fuzzyPathid = false ∨ ∀ w a u, b = updateBytes w a u → w.length ≤ 65535 → a.length ≤ 65535 → 5 ≤ u.length)
    (h : self.decodeFrom p b = .ok m) (h' : self.decodeFrom p (b ++ t) = .ok m') :
    m.withdraws = m'.withdraws ∧ m.attrs = m'.attrs ∧ Begins m.updates m'.updates := by
  obtain ⟨l, h1, e⟩ := ((update_exactly self p b).ok m).1 h
  obtain ⟨l', h1', e'⟩ := ((update_exactly self p (b ++ t)).ok m').1 h'
  obtain ⟨f1, f2, f3⟩ := updateRead_begins hf h1 h1'
  exact ⟨f1, by rw [e, e', f2], f3⟩

-- an UPDATE with two prefixes, and its first ten octets
example :
    (BgpUpdateMessage.new.decodeFrom plainSession [0, 0, 0, 4, 0x40, 1, 1, 0, 8, 10]) = .ok ⟨.IPV4U [⟨0x0a000000, 8⟩], .IPV4U [], [.Origin ⟨.Igp⟩]⟩ ∧
    (BgpUpdateMessage.new.decodeFrom plainSession ([0, 0, 0, 4, 0x40, 1, 1, 0, 8, 10] ++ [8, 11])) =
      .ok ⟨.IPV4U [⟨0x0a000000, 8⟩, ⟨0x0b000000, 8⟩], .IPV4U [], [.Origin ⟨.Igp⟩]⟩ := by
  constructor <;> rfl

/-- **C100** for OPEN: if a message is read, and also with more octets behind it, then AS number, hold time and router id are the
same, and the capabilities of the first come first among those of the second. -/
theorem C100_open (self : BgpOpenMessage) (b t : Bytes) (m m' : BgpOpenMessage)
    (h : self.decodeFrom b = .ok m) (h' : self.decodeFrom (b ++ t) = .ok m') :
    m.asNum = m'.asNum ∧ m.holdTime = m'.holdTime ∧ m.routerId = m'.routerId ∧ m.caps <+: m'.caps :=
  openRead_begins ((open_iff self b m).1 h) ((open_iff self (b ++ t) m').1 h')

/-- An OPEN message that was cut off is accepted, although its length octet tells: behind any message that is read, the octets of
more capabilities may be missing. -/
theorem C100_open_cut (self : BgpOpenMessage) (as hold : U16) (rid : U32) (len : U8) (params more : Bytes) (m : BgpOpenMessage)
    (l : List BgpCapability) (hp : ParamsRead params l)
    (h : self.decodeFrom (be 1 4 ++ (be 2 as.toNat ++ (be 2 hold.toNat ++ (be 4 rid.toNat ++ (len :: (params ++ more)))))) = .ok m) :
    self.decodeFrom (be 1 4 ++ (be 2 as.toNat ++ (be 2 hold.toNat ++ (be 4 rid.toNat ++ (len :: params))))) =
      .ok { m with caps := l } := by
  have h2 := (open_iff self _ _).2 (show OpenRead (be 1 4 ++ (be 2 as.toNat ++ (be 2 hold.toNat ++ (be 4 rid.toNat ++ (len :: params)))))
    ⟨as.setWidth 32, hold, rid, l⟩ from ⟨as, len, params, rfl, by simp; omega, hp⟩)
  have h3 := C100_open self _ more _ m h2 (by simpa using h)
  rw [h2]
  obtain ⟨h4, h5, h6, -⟩ := h3
  dsimp only at h4 h5 h6
  rw [h4, h5, h6]

-- of two capabilities, in parameters of their own, one is lost
example : ParamsRead [2, 2, 2, 0] [.CapRR] ∧
    (BgpOpenMessage.decodeFrom ⟨0, 0, 0, []⟩ [4, 0xfd, 0xe9, 0, 180, 1, 1, 1, 1, 12, 2, 2, 2, 0, 2, 6, 65, 4, 0, 1, 0, 0]) =
      .ok ⟨65001, 180, 0x01010101, [.CapRR, .CapASN32 65536]⟩ ∧
    (BgpOpenMessage.decodeFrom ⟨0, 0, 0, []⟩ [4, 0xfd, 0xe9, 0, 180, 1, 1, 1, 1, 12, 2, 2, 2, 0]) =
      .ok ⟨65001, 180, 0x01010101, [.CapRR]⟩ :=
  ⟨.param [2, 0] [] [.CapRR] [] (by decide) (.cap 2 [] [] (some .CapRR) [] (by decide) .rr .done) (.done _ (by decide)),
    by decide +kernel, by decide +kernel⟩

/-- **C100 fails** for NOTIFICATION: of two octets of data, the first one alone is read as another number; for every number of 256
or more. -/
theorem C100_notification_fails (self : BgpNotificationMessage) (code sub : U8) (data : Nat) (h : 256 ≤ data) (h2 : data < 65536) :
    ∃ m m', self.decodeFrom (code :: sub :: be 1 (data / 256)) = .ok m ∧
      self.decodeFrom (code :: sub :: be 2 data) = .ok m' ∧ m'.data.toNat = data ∧ m.data ≠ m'.data := by
  have e1 := (notification_iff self (code :: sub :: be 1 (data / 256)) ⟨code, sub, BitVec.ofNat 16 (data / 256)⟩).2
    (.inr (.inl ⟨BitVec.ofNat 8 (data / 256), by simp [be], by simp; omega⟩))
  have e2 := (notification_iff self (code :: sub :: be 2 data) ⟨code, sub, BitVec.ofNat 16 data⟩).2
    (.inr (.inr ⟨[], by simp [Nat.mod_eq_of_lt h2]⟩))
  refine ⟨_, _, e1, e2, by simp; omega, fun e => ?_⟩
  have := congrArg BitVec.toNat e
  rw [BitVec.toNat_ofNat, BitVec.toNat_ofNat, Nat.mod_eq_of_lt (by omega), Nat.mod_eq_of_lt (by omega)] at this
  omega

end Zbgp.Props
