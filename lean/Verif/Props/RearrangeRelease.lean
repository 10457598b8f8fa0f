import Verif.Lemmas.RearrangeRelease

/-!
# C126: without overflow checks, too, the parts of an UPDATE are read independently, and routes one by one

The counterpart of C15, C100 and C114 for builds without overflow checks. There the label stack of a route may be read beyond the
length that is announced for it; it is shown that this never reaches into what is read of the routes before and behind.
`AgreedPathIds` (Spec/Agreed.lean), `Joined`, `Begins` and `updateBytes` are specifications.
-/

namespace Zbgp.Props

open Spec

/-- **C126, one field behind the other.** If octets are read to their end as routes, and further octets are read as routes, then the
octets one behind the other are read as the routes one behind the other - *exactly* if the session takes all three to have path
identifiers or all not to (families without path identifiers: always). -/
theorem C126_joined_exactly (p : BgpSessionParams) (f : Family) (a b : Bytes) (x y : BgpAddrs) (m : Nat)
    (ha : BgpAddrs.decodeFromIn .release p (familyCode f).1 (familyCode f).2 a = .ok (x, a.length))
    (hb : BgpAddrs.decodeFromIn .release p (familyCode f).1 (familyCode f).2 b = .ok (y, m)) :
    (∃ z k, BgpAddrs.decodeFromIn .release p (familyCode f).1 (familyCode f).2 (a ++ b) = .ok (z, k) ∧ Joined x y z) ↔
      hasAddPath f = false ∨ AgreedPathIds p f a b := by
  have ha := ((w_addrs_exactly p f a).ok (x, _)).1 ha
  have hb := ((w_addrs_exactly p f b).ok (y, m)).1 hb
  constructor
  · rintro ⟨z, k, hz, hj⟩
    cases hf : hasAddPath f with
    | false => exact .inl rfl
    | true => exact .inr (w_addrs_agreed ha hb (((w_addrs_exactly p f _).ok (z, k)).1 hz) hj hf)
  · intro hf
    obtain ⟨z, h, hj⟩ := w_addrs_join ha rfl hb fun h => hf.elim (fun h' => by rw [h] at h'; cases h') id
    exact ⟨z, _, ((w_addrs_exactly p f _).ok (z, _)).2 h, hj⟩

/-- **C126, one field behind the other**, in sessions that do not guess at path identifiers: always, and the octets add up. -/
theorem C126_joined (p : BgpSessionParams) (hf : p.fuzzyPathid = false) (f : Family) (a b : Bytes) (x y : BgpAddrs) (m : Nat)
    (ha : BgpAddrs.decodeFromIn .release p (familyCode f).1 (familyCode f).2 a = .ok (x, a.length))
    (hb : BgpAddrs.decodeFromIn .release p (familyCode f).1 (familyCode f).2 b = .ok (y, m)) :
    ∃ z, BgpAddrs.decodeFromIn .release p (familyCode f).1 (familyCode f).2 (a ++ b) = .ok (z, a.length + m) ∧ Joined x y z := by
  obtain ⟨z, h, hj⟩ := w_addrs_join (((w_addrs_exactly p f a).ok (x, _)).1 ha) rfl (((w_addrs_exactly p f b).ok (y, m)).1 hb)
    fun _ => agreed_plain hf f a b
  exact ⟨z, ((w_addrs_exactly p f _).ok (z, _)).2 h, hj⟩

/-- **C126, cut off.** If octets are read as routes, and also with more octets behind them, then the routes of the first come first
among those of the second - exactly if the session takes both to have path identifiers or both not to. -/
theorem C126_cut_off_exactly (p : BgpSessionParams) (f : Family) (b t : Bytes) (x y : BgpAddrs) (n m : Nat)
    (h : BgpAddrs.decodeFromIn .release p (familyCode f).1 (familyCode f).2 b = .ok (x, n))
    (h' : BgpAddrs.decodeFromIn .release p (familyCode f).1 (familyCode f).2 (b ++ t) = .ok (y, m)) :
    Begins x y ↔ hasAddPath f = false ∨ AddPathExpected p (familyCode f) (b ++ t) = AddPathExpected p (familyCode f) b :=
  w_addrs_begins_iff (((w_addrs_exactly p f b).ok (x, n)).1 h) (((w_addrs_exactly p f (b ++ t)).ok (y, m)).1 h')

/-- **C126, each attribute by itself**: an UPDATE with attributes `rs` is read exactly if the message without attributes is, and each
attribute is by itself; it is read as what these are read as. -/
theorem C126_each_by_itself (p : BgpSessionParams) (w u : Bytes) (rs : List RawAttr) (m : BgpUpdateMessage)
    (hw : w.length ≤ 65535) (hr : ∀ r ∈ rs, RawWF r) (ha : (rs.flatMap rawWire).length ≤ 65535) :
    BgpUpdateMessage.new.decodeFromIn .release p (updateBytes w (rs.flatMap rawWire) u) = .ok m ↔
      BgpUpdateMessage.new.decodeFromIn .release p (updateBytes w [] u) = .ok { m with attrs := [] } ∧
      List.Forall₂ (fun r x => BgpAttrItem.decodeFromIn .release p r.code r.flags r.value.length r.value = .ok x) rs m.attrs := by
  rw [w_update_parts hw ha, w_update_parts hw (by simp), ← Rel.attrs_read_iff, ← map_ok_iff]
  constructor
  · rintro ⟨h1, ⟨rs', e, hr', h2⟩, h3⟩
    have := raws_inj hr hr' e
    subst this
    exact ⟨⟨h1, .nil, h3⟩, h2⟩
  · rintro ⟨⟨h1, -, h3⟩, h2⟩
    exact ⟨h1, ⟨rs, rfl, hr, h2⟩, h3⟩

/-- **C126, any order**: with its attributes in another order the message is read too, as the same attributes in another order and
the same routes. -/
theorem C126_any_order (p : BgpSessionParams) (w u : Bytes) (rs rs' : List RawAttr) (hp : rs.Perm rs') (m : BgpUpdateMessage)
    (hw : w.length ≤ 65535) (hr : ∀ r ∈ rs, RawWF r) (ha : (rs.flatMap rawWire).length ≤ 65535)
    (h : BgpUpdateMessage.new.decodeFromIn .release p (updateBytes w (rs.flatMap rawWire) u) = .ok m) :
    ∃ m', BgpUpdateMessage.new.decodeFromIn .release p (updateBytes w (rs'.flatMap rawWire) u) = .ok m' ∧
      m'.withdraws = m.withdraws ∧ m'.updates = m.updates ∧ m.attrs.Perm m'.attrs := by
  obtain ⟨h1, h2⟩ := (C126_each_by_itself p w u rs m hw hr ha).1 h
  obtain ⟨l, h3, h4⟩ := forall₂_perm hp h2
  refine ⟨{ m with attrs := l }, (C126_each_by_itself p w u rs' _ hw ?_ ?_).2 ⟨h1, h4⟩, rfl, rfl, h3⟩
  · exact fun r hr' => hr r (hp.mem_iff.2 hr')
  · rwa [← (hp.flatMap_right rawWire).length_eq]

/-- **C126, split**, in sessions that do not guess at path identifiers: a message with the routes `s₁` and `s₂` is read as the
messages with `s₁` and with `s₂` and the same attributes, and one that withdraws `s₁` and `s₂` as those that withdraw the one and the
other. -/
theorem C126_split (p : BgpSessionParams) (hf : p.fuzzyPathid = false) (a s₁ s₂ : Bytes) (ha : a.length ≤ 65535) (z : BgpAddrs)
    (hs : BgpAddrs.decodeFromIn .release p (familyCode (sessionFamily p)).1 (familyCode (sessionFamily p)).2 s₁ = .ok (z, s₁.length)) :
    (∀ (w : Bytes) (m₁ m₂ : BgpUpdateMessage), w.length ≤ 65535 →
      BgpUpdateMessage.new.decodeFromIn .release p (updateBytes w a s₁) = .ok m₁ →
      BgpUpdateMessage.new.decodeFromIn .release p (updateBytes [] a s₂) = .ok m₂ →
      ∃ m, BgpUpdateMessage.new.decodeFromIn .release p (updateBytes w a (s₁ ++ s₂)) = .ok m ∧ m.withdraws = m₁.withdraws ∧
        m.attrs = m₁.attrs ∧ m₂.attrs = m₁.attrs ∧ Joined m₁.updates m₂.updates m.updates) ∧
    (∀ (u : Bytes) (m₁ m₂ : BgpUpdateMessage), s₁.length + s₂.length ≤ 65535 →
      BgpUpdateMessage.new.decodeFromIn .release p (updateBytes s₁ [] []) = .ok m₁ →
      BgpUpdateMessage.new.decodeFromIn .release p (updateBytes s₂ a u) = .ok m₂ →
      ∃ m, BgpUpdateMessage.new.decodeFromIn .release p (updateBytes (s₁ ++ s₂) a u) = .ok m ∧ m.updates = m₂.updates ∧
        m.attrs = m₂.attrs ∧ Joined m₁.withdraws m₂.withdraws m.withdraws) := by
  constructor
  · intro w m₁ m₂ hw h1 h2
    obtain ⟨h3, h4, h5⟩ := (w_update_parts hw ha m₁).1 h1
    obtain ⟨-, h6, h7⟩ := (w_update_parts (by simp) ha m₂).1 h2
    obtain ⟨y, h8, h9⟩ := w_nlriIs_join hf hs h5 h7
    exact ⟨⟨y, m₁.withdraws, m₁.attrs⟩, (w_update_parts hw ha _).2 ⟨h3, h4, h8⟩, rfl, rfl, w_attrs_unique h6 h4, h9⟩
  · intro u m₁ m₂ hl h1 h2
    obtain ⟨h3, -, -⟩ := (w_update_parts (by omega) (by simp) m₁).1 h1
    obtain ⟨h5, h6, h7⟩ := (w_update_parts (by omega) ha m₂).1 h2
    obtain ⟨y, h8, h9⟩ := w_nlriIs_join hf hs h3 h5
    exact ⟨⟨m₂.updates, y, m₂.attrs⟩, (w_update_parts (by simpa using hl) ha _).2 ⟨h8, h6, h7⟩, rfl, rfl, h9⟩

/-- **C126, a message cut off**: if an UPDATE is read, and also with more octets behind it, then both withdraw the same and have the
same attributes; the routes announced by the first come first among those of the second (in sessions that do not guess). -/
theorem C126_update_cut_off (p : BgpSessionParams) (b t : Bytes) (m m' : BgpUpdateMessage)
    (h : BgpUpdateMessage.new.decodeFromIn .release p b = .ok m) (h' : BgpUpdateMessage.new.decodeFromIn .release p (b ++ t) = .ok m') :
    m.withdraws = m'.withdraws ∧ m.attrs = m'.attrs ∧ (p.fuzzyPathid = false → Begins m.updates m'.updates) := by
  obtain ⟨wb, ab, ub, rfl, hw, ha, h1, h2, n, h3⟩ := ((w_update_exactly p _).ok m).1 h
  have e : updateBytes wb ab ub ++ t = updateBytes wb ab (ub ++ t) := by simp [updateBytes]
  rw [e] at h'
  obtain ⟨h4, h5, n', h6⟩ := (w_update_parts hw ha m').1 h'
  exact ⟨w_nlriIs_inj h1 h4, w_attrs_unique h2 h5, fun hf => (w_addrs_begins_iff h3 h6).2 (.inr (expected_all hf _ _ _))⟩

/-! ## The hypotheses are met -/

/-- two prefixes one behind the other -/
example :
    let p : BgpSessionParams := { BgpSessionParams.new 64512 180 .IPv4 1 [] with fuzzyPathid := false }
    BgpAddrs.decodeFromIn .release p 1 1 [8, 10] = .ok (.IPV4U [⟨0x0a000000, 8⟩], 2) ∧
    BgpAddrs.decodeFromIn .release p 1 1 [8, 11] = .ok (.IPV4U [⟨0x0b000000, 8⟩], 2) ∧
    BgpAddrs.decodeFromIn .release p 1 1 ([8, 10] ++ [8, 11]) = .ok (.IPV4U [⟨0x0a000000, 8⟩, ⟨0x0b000000, 8⟩], 4) ∧
    BgpUpdateMessage.new.decodeFromIn .release p (updateBytes [] [] [8, 10]) = .ok ⟨.IPV4U [⟨0x0a000000, 8⟩], .IPV4U [], []⟩ :=
  ⟨rfl, rfl, rfl, rfl⟩

/-- a labeled prefix of eight bits with eleven labels, which a build with overflow checks stops at, and an ordinary one behind it -/
example :
    let p : BgpSessionParams := { BgpSessionParams.new 64512 180 .IPv4 1 [] with fuzzyPathid := false }
    let a : Bytes := 8 :: ((List.replicate 10 [0, 1, 0]).flatten ++ [0, 1, 1])
    let b : Bytes := [32, 0, 2, 1, 11]
    let x : List (Labeled BgpAddrV4) := [⟨⟨0, 0⟩, ⟨List.replicate 11 16⟩⟩]
    let y : List (Labeled BgpAddrV4) := [⟨⟨0x0b000000, 8⟩, ⟨[32]⟩⟩]
    BgpAddrs.decodeFrom p 1 4 a = .panic ∧
    BgpAddrs.decodeFromIn .release p 1 4 a = .ok (.IPV4LU x, a.length) ∧
    BgpAddrs.decodeFromIn .release p 1 4 b = .ok (.IPV4LU y, 5) ∧
    BgpAddrs.decodeFromIn .release p 1 4 (a ++ b) = .ok (.IPV4LU (x ++ y), a.length + 5) := by
  decide +kernel

/-- ORIGIN, MED and an unknown attribute, in two orders -/
example :
    let rs : List RawAttr := [⟨1, 0x40, [0]⟩, ⟨4, 0x80, [0, 0, 0, 5]⟩, ⟨99, 0xc0, [1, 2]⟩]
    let rs' : List RawAttr := [⟨99, 0xc0, [1, 2]⟩, ⟨1, 0x40, [0]⟩, ⟨4, 0x80, [0, 0, 0, 5]⟩]
    let p : BgpSessionParams := .new 64512 180 .IPv4 1 []
    rs.Perm rs' ∧ (∀ r ∈ rs, RawWF r) ∧
    BgpUpdateMessage.new.decodeFromIn .release p (updateBytes [8, 10] (rs.flatMap rawWire) [8, 11]) =
      .ok ⟨.IPV4U [⟨0x0b000000, 8⟩], .IPV4U [⟨0x0a000000, 8⟩], [.Origin ⟨.Igp⟩, .MED ⟨5⟩, .Unknown ⟨⟨99, 0xc0⟩, [1, 2]⟩]⟩ :=
  ⟨by decide, by simp [RawWF, maxValue]; decide, rfl⟩

/-- both sides of `C126_joined_exactly` occur: a session that guesses takes the first field to have path identifiers, the second not -/
example :
    let p : BgpSessionParams := .new 64512 180 .IPv4 1 []
    ¬ AgreedPathIds p .ipv4Unicast [0, 0, 0, 1, 8, 10] [8, 11] ∧ AgreedPathIds p .ipv4Unicast [8, 10] [8, 11] ∧
    BgpAddrs.decodeFromIn .release p 1 1 [0, 0, 0, 1, 8, 10] = .ok (.IPV4UP [⟨1, ⟨0x0a000000, 8⟩⟩], 6) ∧
    BgpAddrs.decodeFromIn .release p 1 1 [8, 11] = .ok (.IPV4U [⟨0x0b000000, 8⟩], 2) := by
  refine ⟨?_, ?_, rfl, rfl⟩
  · unfold AgreedPathIds; decide
  · unfold AgreedPathIds; decide

end Zbgp.Props
