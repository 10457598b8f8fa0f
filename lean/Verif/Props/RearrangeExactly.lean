import Verif.Props.RearrangeRelease

/-!
# C15, C114 and C126: exactly when routes may be put one behind the other

In sessions that guess at path identifiers, as those made with `new` do, it can go wrong to put the routes of two messages into one.
Here it is said exactly when it does not: if the session takes the octets of both fields, and those of the one behind the other, to
have path identifiers or all not to.
-/

namespace Zbgp.Props

open Spec

/-- of the session it only matters whether path identifiers are expected -/
theorem addrsRead_session {p p' : BgpSessionParams} {f : Family} {b : Bytes} {x : BgpAddrs} {n : Nat} (h : AddrsRead p f b x n)
    (he : AddPathExpected p' (familyCode f) b = AddPathExpected p (familyCode f) b) : AddrsRead p' f b x n := by
  cases h <;> constructor <;> first | assumption | (rename_i ha h; exact Eq.trans he ha)

/-- a session that does not guess and expects path identifiers or not -/
def plainWith (f : Family) (e : Bool) : BgpSessionParams :=
  { BgpSessionParams.new 64512 180 .IPv4 1 [.CapAddPath [⟨(familyCode f).1, (familyCode f).2, true, e⟩]] with fuzzyPathid := false }

theorem plainWith_expected (f : Family) (e : Bool) (b : Bytes) : AddPathExpected (plainWith f e) (familyCode f) b = e := by
  cases f <;> cases e <;> rfl

theorem addrsRead_joined {p : BgpSessionParams} {f : Family} {a b : Bytes} {x y : BgpAddrs} {n m : Nat} (h : AddrsRead p f a x n)
    (hn : n = a.length) (h' : AddrsRead p f b y m) (hf : AgreedPathIds p f a b) :
    ∃ z, AddrsRead p f (a ++ b) z (n + m) ∧ Joined x y z := by
  have e := plainWith_expected f (AddPathExpected p (familyCode f) a)
  obtain ⟨z, h1, h2⟩ := addrsRead_join (p := plainWith f (AddPathExpected p (familyCode f) a)) rfl
    (addrsRead_session h (e a)) hn (addrsRead_session h' ((e b).trans hf.1.symm))
  exact ⟨z, addrsRead_session h1 (hf.2.trans (e _).symm), h2⟩

theorem addrsRead_agreed {p : BgpSessionParams} {f : Family} {a b : Bytes} {x y z : BgpAddrs} {n m k : Nat} (ha : AddrsRead p f a x n)
    (hb : AddrsRead p f b y m) (hc : AddrsRead p f (a ++ b) z k) (hj : Joined x y z) (hf : hasAddPath f = true) :
    AgreedPathIds p f a b := by
  unfold AgreedPathIds
  cases ha <;> first | (cases hf; done) | (cases hb <;> first | exact hj.elim | (cases hc <;> first | exact hj.elim | (constructor <;> simp_all [familyCode])))

/-- for families without path identifiers there is nothing to agree about -/
theorem addrsRead_joined_free {p : BgpSessionParams} {f : Family} {a b : Bytes} {x y : BgpAddrs} {n m : Nat} (h : AddrsRead p f a x n)
    (hn : n = a.length) (h' : AddrsRead p f b y m) (hf : hasAddPath f = false) :
    ∃ z, AddrsRead p f (a ++ b) z (n + m) ∧ Joined x y z := by
  have free : ∀ {p p' : BgpSessionParams} {b x n}, AddrsRead p f b x n → AddrsRead p' f b x n := by
    intro p p' b x n h
    cases h <;> first | (cases hf; done) | (constructor; assumption)
  obtain ⟨z, h1, h2⟩ := addrsRead_join (p := plainWith f true) rfl (free h) hn (free h')
  exact ⟨z, free h1, h2⟩

theorem addrsRead_joined_iff {p : BgpSessionParams} {f : Family} {a b : Bytes} {x y : BgpAddrs} {m : Nat}
    (h : AddrsRead p f a x a.length) (h' : AddrsRead p f b y m) :
    (∃ z k, AddrsRead p f (a ++ b) z k ∧ Joined x y z) ↔ hasAddPath f = false ∨ AgreedPathIds p f a b := by
  constructor
  · rintro ⟨z, k, hz, hj⟩
    cases hf : hasAddPath f with
    | false => exact .inl rfl
    | true => exact .inr (addrsRead_agreed h h' hz hj hf)
  · rintro (hf | hf)
    · obtain ⟨z, h1, h2⟩ := addrsRead_joined_free h rfl h' hf
      exact ⟨z, _, h1, h2⟩
    · obtain ⟨z, h1, h2⟩ := addrsRead_joined h rfl h' hf
      exact ⟨z, _, h1, h2⟩

/-- **C15**, decoding, for every family and every session: if octets are read to their end as routes, and further octets are read as
routes, then the octets one behind the other are read as the routes one behind the other exactly if the session takes all three to
have path identifiers or all not to. -/
theorem C15_families_exactly (p : BgpSessionParams) (f : Family) (a b : Bytes) (x y : BgpAddrs) (m : Nat)
    (ha : BgpAddrs.decodeFrom p (familyCode f).1 (familyCode f).2 a = .ok (x, a.length))
    (hb : BgpAddrs.decodeFrom p (familyCode f).1 (familyCode f).2 b = .ok (y, m)) :
    (∃ z k, BgpAddrs.decodeFrom p (familyCode f).1 (familyCode f).2 (a ++ b) = .ok (z, k) ∧ Joined x y z) ↔
      hasAddPath f = false ∨ AgreedPathIds p f a b := by
  rw [← addrsRead_joined_iff (((addrs_exactly p f a).ok (x, _)).1 ha) (((addrs_exactly p f b).ok (y, m)).1 hb)]
  exact ⟨fun ⟨z, k, h, hj⟩ => ⟨z, k, ((addrs_exactly p f _).ok (z, k)).1 h, hj⟩,
    fun ⟨z, k, h, hj⟩ => ⟨z, k, ((addrs_exactly p f _).ok (z, k)).2 h, hj⟩⟩

theorem session_addpath (p : BgpSessionParams) : hasAddPath (sessionFamily p) = true := by
  unfold sessionFamily
  cases p.peerMode <;> rfl

/-- **C114, split, in every session**: of a message with the routes `s₁` and one with the routes `s₂` and the same attributes, a
message with all the routes is read as both *exactly* if the session takes all three fields to have path identifiers or all not to. -/
theorem C114_split_exactly (p : BgpSessionParams) (a s₁ s₂ w : Bytes) (ha : a.length ≤ 65535) (hw : w.length ≤ 65535) (z : BgpAddrs)
    (hs : BgpAddrs.decodeFrom p (familyCode (sessionFamily p)).1 (familyCode (sessionFamily p)).2 s₁ = .ok (z, s₁.length))
    (m₁ m₂ : BgpUpdateMessage) (h₁ : BgpUpdateMessage.new.decodeFrom p (updateBytes w a s₁) = .ok m₁)
    (h₂ : BgpUpdateMessage.new.decodeFrom p (updateBytes [] a s₂) = .ok m₂) :
    (∃ m, BgpUpdateMessage.new.decodeFrom p (updateBytes w a (s₁ ++ s₂)) = .ok m ∧ m.withdraws = m₁.withdraws ∧
      m.attrs = m₁.attrs ∧ Joined m₁.updates m₂.updates m.updates) ↔ AgreedPathIds p (sessionFamily p) s₁ s₂ := by
  obtain ⟨h3, h4, h5⟩ := (update_parts hw ha m₁).1 h₁
  obtain ⟨-, h6, n, h7⟩ := (update_parts (by simp) ha m₂).1 h₂
  have hs := ((addrs_exactly p _ s₁).ok (z, _)).1 hs
  obtain rfl := nlriIs_inj h5 ⟨_, hs⟩
  have key := addrsRead_joined_iff hs h7
  rw [session_addpath] at key
  simp only [Bool.true_eq_false, false_or] at key
  rw [← key]
  constructor
  · rintro ⟨m, h, -, -, hj⟩
    obtain ⟨-, -, k, h8⟩ := (update_parts hw ha m).1 h
    exact ⟨_, k, h8, hj⟩
  · rintro ⟨y, k, h8, hj⟩
    exact ⟨⟨y, m₁.withdraws, m₁.attrs⟩, (update_parts hw ha _).2 ⟨h3, h4, k, h8⟩, rfl, rfl, hj⟩

/-- **C126, split, in every session.** -/
theorem C126_split_exactly (p : BgpSessionParams) (a s₁ s₂ w : Bytes) (ha : a.length ≤ 65535) (hw : w.length ≤ 65535) (z : BgpAddrs)
    (hs : BgpAddrs.decodeFromIn .release p (familyCode (sessionFamily p)).1 (familyCode (sessionFamily p)).2 s₁ = .ok (z, s₁.length))
    (m₁ m₂ : BgpUpdateMessage) (h₁ : BgpUpdateMessage.new.decodeFromIn .release p (updateBytes w a s₁) = .ok m₁)
    (h₂ : BgpUpdateMessage.new.decodeFromIn .release p (updateBytes [] a s₂) = .ok m₂) :
    (∃ m, BgpUpdateMessage.new.decodeFromIn .release p (updateBytes w a (s₁ ++ s₂)) = .ok m ∧ m.withdraws = m₁.withdraws ∧
      m.attrs = m₁.attrs ∧ Joined m₁.updates m₂.updates m.updates) ↔ AgreedPathIds p (sessionFamily p) s₁ s₂ := by
  obtain ⟨h3, h4, h5⟩ := (w_update_parts hw ha m₁).1 h₁
  obtain ⟨-, h6, n, h7⟩ := (w_update_parts (by simp) ha m₂).1 h₂
  have hs := ((w_addrs_exactly p _ s₁).ok (z, _)).1 hs
  obtain rfl := w_nlriIs_inj h5 ⟨_, hs⟩
  constructor
  · rintro ⟨m, h, -, -, hj⟩
    obtain ⟨-, -, k, h8⟩ := (w_update_parts hw ha m).1 h
    exact w_addrs_agreed hs h7 h8 hj (session_addpath p)
  · intro hf
    obtain ⟨y, h8, hj⟩ := w_addrs_join hs rfl h7 fun _ => hf
    exact ⟨⟨y, m₁.withdraws, m₁.attrs⟩, (w_update_parts hw ha _).2 ⟨h3, h4, _, h8⟩, rfl, rfl, hj⟩

/-- non-vacuity, in a session that guesses: fields that agree, and fields that do not -/
example :
    let p : BgpSessionParams := .new 64512 180 .IPv4 1 []
    BgpAddrs.decodeFrom p 1 1 [8, 10] = .ok (.IPV4U [⟨0x0a000000, 8⟩], 2) ∧
    BgpAddrs.decodeFrom p 1 1 [0, 0, 0, 1, 8, 10] = .ok (.IPV4UP [⟨1, ⟨0x0a000000, 8⟩⟩], 6) ∧
    BgpUpdateMessage.new.decodeFrom p (updateBytes [] [] [8, 10]) = .ok ⟨.IPV4U [⟨0x0a000000, 8⟩], .IPV4U [], []⟩ ∧
    BgpUpdateMessage.new.decodeFrom p (updateBytes [] [] [8, 11]) = .ok ⟨.IPV4U [⟨0x0b000000, 8⟩], .IPV4U [], []⟩ ∧
    BgpUpdateMessage.new.decodeFromIn .release p (updateBytes [] [] [8, 11]) = .ok ⟨.IPV4U [⟨0x0b000000, 8⟩], .IPV4U [], []⟩ ∧
    AgreedPathIds p (sessionFamily p) [8, 10] [8, 11] ∧ ¬ AgreedPathIds p (sessionFamily p) [0, 0, 0, 1, 8, 10] [8, 11] := by
  refine ⟨rfl, rfl, rfl, rfl, rfl, ?_, ?_⟩ <;> unfold AgreedPathIds <;> decide

end Zbgp.Props
