import Verif.Lemmas.Parse

/-!
# C91: exactly which texts are accepted
-/

namespace Zbgp.Props

open Spec Std

private theorem bind_mk {A B : Type} (o : Option A) (f : A → B) (g : B → A) (hg : ∀ b, f (g b) = b) (hf : ∀ a, g (f a) = a) (b : B) :
    (o.bind fun a => some (f a)) = some b ↔ o = some (g b) := by
  cases o with
  | none => simp
  | some a =>
    simp only [Option.bind_some, Option.some.injEq]
    constructor
    · rintro rfl; exact (hf a).symm
    · rintro rfl; exact hg b

/-- **C91**, addresses and prefixes: a text parses to a prefix if and only if it is one of the texts of this prefix. -/
theorem C91_prefix_texts (t : Txt) :
    (∀ x : BgpAddrV4, BgpAddrV4.parse t = some x ↔ PrefixText V4Text 32 t x.addr x.prefixlen) ∧
    (∀ x : BgpAddrV6, BgpAddrV6.parse t = some x ↔ PrefixText V6Text 128 t x.addr x.prefixlen) ∧
    (∀ m : MacAddress, MacAddress.parse t = some m ↔ MacText t m) ∧
    (∀ x : BgpAddrMac, BgpAddrMac.parse t = some x ↔ PrefixText MacText 48 t x.addr x.prefixlen) := by
  refine ⟨fun x => ?_, fun x => ?_, macText_iff t, fun x => ?_⟩
  · rw [← prefix_iff v4Text_iff 32 (by omega), ← bind_mk _ (fun p : IPv4 × U8 => (⟨p.1, p.2⟩ : BgpAddrV4))
      (fun x => (x.addr, x.prefixlen)) (fun _ => rfl) (fun _ => rfl)]
    unfold BgpAddrV4.parse
    rcases split (· = '/') t with _ | ⟨a, _ | ⟨b, l⟩⟩
    · exact Iff.rfl
    · cases h : parseV4 a <;> simp [h] <;> rfl
    · cases h : parseV4 a <;> simp [h]
  · rw [← prefix_iff v6Text_iff 128 (by omega), ← bind_mk _ (fun p : IPv6 × U8 => (⟨p.1, p.2⟩ : BgpAddrV6))
      (fun x => (x.addr, x.prefixlen)) (fun _ => rfl) (fun _ => rfl)]
    unfold BgpAddrV6.parse
    rcases split (· = '/') t with _ | ⟨a, _ | ⟨b, l⟩⟩
    · exact Iff.rfl
    · cases h : parseV6 a <;> simp [h] <;> rfl
    · cases h : parseV6 a <;> simp [h]
  · rw [← prefix_iff macText_iff 48 (by omega), ← bind_mk _ (fun p : MacAddress × U8 => (⟨p.1, p.2⟩ : BgpAddrMac))
      (fun x => (x.addr, x.prefixlen)) (fun _ => rfl) (fun _ => rfl)]
    unfold BgpAddrMac.parse
    rcases split (· = '/') t with _ | ⟨a, _ | ⟨b, l⟩⟩
    · exact Iff.rfl
    · cases h : MacAddress.parse a <;> simp [h] <;> rfl
    · cases h : MacAddress.parse a <;> simp [h]

/-- Texts of a network of unknown kind: IPv4 if it can be, else IPv6, else MAC. -/
def NetText (t : Txt) : BgpNet → Prop
  | .V4 x => PrefixText V4Text 32 t x.addr x.prefixlen
  | .V6 x => (¬ ∃ a p, PrefixText V4Text 32 t a p) ∧ PrefixText V6Text 128 t x.addr x.prefixlen
  | .MAC x => (¬ ∃ a p, PrefixText V4Text 32 t a p) ∧ (¬ ∃ a p, PrefixText V6Text 128 t a p) ∧
      PrefixText MacText 48 t x.addr x.prefixlen

/-- **C91**, networks of unknown kind and MDT prefixes. -/
theorem C91_net_texts (t : Txt) :
    (∀ x : BgpNet, BgpNet.parse t = some x ↔ NetText t x) ∧
    (∀ x : BgpMdtV4, BgpMdtV4.parse t = some x ↔
      ∃ a g, Parts '@' t [a, g] ∧ PrefixText V4Text 32 a x.addr.addr x.addr.prefixlen ∧ V4Text g x.group) ∧
    (∀ x : BgpMdtV6, BgpMdtV6.parse t = some x ↔
      ∃ a g, Parts '@' t [a, g] ∧ PrefixText V6Text 128 a x.addr.addr x.addr.prefixlen ∧ V6Text g x.group) := by
  refine ⟨fun x => ?_, fun x => ?_, fun x => ?_⟩
  · obtain ⟨h4, h6, -, hm⟩ := C91_prefix_texts t
    have n4 : BgpAddrV4.parse t = none ↔ ¬ ∃ a p, PrefixText V4Text 32 t a p := by
      constructor
      · rintro h ⟨a, p, hp⟩
        rw [(h4 ⟨a, p⟩).2 hp] at h; cases h
      · intro h
        cases hq : BgpAddrV4.parse t with
        | none => rfl
        | some y => exact (h ⟨_, _, (h4 y).1 hq⟩).elim
    have n6 : BgpAddrV6.parse t = none ↔ ¬ ∃ a p, PrefixText V6Text 128 t a p := by
      constructor
      · rintro h ⟨a, p, hp⟩
        rw [(h6 ⟨a, p⟩).2 hp] at h; cases h
      · intro h
        cases hq : BgpAddrV6.parse t with
        | none => rfl
        | some y => exact (h ⟨_, _, (h6 y).1 hq⟩).elim
    cases x with
    | V4 x =>
      simp only [NetText]
      rw [← h4, BgpNet.parse]
      cases BgpAddrV4.parse t with
      | some y => simp
      | none => cases BgpAddrV6.parse t with
        | some y => simp
        | none => cases BgpAddrMac.parse t <;> simp
    | V6 x =>
      simp only [NetText]
      rw [← h6, ← n4, BgpNet.parse]
      cases BgpAddrV4.parse t with
      | some y => simp
      | none => cases BgpAddrV6.parse t with
        | some y => simp
        | none => cases BgpAddrMac.parse t <;> simp
    | MAC x =>
      simp only [NetText]
      rw [← hm, ← n4, ← n6, BgpNet.parse]
      cases BgpAddrV4.parse t with
      | some y => simp
      | none => cases BgpAddrV6.parse t with
        | some y => simp
        | none => cases BgpAddrMac.parse t <;> simp
  · unfold BgpMdtV4.parse
    constructor
    · intro h
      split at h
      · rename_i a b hs
        simp only [Option.bind_eq_bind, Option.bind_eq_some_iff, Option.some.injEq] at h
        obtain ⟨y, h1, g, h2, rfl⟩ := h
        exact ⟨a, b, (split_iff _ _ _).1 hs, ((C91_prefix_texts a).1 _).1 h1, (v4Text_iff _ _).1 h2⟩
      · cases h
    · rintro ⟨a, g, h1, h2, h3⟩
      rw [(split_iff _ _ _).2 h1]
      simp only [((C91_prefix_texts a).1 x.addr).2 h2, (v4Text_iff g x.group).2 h3, Option.bind_eq_bind, Option.bind_some]
  · unfold BgpMdtV6.parse
    constructor
    · intro h
      split at h
      · rename_i a b hs
        simp only [Option.bind_eq_bind, Option.bind_eq_some_iff, Option.some.injEq] at h
        obtain ⟨y, h1, g, h2, rfl⟩ := h
        exact ⟨a, b, (split_iff _ _ _).1 hs, ((C91_prefix_texts a).2.1 _).1 h1, (v6Text_iff _ _).1 h2⟩
      · cases h
    · rintro ⟨a, g, h1, h2, h3⟩
      rw [(split_iff _ _ _).2 h1]
      simp only [((C91_prefix_texts a).2.1 x.addr).2 h2, (v6Text_iff g x.group).2 h3, Option.bind_eq_bind, Option.bind_some]

/-- **C91**, route distinguishers. -/
theorem C91_rd_texts (t : Txt) (r : BgpRD) : BgpRD.parse t = some r ↔ RdText t r := by
  unfold BgpRD.parse RdText
  have hu : ∀ l, Parts ':' t l ↔ l = split (· = ':') t := fun l => by rw [← split_iff, eq_comm]
  simp only [hu, exists_eq_left]
  obtain ⟨rh, rl⟩ := r
  cases hs : split (· = ':') t with
  | nil => simp
  | cons x l =>
    cases l with
    | nil =>
      simp only [Option.bind_eq_bind, Option.bind_eq_some_iff, Option.some.injEq, BgpRD.mk.injEq, ← parseU_iff]
      constructor
      · rintro ⟨y, h1, rfl, rfl⟩; exact ⟨h1, rfl⟩
      · rintro ⟨h1, rfl⟩; exact ⟨_, h1, rfl, rfl⟩
    | cons y l =>
      simp only [Option.bind_eq_bind, Option.bind_eq_some_iff, Option.some.injEq, BgpRD.mk.injEq, ← parseU_iff]
      constructor
      · rintro ⟨_, h1, _, h2, rfl, rfl⟩; exact ⟨h1, h2⟩
      · rintro ⟨h1, h2⟩; exact ⟨_, h1, _, h2, rfl, rfl⟩

/-- non-vacuity of C91 for networks and route distinguishers; further parts of a text are not looked at -/
example : BgpNet.parse "10.0.0.0".toList = some (.V4 ⟨0x0a000000, 32⟩) ∧ BgpNet.parse "2001:DB8::/+032".toList =
      some (.V6 ⟨0x20010db8000000000000000000000000, 32⟩) ∧ BgpNet.parse "::1.2.3.4".toList = some (.V6 ⟨0x01020304, 128⟩) ∧
    BgpRD.parse "1:2:x".toList = some ⟨1, 2⟩ ∧ BgpRD.parse "7".toList = some ⟨7, 0⟩ := by decide

/-- **C91**, communities: a name of a well-known one, a number, or two numbers; white space around them is ignored, white
space around names is not. -/
theorem C91_community_texts (t : Txt) (c : BgpCommunity) : BgpCommunity.parse t = some c ↔ CommunityText t c :=
  communityText_iff t c

/-- **C91**, lists of communities: every text is accepted; the communities read are those that a part of the text between
separators stands for. -/
theorem C91_list_texts (t : Txt) : ∃ l, BgpCommunityList.parse t = some ⟨l⟩ ∧ Ascending communityNumber l ∧
    ∀ c, c ∈ l ↔ ∃ before part after, t = before ++ part ++ after ∧ (∀ x ∈ part, x ∉ listSeparators) ∧
      (∀ x ∈ before.getLast?, x ∈ listSeparators) ∧ (∀ x ∈ after.head?, x ∈ listSeparators) ∧ CommunityText part c := by
  refine ⟨_, rfl, setOf_ascending community_order _, fun c => ?_⟩
  rw [setOf_mem community_order, List.mem_filterMap]
  have hp (x : Char) : (decide (x = ',') || decide (x = ' ') || decide (x = '\t')) = true ↔ x ∈ listSeparators := by
    simp [listSeparators, or_assoc]
  have hq (x : Char) : (decide (x = ',') || decide (x = ' ') || decide (x = '\t')) = false ↔ x ∉ listSeparators := by
    rw [← hp, Bool.not_eq_true]
  simp only [split_mem, hp, hq, communityText_iff]
  constructor
  · rintro ⟨u, ⟨a, b, h1, h2, h3, h4⟩, h5⟩; exact ⟨a, u, b, h1, h2, h3, h4, h5⟩
  · rintro ⟨a, u, b, h1, h2, h3, h4, h5⟩; exact ⟨u, ⟨a, b, h1, h2, h3, h4⟩, h5⟩

/-- non-vacuity of C91 for communities -/
example : BgpCommunity.parse "\t65000:1 ".toList = some ⟨0xfde80001⟩ ∧ BgpCommunity.parse " nopeer".toList = none ∧
    BgpCommunityList.parse "1:2,x nopeer".toList = some ⟨[⟨0x10002⟩, ⟨0xffffff04⟩]⟩ := by decide

/-- No text stands for two values. -/
theorem C91_texts_unambiguous (t : Txt) :
    (∀ a b p q, PrefixText V4Text 32 t a p → PrefixText V4Text 32 t b q → a = b ∧ p = q) ∧
    (∀ a b p q, PrefixText V6Text 128 t a p → PrefixText V6Text 128 t b q → a = b ∧ p = q) ∧
    (∀ a b, V6Text t a → V6Text t b → a = b) ∧ (∀ a b, RdText t a → RdText t b → a = b) ∧
    (∀ a b, CommunityText t a → CommunityText t b → a = b) := by
  obtain ⟨h4, h6, -, -⟩ := C91_prefix_texts t
  refine ⟨fun a b p q h1 h2 => ?_, fun a b p q h1 h2 => ?_, fun a b h1 h2 => ?_, fun a b h1 h2 => ?_, fun a b h1 h2 => ?_⟩
  · have := Option.some.inj (((h4 ⟨a, p⟩).2 h1).symm.trans ((h4 ⟨b, q⟩).2 h2)); simpa using this
  · have := Option.some.inj (((h6 ⟨a, p⟩).2 h1).symm.trans ((h6 ⟨b, q⟩).2 h2)); simpa using this
  · exact Option.some.inj (((v6Text_iff t a).2 h1).symm.trans ((v6Text_iff t b).2 h2))
  · exact Option.some.inj (((C91_rd_texts t a).2 h1).symm.trans ((C91_rd_texts t b).2 h2))
  · exact Option.some.inj (((C91_community_texts t a).2 h1).symm.trans ((C91_community_texts t b).2 h2))

end Zbgp.Props
