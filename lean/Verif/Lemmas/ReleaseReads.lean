import Verif.Lemmas.ReleaseMsg
import Verif.Lemmas.Reads
import Verif.Spec.Release

/-! # Exactness of the readers without overflow checks -/

namespace Zbgp

open Spec

theorem toNat_wrapSub (bits : U8) (k : Nat) : (bits - BitVec.ofNat 8 k).toNat = wrapSub bits.toNat k := by
  have := bits.isLt
  rw [BitVec.toNat_sub, BitVec.toNat_ofNat, wrapSub]
  omega

theorem extractLoopIn_be (f : Nat) (bits : U8) (v : Nat) (hv : v < 2 ^ 24) (b : Bytes) (hb : 0 < bits.toNat) :
    MplsLabels.extractLoopIn .release (f + 1) bits (be 3 v ++ b) =
      if EndsStack v then .ok ([BitVec.ofNat 32 (v / 16)], 3)
      else (do
        let (ls, n) ← MplsLabels.extractLoopIn .release f (bits - 24) b
        .ok (BitVec.ofNat 32 (v / 16) :: ls, 3 + n)) := by
  rw [be3_eq]
  simp only [List.cons_append, List.nil_append, MplsLabels.extractLoopIn]
  rw [if_pos (by omega)]
  simp only [idx_cons_zero, idx_cons_succ, Res.ok_bind, labelVal_be v hv, Build.sub]
  have hl : (BitVec.ofNat 32 (v / 16) = 524288 ∨ BitVec.ofNat 32 (v / 16) = 0 ∨ BitVec.ofNat 32 (v / 16) = 2 ∨
      BitVec.ofNat 32 (v / 16) = 3) ↔ v / 16 ∈ stackEnding := by
    simp only [stackEnding, List.mem_cons, List.not_mem_nil, or_false]
    have key : ∀ k, k < 2 ^ 32 → (BitVec.ofNat 32 (v / 16) = BitVec.ofNat 32 k ↔ v / 16 = k) := by
      intro k hk
      constructor
      · intro h
        have := congrArg BitVec.toNat h
        simp only [BitVec.toNat_ofNat] at this
        omega
      · intro h; rw [h]
    have a := key 524288 (by decide)
    have b := key 0 (by decide)
    have c := key 2 (by decide)
    have d := key 3 (by decide)
    constructor
    · rintro (h | h | h | h)
      · exact .inr (.inr (.inr (a.1 h)))
      · exact .inl (b.1 h)
      · exact .inr (.inl (c.1 h))
      · exact .inr (.inr (.inl (d.1 h)))
    · rintro (h | h | h | h)
      · exact .inr (.inl (b.2 h))
      · exact .inr (.inr (.inl (c.2 h)))
      · exact .inr (.inr (.inr (d.2 h)))
      · exact .inl (a.2 h)
  have hbit : ((BitVec.ofNat 8 v &&& 1 : U8) != 0) = true ↔ v % 2 = 1 := by
    rw [bne_iff_ne, ne_eq, ← BitVec.toNat_inj, BitVec.toNat_and, show (1 : U8).toNat = 2 ^ 1 - 1 from rfl,
      Nat.and_two_pow_sub_one_eq_mod, BitVec.toNat_ofNat, show (0 : U8).toNat = 0 from rfl]
    omega
  by_cases h1 : v / 16 ∈ stackEnding
  · rw [if_pos (hl.2 h1), if_pos (.inr h1)]
  · rw [if_neg (fun h => h1 (hl.1 h))]
    by_cases h2 : v % 2 = 1
    · rw [if_pos (hbit.2 h2), if_pos (.inl h2)]
    · rw [if_neg (fun h => h2 (hbit.1 h)), if_neg (fun h => h.elim h2 h1)]
      rfl

theorem extractLoopIn_short (m : Build) (f : Nat) (bits : U8) (b : Bytes) (h0 : 0 < bits.toNat) (h : b.length < 3) :
    MplsLabels.extractLoopIn m (f + 1) bits b = .panic := by
  rw [MplsLabels.extractLoopIn, if_pos h0]
  match b with
  | [] => simp
  | [_] => simp
  | [_, _] => simp
  | b0 :: b1 :: b2 :: t => simp only [List.length_cons] at h; omega

theorem wrapLabels_total (b : Bytes) : ∀ n, (∃ ls k, WrapLabels n b ls k) ∨ WrapLabelsCrash n b := by
  induction hl : b.length using Nat.strongRecOn generalizing b with
  | ind l ih =>
    intro n
    by_cases h0 : n = 0
    · subst h0; exact .inl ⟨_, _, .done b⟩
    · by_cases h : b.length < 3
      · exact .inr (.short n b (by omega) h)
      · obtain ⟨v, hv, e⟩ := exists_be3 (b := b) (by omega)
        by_cases he : EndsStack v
        · rw [e]; exact .inl ⟨_, _, .last _ v _ hv (by omega) he⟩
        · rcases ih (b.drop 3).length (by simp; omega) (b.drop 3) rfl (wrapSub n 24) with ⟨ls, k, h1⟩ | h1
          · rw [e]; exact .inl ⟨_, _, .more _ v _ ls k hv (by omega) he h1⟩
          · rw [e]; exact .inr (.more _ v _ hv (by omega) he h1)

theorem extractLoopIn_exactly (f : Nat) (bits : U8) (b : Bytes) (hf : b.length < f) :
    Exactly (MplsLabels.extractLoopIn .release f bits b) (fun y => WrapLabels bits.toNat b y.1 y.2)
      (WrapLabelsCrash bits.toNat b) := by
  have hread : ∀ (n : Nat) (b : Bytes) (ls : List U32) (k : Nat), WrapLabels n b ls k →
      ∀ (f : Nat) (bits : U8), bits.toNat = n → b.length < f →
        MplsLabels.extractLoopIn .release f bits b = .ok (ls, k) := by
    intro n b ls k h
    induction h with
    | done b =>
      intro f bits hn hf
      obtain ⟨f, rfl⟩ : ∃ g, f = g + 1 := ⟨f - 1, by omega⟩
      rw [MplsLabels.extractLoopIn, if_neg (by omega)]
    | last n v b hv hb he =>
      intro f bits hn hf
      obtain ⟨f, rfl⟩ : ∃ g, f = g + 1 := ⟨f - 1, by omega⟩
      rw [extractLoopIn_be f bits v hv b (by omega), if_pos he]
    | more n v b ls k hv hb he _ ih =>
      intro f bits hn hf
      obtain ⟨f, rfl⟩ : ∃ g, f = g + 1 := ⟨f - 1, by omega⟩
      rw [extractLoopIn_be f bits v hv b (by omega), if_neg he,
        ih f (bits - 24) (by rw [show (24 : U8) = BitVec.ofNat 8 24 from rfl, toNat_wrapSub, hn])
          (by simp at hf; omega)]
      rfl
  have hcrash : ∀ (n : Nat) (b : Bytes), WrapLabelsCrash n b →
      ∀ (f : Nat) (bits : U8), bits.toNat = n → b.length < f → MplsLabels.extractLoopIn .release f bits b = .panic := by
    intro n b h
    induction h with
    | short n b h0 h =>
      intro f bits hn hf
      obtain ⟨f, rfl⟩ : ∃ g, f = g + 1 := ⟨f - 1, by omega⟩
      exact extractLoopIn_short _ f bits b (by omega) (by omega)
    | more n v b hv hb he _ ih =>
      intro f bits hn hf
      obtain ⟨f, rfl⟩ : ∃ g, f = g + 1 := ⟨f - 1, by omega⟩
      rw [extractLoopIn_be f bits v hv b (by omega), if_neg he,
        ih f (bits - 24) (by rw [show (24 : U8) = BitVec.ofNat 8 24 from rfl, toNat_wrapSub, hn])
          (by simp at hf; omega)]
      rfl
  refine .of_cases (fun y h => hread _ _ _ _ h f bits rfl hf) (fun h => hcrash _ _ h f bits rfl hf) ?_
  rcases wrapLabels_total b bits.toNat with ⟨ls, k, h⟩ | h
  · exact .inl ⟨(ls, k), h⟩
  · exact .inr (.inl h)

theorem wrapLabels_exactly (bits : U8) (b : Bytes) :
    Exactly (MplsLabels.extractBitsIn .release bits b) (fun y => WrapLabels bits.toNat b y.1.labels y.2)
      (WrapLabelsCrash bits.toNat b) := by
  have h := (extractLoopIn_exactly (b.length + 1) bits b (by omega)).map fun y => ((⟨y.1⟩ : MplsLabels), y.2)
  refine h.congr (fun y => ⟨?_, fun hy => ⟨(y.1.labels, y.2), hy, rfl⟩⟩) Iff.rfl
  rintro ⟨⟨ls, k⟩, h1, rfl⟩; exact h1

theorem wrapLabels_le {bits : Nat} {b : Bytes} {ls : List U32} {k : Nat} (h : WrapLabels bits b ls k) :
    k ≤ b.length := by
  induction h with
  | done b => simp
  | last bits v b hv hb he => simp
  | more bits v b ls n hv hb he hr ih => simp; omega

/-! ## Prefixes -/

/-- A prefix type whose reader without overflow checks reads and crashes on exactly what `WrapReads` says. -/
class WrapExact (T : Type) [BgpItemIn T] [WrapReads T] : Prop where
  exact : ∀ (bits : U8) (b : Bytes), Exactly (BgpItemIn.extractBits .release bits b)
    (fun y : T × Nat => WrapReads.Read bits.toNat b y.1 y.2) (WrapReads.Crash T bits.toNat b)

theorem release_of_checked {T : Type} [BgpItem T] [PrefixReads T] [PrefixExact T] [BgpItemIn T] [ItemBuilds T]
    {bits : U8} {b : Bytes} {C : Prop}
    (h : PrefixReads.Crash T bits.toNat b → (C ∧ BgpItemIn.extractBits (T := T) .release bits b = .panic) ∨
      (¬ C ∧ (BgpItemIn.extractBits (T := T) .release bits b).IsErr)) (hc : C → PrefixReads.Crash T bits.toNat b) :
    Exactly (BgpItemIn.extractBits (T := T) .release bits b) (fun y => PrefixReads.Read bits.toNat b y.1 y.2) C := by
  have hx := PrefixExact.exact (T := T) bits b
  have hs : BgpItem.extractBits (T := T) bits b = .panic ∨
      BgpItemIn.extractBits (T := T) .release bits b = BgpItem.extractBits bits b := ItemBuilds.bsimExtract bits b
  by_cases hp : BgpItem.extractBits (T := T) bits b = .panic
  · have hcr := hx.crash.1 hp
    have hn : ∀ y : T × Nat, ¬ PrefixReads.Read bits.toNat b y.1 y.2 := fun y hy => by
      have := (hx.ok y).2 hy; rw [hp] at this; cases this
    rcases h hcr with ⟨h1, h2⟩ | ⟨h1, h2⟩
    · exact .of_cases (fun y hy => absurd hy (hn y)) (fun _ => h2) (.inr (.inl h1))
    · exact .of_cases (fun y hy => absurd hy (hn y)) (fun h => absurd h h1) (.inr (.inr h2))
  · have hs := hs.resolve_left hp
    rw [hs]
    have hnc : ¬ PrefixReads.Crash T bits.toNat b := fun h => hp (hx.crash.2 h)
    exact hx.congr (fun _ => Iff.rfl) ⟨fun h => absurd h hnc, fun h => absurd (hc h) hnc⟩

instance : WrapExact BgpAddrV4 where
  exact bits b := release_of_checked (fun h => .inr ⟨id, by
    have h' : 249 ≤ bits.toNat := h
    simp only [BgpItemIn.extractBits, BgpAddrV4.fromBitsIn, Build.add, Res.ok_bind]
    rw [if_pos (.inl (by omega))]; trivial⟩) False.elim

instance : WrapExact BgpAddrV6 where
  exact bits b := release_of_checked (fun h => .inr ⟨id, by
    have h' : 249 ≤ bits.toNat := h
    simp only [BgpItemIn.extractBits, BgpAddrV6.fromBitsIn, Build.add, Res.ok_bind]
    rw [if_pos (.inl (by omega))]; trivial⟩) False.elim

theorem mdt4_release (bits : U8) (b : Bytes) :
    BgpItemIn.extractBits (T := BgpMdtV4) .release bits b = BgpItem.extractBits bits b := by
  simp only [BgpItem.extractBits, BgpItemIn.extractBits]
  by_cases h : 32 ≤ bits.toNat ∧ bits.toNat ≤ 128
  · rw [if_neg (not_not.2 h), if_neg (not_not.2 h)]
    by_cases h2 : bits.toNat = 32
    · rw [if_pos h2, if_pos h2]
    · have hs : (bits - 32).toNat = bits.toNat - 32 := by
        rw [BitVec.toNat_sub_of_le (by rw [BitVec.le_def]; simpa using h.1)]; rfl
      rw [if_neg h2, if_neg h2, subC_ok (by simpa using h.1)]
      simp only [Build.sub, Build.add, Res.ok_bind]
      rw [addC_ok (by rw [hs]; change _ + 7 < 256; omega)]
      simp only [Res.ok_bind]
  · rw [if_pos h, if_pos h]

theorem mdt6_release (bits : U8) (b : Bytes) :
    BgpItemIn.extractBits (T := BgpMdtV6) .release bits b = BgpItem.extractBits bits b := by
  simp only [BgpItem.extractBits, BgpItemIn.extractBits]
  by_cases h : 128 ≤ bits.toNat ∧ bits.toNat ≤ 254
  · rw [if_neg (not_not.2 h), if_neg (not_not.2 h)]
    by_cases h2 : bits.toNat = 128
    · rw [if_pos h2, if_pos h2]
    · have hs : (bits - 128).toNat = bits.toNat - 128 := by
        rw [BitVec.toNat_sub_of_le (by rw [BitVec.le_def]; simpa using h.1)]; rfl
      rw [if_neg h2, if_neg h2, subC_ok (by simpa using h.1)]
      simp only [Build.sub, Build.add, Res.ok_bind]
      rw [addC_ok (by rw [hs]; change _ + 7 < 256; omega)]
      simp only [Res.ok_bind]
  · rw [if_pos h, if_pos h]

instance : WrapExact BgpMdtV4 where
  exact bits b := by rw [mdt4_release]; exact PrefixExact.exact bits b

instance : WrapExact BgpMdtV6 where
  exact bits b := by rw [mdt6_release]; exact PrefixExact.exact bits b

instance {T : Type} [BgpItemIn T] [WrapReads T] [WrapExact T] : WrapExact (Labeled T) where
  exact bits b := by
    have key := (wrapLabels_exactly bits b).bind
      (f := fun y => (do
        let left ← Build.release.sub bits (BitVec.ofNat 8 (y.2 * 8))
        let z ← BgpItemIn.extractBits .release left (← rfrom b y.2)
        .ok (⟨z.1, y.1⟩, y.2 + z.2) : Res (Labeled T × Nat)))
      (R' := fun y z => ∃ w : T × Nat, WrapReads.Read (wrapSub bits.toNat (8 * y.2)) (b.drop y.2) w.1 w.2 ∧
        z = (⟨w.1, y.1⟩, y.2 + w.2))
      (C' := fun y => WrapReads.Crash T (wrapSub bits.toNat (8 * y.2)) (b.drop y.2)) (by
        rintro ⟨ls, k⟩ hk
        have := wrapLabels_le hk
        simp only [Build.sub] at this ⊢
        rw [Nat.mul_comm, Res.ok_bind, rfrom_ok this, Res.ok_bind, ← toNat_wrapSub]
        exact (WrapExact.exact (T := T) _ _).map _)
    refine key.congr ?_ ?_
    · rintro ⟨⟨p, ls⟩, n⟩
      constructor
      · rintro ⟨⟨ls', k⟩, hk, ⟨p', m⟩, hp, he⟩
        simp only [Prod.mk.injEq, Labeled.mk.injEq] at he
        obtain ⟨⟨rfl, rfl⟩, rfl⟩ := he
        exact ⟨k, m, hk, hp, rfl⟩
      · rintro ⟨k, m, hk, hp, hn⟩
        simp only at hn hk hp
        exact ⟨(ls, k), hk, (p, m), hp, by rw [hn]⟩
    · constructor
      · rintro (h | ⟨⟨ls, k⟩, hk, hc⟩)
        · exact .inl h
        · exact .inr ⟨ls.labels, k, hk, hc⟩
      · rintro (h | ⟨ls, k, hk, hc⟩)
        · exact .inl h
        · exact .inr ⟨(⟨ls⟩, k), hk, hc⟩

instance {T : Type} [BgpItemIn T] [WrapReads T] [WrapExact T] : WrapExact (WithRd T) where
  exact bits b := by
    by_cases h : b.length < 8
    · refine .of_cases ?_ ?_ (.inr (.inr (by simp only [BgpItemIn.extractBits]; rw [if_pos h]; trivial)))
      · rintro ⟨x, n⟩ ⟨t, m, hb, -⟩
        simp only at hb
        rw [hb] at h; simp only [rdBody, List.length_append, be_length] at h; omega
      · rintro ⟨h1, -⟩; omega
    · have e : BgpItemIn.extractBits (T := WithRd T) .release bits b = (do
          let y ← BgpRD.decodeFrom b
          let z ← BgpItemIn.extractBits .release (bits - 64) (b.drop 8)
          .ok (⟨z.1, y.1⟩, 8 + z.2)) := by
        simp only [BgpItemIn.extractBits, Build.sub]
        rw [if_neg h, rslice_ok (by omega) (by omega), Res.ok_bind]
        obtain ⟨v, hv, e1⟩ := exists_be 4 (l := b) (by omega)
        obtain ⟨w, hw, e2⟩ := exists_be 4 (l := b.drop 4) (by simp; omega)
        have hb : b = rdBody ⟨BitVec.ofNat 32 v, BitVec.ofNat 32 w⟩ ++ b.drop 8 := by
          simp only [rdBody, BitVec.toNat_ofNat]
          rw [Nat.mod_eq_of_lt (by simpa using hv), Nat.mod_eq_of_lt (by simpa using hw), List.append_assoc]
          rw [List.drop_drop] at e2
          rw [← e2]
          exact e1
        have h1 : BgpRD.decodeFrom ((b.take 8).drop 0) = BgpRD.decodeFrom b := by
          conv => rhs; rw [hb, rd_reads]
          rw [hb, List.drop_zero, List.take_left' (by simp [rdBody])]
          have := rd_reads ⟨BitVec.ofNat 32 v, BitVec.ofNat 32 w⟩ []
          rwa [List.append_nil] at this
        rw [h1]
        conv => lhs; rw [hb, rd_reads]
        conv => rhs; rw [hb, rd_reads]
        simp only [Res.ok_bind]
        rw [← hb, rfrom_ok (by simpa using h)]
        rfl
      rw [e]
      have key := (rd_exactly b).bind (f := fun y => (do
          let z ← BgpItemIn.extractBits .release (bits - 64) (b.drop 8)
          .ok (⟨z.1, y.1⟩, 8 + z.2) : Res (WithRd T × Nat)))
        (R' := fun y z => ∃ w : T × Nat, WrapReads.Read (wrapSub bits.toNat 64) (b.drop 8) w.1 w.2 ∧
          z = (⟨w.1, y.1⟩, 8 + w.2))
        (C' := fun y => WrapReads.Crash T (wrapSub bits.toNat 64) (b.drop 8)) (by
          rintro ⟨rd, k⟩ -
          rw [show (64 : U8) = BitVec.ofNat 8 64 from rfl, ← toNat_wrapSub]
          exact (WrapExact.exact (T := T) (bits - BitVec.ofNat 8 64) (b.drop 8)).map _)
      refine key.congr ?_ ?_
      · rintro ⟨⟨p, rd⟩, n⟩
        constructor
        · rintro ⟨⟨rd', k⟩, ⟨⟨t, ht⟩, rfl⟩, ⟨p', m⟩, hp, he⟩
          simp only [Prod.mk.injEq, WithRd.mk.injEq] at he
          obtain ⟨⟨rfl, rfl⟩, rfl⟩ := he
          simp only at ht hp
          rw [ht, List.drop_left' (by simp [rdBody])] at hp
          exact ⟨t, m, ht, hp, rfl⟩
        · rintro ⟨t, m, ht, hp, hn⟩
          simp only at ht hn hp
          refine ⟨(rd, 8), ⟨⟨t, ht⟩, rfl⟩, (p, m), ?_, by rw [hn]⟩
          simp only
          rw [ht, List.drop_left' (by simp [rdBody])]
          exact hp
      · simp only [WrapReads.Crash, false_or]
        constructor
        · rintro ⟨y, -, hc⟩; exact ⟨by omega, hc⟩
        · rintro ⟨-, hc⟩
          rcases (rd_exactly b).cases with ⟨y, hy⟩ | hf | he
          · exact ⟨y, hy, hc⟩
          · exact hf.elim
          · obtain ⟨r, hr, -⟩ := rd_decode_eq (b := b) (by omega)
            rw [hr] at he
            exact he.elim

theorem WrapExact.of_kind {T : Type} [BgpItemIn T] [WrapReads T] (h : WrapKind T) : WrapExact T := by
  induction h with
  | v4 => infer_instance
  | v6 => infer_instance
  | mdt4 => infer_instance
  | mdt6 => infer_instance
  | labeled _ ih => infer_instance
  | withRd _ ih => infer_instance

section items
variable {T : Type} [BgpItemIn T] [WrapReads T] [WrapExact T]

theorem wrapExact : @PrefixExact T (itemIn T .release) (wrapReads T) :=
  @PrefixExact.mk T (itemIn T .release) (wrapReads T) fun bits b => WrapExact.exact bits b

theorem wrapNlri_exactly (b : Bytes) :
    Exactly (@decodeItem T (itemIn T .release) b) (fun y => @NlriRead T (wrapReads T) b y.1 y.2)
      (@NlriCrash T (wrapReads T) b) :=
  @nlri_exactly T (itemIn T .release) (wrapReads T) wrapExact b

theorem wrapNlris_exactly (b : Bytes) :
    Exactly (@decodeItems T (itemIn T .release) b) (fun y => ItemsRead 0 (@NlriRead T (wrapReads T)) b y.1 y.2)
      (ItemsCrash 0 (@NlriRead T (wrapReads T)) (@NlriCrash T (wrapReads T)) b) :=
  @nlris_exactly T (itemIn T .release) (wrapReads T) wrapExact b

theorem wrapPathIds_exactly (b : Bytes) :
    Exactly (@decodePathIdItems T (itemIn T .release) b)
      (fun y => ItemsRead 4 (@PathIdRead T (wrapReads T)) b y.1 y.2)
      (ItemsCrash 4 (@PathIdRead T (wrapReads T)) (@PathIdCrash T (wrapReads T)) b) :=
  @pathIds_exactly T (itemIn T .release) (wrapReads T) wrapExact b

end items

end Zbgp
