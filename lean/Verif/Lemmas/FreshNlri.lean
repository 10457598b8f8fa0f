import Verif.Lemmas.Fresh

/-!
# Encoders of NLRI do not look at what the buffer held
-/

namespace Zbgp

open Spec

variable {α : Type} {S : Nat → Prop} {a b : Bytes}

/-- results of a loop that was at `pos` -/
abbrev WroteL (S : Nat → Prop) (pos l : Nat) : Bytes × Nat → Bytes × Nat → Prop :=
  fun x y => x.2 = y.2 ∧ pos ≤ x.2 ∧ x.1.length = l ∧ Same (span S pos x.2) x.1 y.1

theorem wroteL_step {T U : Nat → Prop} {p q l l' : Nat} {x y : Res (Bytes × Nat)} (h : Both (WroteL T p l) x y) (hq : q ≤ p) (hl : l = l')
    (hs : ∀ i, span U q p i → T i) : Both (WroteL U q l') x y :=
  both_mono h fun _ _ ⟨h1, h2, h3, h4⟩ => ⟨h1, by omega, by omega, h4.mono fun i hi => by
    rcases hi with hi | hi
    · exact .inl (hs i (.inl hi))
    · by_cases hp : i < p
      · exact .inl (hs i (.inr ⟨hi.1, hp⟩))
      · exact .inr ⟨by omega, hi.2⟩⟩

theorem wroteL_nil (h : Same S a b) (pos : Nat) : Both (WroteL S pos a.length) (.ok (a, pos)) (.ok (b, pos)) :=
  ⟨rfl, Nat.le_refl _, rfl, h.mono fun i hi => by rcases hi with hi | hi; · exact hi
                                                  · dsimp only at hi; omega⟩

theorem wrote_of_loop {x y : Res (Bytes × Nat)} {l : Nat} (h : Both (WroteL S 0 l) x y) : Both (Wrote (fun n => n) S l) x y :=
  both_mono h fun _ _ h => ⟨h.1, h.2.2.1, h.2.2.2⟩

theorem both_encLoop (enc : α → Enc) (l : List α) (hf : ∀ x ∈ l, FreshE (enc x)) (h : Same S a b) (pos : Nat) :
    Both (WroteL S pos a.length) (encLoop enc l a pos) (encLoop enc l b pos) := by
  induction l generalizing S a b pos with
  | nil => exact wroteL_nil h pos
  | cons x l ih =>
    have := hf x (by simp)
    unfold encLoop
    fresh_step
    refine wroteL_step (ih (fun y hy => hf y (by simp [hy])) (by assumption) _) (by omega) (by omega) ?_
    positions

instance (enc : α → Enc) (l : List α) [∀ x, FreshE (enc x)] : FreshE (fun b => encLoop enc l b 0) where
  both S a b h := wrote_of_loop (both_encLoop enc l (fun _ _ => inferInstance) h 0)

/-- prefix items do not look at the old contents -/
class ItemFresh (T : Type) [BgpItem T] : Prop where
  fresh : ∀ x : T, FreshP (BgpItem.setBits x)

attribute [instance] ItemFresh.fresh

instance {T : Type} [BgpItem T] [ItemFresh T] (x : T) : FreshE (encodeItem x) where
  both S a b h := by have he := h.1; unfold encodeItem; fresh

instance {T : Type} [BgpItem T] [ItemFresh T] (l : List T) : FreshE (encodeItems l) where
  both S a b h := wrote_of_loop (both_encLoop _ _ (fun _ _ => inferInstance) h _)

instance {T : Type} [BgpItem T] [ItemFresh T] (x : WithPathId T) : FreshE (encodePathIdItem x) where
  both S a b h := by have he := h.1; unfold encodePathIdItem; fresh

instance {T : Type} [BgpItem T] [ItemFresh T] (l : List (WithPathId T)) : FreshE (encodePathIdItems l) where
  both S a b h := wrote_of_loop (both_encLoop _ _ (fun _ _ => inferInstance) h _)

instance {T : Type} [BgpAddrItem T] [∀ (x : T) mode, FreshE (BgpAddrItem.encodeTo x mode)] (l : List T) (mode : BgpTransportMode) :
    FreshE (encodeAddrItems l mode) where
  both S a b h := wrote_of_loop (both_encLoop _ _ (fun _ _ => inferInstance) h _)

/-! ## NLRI -/

theorem both_setLoop (l : List U32) (h : Same S a b) (pos : Nat) :
    Both (WroteL S pos a.length) (MplsLabels.setLoop l a pos) (MplsLabels.setLoop l b pos) := by
  induction l generalizing S a b pos with
  | nil => exact wroteL_nil h pos
  | cons x l ih =>
    unfold MplsLabels.setLoop
    fresh_step; fresh_step; fresh_step
    refine wroteL_step (ih (by assumption) _) (by omega) (by omega) ?_
    positions

instance (m : MplsLabels) : FreshP m.setBits where
  both S a b h := by
    have he := h.1
    unfold MplsLabels.setBits
    refine both_ite Iff.rfl (fun _ => ?_) fun _ => ?_
    · fresh
    · refine both_bind (both_setLoop _ h 0) ?_
      rintro ⟨x, n⟩ ⟨y, m⟩ ⟨hn, _, hl, hs⟩
      dsimp only at hn; subst hn; dsimp only at *; have he := hs.1
      unfold subN
      split
      · rename_i h1
        simp only [Res.ok_bind]
        fresh
      · exact both_panic

instance : ItemFresh MplsLabels where
  fresh x := inferInstanceAs (FreshP x.setBits)

theorem addC_nat {x y z : U8} (h : addC x y = .ok z) : z.toNat = x.toNat + y.toNat := by
  unfold addC at h
  split at h
  · cases h
    rw [BitVec.toNat_add, Nat.mod_eq_of_lt (by assumption)]
  · cases h

theorem both_self {R : α → α → Prop} (x : Res α) (h : ∀ a, x = .ok a → R a a) : Both R x x := by
  cases x <;> first | trivial | exact h _ rfl

instance (x : BgpAddrV4) : Fresh x.toBits fun n => max n.2 ((x.prefixlen.toNat + 7) / 8) where
  both S a b h := by
    have he := h.1
    unfold BgpAddrV4.toBits
    refine both_ite Iff.rfl (fun _ => by fresh) fun _ => ?_
    fresh_step
    refine both_bind (both_self (R := fun s t => s = t ∧ s.toNat = x.prefixlen.toNat + 7) _ fun a h => ⟨rfl, addC_nat h⟩) ?_
    rintro s _ ⟨rfl, hs⟩
    fresh
instance (x : BgpAddrV6) : Fresh x.toBits fun n => max n.2 ((x.prefixlen.toNat + 7) / 8) where
  both S a b h := by
    have he := h.1
    unfold BgpAddrV6.toBits
    refine both_ite Iff.rfl (fun _ => by fresh) fun _ => ?_
    fresh_step
    refine both_bind (both_self (R := fun s t => s = t ∧ s.toNat = x.prefixlen.toNat + 7) _ fun a h => ⟨rfl, addC_nat h⟩) ?_
    rintro s _ ⟨rfl, hs⟩
    fresh
instance : ItemFresh BgpAddrV4 where
  fresh x := ⟨fun S a b h => wrote_le (Fresh.both (f := x.toBits) S a b h) fun _ => Nat.le_max_left _ _⟩
instance : ItemFresh BgpAddrV6 where
  fresh x := ⟨fun S a b h => wrote_le (Fresh.both (f := x.toBits) S a b h) fun _ => Nat.le_max_left _ _⟩

instance {T : Type} [BgpItem T] [ItemFresh T] : ItemFresh (Labeled T) where
  fresh x := ⟨fun S a b h => by have he := h.1; simp only [BgpItem.setBits]; fresh⟩
instance {T : Type} [BgpItem T] [ItemFresh T] : ItemFresh (WithRd T) where
  fresh x := ⟨fun S a b h => by have he := h.1; simp only [BgpItem.setBits]; fresh⟩

instance : ItemFresh BgpMdtV4 where
  fresh x := ⟨fun S a b h => by
    have he := h.1
    simp only [BgpItem.setBits]
    refine both_bind (R := Wrote (fun n => n) S a.length) ?_ ?_
    · fresh
    · rintro ⟨x, n⟩ ⟨y, m⟩ ⟨hn, hl, hs⟩; dsimp only at hn; subst hn; dsimp only at *; have he := hs.1
      fresh⟩
instance : ItemFresh BgpMdtV6 where
  fresh x := ⟨fun S a b h => by
    have he := h.1
    simp only [BgpItem.setBits]
    refine both_bind (R := Wrote (fun n => n) S a.length) ?_ ?_
    · fresh
    · rintro ⟨x, n⟩ ⟨y, m⟩ ⟨hn, hl, hs⟩; dsimp only at hn; subst hn; dsimp only at *; have he := hs.1
      fresh⟩

instance (x : BgpIPv4RD) (mode : BgpTransportMode) : FreshE (BgpAddrItem.encodeTo x mode) where
  both S a b h := by have he := h.1; simp only [BgpAddrItem.encodeTo]; fresh
instance (x : BgpIPv6RD) (mode : BgpTransportMode) : FreshE (BgpAddrItem.encodeTo x mode) where
  both S a b h := by have he := h.1; simp only [BgpAddrItem.encodeTo]; fresh

instance (x : BgpAddrL2) : FreshE (BgpItemLong.packTo x) where
  both S a b h := by have he := h.1; simp only [BgpItemLong.packTo]; fresh
instance (x : BgpAddrL2) : FreshE (encodeLongItem x) where
  both S a b h := by have he := h.1; unfold encodeLongItem; fresh

/-- the ten octets of an Ethernet segment identifier -/
theorem both_esi (t : U8) (x : EVPNESI) (h : Same S a b) (pos : Nat) :
    Both (fun x y => x.length = a.length ∧ Same (span S pos (pos + 10)) x y) (x.write t a pos) (x.write t b pos) := by
  unfold EVPNESI.write
  fresh_step
  refine both_mono (both_copyAt (by assumption) _ _ _) fun _ _ h => ⟨by omega, h.2.mono ?_⟩
  positions

macro "fresh_esi" : tactic => `(tactic| (refine both_bind (both_esi _ _ (by assumption) _) ?_; intro x y h; obtain ⟨hl, hs⟩ := h; have he := hs.1))

theorem both_evpnWriteIp (ip : IpAddr) (h : Same S a b) (pos : Nat) :
    Both (WroteL S pos a.length) (evpnWriteIp ip a pos) (evpnWriteIp ip b pos) := by
  cases ip <;> simp only [evpnWriteIp] <;> fresh_step <;> fresh_step <;>
    exact ⟨rfl, by dsimp only; omega, by dsimp only; omega, Same.mono (by assumption) (by positions)⟩

theorem wrote_of_wroteL {x y : Res (Bytes × Nat)} {T : Nat → Prop} {pos l l' : Nat} (h : Both (WroteL T pos l) x y) (hl : l = l')
    (hs : ∀ i, span S 0 pos i → T i) : Both (Wrote (fun n => n) S l') x y :=
  wrote_of_loop (wroteL_step h (Nat.zero_le _) hl hs)

instance (x : BgpEVPN1) (mode : BgpTransportMode) : FreshE (BgpAddrItem.encodeTo x mode) where
  both S a b h := by
    have he := h.1
    simp only [BgpAddrItem.encodeTo]
    fresh_step
    fresh_esi
    fresh
instance (x : BgpEVPN2) (mode : BgpTransportMode) : FreshE (BgpAddrItem.encodeTo x mode) where
  both S a b h := by
    have he := h.1
    simp only [BgpAddrItem.encodeTo]
    fresh_step
    fresh_esi
    fresh_step; fresh_step; fresh_step
    refine both_bind (R := Wrote (fun n => n) S a.length) ?_ ?_
    · rcases x.ip with _ | _ | _ <;> fresh
    · rintro ⟨x, n⟩ ⟨y, m⟩ ⟨hn, hl, hs⟩; dsimp only at hn; subst hn; dsimp only at *; have he := hs.1
      fresh
instance (x : BgpEVPN3) (mode : BgpTransportMode) : FreshE (BgpAddrItem.encodeTo x mode) where
  both S a b h := by
    have he := h.1
    simp only [BgpAddrItem.encodeTo]
    fresh_step; fresh_step
    refine wrote_of_wroteL (both_evpnWriteIp _ (by assumption) _) (by omega) ?_
    positions
instance (x : BgpEVPN4) (mode : BgpTransportMode) : FreshE (BgpAddrItem.encodeTo x mode) where
  both S a b h := by
    have he := h.1
    simp only [BgpAddrItem.encodeTo]
    fresh_step
    fresh_esi
    refine wrote_of_wroteL (both_evpnWriteIp _ (by assumption) _) (by omega) ?_
    positions
instance (x : BgpEVPN5) (mode : BgpTransportMode) : FreshE (BgpAddrItem.encodeTo x mode) where
  both S a b h := by
    have he := h.1
    simp only [BgpAddrItem.encodeTo]
    fresh_step
    fresh_esi
    fresh_step; fresh_step
    refine both_bind (R := Wrote (fun n => n) S a.length) ?_ ?_
    · rcases x.pfx with _ | _ <;> rcases x.gwIp with _ | _ <;> fresh
    · rintro ⟨x, n⟩ ⟨y, m⟩ ⟨hn, hl, hs⟩; dsimp only at hn; subst hn; dsimp only at *; have he := hs.1
      fresh

/-- type octet and route behind two octets, the second still to be written -/
theorem both_routeBody (t : U8) (enc : Enc) [FreshE enc] (h : Same S a b) :
    Both (fun x y => x.2 = y.2 ∧ x.1.length = a.length ∧ Same (span (span S 0 1) 2 (2 + x.2)) x.1 y.1)
      (do onFrom (← setIdx a 0 t) 2 enc) (do onFrom (← setIdx b 0 t) 2 enc) := by
  fresh_step
  exact both_mono (both_onFrom (by assumption) _ _) fun _ _ h => ⟨h.1, by omega, h.2.2⟩

instance (x : BgpEVPN) (mode : BgpTransportMode) : FreshE (BgpAddrItem.encodeTo x mode) where
  both S a b h := by
    have he := h.1
    change Both _ (BgpEVPN.encodeTo x mode a) (BgpEVPN.encodeTo x mode b)
    unfold BgpEVPN.encodeTo
    refine both_bind (R := fun x y => x.2 = y.2 ∧ x.1.length = a.length ∧ Same (span (span S 0 1) 2 (2 + x.2)) x.1 y.1) ?_ ?_
    · cases x <;> exact both_routeBody _ _ h
    · rintro ⟨x, n⟩ ⟨y, m⟩ ⟨hn, hl, hs⟩; dsimp only at hn; subst hn; dsimp only at *; have he := hs.1
      fresh

instance (x : BgpMVPN1) (mode : BgpTransportMode) : FreshE (BgpAddrItem.encodeTo x mode) where
  both S a b h := by have he := h.1; simp only [BgpAddrItem.encodeTo]; fresh
instance (x : BgpMVPN2) (mode : BgpTransportMode) : FreshE (BgpAddrItem.encodeTo x mode) where
  both S a b h := by have he := h.1; simp only [BgpAddrItem.encodeTo]; fresh
instance (x : BgpMVPN3) (mode : BgpTransportMode) : FreshE (BgpAddrItem.encodeTo x mode) where
  both S a b h := by have he := h.1; simp only [BgpAddrItem.encodeTo]; fresh
instance (x : BgpMVPN4) (mode : BgpTransportMode) : FreshE (BgpAddrItem.encodeTo x mode) where
  both S a b h := by
    have he := h.1
    have : ∀ b, BgpAddrItem.encodeTo x mode b = (do
      let (buf, p1) ← BgpAddrItem.encodeTo x.spmsi mode b
      let (buf, n) ← onFrom buf p1 (encodeAddr x.originator)
      .ok (buf, p1 + n)) := fun _ => rfl
    rw [this, this]
    fresh
instance (x : BgpMVPN5) (mode : BgpTransportMode) : FreshE (BgpAddrItem.encodeTo x mode) where
  both S a b h := by have he := h.1; simp only [BgpAddrItem.encodeTo]; fresh
instance (x : BgpMVPN67) (mode : BgpTransportMode) : FreshE (BgpAddrItem.encodeTo x mode) where
  both S a b h := by have he := h.1; simp only [BgpAddrItem.encodeTo]; fresh
instance (x : BgpMVPN) (mode : BgpTransportMode) : FreshE (BgpAddrItem.encodeTo x mode) where
  both S a b h := by
    have he := h.1
    change Both _ (BgpMVPN.encodeTo x mode a) (BgpMVPN.encodeTo x mode b)
    unfold BgpMVPN.encodeTo
    refine both_bind (R := fun x y => x.2 = y.2 ∧ x.1.length = a.length ∧ Same (span (span S 0 1) 2 (2 + x.2)) x.1 y.1) ?_ ?_
    · cases x <;> exact both_routeBody _ _ h
    · rintro ⟨x, n⟩ ⟨y, m⟩ ⟨hn, hl, hs⟩; dsimp only at hn; subst hn; dsimp only at *; have he := hs.1
      fresh

/-! ## FlowSpec -/

/-- an operator writes at least one octet -/
class OpFresh (T : Type) [FSOperItem T] : Prop where
  fresh : ∀ x : T, Fresh (FSOperItem.encodeTo x) fun n => max n 1

theorem fresh_fsVal (op : U8) (v : U32) : Fresh (fsEncodeVal op v) fun n => max n 1 where
  both S a b h := by have he := h.1; unfold fsEncodeVal; fresh

instance : OpFresh FSOperValItem where
  fresh _ := fresh_fsVal _ _
instance : OpFresh FSOperMaskItem where
  fresh _ := fresh_fsVal _ _

theorem both_fsLoop {T : Type} [FSOperItem T] [OpFresh T] (l : List T) (h : Same S a b) (pos lpos : Nat) (hlp : l = [] → S lpos) :
    Both (fun x y => x.2 = y.2 ∧ pos ≤ x.2.1 ∧ x.1.length = a.length ∧ Same (span (span S pos x.2.1) x.2.2 (x.2.2 + 1)) x.1 y.1)
      (FSOperVec.encodeLoop l a pos lpos) (FSOperVec.encodeLoop l b pos lpos) := by
  induction l generalizing S a b pos lpos with
  | nil =>
    refine ⟨rfl, Nat.le_refl _, rfl, h.mono fun i hi => ?_⟩
    rcases hi with (hi | hi) | hi
    · exact hi
    · dsimp only at hi; omega
    · dsimp only at hi; rw [show i = lpos by omega]; exact hlp rfl
  | cons x l ih =>
    have := OpFresh.fresh x
    unfold FSOperVec.encodeLoop
    fresh_step
    rename_i hs _
    refine both_mono (ih hs _ _ fun _ => by simp only [span]; omega) fun x y h => ?_
    obtain ⟨h1, h2, h3, h4⟩ := h
    refine ⟨h1, by omega, by omega, h4.mono fun i hi => ?_⟩
    rcases hi with (hi | hi) | hi
    · simp only [span, hi, true_or]
    · simp only [span]; omega
    · exact .inr hi

instance {T : Type} [FSOperItem T] [OpFresh T] (v : FSOperVec T) : FreshE v.encodeTo where
  both S a b h := by
    have he := h.1
    unfold FSOperVec.encodeTo
    refine both_ite Iff.rfl (fun _ => ?_) fun hv => ?_
    · fresh
    · refine both_bind (both_fsLoop _ h 0 0 fun h => by simp [h] at hv) ?_
      rintro ⟨x, n, q⟩ ⟨y, m⟩ ⟨hn, _, hl, hs⟩
      dsimp only at hn; subst hn; dsimp only at *; have he := hs.1
      fresh

/-- FlowSpec prefixes write the octets they announce -/
class FsFresh (T : Type) [FSItem T] : Prop where
  fresh : ∀ x : T, FreshB (FSItem.encodeFs x) (FSItem.storeSize x)

attribute [instance] FsFresh.fresh

instance : FsFresh BgpAddrV4 where
  fresh x := ⟨fun S a b h => by have he := h.1; simp only [FSItem.encodeFs, FSItem.storeSize]; fresh⟩
instance : FsFresh FS6 where
  fresh x := ⟨fun S a b h => by have he := h.1; simp only [FSItem.encodeFs, FSItem.storeSize]; fresh⟩

theorem fresh_rd4 (x : WithRd BgpAddrV4) : Fresh (BgpItem.setBits x) fun n => max n.2 (8 + (x.pfx.prefixlen.toNat + 7) / 8) where
  both S a b h := by
    have he := h.1
    have : ∀ b, BgpItem.setBits x b = (do
      let (buf, rdpos) ← x.rd.encodeTo b
      let (buf, pfxp) ← onFrom buf rdpos x.pfx.toBits
      let bits ← addC (BitVec.ofNat 8 (rdpos * 8)) pfxp.1
      .ok (buf, (bits, rdpos + pfxp.2))) := fun _ => rfl
    rw [this, this]
    have hrd : ∀ b r, x.rd.encodeTo b = .ok r → r.2 = 8 := by
      intro b r h
      unfold BgpRD.encodeTo at h
      obtain ⟨_, _, h⟩ := Res.bind_eq_ok.1 h
      obtain ⟨_, _, h⟩ := Res.bind_eq_ok.1 h
      cases h; rfl
    have := Fresh.both (f := x.rd.encodeTo) S a b h
    cases h1 : x.rd.encodeTo a with
    | ok r =>
      cases h2 : x.rd.encodeTo b with
      | ok r2 =>
        rw [h1, h2] at this
        obtain ⟨r, n⟩ := r
        obtain ⟨r2, m⟩ := r2
        obtain ⟨hn, hl, hs⟩ := this
        have h8 := hrd _ _ h1
        dsimp only at *
        subst hn
        have he := hs.1
        simp only [Res.ok_bind]
        fresh
      | _ => rw [h1, h2] at this; exact this.elim
    | err e => cases h2 : x.rd.encodeTo b <;> rw [h1, h2] at this <;> first | exact this.elim | exact this
    | panic => cases h2 : x.rd.encodeTo b <;> rw [h1, h2] at this <;> first | exact this.elim | exact this
    | hang => cases h2 : x.rd.encodeTo b <;> rw [h1, h2] at this <;> first | exact this.elim | exact this

instance : FsFresh FSV4U where
  fresh x := ⟨fun S a b h => by
    have he := h.1
    have := fresh_rd4 x.pfx
    simp only [FSItem.encodeFs, FSItem.storeSize]
    fresh_step; fresh_step
    refine both_bind (both_onFrom (hf := this) (by assumption) _ _) ?_
    rintro ⟨x, n⟩ ⟨y, m⟩ ⟨hn, hl, hs⟩; dsimp only at hn; subst hn; dsimp only at *; have he := hs.1
    fresh⟩

section flowspec

variable {T : Type} [FSItem T] [FsFresh T]

theorem both_putOps {I : Type} [FSOperItem I] [OpFresh I] (code : U8) (v : FSOperVec I) (h : Same S a b) (pos : Nat) :
    Both (WroteL S pos a.length) (BgpFlowSpec.putOps code v a pos) (BgpFlowSpec.putOps code v b pos) := by
  unfold BgpFlowSpec.putOps
  fresh_step; fresh_step
  exact ⟨rfl, by dsimp only; omega, by dsimp only; omega, Same.mono (by assumption) (by positions)⟩

theorem both_putPrefix (code : U8) (x : T) (h : Same S a b) (pos : Nat) :
    Both (WroteL S pos a.length) (BgpFlowSpec.putPrefix code x a pos) (BgpFlowSpec.putPrefix code x b pos) := by
  unfold BgpFlowSpec.putPrefix
  fresh_step; fresh_step
  exact ⟨rfl, by dsimp only; omega, by dsimp only; omega, Same.mono (by assumption) (by positions)⟩

theorem both_putBody (x : BgpFlowSpec T) (h : Same S a b) (pos : Nat) :
    Both (WroteL S pos a.length) (x.putBody a pos) (x.putBody b pos) := by
  cases x <;> first | exact both_putPrefix _ _ h _ | exact both_putOps _ _ h _

instance (x : BgpFlowSpec T) (mode : BgpTransportMode) : FreshE (BgpAddrItem.encodeTo x mode) where
  both S a b h := by
    have he := h.1
    change Both _ (x.encodeTo a) (x.encodeTo b)
    unfold BgpFlowSpec.encodeTo
    simp only []
    fresh
    all_goals
      refine wrote_of_wroteL (both_putBody _ (by assumption) _) (by omega) ?_
      positions

end flowspec

instance fresh_addrs (x : BgpAddrs) (p : BgpSessionParams) : FreshE (x.encodeTo p) where
  both S a b h := by
    cases x <;> unfold BgpAddrs.encodeTo
    case None => fresh
    case L2VPLS v => exact wrote_of_loop (both_encLoop _ _ (fun _ _ => inferInstance) h _)
    all_goals first
      | exact Fresh.both (f := encodeItems _) S a b h
      | exact Fresh.both (f := encodePathIdItems _) S a b h
      | exact Fresh.both (f := encodeAddrItems _ _) S a b h

end Zbgp
