import Verif.Model.Release
import Verif.Lemmas.NoHang

/-!
# The model of both builds: the checked copies are the functions of the other model files, and a build without checks
does the same where the checked one does not panic
-/

namespace Zbgp

/-- `y` does what `x` does unless `x` panics. -/
def BSim {α : Type} (x y : Res α) : Prop := x = .panic ∨ y = x

theorem bsim_refl {α : Type} (x : Res α) : BSim x x := .inr rfl
theorem bsim_of_eq {α : Type} {x y : Res α} (h : y = x) : BSim x y := .inr h
theorem bsim_bind {α β : Type} {x y : Res α} {f g : α → Res β} (h : BSim x y) (hf : ∀ a, BSim (f a) (g a)) :
    BSim (x >>= f) (y >>= g) := by
  rcases h with rfl | rfl
  · exact .inl rfl
  · cases y with
    | ok a => exact hf a
    | err e => exact .inr rfl
    | panic => exact .inl rfl
    | hang => exact .inr rfl
theorem bsim_bindr {α β : Type} (x : Res α) {f g : α → Res β} (hf : ∀ a, BSim (f a) (g a)) :
    BSim (x >>= f) (x >>= g) := bsim_bind (bsim_refl x) hf
theorem bsim_ite {α : Type} {c : Prop} [Decidable c] {a b a' b' : Res α} (h : BSim a a') (h' : BSim b b') :
    BSim (if c then a else b) (if c then a' else b') := by split <;> assumption

theorem bsim_add {w : Nat} (a b : BitVec w) : BSim (addC a b) (Build.release.add a b) := by
  unfold addC Build.add; split
  · exact .inr rfl
  · exact .inl rfl
theorem bsim_sub {w : Nat} (a b : BitVec w) : BSim (subC a b) (Build.release.sub a b) := by
  unfold subC Build.sub; split
  · exact .inr rfl
  · exact .inl rfl
theorem bsim_subN (a b : Nat) : BSim (subN a b) (Build.release.subN a b) := by
  by_cases h : b ≤ a
  · right; simp [subN, Build.subN, h]
  · left; simp [subN, h]
theorem bsim_shl {w : Nat} (a : BitVec w) (n : Nat) : BSim (shlC a n) (Build.release.shl a n) := by
  by_cases h : n < w
  · right; simp [shlC, Build.shl, h, Nat.mod_eq_of_lt h]
  · left; simp [shlC, h]

/-- steps through two `do` blocks -/
syntax "bsim_atom" : tactic
macro_rules | `(tactic| bsim_atom) => `(tactic| first
  | exact bsim_refl _ | exact bsim_add _ _ | exact bsim_sub _ _ | exact bsim_subN _ _ | exact bsim_shl _ _)
macro "simul" : tactic => `(tactic| (repeat' first
  | (with_reducible bsim_atom) | (with_reducible refine bsim_bind ?_ fun _ => ?_) | (with_reducible refine bsim_ite ?_ ?_) | (dsimp only)))

/-! ## Loops -/

theorem bsim_decLoop {α : Type} {lim : Nat} {d d' : Bytes → Res (α × Nat)} (h : ∀ b, BSim (d b) (d' b)) (fuel : Nat)
    (b : Bytes) : BSim (decLoop lim d fuel b) (decLoop lim d' fuel b) := by
  induction fuel generalizing b with
  | zero => exact bsim_refl _
  | succ f ih =>
    simp only [decLoop]
    exact bsim_ite (bsim_bind (h b) fun r => bsim_bind (ih _) fun _ => bsim_refl _) (bsim_refl _)

theorem bsim_decList {α : Type} {lim : Nat} {d d' : Bytes → Res (α × Nat)} (h : ∀ b, BSim (d b) (d' b)) (b : Bytes) :
    BSim (decList lim d b) (decList lim d' b) := bsim_decLoop h _ b

theorem bsim_onFrom {α : Type} (b : Bytes) (n : Nat) {f g : Bytes → Res (Bytes × α)} (h : ∀ b, BSim (f b) (g b)) :
    BSim (onFrom b n f) (onFrom b n g) := by
  unfold onFrom; split
  · exact bsim_bind (h _) fun _ => bsim_refl _
  · exact bsim_refl _

theorem bsim_encLoop {α : Type} {e e' : α → Enc} (h : ∀ x b, BSim (e x b) (e' x b)) (v : List α) (b : Bytes) (n : Nat) :
    BSim (encLoop e v b n) (encLoop e' v b n) := by
  induction v generalizing b n with
  | nil => exact bsim_refl _
  | cons x xs ih => exact bsim_bind (bsim_onFrom _ _ (h x)) fun r => ih _ _

/-! ## Labels -/

theorem extractLoop_fuel (f f' : Nat) (bits : U8) (b : Bytes) (h : bits.toNat < f) (h' : b.length < f') :
    MplsLabels.extractLoopIn .checked f' bits b = MplsLabels.extractLoop f bits b := by
  induction f generalizing f' bits b with
  | zero => omega
  | succ f ih =>
    cases f' with
    | zero => omega
    | succ f' =>
      rw [MplsLabels.extractLoop, MplsLabels.extractLoopIn]
      split
      · match b with
        | [] => rfl
        | [_] => rfl
        | [_, _] => rfl
        | b0 :: b1 :: b2 :: t =>
          simp only [idx, List.getElem?_cons_zero, List.getElem?_cons_succ, Res.ok_bind, Build.sub]
          unfold subC
          split
          · rename_i hle
            have h24 : (24 : U8).toNat = 24 := rfl
            have hb : (bits - 24).toNat = bits.toNat - 24 := by
              rw [BitVec.toNat_sub_of_le (by rw [BitVec.le_def]; exact hle)]; rfl
            simp only [List.length_cons] at h'
            simp only [Res.ok_bind]
            rw [ih f' (bits - 24) _ (by omega) (by simp only [List.drop_succ_cons, List.drop_zero]; omega)]
          · rfl
      · rfl

theorem labels_checked (bits : U8) (b : Bytes) : MplsLabels.extractBitsIn .checked bits b = MplsLabels.extractBits bits b := by
  unfold MplsLabels.extractBitsIn MplsLabels.extractBits
  rw [extractLoop_fuel (bits.toNat + 1) _ _ _ (by omega) (by omega)]

theorem bsim_extractLoop (f : Nat) (bits : U8) (b : Bytes) :
    BSim (MplsLabels.extractLoopIn .checked f bits b) (MplsLabels.extractLoopIn .release f bits b) := by
  induction f generalizing bits b with
  | zero => exact bsim_refl _
  | succ f ih =>
    simp only [MplsLabels.extractLoopIn]
    refine bsim_ite (bsim_bindr _ fun _ => bsim_bindr _ fun _ => bsim_bindr _ fun _ => ?_) (bsim_refl _)
    refine bsim_bind (bsim_sub _ _) fun _ => bsim_ite (bsim_refl _) (bsim_ite (bsim_refl _) ?_)
    exact bsim_bind (ih _ _) fun _ => bsim_refl _

theorem bsim_labels (bits : U8) (b : Bytes) :
    BSim (MplsLabels.extractBits bits b) (MplsLabels.extractBitsIn .release bits b) := by
  rw [← labels_checked]
  exact bsim_bind (bsim_extractLoop _ _ _) fun _ => bsim_refl _

theorem bsim_setLabels (x : MplsLabels) (b : Bytes) : BSim (x.setBits b) (x.setBitsIn .release b) := by
  unfold MplsLabels.setBits MplsLabels.setBitsIn
  simul

macro_rules | `(tactic| bsim_atom) => `(tactic| first | exact bsim_labels _ _ | exact bsim_setLabels _ _)

/-! ## Items -/

/-- the copy for both builds of an item: the checked one is the item of the other files, the other one does the same
where that does not panic -/
class ItemBuilds (T : Type) [BgpItem T] [BgpItemIn T] : Prop where
  extract : ∀ bits b, BgpItemIn.extractBits (T := T) .checked bits b = BgpItem.extractBits bits b
  set : ∀ (x : T) b, BgpItemIn.setBits .checked x b = BgpItem.setBits x b
  bsimExtract : ∀ bits b, BSim (BgpItem.extractBits (T := T) bits b) (BgpItemIn.extractBits .release bits b)
  bsimSet : ∀ (x : T) b, BSim (BgpItem.setBits x b) (BgpItemIn.setBits .release x b)

instance : ItemBuilds BgpAddrV4 where
  extract _ _ := rfl
  set _ _ := rfl
  bsimExtract bits b := by
    simp only [BgpItem.extractBits, BgpItemIn.extractBits]; unfold BgpAddrV4.fromBits BgpAddrV4.fromBitsIn; simul
  bsimSet x b := by
    simp only [BgpItem.setBits, BgpItemIn.setBits]; unfold BgpAddrV4.toBits BgpAddrV4.toBitsIn; simul

instance : ItemBuilds BgpAddrV6 where
  extract _ _ := rfl
  set _ _ := rfl
  bsimExtract bits b := by
    simp only [BgpItem.extractBits, BgpItemIn.extractBits]; unfold BgpAddrV6.fromBits BgpAddrV6.fromBitsIn; simul
  bsimSet x b := by
    simp only [BgpItem.setBits, BgpItemIn.setBits]; unfold BgpAddrV6.toBits BgpAddrV6.toBitsIn; simul

instance : ItemBuilds BgpMdtV4 where
  extract _ _ := rfl
  set _ _ := rfl
  bsimExtract bits b := by simp only [BgpItem.extractBits, BgpItemIn.extractBits]; simul
  bsimSet x b := by simp only [BgpItem.setBits, BgpItemIn.setBits]; simul

instance : ItemBuilds BgpMdtV6 where
  extract _ _ := rfl
  set _ _ := rfl
  bsimExtract bits b := by simp only [BgpItem.extractBits, BgpItemIn.extractBits]; simul
  bsimSet x b := by simp only [BgpItem.setBits, BgpItemIn.setBits]; simul

instance {T : Type} [BgpItem T] [BgpItemIn T] [ItemBuilds T] : ItemBuilds (Labeled T) where
  extract bits b := by
    simp only [BgpItem.extractBits, BgpItemIn.extractBits, labels_checked, ItemBuilds.extract]; rfl
  set x b := by
    simp only [BgpItem.setBits, BgpItemIn.setBits]
    rw [show BgpItemIn.setBits (T := T) .checked x.pfx = BgpItem.setBits x.pfx from funext fun b => ItemBuilds.set _ _]
    rfl
  bsimExtract bits b := by
    simp only [BgpItem.extractBits, BgpItemIn.extractBits]
    simul
    exact ItemBuilds.bsimExtract _ _
  bsimSet x b := by
    simp only [BgpItem.setBits, BgpItemIn.setBits]
    simul
    exact bsim_onFrom _ _ fun b => ItemBuilds.bsimSet x.pfx b

instance {T : Type} [BgpItem T] [BgpItemIn T] [ItemBuilds T] : ItemBuilds (WithRd T) where
  extract bits b := by
    simp only [BgpItem.extractBits, BgpItemIn.extractBits, ItemBuilds.extract]; rfl
  set x b := by
    simp only [BgpItem.setBits, BgpItemIn.setBits]
    rw [show BgpItemIn.setBits (T := T) .checked x.pfx = BgpItem.setBits x.pfx from funext fun b => ItemBuilds.set _ _]
    rfl
  bsimExtract bits b := by
    simp only [BgpItem.extractBits, BgpItemIn.extractBits]
    simul
    exact ItemBuilds.bsimExtract _ _
  bsimSet x b := by
    simp only [BgpItem.setBits, BgpItemIn.setBits]
    simul
    exact bsim_onFrom _ _ fun b => ItemBuilds.bsimSet x.pfx b

end Zbgp
