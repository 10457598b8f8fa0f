import Verif.Lemmas.FrameBmp

/-!
# Encoders do not look at the size of the buffer

What an encoder does in a buffer, it does in every longer one.
-/

namespace Zbgp

open Spec

/-- if `x` succeeds then so does `y`, with a related result -/
def Sim {α β : Type} (R : α → β → Prop) (x : Res α) (y : Res β) : Prop := ∀ a, x = .ok a → ∃ b, y = .ok b ∧ R a b

/-- the buffer with `e` behind it -/
abbrev Buf (e : Bytes) : Bytes → Bytes → Prop := fun a b => b = a ++ e
/-- a result of an encoder, the buffer with `e` behind it -/
abbrev BufR {α : Type} (e : Bytes) : Bytes × α → Bytes × α → Prop := fun a b => b = (a.1 ++ e, a.2)

variable {α β γ δ : Type}

theorem sim_ok {R : α → β → Prop} {a : α} {b : β} (h : R a b) : Sim R (.ok a) (.ok b) := by
  intro x hx; cases hx; exact ⟨b, rfl, h⟩
theorem sim_err {R : α → β → Prop} {e : BgpError} {y : Res β} : Sim R (.err e) y := by intro x hx; cases hx
theorem sim_panic {R : α → β → Prop} {y : Res β} : Sim R (.panic) y := by intro x hx; cases hx
theorem sim_hang {R : α → β → Prop} {y : Res β} : Sim R (.hang) y := by intro x hx; cases hx

theorem sim_bind {R : α → β → Prop} {S : γ → δ → Prop} {x : Res α} {y : Res β} {f : α → Res γ} {g : β → Res δ}
    (h : Sim R x y) (hf : ∀ a b, R a b → Sim S (f a) (g b)) : Sim S (x >>= f) (y >>= g) := by
  intro c hc
  obtain ⟨a, ha, hc⟩ := Res.bind_eq_ok.1 hc
  obtain ⟨b, hb, hr⟩ := h a ha
  obtain ⟨d, hd, hs⟩ := hf a b hr c hc
  exact ⟨d, Res.bind_eq_ok.2 ⟨b, hb, hd⟩, hs⟩

theorem sim_refl (x : Res α) : Sim Eq x x := fun a h => ⟨a, h, rfl⟩

theorem sim_ite {R : α → β → Prop} {c : Prop} [Decidable c] {x x' : Res α} {y y' : Res β} (h1 : c → Sim R x y)
    (h2 : ¬ c → Sim R x' y') : Sim R (if c then x else x') (if c then y else y') := by
  by_cases h : c
  · rw [if_pos h, if_pos h]; exact h1 h
  · rw [if_neg h, if_neg h]; exact h2 h

theorem sim_short {R : α → β → Prop} {c c' : Prop} [Decidable c] [Decidable c'] {x : Res α} {e : BgpError} {y z : Res β}
    (h : c' → c) (h2 : ¬ c → Sim R x y) : Sim R (if c then .err e else x) (if c' then z else y) := by
  by_cases hc : c
  · rw [if_pos hc]; exact sim_err
  · rw [if_neg hc, if_neg fun h' => hc (h h')]; exact h2 hc

theorem sim_long {R : α → β → Prop} {c c' : Prop} [Decidable c] [Decidable c'] {x : Res α} {e : BgpError} {y z : Res β}
    (h : c → c') (h2 : c → Sim R x y) : Sim R (if c then x else .err e) (if c' then y else z) := by
  by_cases hc : c
  · rw [if_pos hc, if_pos (h hc)]; exact h2 hc
  · rw [if_neg hc]; exact sim_err

/-- the encoder does the same in longer buffers -/
class Ext (f : Bytes → Res (Bytes × α)) : Prop where
  sim : ∀ b e, Sim (BufR e) (f b) (f (b ++ e))

/-- the writer does the same in longer buffers -/
class ExtB (f : Bytes → Res Bytes) : Prop where
  sim : ∀ b e, Sim (Buf e) (f b) (f (b ++ e))

theorem sim_setIdx (b e : Bytes) (i : Nat) (v : U8) : Sim (Buf e) (setIdx b i v) (setIdx (b ++ e) i v) := by
  unfold setIdx
  split
  · rename_i h
    rw [if_pos (by simp only [List.length_append]; omega), List.set_append, if_pos h]
    exact sim_ok rfl
  · exact sim_panic

theorem sim_idx (b e : Bytes) (i : Nat) : Sim Eq (idx b i) (idx (b ++ e) i) := by
  intro a h
  unfold idx at *
  split at h
  · rename_i x hx
    cases h
    rw [List.getElem?_append_left (List.getElem?_eq_some_iff.1 hx).1, hx]
    exact ⟨_, rfl, rfl⟩
  · cases h

theorem sim_rslice (b e : Bytes) (s t : Nat) : Sim Eq (rslice b s t) (rslice (b ++ e) s t) := by
  unfold rslice
  split
  · rename_i h
    rw [if_pos (by simp only [List.length_append]; omega), List.take_append_of_le_length h.2]
    exact sim_ok rfl
  · exact sim_panic

theorem sim_copyAt (b e : Bytes) (s t : Nat) (src : Bytes) : Sim (Buf e) (copyAt b s t src) (copyAt (b ++ e) s t src) := by
  unfold copyAt
  split
  · rename_i h
    rw [if_pos (by simp only [List.length_append]; omega), List.take_append_of_le_length (by omega),
      List.drop_append_of_le_length (by omega)]
    exact sim_ok (by simp [Buf])
  · exact sim_panic

theorem sim_modRange (b e : Bytes) (s t : Nat) (f : Bytes → Res Bytes) :
    Sim (Buf e) (modRange b s t f) (modRange (b ++ e) s t f) := by
  unfold modRange
  split
  · rename_i h
    rw [if_pos (by simp only [List.length_append]; omega), List.take_append_of_le_length (by omega),
      List.drop_append_of_le_length (by omega), List.take_append_of_le_length (by omega)]
    refine sim_bind (sim_refl _) ?_
    rintro a _ rfl
    exact sim_ok (by simp [Buf])
  · exact sim_panic

theorem sim_onRange (b e : Bytes) (s t : Nat) (f : Bytes → Res (Bytes × α)) :
    Sim (BufR e) (onRange b s t f) (onRange (b ++ e) s t f) := by
  unfold onRange
  split
  · rename_i h
    rw [if_pos (by simp only [List.length_append]; omega), List.take_append_of_le_length (by omega),
      List.drop_append_of_le_length (by omega), List.take_append_of_le_length (by omega)]
    refine sim_bind (sim_refl _) ?_
    rintro ⟨a, n⟩ _ rfl
    exact sim_ok (by simp [BufR])
  · exact sim_panic

theorem sim_modFrom (b e : Bytes) (s : Nat) (f : Bytes → Res Bytes) [hf : ExtB f] :
    Sim (Buf e) (modFrom b s f) (modFrom (b ++ e) s f) := by
  unfold modFrom
  split
  · rename_i h
    rw [if_pos (by simp only [List.length_append]; omega), List.take_append_of_le_length (by omega),
      List.drop_append_of_le_length (by omega)]
    refine sim_bind (hf.sim _ _) ?_
    rintro a _ rfl
    exact sim_ok (by simp [Buf])
  · exact sim_panic

theorem sim_onFrom (b e : Bytes) (s : Nat) (f : Bytes → Res (Bytes × α)) [hf : Ext f] :
    Sim (BufR e) (onFrom b s f) (onFrom (b ++ e) s f) := by
  unfold onFrom
  split
  · rename_i h
    rw [if_pos (by simp only [List.length_append]; omega), List.take_append_of_le_length (by omega),
      List.drop_append_of_le_length (by omega)]
    refine sim_bind (hf.sim _ _) ?_
    rintro ⟨a, n⟩ _ rfl
    exact sim_ok (by simp [BufR])
  · exact sim_panic

theorem sim_onSliceE (b e : Bytes) (s t : Nat) (f : Bytes → Res (Bytes × α)) :
    Sim (BufR e) (onSliceE b s t f) (onSliceE (b ++ e) s t f) := by
  unfold onSliceE
  split
  · rename_i h
    rw [if_pos (by simp only [List.length_append]; omega), List.take_append_of_le_length (by omega),
      List.drop_append_of_le_length (by omega), List.take_append_of_le_length (by omega)]
    refine sim_bind (sim_refl _) ?_
    rintro ⟨a, n⟩ _ rfl
    exact sim_ok (by simp)
  · exact sim_err

theorem sim_onSliceEnd (b e : Bytes) (s : Nat) (f : Bytes → Res (Bytes × α)) [hf : Ext f] :
    Sim (BufR e) (onSliceE b s b.length f) (onSliceE (b ++ e) s (b ++ e).length f) := by
  unfold onSliceE
  split
  · rename_i h
    rw [if_pos (by simp only [List.length_append]; omega), List.take_length, List.take_length, List.drop_append_of_le_length h.1,
      List.take_append_of_le_length h.1, List.drop_length, List.drop_length]
    refine sim_bind (hf.sim _ _) ?_
    rintro ⟨a, n⟩ _ rfl
    exact sim_ok (by simp)
  · exact sim_err

theorem sim_left (b e : Bytes) (n : Nat) : Sim (fun x y => x ≤ y) (subN b.length n) (subN (b ++ e).length n) := by
  unfold subN
  split
  · rw [if_pos (by simp only [List.length_append]; omega)]
    exact sim_ok (by simp only [List.length_append]; omega)
  · exact sim_panic

/-- one step through an encoder -/
macro "ext_step" : tactic => `(tactic| first
  | exact sim_err
  | exact sim_panic
  | exact sim_hang
  | (refine sim_bind (sim_setIdx _ _ _ _) ?_; intro x y h; subst h)
  | (refine sim_bind (sim_idx _ _ _) ?_; intro x y h; subst h)
  | (refine sim_bind (sim_rslice _ _ _ _) ?_; intro x y h; subst h)
  | (refine sim_bind (sim_copyAt _ _ _ _ _) ?_; intro x y h; subst h)
  | (refine sim_bind (sim_modRange _ _ _ _ _) ?_; intro x y h; subst h)
  | (refine sim_bind (sim_modFrom _ _ _ _) ?_; intro x y h; subst h)
  | (refine sim_bind (sim_onFrom _ _ _ _) ?_; rintro ⟨x1, x2⟩ y h; subst h; (try dsimp only))
  | (refine sim_bind (sim_onRange _ _ _ _ _) ?_; rintro ⟨x1, x2⟩ y h; subst h; (try dsimp only))
  | (refine sim_bind (sim_onSliceEnd _ _ _ _) ?_; rintro ⟨x1, x2⟩ y h; subst h; (try dsimp only))
  | (refine sim_bind (sim_onSliceE _ _ _ _ _) ?_; rintro ⟨x1, x2⟩ y h; subst h; (try dsimp only))
  | (refine sim_bind (Ext.sim _ _) ?_; rintro ⟨x1, x2⟩ y h; subst h; (try dsimp only))
  | (refine sim_bind (ExtB.sim _ _) ?_; intro x y h; subst h)
  | exact sim_setIdx _ _ _ _
  | exact sim_copyAt _ _ _ _ _
  | exact sim_modFrom _ _ _ _
  | exact sim_onFrom _ _ _ _
  | exact sim_onSliceEnd _ _ _ _
  | exact Ext.sim _ _
  | exact ExtB.sim _ _
  | (refine sim_bind (sim_left _ _ _) ?_; intro _ _ _)
  | (refine sim_bind (sim_refl _) ?_; intro x y h; subst h)
  | exact sim_ok rfl
  | (refine sim_ite (fun _ => ?_) (fun _ => ?_))
  | (refine sim_short (fun _ => ?_) (fun _ => ?_); ((try simp only [List.length_append] at *); omega))
  | (refine sim_long (fun _ => ?_) (fun _ => ?_); ((try simp only [List.length_append] at *); omega)))

macro "extend" : tactic => `(tactic| (repeat' ext_step))

instance (v : U16) : ExtB (setn16 v) where
  sim b e := by unfold setn16; extend
instance (v : U32) : ExtB (setn32 v) where
  sim b e := by unfold setn32; extend
instance (v : U64) : ExtB (setn64 v) where
  sim b e := by unfold setn64; extend

instance (a : IPv4) : Ext (encodeAddrV4 a) where
  sim b e := by unfold encodeAddrV4; extend
instance (a : IPv6) : Ext (encodeAddrV6 a) where
  sim b e := by unfold encodeAddrV6; extend
instance (a : IpAddr) : Ext (encodeAddr a) where
  sim b e := by
    cases a
    · exact Ext.sim (f := encodeAddrV4 _) b e
    · exact Ext.sim (f := encodeAddrV6 _) b e
instance (r : BgpRD) : Ext r.encodeTo where
  sim b e := by unfold BgpRD.encodeTo; extend

/-! ## Lists -/

theorem sim_encLoop (enc : α → Enc) (l : List α) (h : ∀ x ∈ l, Ext (enc x)) (b e : Bytes) (pos : Nat) :
    Sim (BufR e) (encLoop enc l b pos) (encLoop enc l (b ++ e) pos) := by
  induction l generalizing b pos with
  | nil => exact sim_ok rfl
  | cons x l ih =>
    have := h x (by simp)
    unfold encLoop
    ext_step
    exact ih (fun y hy => h y (by simp [hy])) _ _

instance (enc : α → Enc) (l : List α) [∀ x, Ext (enc x)] : Ext (fun b => encLoop enc l b 0) where
  sim b e := sim_encLoop enc l (fun _ _ => inferInstance) b e 0

/-- prefix items do the same in longer buffers -/
class ItemExt (T : Type) [BgpItem T] : Prop where
  ext : ∀ x : T, Ext (BgpItem.setBits x)

attribute [instance] ItemExt.ext

instance {T : Type} [BgpItem T] [ItemExt T] (x : T) : Ext (encodeItem x) where
  sim b e := by unfold encodeItem; extend

instance {T : Type} [BgpItem T] [ItemExt T] (l : List T) : Ext (encodeItems l) where
  sim b e := sim_encLoop _ _ (fun _ _ => inferInstance) _ _ _

instance {T : Type} [BgpItem T] [ItemExt T] (x : WithPathId T) : Ext (encodePathIdItem x) where
  sim b e := by unfold encodePathIdItem; extend

instance {T : Type} [BgpItem T] [ItemExt T] (l : List (WithPathId T)) : Ext (encodePathIdItems l) where
  sim b e := sim_encLoop _ _ (fun _ _ => inferInstance) _ _ _

instance {T : Type} [BgpAddrItem T] [∀ (x : T) mode, Ext (BgpAddrItem.encodeTo x mode)] (l : List T) (mode : BgpTransportMode) :
    Ext (encodeAddrItems l mode) where
  sim b e := sim_encLoop _ _ (fun _ _ => inferInstance) _ _ _

/-! ## NLRI -/

theorem sim_setLoop (l : List U32) (b e : Bytes) (pos : Nat) :
    Sim (BufR e) (MplsLabels.setLoop l b pos) (MplsLabels.setLoop l (b ++ e) pos) := by
  induction l generalizing b pos with
  | nil => exact sim_ok rfl
  | cons x l ih =>
    unfold MplsLabels.setLoop
    ext_step; ext_step; ext_step
    exact ih _ _

instance (m : MplsLabels) : Ext m.setBits where
  sim b e := by
    unfold MplsLabels.setBits
    ext_step
    · exact sim_ok rfl
    · refine sim_bind (sim_setLoop _ _ _ _) ?_
      rintro ⟨_, _⟩ _ rfl; dsimp only
      extend

instance : ItemExt MplsLabels where
  ext x := inferInstanceAs (Ext x.setBits)

instance (x : BgpAddrV4) : Ext x.toBits where
  sim b e := by unfold BgpAddrV4.toBits; extend
instance (x : BgpAddrV6) : Ext x.toBits where
  sim b e := by unfold BgpAddrV6.toBits; extend
instance : ItemExt BgpAddrV4 where
  ext x := inferInstanceAs (Ext x.toBits)
instance : ItemExt BgpAddrV6 where
  ext x := inferInstanceAs (Ext x.toBits)

instance {T : Type} [BgpItem T] [ItemExt T] : ItemExt (Labeled T) where
  ext x := ⟨fun b e => by simp only [BgpItem.setBits]; extend⟩
instance {T : Type} [BgpItem T] [ItemExt T] : ItemExt (WithRd T) where
  ext x := ⟨fun b e => by simp only [BgpItem.setBits]; extend⟩

instance : ItemExt BgpMdtV4 where
  ext x := ⟨fun b e => by
    simp only [BgpItem.setBits]
    refine sim_bind (R := BufR e) ?_ ?_
    · extend
    · rintro ⟨_, _⟩ _ rfl; dsimp only
      extend⟩
instance : ItemExt BgpMdtV6 where
  ext x := ⟨fun b e => by
    simp only [BgpItem.setBits]
    refine sim_bind (R := BufR e) ?_ ?_
    · extend
    · rintro ⟨_, _⟩ _ rfl; dsimp only
      extend⟩

instance (x : BgpIPv4RD) (mode : BgpTransportMode) : Ext (BgpAddrItem.encodeTo x mode) where
  sim b e := by simp only [BgpAddrItem.encodeTo]; extend
instance (x : BgpIPv6RD) (mode : BgpTransportMode) : Ext (BgpAddrItem.encodeTo x mode) where
  sim b e := by simp only [BgpAddrItem.encodeTo]; extend

instance (x : BgpAddrL2) : Ext (BgpItemLong.packTo x) where
  sim b e := by simp only [BgpItemLong.packTo]; extend
instance (x : BgpAddrL2) : Ext (encodeLongItem x) where
  sim b e := by unfold encodeLongItem; extend

theorem sim_esi (t : U8) (x : EVPNESI) (b e : Bytes) (pos : Nat) : Sim (Buf e) (x.write t b pos) (x.write t (b ++ e) pos) := by
  unfold EVPNESI.write; extend

macro "ext_esi" : tactic => `(tactic| (refine sim_bind (sim_esi _ _ _ _ _) ?_; intro x y h; subst h))

theorem sim_evpnWriteIp (ip : IpAddr) (b e : Bytes) (pos : Nat) :
    Sim (BufR e) (evpnWriteIp ip b pos) (evpnWriteIp ip (b ++ e) pos) := by
  cases ip <;> simp only [evpnWriteIp] <;> extend

instance (x : BgpEVPN1) (mode : BgpTransportMode) : Ext (BgpAddrItem.encodeTo x mode) where
  sim b e := by
    simp only [BgpAddrItem.encodeTo]
    ext_step
    ext_esi
    extend
instance (x : BgpEVPN2) (mode : BgpTransportMode) : Ext (BgpAddrItem.encodeTo x mode) where
  sim b e := by
    simp only [BgpAddrItem.encodeTo]
    ext_step
    ext_esi
    ext_step; ext_step; ext_step
    refine sim_bind (R := BufR e) ?_ ?_
    · rcases x.ip with _ | _ | _ <;> extend
    · rintro ⟨_, _⟩ _ rfl; dsimp only
      extend
instance (x : BgpEVPN3) (mode : BgpTransportMode) : Ext (BgpAddrItem.encodeTo x mode) where
  sim b e := by
    simp only [BgpAddrItem.encodeTo]
    ext_step; ext_step
    exact sim_evpnWriteIp _ _ _ _
instance (x : BgpEVPN4) (mode : BgpTransportMode) : Ext (BgpAddrItem.encodeTo x mode) where
  sim b e := by
    simp only [BgpAddrItem.encodeTo]
    ext_step
    ext_esi
    exact sim_evpnWriteIp _ _ _ _
instance (x : BgpEVPN5) (mode : BgpTransportMode) : Ext (BgpAddrItem.encodeTo x mode) where
  sim b e := by
    simp only [BgpAddrItem.encodeTo]
    ext_step
    ext_esi
    ext_step; ext_step
    refine sim_bind (R := BufR e) ?_ ?_
    · rcases x.pfx with _ | _ <;> rcases x.gwIp with _ | _ <;> extend
    · rintro ⟨_, _⟩ _ rfl; dsimp only
      extend

instance (x : BgpEVPN) (mode : BgpTransportMode) : Ext (BgpAddrItem.encodeTo x mode) where
  sim b e := by
    change Sim _ (BgpEVPN.encodeTo x mode b) (BgpEVPN.encodeTo x mode (b ++ e))
    unfold BgpEVPN.encodeTo
    refine sim_bind (R := BufR e) ?_ ?_
    · cases x <;> extend
    · rintro ⟨_, _⟩ _ rfl; dsimp only
      extend

instance (x : BgpMVPN1) (mode : BgpTransportMode) : Ext (BgpAddrItem.encodeTo x mode) where
  sim b e := by simp only [BgpAddrItem.encodeTo]; extend
instance (x : BgpMVPN2) (mode : BgpTransportMode) : Ext (BgpAddrItem.encodeTo x mode) where
  sim b e := by simp only [BgpAddrItem.encodeTo]; extend
instance (x : BgpMVPN3) (mode : BgpTransportMode) : Ext (BgpAddrItem.encodeTo x mode) where
  sim b e := by simp only [BgpAddrItem.encodeTo]; extend
instance (x : BgpMVPN4) (mode : BgpTransportMode) : Ext (BgpAddrItem.encodeTo x mode) where
  sim b e := by
    have : ∀ b, BgpAddrItem.encodeTo x mode b = (do
      let (buf, p1) ← BgpAddrItem.encodeTo x.spmsi mode b
      let (buf, n) ← onFrom buf p1 (encodeAddr x.originator)
      .ok (buf, p1 + n)) := fun _ => rfl
    rw [this, this]
    extend
instance (x : BgpMVPN5) (mode : BgpTransportMode) : Ext (BgpAddrItem.encodeTo x mode) where
  sim b e := by simp only [BgpAddrItem.encodeTo]; extend
instance (x : BgpMVPN67) (mode : BgpTransportMode) : Ext (BgpAddrItem.encodeTo x mode) where
  sim b e := by simp only [BgpAddrItem.encodeTo]; extend
instance (x : BgpMVPN) (mode : BgpTransportMode) : Ext (BgpAddrItem.encodeTo x mode) where
  sim b e := by
    change Sim _ (BgpMVPN.encodeTo x mode b) (BgpMVPN.encodeTo x mode (b ++ e))
    unfold BgpMVPN.encodeTo
    refine sim_bind (R := BufR e) ?_ ?_
    · cases x <;> extend
    · rintro ⟨_, _⟩ _ rfl; dsimp only
      extend

/-- operators do the same in longer buffers -/
class OpExt (T : Type) [FSOperItem T] : Prop where
  ext : ∀ x : T, Ext (FSOperItem.encodeTo x)

attribute [instance] OpExt.ext

theorem ext_fsVal (op : U8) (v : U32) : Ext (fsEncodeVal op v) where
  sim b e := by unfold fsEncodeVal; extend

instance : OpExt FSOperValItem where
  ext _ := ⟨fun b e => (ext_fsVal _ _).sim b e⟩
instance : OpExt FSOperMaskItem where
  ext _ := ⟨fun b e => (ext_fsVal _ _).sim b e⟩

theorem sim_fsLoop {T : Type} [FSOperItem T] [OpExt T] (l : List T) (b e : Bytes) (pos lpos : Nat) :
    Sim (BufR e) (FSOperVec.encodeLoop l b pos lpos) (FSOperVec.encodeLoop l (b ++ e) pos lpos) := by
  induction l generalizing b pos lpos with
  | nil => exact sim_ok rfl
  | cons x l ih =>
    unfold FSOperVec.encodeLoop
    ext_step
    exact ih _ _ _

instance {T : Type} [FSOperItem T] [OpExt T] (v : FSOperVec T) : Ext v.encodeTo where
  sim b e := by
    unfold FSOperVec.encodeTo
    ext_step
    · exact sim_ok rfl
    · refine sim_bind (sim_fsLoop _ _ _ _ _) ?_
      rintro ⟨_, _, _⟩ _ rfl; dsimp only
      extend

/-- FlowSpec prefixes do the same in longer buffers -/
class FsExt (T : Type) [FSItem T] : Prop where
  ext : ∀ x : T, ExtB (FSItem.encodeFs x)

attribute [instance] FsExt.ext

instance : FsExt BgpAddrV4 where
  ext x := ⟨fun b e => by simp only [FSItem.encodeFs]; extend⟩
instance : FsExt FS6 where
  ext x := ⟨fun b e => by simp only [FSItem.encodeFs]; extend⟩
instance : FsExt FSV4U where
  ext x := ⟨fun b e => by
    have : Ext (BgpItem.setBits x.pfx) := inferInstance
    simp only [FSItem.encodeFs]; extend⟩

section flowspec

variable {T : Type} [FSItem T] [FsExt T]

theorem sim_putOps {I : Type} [FSOperItem I] [OpExt I] (code : U8) (v : FSOperVec I) (b e : Bytes) (pos : Nat) :
    Sim (BufR e) (BgpFlowSpec.putOps code v b pos) (BgpFlowSpec.putOps code v (b ++ e) pos) := by
  unfold BgpFlowSpec.putOps; extend

theorem sim_putPrefix (code : U8) (a : T) (b e : Bytes) (pos : Nat) :
    Sim (BufR e) (BgpFlowSpec.putPrefix code a b pos) (BgpFlowSpec.putPrefix code a (b ++ e) pos) := by
  unfold BgpFlowSpec.putPrefix; extend

theorem sim_putBody (x : BgpFlowSpec T) (b e : Bytes) (pos : Nat) :
    Sim (BufR e) (x.putBody b pos) (x.putBody (b ++ e) pos) := by
  cases x <;> first | exact sim_putPrefix _ _ _ _ _ | exact sim_putOps _ _ _ _ _

instance (x : BgpFlowSpec T) (mode : BgpTransportMode) : Ext (BgpAddrItem.encodeTo x mode) where
  sim b e := by
    change Sim _ (x.encodeTo b) (x.encodeTo (b ++ e))
    unfold BgpFlowSpec.encodeTo
    simp only []
    extend
    all_goals exact sim_putBody _ _ _ _

end flowspec

instance ext_addrs (x : BgpAddrs) (p : BgpSessionParams) : Ext (x.encodeTo p) where
  sim b e := by
    cases x <;> unfold BgpAddrs.encodeTo
    case None => exact sim_ok rfl
    case L2VPLS v => exact sim_encLoop _ _ (fun _ _ => inferInstance) _ _ _
    all_goals first
      | exact Ext.sim (f := encodeItems _) b e
      | exact Ext.sim (f := encodePathIdItems _) b e
      | exact Ext.sim (f := encodeAddrItems _ _) b e

/-! ## Attributes -/

instance (x : BgpOrigin) : Ext x.encodeTo where
  sim b e := by
    unfold BgpOrigin.encodeTo
    refine sim_short (by cases b <;> simp) fun _ => ?_
    cases x.value <;> extend

theorem sim_asns (as32 : Bool) (l : List BgpAS) (b e : Bytes) (pos : Nat) :
    Sim (BufR e) (BgpASpath.encodeAsns as32 l b pos) (BgpASpath.encodeAsns as32 l (b ++ e) pos) := by
  induction l generalizing b pos with
  | nil => exact sim_ok rfl
  | cons x l ih =>
    unfold BgpASpath.encodeAsns
    extend
    all_goals exact ih _ _

instance (x : BgpASpath) (p : BgpSessionParams) : Ext (x.encodeTo p) where
  sim b e := by
    unfold BgpASpath.encodeTo
    extend
    all_goals exact sim_asns _ _ _ _ _

instance (x : BgpNextHop) (p : BgpSessionParams) : Ext (x.encodeTo p) where
  sim b e := by
    unfold BgpNextHop.encodeTo
    cases x.value <;>
      exact sim_long (fun h => ⟨h.1, by simp only [List.length_append]; omega⟩) fun _ => Ext.sim _ _

instance (x : BgpMED) : Ext x.encodeTo where
  sim b e := by unfold BgpMED.encodeTo; extend
instance (x : BgpLocalpref) : Ext x.encodeTo where
  sim b e := by unfold BgpLocalpref.encodeTo; extend
instance (x : BgpAtomicAggregate) : Ext x.encodeTo where
  sim b e := Ext.sim (f := encodeAddr _) b e
instance (x : BgpAggregatorAS) (p : BgpSessionParams) : Ext (x.encodeTo p) where
  sim b e := sim_ok rfl
instance (x : BgpOriginatorID) (p : BgpSessionParams) : Ext (x.encodeTo p) where
  sim b e := by
    unfold BgpOriginatorID.encodeTo
    cases p.peerMode <;> cases x.value <;> dsimp only <;> first | exact sim_err | exact Ext.sim _ _
instance (x : BgpClusterList) : Ext x.encodeTo where
  sim b e := Ext.sim (f := fun b => encLoop encodeAddr x.value b 0) b e
instance (x : BgpConnector) : Ext x.encodeTo where
  sim b e := by unfold BgpConnector.encodeTo; extend
instance (x : BgpAttrUnknown) : Ext x.encodeTo where
  sim b e := by unfold BgpAttrUnknown.encodeTo; extend
instance (x : BgpCommunity) : Ext x.encodeTo where
  sim b e := by unfold BgpCommunity.encodeTo; extend
instance (x : BgpLargeCommunity) : Ext x.encodeTo where
  sim b e := by unfold BgpLargeCommunity.encodeTo; extend
instance (x : BgpExtCommunity) : Ext x.encodeTo where
  sim b e := by unfold BgpExtCommunity.encodeTo; extend
instance (x : BgpCommunityList) : Ext x.encodeTo where
  sim b e := by
    unfold BgpCommunityList.encodeTo
    refine sim_short (by simp only [List.length_append]; omega) fun _ => ?_
    exact Ext.sim (f := fun b => encLoop BgpCommunity.encodeTo x.value b 0) b e
instance (x : BgpLargeCommunityList) : Ext x.encodeTo where
  sim b e := Ext.sim (f := fun b => encLoop BgpLargeCommunity.encodeTo x.value b 0) b e
instance (x : BgpExtCommunityList) : Ext x.encodeTo where
  sim b e := Ext.sim (f := fun b => encLoop BgpExtCommunity.encodeTo x.value b 0) b e

theorem sim_nexthop (nh : BgpAddr) (p : BgpSessionParams) (b e : Bytes) :
    Sim (BufR e) (BgpMPUpdates.encodeNexthop nh p b) (BgpMPUpdates.encodeNexthop nh p (b ++ e)) := by
  cases nh <;> simp only [BgpMPUpdates.encodeNexthop] <;> extend

instance (x : BgpMPUpdates) (p : BgpSessionParams) : Ext (x.encodeTo p) where
  sim b e := by
    unfold BgpMPUpdates.encodeTo
    ext_step; ext_step
    refine sim_bind (sim_nexthop _ _ _ _) ?_
    rintro ⟨_, _⟩ _ rfl; dsimp only
    extend

instance (x : BgpMPWithdraws) (p : BgpSessionParams) : Ext (x.encodeTo p) where
  sim b e := by unfold BgpMPWithdraws.encodeTo; extend

instance ext_value (x : BgpAttrItem) (p : BgpSessionParams) : Ext (x.encodeValue p) where
  sim b e := by
    cases x <;> unfold BgpAttrItem.encodeValue
    case PMSITunnel x => exact sim_panic
    case AttrSet a l => exact sim_panic
    all_goals
      rename_i x
      first | exact Ext.sim (f := x.encodeTo) b e | exact Ext.sim (f := x.encodeTo p) b e

instance ext_attr (x : BgpAttrItem) (p : BgpSessionParams) : Ext (x.encodeTo p) where
  sim b e := by
    unfold BgpAttrItem.encodeTo BgpAttrItem.encodeBgpattr
    extend

/-! ## Messages -/

theorem sim_attrs (p : BgpSessionParams) (lp : Nat) (l : List BgpAttrItem) (b e : Bytes) (pos : Nat) :
    Sim (BufR e) (BgpUpdateMessage.encodeAttrs p lp l b pos) (BgpUpdateMessage.encodeAttrs p lp l (b ++ e) pos) := by
  induction l generalizing b pos with
  | nil => exact sim_ok rfl
  | cons x l ih =>
    unfold BgpUpdateMessage.encodeAttrs
    extend
    exact ih _ _

theorem ext_section {p : BgpSessionParams} {x : BgpAddrs} {enc : Enc} (h : BgpUpdateMessage.nlriEncoder p x = some enc) :
    Ext enc := by
  rw [nlriEncoder_eq] at h
  split at h
  · cases h; infer_instance
  · cases h

instance (v : U16) : Ext (fun b => do .ok (← setn16 v b, ())) where
  sim b e := by extend

instance ext_update (x : BgpUpdateMessage) (p : BgpSessionParams) : Ext (x.encodeTo p) where
  sim b e := by
    unfold BgpUpdateMessage.encodeTo
    refine sim_bind (R := BufR e) ?_ ?_
    · unfold BgpUpdateMessage.encodeWithdraws
      cases h : BgpUpdateMessage.nlriEncoder p x.withdraws with
      | some enc =>
        have := ext_section h
        simp only []
        extend
      | none => simp only []; extend
    · rintro ⟨_, _⟩ _ rfl; dsimp only
      refine sim_bind (sim_attrs _ _ _ _ _ _) ?_
      rintro ⟨_, _⟩ _ rfl; dsimp only
      ext_step
      cases h : BgpUpdateMessage.nlriEncoder p x.updates with
      | some enc =>
        have := ext_section h
        simp only []
        extend
      | none => simp only []; extend

instance ext_caps (l : List BgpCapability) : Ext (BgpOpenMessage.encodeCaps l) := by
  induction l with
  | nil => exact ⟨fun b e => sim_ok rfl⟩
  | cons x l ih => exact ⟨fun b e => by unfold BgpOpenMessage.encodeCaps; extend⟩

instance (m : BgpOpenMessage) : Ext m.encodeTo where
  sim b e := by unfold BgpOpenMessage.encodeTo; extend

instance (m : BgpNotificationMessage) : Ext m.encodeTo where
  sim b e := by unfold BgpNotificationMessage.encodeTo; extend

instance : Ext keepaliveEncode where
  sim b e := sim_ok rfl

instance (ty : BgpMessageType) (n : Nat) : Ext (fun b => BgpSessionParams.prepareMessageBuf b ty n) where
  sim b e := by unfold BgpSessionParams.prepareMessageBuf; extend

/-! ## BMP -/

instance (h : BmpMessageHeader) : Ext h.encodeTo where
  sim b e := by unfold BmpMessageHeader.encodeTo; extend

instance (x : BmpInfoVal) : Ext x.encodeTo where
  sim b e := by unfold BmpInfoVal.encodeTo; extend

theorem sim_encodeInfo (ty : U16) (s : Option Bytes) (b e : Bytes) (pos : Nat) :
    Sim (BufR e) (BmpMessageInitiation.encodeInfo ty s b pos) (BmpMessageInitiation.encodeInfo ty s (b ++ e) pos) := by
  cases s <;> simp only [BmpMessageInitiation.encodeInfo] <;> extend

instance (x : BmpMessageInitiation) : Ext x.encodeTo where
  sim b e := by
    unfold BmpMessageInitiation.encodeTo
    refine sim_bind (sim_encodeInfo _ _ _ _ _) ?_
    rintro ⟨_, _⟩ _ rfl; dsimp only
    refine sim_bind (sim_encodeInfo _ _ _ _ _) ?_
    rintro ⟨_, _⟩ _ rfl; dsimp only
    exact sim_encodeInfo _ _ _ _ _

instance (x : BmpMessageTermination) : Ext x.encodeTo where
  sim b e := by
    unfold BmpMessageTermination.encodeTo
    refine sim_bind (R := BufR e) ?_ ?_
    · cases x.str0 <;> simp only [BmpMessageTermination.encodeStr] <;> extend
    · rintro ⟨_, _⟩ _ rfl; dsimp only
      cases x.reason <;> simp only [BmpMessageTermination.encodeReason] <;> extend

theorem ext_addr6 (a : IPv6) : Ext (encodeBmpAddr (.v6 a)) where
  sim b e := by simp only [encodeBmpAddr]; extend

theorem ext_peer (h : BmpMessagePeerHeader) (h6 : isV4 h.peeraddress = false) : Ext h.encodeTo where
  sim b e := by
    obtain ⟨_, _, _, a, _, _, _⟩ := h
    cases a with
    | v4 a => cases h6
    | v6 a =>
      have := ext_addr6 a
      unfold BmpMessagePeerHeader.encodeTo; extend

theorem sim_embedded (ty : BgpMessageType) (enc : Enc) [Ext enc] (b e : Bytes) (pos : Nat) :
    Sim (BufR e) (encodeEmbedded ty enc b pos) (encodeEmbedded ty enc (b ++ e) pos) := by
  unfold encodeEmbedded; extend

theorem ext_routeMonitoring (x : BmpMessageRouteMonitoring) (h6 : isV4 x.peer.peeraddress = false) : Ext x.encodeTo where
  sim b e := by
    have := ext_peer x.peer h6
    unfold BmpMessageRouteMonitoring.encodeTo
    ext_step
    ext_step
    exact sim_embedded _ _ _ _ _

theorem ext_peerUp (x : BmpMessagePeerUp) (h6 : isV4 x.peer.peeraddress = false) (l6 : isV4 x.localaddress = false) : Ext x.encodeTo where
  sim b e := by
    have := ext_peer x.peer h6
    obtain ⟨p, a, _, _, _, _⟩ := x
    cases a with
    | v4 a => cases l6
    | v6 a =>
      have := ext_addr6 a
      dsimp only at *
      unfold BmpMessagePeerUp.encodeTo
      dsimp only
      ext_step
      ext_step
      ext_step
      ext_step
      ext_step
      refine sim_bind (sim_embedded _ _ _ _ _) ?_
      rintro ⟨_, _⟩ _ rfl; dsimp only
      exact sim_embedded _ _ _ _ _

theorem sim_notification (code : U8) (m : BgpNotificationMessage) (b e : Bytes) (pos : Nat) :
    Sim (BufR e) (BmpMessagePeerDown.encodeNotification code m b pos) (BmpMessagePeerDown.encodeNotification code m (b ++ e) pos) := by
  unfold BmpMessagePeerDown.encodeNotification
  ext_step
  refine sim_bind (sim_left _ _ _) ?_
  · intro a c h
    refine sim_short (by omega) fun _ => ?_
    exact sim_embedded _ _ _ _ _

theorem ext_peerDown (x : BmpMessagePeerDown) (h6 : isV4 x.peer.peeraddress = false) : Ext x.encodeTo where
  sim b e := by
    have := ext_peer x.peer h6
    unfold BmpMessagePeerDown.encodeTo
    ext_step
    ext_step
    cases x.reason <;> dsimp only
    · exact sim_notification _ _ _ _ _
    · ext_step
      refine sim_bind (sim_left _ _ _) ?_
      · intro a c h
        refine sim_short (by omega) fun _ => ?_
        extend
    · exact sim_notification _ _ _ _ _
    · extend
    · extend

theorem ext_typed (code : U8) (enc : Enc) [Ext enc] : Ext (BmpMessage.encodeTyped code enc) where
  sim b e := by unfold BmpMessage.encodeTyped; extend

end Zbgp
