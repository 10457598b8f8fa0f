import Verif.Spec.Attrs

/-! # What encoders leave alone -/

namespace Zbgp

open Spec

/-- every result of `r` satisfies `P` -/
def Post {α : Type} (r : Res α) (P : α → Prop) : Prop := ∀ a, r = .ok a → P a

/-- `SameBehind`, byte by byte -/
def Upd (n : Nat) (b b' : Bytes) : Prop := b'.length = b.length ∧ ∀ k, n ≤ k → b'[k]? = b[k]?

theorem upd_iff {n : Nat} {b b' : Bytes} : SameBehind n b b' ↔ Upd n b b' := by
  unfold SameBehind Upd
  refine and_congr_right fun hl => ?_
  constructor
  · intro h k hk
    have := congrArg (fun l => l[k - n]?) h
    simpa [List.getElem?_drop, Nat.add_sub_cancel' hk] using this
  · intro h
    apply List.ext_getElem?
    intro k
    simp only [List.getElem?_drop]
    exact h _ (by omega)

theorem post_ok {α : Type} {a : α} {P : α → Prop} (h : P a) : Post (.ok a) P := by
  intro b hb; cases hb; exact h
theorem post_err {α : Type} {e : BgpError} {P : α → Prop} : Post (.err e) P := by intro b hb; cases hb
theorem post_panic {α : Type} {P : α → Prop} : Post (.panic : Res α) P := by intro b hb; cases hb
theorem post_hang {α : Type} {P : α → Prop} : Post (.hang : Res α) P := by intro b hb; cases hb
theorem post_true {α : Type} {r : Res α} : Post r fun _ => True := fun _ _ => trivial
theorem post_bind {α β : Type} {r : Res α} {f : α → Res β} {Q : α → Prop} {P : β → Prop} (h : Post r Q)
    (hf : ∀ a, Q a → Post (f a) P) : Post (r >>= f) P := by
  intro b hb
  obtain ⟨a, ha, hb⟩ := Res.bind_eq_ok.1 hb
  exact hf a (h a ha) b hb
theorem post_mono {α : Type} {r : Res α} {Q P : α → Prop} (h : Post r Q) (hf : ∀ a, Q a → P a) : Post r P :=
  fun a ha => hf a (h a ha)

/-- the encoder keeps the bytes behind the position it reports -/
class Framed {α : Type} (pos : outParam (α → Nat)) (f : Bytes → Res (Bytes × α)) : Prop where
  post : ∀ b, Post (f b) fun r => pos r.2 ≤ b.length ∧ r.1.length = b.length ∧ ∀ k, pos r.2 ≤ k → r.1[k]? = b[k]?

/-- the writer keeps the bytes behind `n` -/
class Fills (n : outParam Nat) (f : Bytes → Res Bytes) : Prop where
  post : ∀ b, Post (f b) fun r => n ≤ b.length ∧ r.length = b.length ∧ ∀ k, n ≤ k → r[k]? = b[k]?

/-- the writer keeps the length -/
class KeepsLen (f : Bytes → Res Bytes) : Prop where
  post : ∀ b, Post (f b) fun r => r.length = b.length

instance {n : Nat} {f : Bytes → Res Bytes} [h : Fills n f] : KeepsLen f where
  post b := post_mono (h.post b) fun _ h => h.2.1

theorem post_setIdx (b : Bytes) (i : Nat) (x : U8) :
    Post (setIdx b i x) fun r => i < b.length ∧ r.length = b.length ∧ ∀ k, i + 1 ≤ k → r[k]? = b[k]? := by
  unfold setIdx
  split
  · refine post_ok ⟨by assumption, by simp, fun k hk => ?_⟩
    rw [List.getElem?_set_ne (by omega)]
  · exact post_panic

theorem post_idx {α : Type} (b : List α) (i : Nat) : Post (idx b i) fun _ => i < b.length := by
  intro x hx
  unfold idx at hx
  split at hx
  · rename_i y hy
    rw [List.getElem?_eq_some_iff] at hy
    exact hy.1
  · cases hx

theorem post_rslice {α : Type} (b : List α) (s e : Nat) :
    Post (rslice b s e) fun r => s ≤ e ∧ e ≤ b.length ∧ r.length = e - s := by
  unfold rslice
  split
  · rename_i h
    exact post_ok ⟨h.1, h.2, by simp; omega⟩
  · exact post_panic

theorem post_addC {w : Nat} (a b : BitVec w) : Post (addC a b) fun r => r.toNat = a.toNat + b.toNat := by
  unfold addC
  split
  · refine post_ok ?_
    rw [BitVec.toNat_add, Nat.mod_eq_of_lt (by assumption)]
  · exact post_panic

theorem post_subN (a b : Nat) : Post (subN a b) fun r => b ≤ a ∧ r = a - b := by
  unfold subN
  split
  · exact post_ok ⟨by assumption, rfl⟩
  · exact post_panic

theorem post_copyAll (b src : Bytes) : Post (copyAll b src) fun r => r.length = b.length ∧ b.length = src.length := by
  unfold copyAll
  split
  · rename_i h
    exact post_ok ⟨h.symm, h⟩
  · exact post_panic

theorem post_copyAt (b : Bytes) (s e : Nat) (src : Bytes) :
    Post (copyAt b s e src) fun r => s ≤ e ∧ e ≤ b.length ∧ src.length = e - s ∧ r.length = b.length ∧
      ∀ k, e ≤ k → r[k]? = b[k]? := by
  unfold copyAt
  split
  · rename_i h
    have hl : (b.take s ++ src).length = e := by simp; omega
    refine post_ok ⟨h.1, h.2.1, h.2.2, by simp; omega, fun k hk => ?_⟩
    rw [List.getElem?_append_right (by omega), hl, List.getElem?_drop]
    congr 1; omega
  · exact post_panic

theorem post_onFrom {α : Type} {pos : α → Nat} (b : Bytes) (s : Nat) (f : Bytes → Res (Bytes × α)) [hf : Framed pos f] :
    Post (onFrom b s f) fun r => s + pos r.2 ≤ b.length ∧ r.1.length = b.length ∧
      ∀ k, s + pos r.2 ≤ k → r.1[k]? = b[k]? := by
  unfold onFrom
  split
  · rename_i hs
    refine post_bind (hf.post _) fun r ⟨h1, h2, h3⟩ => ?_
    obtain ⟨t, a⟩ := r
    simp only [List.length_drop] at h1 h2
    refine post_ok ⟨by simp only; omega, by simp; omega, fun k hk => ?_⟩
    simp only at hk h3 ⊢
    rw [List.getElem?_append_right (by simp; omega), h3 _ (by simp; omega), List.getElem?_drop]
    congr 1; simp; omega
  · exact post_panic

theorem post_onRange {α : Type} {pos : α → Nat} (b : Bytes) (s e : Nat) (f : Bytes → Res (Bytes × α))
    [hf : Framed pos f] :
    Post (onRange b s e f) fun r => s ≤ e ∧ e ≤ b.length ∧ s + pos r.2 ≤ e ∧ r.1.length = b.length ∧
      ∀ k, s + pos r.2 ≤ k → r.1[k]? = b[k]? := by
  unfold onRange
  split
  · rename_i hs
    refine post_bind (hf.post _) fun r ⟨h1, h2, h3⟩ => ?_
    obtain ⟨t, a⟩ := r
    simp only [List.length_drop, List.length_take] at h1 h2
    refine post_ok ⟨hs.1, hs.2, by simp only; omega, by simp; omega, fun k hk => ?_⟩
    simp only at hk h3 ⊢
    by_cases hke : k < e
    · rw [List.append_assoc, List.getElem?_append_right (by simp; omega), List.getElem?_append_left (by simp; omega),
        h3 _ (by simp; omega), List.getElem?_drop, List.getElem?_take]
      rw [if_pos (by simp; omega)]
      congr 1; simp; omega
    · rw [List.getElem?_append_right (by simp; omega), List.getElem?_drop]
      congr 1; simp; omega
  · exact post_panic

theorem post_modFrom {n : Nat} (b : Bytes) (s : Nat) (f : Bytes → Res Bytes) [hf : Fills n f] :
    Post (modFrom b s f) fun r => s + n ≤ b.length ∧ r.length = b.length ∧ ∀ k, s + n ≤ k → r[k]? = b[k]? := by
  unfold modFrom
  split
  · refine post_bind (hf.post _) fun t ⟨h1, h2, h3⟩ => ?_
    simp only [List.length_drop] at h1 h2
    refine post_ok ⟨by omega, by simp; omega, fun k hk => ?_⟩
    rw [List.getElem?_append_right (by simp; omega), h3 _ (by simp; omega), List.getElem?_drop]
    congr 1; simp; omega
  · exact post_panic

theorem post_modRange (b : Bytes) (s e : Nat) (f : Bytes → Res Bytes) [hf : KeepsLen f] :
    Post (modRange b s e f) fun r => s ≤ e ∧ e ≤ b.length ∧ r.length = b.length ∧ ∀ k, e ≤ k → r[k]? = b[k]? := by
  unfold modRange
  split
  · rename_i hs
    refine post_bind (hf.post _) fun t h2 => ?_
    simp only [List.length_drop, List.length_take] at h2
    refine post_ok ⟨hs.1, hs.2, by simp; omega, fun k hk => ?_⟩
    rw [List.getElem?_append_right (by simp; omega), List.getElem?_drop]
    congr 1; simp; omega
  · exact post_panic

/-- the encoder always reports `n` bytes -/
class Sized (n : outParam Nat) (f : Enc) : Prop where
  post : ∀ b, Post (f b) fun r => r.2 = n

theorem post_and {α : Type} {r : Res α} {P Q : α → Prop} (h1 : Post r P) (h2 : Post r Q) : Post r fun a => P a ∧ Q a :=
  fun a ha => ⟨h1 a ha, h2 a ha⟩

theorem post_onFrom_sized {n : Nat} (b : Bytes) (s : Nat) (f : Enc) [hf : Framed id f] [hs : Sized n f] :
    Post (onFrom b s f) fun r => r.2 = n ∧ s + n ≤ b.length ∧ r.1.length = b.length ∧
      ∀ k, s + n ≤ k → r.1[k]? = b[k]? := by
  have hh := post_onFrom b s f
  have hn : Post (onFrom b s f) fun r => r.2 = n := by
    unfold onFrom
    split
    · exact post_bind (hs.post _) fun r h => post_ok h
    · exact post_panic
  refine post_mono (post_and hh hn) ?_
  rintro ⟨r, m⟩ ⟨⟨h1, h2, h3⟩, h4⟩
  simp only [id] at *
  subst h4
  exact ⟨rfl, h1, h2, h3⟩

theorem post_onRange_sized {n : Nat} (b : Bytes) (s e : Nat) (f : Enc) [hf : Framed id f] [hs : Sized n f] :
    Post (onRange b s e f) fun r => r.2 = n ∧ s + n ≤ e ∧ e ≤ b.length ∧ r.1.length = b.length ∧
      ∀ k, s + n ≤ k → r.1[k]? = b[k]? := by
  have hh := post_onRange b s e f
  have hn : Post (onRange b s e f) fun r => r.2 = n := by
    unfold onRange
    split
    · exact post_bind (hs.post _) fun r h => post_ok h
    · exact post_panic
  refine post_mono (post_and hh hn) ?_
  rintro ⟨r, m⟩ ⟨⟨_, h0, h1, h2, h3⟩, h4⟩
  simp only [id] at *
  subst h4
  exact ⟨rfl, h1, h0, h2, h3⟩

theorem post_sized {n : Nat} (b : Bytes) (f : Enc) [hf : Framed id f] [hs : Sized n f] :
    Post (f b) fun r => r.2 = n ∧ n ≤ b.length ∧ r.1.length = b.length ∧ ∀ k, n ≤ k → r.1[k]? = b[k]? := by
  refine post_mono (post_and (hf.post b) (hs.post b)) ?_
  rintro ⟨r, m⟩ ⟨⟨h1, h2, h3⟩, h4⟩
  simp only [id] at *
  subst h4
  exact ⟨rfl, h1, h2, h3⟩

/-- the last step: chain the recorded facts -/
macro "frame_end" : tactic => `(tactic| (
  first
  | trivial
  | omega
  | (refine ⟨by first | assumption | ((try simp only [id] at *) <;> omega), by (try simp only [id] at *) <;> omega, fun k hk => ?_⟩
     ((try simp only [id] at *) <;> simp (disch := omega) only [*]))))

/-- one step through an encoder -/
macro "frame_step" : tactic => `(tactic| first
  | exact post_err
  | exact post_panic
  | exact post_hang
  | (refine post_bind (post_setIdx _ _ _) ?_; rintro _ ⟨_, _, _⟩)
  | (refine post_bind (post_idx _ _) ?_; intro _ _)
  | (refine post_bind (post_rslice _ _ _) ?_; rintro _ ⟨_, _, _⟩)
  | (refine post_bind (post_addC _ _) ?_; intro _ _)
  | (refine post_bind (post_subN _ _) ?_; rintro _ ⟨_, _⟩)
  | (refine post_bind (post_copyAll _ _) ?_; rintro _ ⟨_, _⟩)
  | (refine post_bind (post_copyAt _ _ _ _) ?_; rintro _ ⟨_, _, _, _, _⟩)
  | (refine post_bind (post_modRange _ _ _ _) ?_; rintro _ ⟨_, _, _, _⟩)
  | (refine post_bind (post_modFrom _ _ _) ?_; rintro _ ⟨_, _, _⟩)
  | (refine post_bind (post_onFrom_sized _ _ _) ?_; rintro ⟨_, _⟩ ⟨_, _, _, _⟩; (try simp only [id] at *))
  | (refine post_bind (post_onRange_sized _ _ _ _) ?_; rintro ⟨_, _⟩ ⟨_, _, _, _, _⟩; (try simp only [id] at *))
  | (refine post_bind (post_onFrom _ _ _) ?_; rintro ⟨_, _⟩ ⟨_, _, _⟩; (try simp only [id] at *))
  | (refine post_bind (post_onRange _ _ _ _) ?_; rintro ⟨_, _⟩ ⟨_, _, _, _, _⟩; (try simp only [id] at *))
  | (refine post_bind (post_sized _ _) ?_; rintro ⟨_, _⟩ ⟨_, _, _, _⟩; (try simp only [id] at *))
  | (refine post_bind (Framed.post _) ?_; rintro ⟨_, _⟩ ⟨_, _, _⟩; (try simp only [id] at *))
  | (refine post_bind (Fills.post _) ?_; rintro _ ⟨_, _, _⟩)
  | (refine post_ok ?_)
  | split)

macro "frame" : tactic => `(tactic| ((repeat' frame_step) <;> frame_end))

instance (v : U16) : Fills 2 (setn16 v) where
  post b := by
    unfold setn16
    refine post_bind (post_setIdx _ _ _) ?_
    rintro _ ⟨_, _, _⟩
    refine post_mono (post_setIdx _ _ _) ?_
    rintro _ ⟨_, _, _⟩
    frame_end

instance (v : U32) : Fills 4 (setn32 v) where
  post b := by
    unfold setn32
    repeat frame_step
    refine post_mono (post_setIdx _ _ _) ?_
    rintro _ ⟨_, _, _⟩
    frame_end

instance (v : U64) : Fills 8 (setn64 v) where
  post b := by
    unfold setn64
    repeat frame_step
    refine post_mono (post_setIdx _ _ _) ?_
    rintro _ ⟨_, _, _⟩
    frame_end

instance (a : IPv4) : Framed id (encodeAddrV4 a) where
  post b := by unfold encodeAddrV4; frame
instance (a : IPv6) : Framed id (encodeAddrV6 a) where
  post b := by unfold encodeAddrV6; frame
instance (a : IpAddr) : Framed id (encodeAddr a) where
  post b := by
    cases a
    · exact Framed.post (f := encodeAddrV4 _) b
    · exact Framed.post (f := encodeAddrV6 _) b
instance (r : BgpRD) : Framed id r.encodeTo where
  post b := by unfold BgpRD.encodeTo; frame

macro "sized" : tactic => `(tactic| ((repeat' frame_step) <;> rfl))

instance (a : IPv4) : Sized 4 (encodeAddrV4 a) where
  post b := by unfold encodeAddrV4; sized
instance (a : IPv6) : Sized 16 (encodeAddrV6 a) where
  post b := by unfold encodeAddrV6; sized
instance (r : BgpRD) : Sized 8 r.encodeTo where
  post b := by unfold BgpRD.encodeTo; sized

/-! ## Lists -/

theorem post_encLoop {α : Type} (enc : α → Enc) (l : List α) [∀ x, Framed id (enc x)] (b : Bytes) (pos : Nat)
    (hp : pos ≤ b.length) :
    Post (encLoop enc l b pos) fun r => pos ≤ r.2 ∧ r.2 ≤ b.length ∧ r.1.length = b.length ∧
      ∀ k, r.2 ≤ k → r.1[k]? = b[k]? := by
  induction l generalizing b pos with
  | nil => exact post_ok ⟨Nat.le_refl _, hp, rfl, fun _ _ => rfl⟩
  | cons x l ih =>
    unfold encLoop
    frame_step
    refine post_mono (ih _ _ (by omega)) ?_
    rintro ⟨_, _⟩ ⟨_, _, _, _⟩
    (try simp only [id] at *)
    refine ⟨by omega, by omega, by omega, fun k hk => ?_⟩
    simp (disch := omega) only [*]

theorem post_encLoop_mem {α : Type} (enc : α → Enc) (l : List α) (h : ∀ x ∈ l, Framed id (enc x)) (b : Bytes) (pos : Nat)
    (hp : pos ≤ b.length) :
    Post (encLoop enc l b pos) fun r => pos ≤ r.2 ∧ r.2 ≤ b.length ∧ r.1.length = b.length ∧
      ∀ k, r.2 ≤ k → r.1[k]? = b[k]? := by
  induction l generalizing b pos with
  | nil => exact post_ok ⟨Nat.le_refl _, hp, rfl, fun _ _ => rfl⟩
  | cons x l ih =>
    have := h x (by simp)
    unfold encLoop
    frame_step
    refine post_mono (ih (fun y hy => h y (by simp [hy])) _ _ (by omega)) ?_
    rintro ⟨_, _⟩ ⟨_, _, _, _⟩
    (try simp only [id] at *)
    refine ⟨by omega, by omega, by omega, fun k hk => ?_⟩
    simp (disch := omega) only [*]

instance {α : Type} (enc : α → Enc) (l : List α) [∀ x, Framed id (enc x)] : Framed id (fun b => encLoop enc l b 0) where
  post b := post_mono (post_encLoop enc l b 0 (by omega)) fun _ h => h.2

theorem framed_encLoop {α : Type} (enc : α → Enc) (l : List α) (h : ∀ x ∈ l, Framed id (enc x)) :
    Framed id (fun b => encLoop enc l b 0) where
  post b := post_mono (post_encLoop_mem enc l h b 0 (by omega)) fun _ h => h.2

/-- prefix items keep the bytes behind -/
class ItemFramed (T : Type) [BgpItem T] : Prop where
  frame : ∀ x : T, Framed (fun r : U8 × Nat => r.2) (BgpItem.setBits x)

attribute [instance] ItemFramed.frame

instance {T : Type} [BgpItem T] [ItemFramed T] (x : T) : Framed id (encodeItem x) where
  post b := by unfold encodeItem; frame

instance {T : Type} [BgpItem T] [ItemFramed T] (l : List T) : Framed id (encodeItems l) where
  post b := by
    have := Framed.post (f := fun b => encLoop encodeItem l b 0) b
    exact this

instance {T : Type} [BgpItem T] [ItemFramed T] (x : WithPathId T) : Framed id (encodePathIdItem x) where
  post b := by unfold encodePathIdItem; frame

instance {T : Type} [BgpItem T] [ItemFramed T] (l : List (WithPathId T)) : Framed id (encodePathIdItems l) where
  post b := by
    have := Framed.post (f := fun b => encLoop encodePathIdItem l b 0) b
    exact this

theorem framed_addrItems {T : Type} [BgpAddrItem T] (l : List T) (mode : BgpTransportMode)
    (h : ∀ x ∈ l, Framed id (BgpAddrItem.encodeTo x mode)) : Framed id (encodeAddrItems l mode) where
  post b := (framed_encLoop (fun x => BgpAddrItem.encodeTo x mode) l h).post b

/-! ## NLRI -/

theorem post_setLoop (l : List U32) (b : Bytes) (pos : Nat) (hp : pos ≤ b.length) :
    Post (MplsLabels.setLoop l b pos) fun r => r.2 = pos + 3 * l.length ∧ r.2 ≤ b.length ∧ r.1.length = b.length ∧
      ∀ k, r.2 ≤ k → r.1[k]? = b[k]? := by
  induction l generalizing b pos with
  | nil => exact post_ok ⟨by simp, hp, rfl, fun _ _ => rfl⟩
  | cons x l ih =>
    unfold MplsLabels.setLoop
    frame_step; frame_step; frame_step
    refine post_mono (ih _ _ (by omega)) ?_
    rintro ⟨_, _⟩ ⟨_, _, _, _⟩
    (try simp only [id, List.length_cons] at *)
    refine ⟨by omega, by omega, by omega, fun k hk => ?_⟩
    simp (disch := omega) only [*]

instance (m : MplsLabels) : Framed (fun r : U8 × Nat => r.2) m.setBits where
  post b := by
    unfold MplsLabels.setBits
    split
    · exact post_ok ⟨by simp, rfl, fun _ _ => rfl⟩
    · refine post_bind (post_setLoop _ _ _ (by omega)) ?_
      rintro ⟨_, _⟩ ⟨_, _, _, _⟩
      (try simp only [id] at *)
      frame

instance : ItemFramed MplsLabels where
  frame x := inferInstanceAs (Framed (fun r : U8 × Nat => r.2) x.setBits)

theorem post_toBitsV4 (x : BgpAddrV4) (b : Bytes) :
    Post (x.toBits b) fun r => r.2.2 = (x.prefixlen.toNat + 7) / 8 ∧ r.2.2 ≤ b.length ∧ r.1.length = b.length ∧
      ∀ k, r.2.2 ≤ k → r.1[k]? = b[k]? := by
  unfold BgpAddrV4.toBits
  split
  · exact post_ok ⟨by simp; omega, by simp, rfl, fun _ _ => rfl⟩
  · repeat frame_step
    have : BitVec.toNat (7 : U8) = 7 := rfl
    refine ⟨by (try simp only [id] at *); omega, by (try simp only [id] at *); omega, by (try simp only [id] at *); omega, fun k hk => ?_⟩
    (try simp only [id] at *)
    simp (disch := omega) only [*]

theorem post_toBitsV6 (x : BgpAddrV6) (b : Bytes) :
    Post (x.toBits b) fun r => r.2.2 = (x.prefixlen.toNat + 7) / 8 ∧ r.2.2 ≤ b.length ∧ r.1.length = b.length ∧
      ∀ k, r.2.2 ≤ k → r.1[k]? = b[k]? := by
  unfold BgpAddrV6.toBits
  split
  · exact post_ok ⟨by simp; omega, by simp, rfl, fun _ _ => rfl⟩
  · repeat frame_step
    have : BitVec.toNat (7 : U8) = 7 := rfl
    refine ⟨by (try simp only [id] at *); omega, by (try simp only [id] at *); omega, by (try simp only [id] at *); omega, fun k hk => ?_⟩
    (try simp only [id] at *)
    simp (disch := omega) only [*]

instance : ItemFramed BgpAddrV4 where
  frame x := ⟨fun b => post_mono (post_toBitsV4 x b) fun _ h => h.2⟩
instance : ItemFramed BgpAddrV6 where
  frame x := ⟨fun b => post_mono (post_toBitsV6 x b) fun _ h => h.2⟩

instance {T : Type} [BgpItem T] [ItemFramed T] : ItemFramed (Labeled T) where
  frame x := ⟨fun b => by
    simp only [BgpItem.setBits]
    frame⟩

instance {T : Type} [BgpItem T] [ItemFramed T] : ItemFramed (WithRd T) where
  frame x := ⟨fun b => by
    simp only [BgpItem.setBits]
    frame⟩

instance : ItemFramed BgpMdtV4 where
  frame x := ⟨fun b => by
    simp only [BgpItem.setBits]
    refine post_bind (Q := fun r => r.2 ≤ b.length ∧ r.1.length = b.length ∧ ∀ k, r.2 ≤ k → r.1[k]? = b[k]?) ?_ ?_
    · frame
    · rintro ⟨_, _⟩ ⟨_, _, _⟩
      (try simp only [id] at *)
      frame⟩

instance : ItemFramed BgpMdtV6 where
  frame x := ⟨fun b => by
    simp only [BgpItem.setBits]
    refine post_bind (Q := fun r => r.2 ≤ b.length ∧ r.1.length = b.length ∧ ∀ k, r.2 ≤ k → r.1[k]? = b[k]?) ?_ ?_
    · frame
    · rintro ⟨_, _⟩ ⟨_, _, _⟩
      (try simp only [id] at *)
      frame⟩

instance (x : BgpIPv4RD) (mode : BgpTransportMode) : Framed id (BgpAddrItem.encodeTo x mode) where
  post b := by simp only [BgpAddrItem.encodeTo]; frame
instance (x : BgpIPv6RD) (mode : BgpTransportMode) : Framed id (BgpAddrItem.encodeTo x mode) where
  post b := by simp only [BgpAddrItem.encodeTo]; frame

instance (m : MacAddress) : KeepsLen m.writeToNetworkBytes where
  post b := post_mono (post_copyAll _ _) fun _ h => h.1

theorem post_esi (t : U8) (e : EVPNESI) (b : Bytes) (pos : Nat) :
    Post (e.write t b pos) fun r => pos + 10 ≤ b.length ∧ r.length = b.length ∧ ∀ k, pos + 10 ≤ k → r[k]? = b[k]? := by
  unfold EVPNESI.write
  frame_step
  refine post_mono (post_copyAt _ _ _ _) ?_
  rintro _ ⟨_, _, _, _, _⟩
  frame_end


theorem post_evpnWriteIp (ip : IpAddr) (b : Bytes) (pos : Nat) :
    Post (evpnWriteIp ip b pos) fun r => pos ≤ r.2 ∧ r.2 ≤ b.length ∧ r.1.length = b.length ∧
      ∀ k, r.2 ≤ k → r.1[k]? = b[k]? := by
  unfold evpnWriteIp
  (repeat' frame_step) <;> refine ⟨by simp only; omega, ?_⟩ <;> frame_end

macro "frame_esi" : tactic => `(tactic| (refine post_bind (post_esi _ _ _ _) ?_; rintro _ ⟨_, _, _⟩))

instance (x : BgpEVPN1) (mode : BgpTransportMode) : Framed id (BgpAddrItem.encodeTo x mode) where
  post b := by
    simp only [BgpAddrItem.encodeTo]
    frame_step
    frame_esi
    frame

instance (x : BgpEVPN2) (mode : BgpTransportMode) : Framed id (BgpAddrItem.encodeTo x mode) where
  post b := by
    simp only [BgpAddrItem.encodeTo]
    frame_step
    frame_esi
    frame_step
    frame_step
    frame_step
    rename_i b1 _ _ _ _
    refine post_bind (Q := fun r => 29 ≤ r.2 ∧ r.2 ≤ b1.length ∧ r.1.length = b1.length ∧
      ∀ k, r.2 ≤ k → r.1[k]? = b1[k]?) ?_ ?_
    · (repeat' frame_step) <;> refine ⟨by simp only; omega, ?_⟩ <;> frame_end
    · rintro ⟨_, _⟩ ⟨_, _, _, _⟩
      (try simp only [id] at *)
      frame

instance (x : BgpEVPN3) (mode : BgpTransportMode) : Framed id (BgpAddrItem.encodeTo x mode) where
  post b := by
    simp only [BgpAddrItem.encodeTo]
    frame_step
    frame_step
    refine post_mono (post_evpnWriteIp _ _ _) ?_
    rintro ⟨_, _⟩ ⟨_, _, _, _⟩
    frame_end

instance (x : BgpEVPN4) (mode : BgpTransportMode) : Framed id (BgpAddrItem.encodeTo x mode) where
  post b := by
    simp only [BgpAddrItem.encodeTo]
    frame_step
    frame_esi
    refine post_mono (post_evpnWriteIp _ _ _) ?_
    rintro ⟨_, _⟩ ⟨_, _, _, _⟩
    frame_end

/-- an EVPN type 5 route, unless it is of IPv6 and has fewer than six labels -/
theorem framed_evpn5 (x : BgpEVPN5) (mode : BgpTransportMode)
    (h : (∃ a, x.pfx = .v4 a) ∨ 16 ≤ 3 * x.labels.labels.length) : Framed id (BgpAddrItem.encodeTo x mode) where
  post b := by
    simp only [BgpAddrItem.encodeTo]
    frame_step
    frame_esi
    frame_step
    frame_step
    rename_i b1 _ _ _
    refine post_bind (Q := fun r => 23 ≤ r.2 ∧ r.2 ≤ b1.length ∧ r.1.length = b1.length ∧
      ((∀ k, r.2 ≤ k → r.1[k]? = b1[k]?) ∨
        16 ≤ 3 * x.labels.labels.length ∧ ∀ k, r.2 + 16 ≤ k → r.1[k]? = b1[k]?)) ?_ ?_
    · split
      · repeat frame_step
        refine ⟨by simp only; omega, by simp only; omega, by simp only; omega, .inl fun k hk => ?_⟩
        simp only at *
        simp (disch := omega) only [*]
      · rename_i p g hp hg
        repeat frame_step
        have h16 : 16 ≤ 3 * x.labels.labels.length := by
          rcases h with ⟨a, ha⟩ | h
          · rw [ha] at hp; cases hp
          · exact h
        refine ⟨by simp only; omega, by simp only; omega, by simp only; omega, .inr ⟨h16, fun k hk => ?_⟩⟩
        simp only at *
        simp (disch := omega) only [*]
      · exact post_err
    · rintro ⟨b2, n2⟩ ⟨_, _, _, hor⟩
      (try simp only [id] at *)
      have hl : ∀ b, Post (x.labels.setBits b) fun r => x.labels.labels = [] ∨ r.2.2 = 3 * x.labels.labels.length := by
        intro b
        unfold MplsLabels.setBits
        split
        · rename_i he
          exact post_ok (.inl (by simpa using he))
        · refine post_bind (post_setLoop _ _ _ (by omega)) ?_
          rintro ⟨_, _⟩ ⟨_, _, _, _⟩
          (repeat' frame_step)
          exact .inr (by simp only at *; omega)
      have hl2 : Post (onFrom b2 n2 x.labels.setBits) fun r => x.labels.labels = [] ∨ r.2.2 = 3 * x.labels.labels.length := by
        unfold onFrom
        split
        · exact post_bind (hl _) fun r h => post_ok h
        · exact post_panic
      refine post_bind (post_and (post_onFrom _ _ _) hl2) ?_
      rintro ⟨_, _, _⟩ ⟨⟨_, _, _⟩, hn⟩
      (try simp only [id] at *)
      refine post_ok ⟨by simp only [id]; omega, by simp only; omega, fun k hk => ?_⟩
      simp only [id] at *
      rcases hor with h0 | ⟨h0, h1⟩
      · simp (disch := omega) only [*]
      · have : x.labels.labels ≠ [] := by intro h; rw [h] at h0; simp at h0
        rcases hn with hn | hn
        · exact absurd hn this
        · simp (disch := omega) only [*]

theorem framed_evpn (x : BgpEVPN) (mode : BgpTransportMode) (h : EvpnFramed x) : Framed id (BgpAddrItem.encodeTo x mode) where
  post b := by
    change Post (BgpEVPN.encodeTo x mode b) _
    unfold BgpEVPN.encodeTo
    refine post_bind (Q := fun r => r.2 + 2 ≤ b.length ∧ r.1.length = b.length ∧
      ∀ k, r.2 + 2 ≤ k → r.1[k]? = b[k]?) ?_ ?_
    · cases x
      case evpn5 x =>
        have := framed_evpn5 x mode h
        frame_step
        refine post_mono (post_onFrom _ _ _) ?_
        rintro ⟨_, _⟩ ⟨_, _, _⟩
        frame_end
      all_goals
        frame_step
        refine post_mono (post_onFrom _ _ _) ?_
        rintro ⟨_, _⟩ ⟨_, _, _⟩
        frame_end
    · rintro ⟨_, _⟩ ⟨_, _, _⟩
      (try simp only [id] at *)
      frame

instance (x : BgpMVPN1) (mode : BgpTransportMode) : Framed id (BgpAddrItem.encodeTo x mode) where
  post b := by simp only [BgpAddrItem.encodeTo]; frame
instance (x : BgpMVPN2) (mode : BgpTransportMode) : Framed id (BgpAddrItem.encodeTo x mode) where
  post b := by simp only [BgpAddrItem.encodeTo]; frame
instance (x : BgpMVPN3) (mode : BgpTransportMode) : Framed id (BgpAddrItem.encodeTo x mode) where
  post b := by simp only [BgpAddrItem.encodeTo]; frame
instance (x : BgpMVPN4) (mode : BgpTransportMode) : Framed id (BgpAddrItem.encodeTo x mode) where
  post b := by
    have : BgpAddrItem.encodeTo x mode b = (do
      let (buf, p1) ← BgpAddrItem.encodeTo x.spmsi mode b
      let (buf, n) ← onFrom buf p1 (encodeAddr x.originator)
      .ok (buf, p1 + n)) := rfl
    rw [this]
    frame
instance (x : BgpMVPN5) (mode : BgpTransportMode) : Framed id (BgpAddrItem.encodeTo x mode) where
  post b := by simp only [BgpAddrItem.encodeTo]; frame
instance (x : BgpMVPN67) (mode : BgpTransportMode) : Framed id (BgpAddrItem.encodeTo x mode) where
  post b := by simp only [BgpAddrItem.encodeTo]; frame

instance framed_mvpn (x : BgpMVPN) (mode : BgpTransportMode) : Framed id (BgpAddrItem.encodeTo x mode) where
  post b := by
    change Post (BgpMVPN.encodeTo x mode b) _
    unfold BgpMVPN.encodeTo
    refine post_bind (Q := fun r => r.2 + 2 ≤ b.length ∧ r.1.length = b.length ∧
      ∀ k, r.2 + 2 ≤ k → r.1[k]? = b[k]?) ?_ ?_
    · cases x
      all_goals
        frame_step
        refine post_mono (post_onFrom _ _ _) ?_
        rintro ⟨_, _⟩ ⟨_, _, _⟩
        frame_end
    · rintro ⟨_, _⟩ ⟨_, _, _⟩
      (try simp only [id] at *)
      frame

/-- operators keep the bytes behind and take at least one -/
class OpFramed (T : Type) [FSOperItem T] : Prop where
  post : ∀ (x : T) (b : Bytes), Post (FSOperItem.encodeTo x b) fun r =>
    0 < r.2 ∧ r.2 ≤ b.length ∧ r.1.length = b.length ∧ ∀ k, r.2 ≤ k → r.1[k]? = b[k]?

theorem post_fsVal (op : U8) (v : U32) (b : Bytes) : Post (fsEncodeVal op v b) fun r =>
    0 < r.2 ∧ r.2 ≤ b.length ∧ r.1.length = b.length ∧ ∀ k, r.2 ≤ k → r.1[k]? = b[k]? := by
  unfold fsEncodeVal
  (repeat' frame_step) <;> refine ⟨by simp, ?_⟩ <;> frame_end

instance : OpFramed FSOperValItem where
  post _ b := post_fsVal _ _ b
instance : OpFramed FSOperMaskItem where
  post _ b := post_fsVal _ _ b

theorem post_fsLoop {T : Type} [FSOperItem T] [ho : OpFramed T] (l : List T) (b : Bytes)
    (pos lpos : Nat) (hp : pos ≤ b.length) (hl : l ≠ [] ∨ lpos < pos) :
    Post (FSOperVec.encodeLoop l b pos lpos) fun r => r.2.2 < r.2.1 ∧ pos ≤ r.2.1 ∧ r.2.1 ≤ b.length ∧
      r.1.length = b.length ∧ ∀ k, r.2.1 ≤ k → r.1[k]? = b[k]? := by
  induction l generalizing b pos lpos with
  | nil =>
    refine post_ok ⟨?_, Nat.le_refl _, hp, rfl, fun _ _ => rfl⟩
    rcases hl with h | h
    · exact absurd rfl h
    · exact h
  | cons x l ih =>
    have hx : Framed id (FSOperItem.encodeTo x) := ⟨fun b => post_mono (ho.post x b) fun _ h => h.2⟩
    have hpos : ∀ b s, Post (onFrom b s (FSOperItem.encodeTo x)) fun r => 0 < r.2 := by
      intro b s
      unfold onFrom
      split
      · exact post_bind (ho.post x _) fun r h => post_ok h.1
      · exact post_panic
    unfold FSOperVec.encodeLoop
    refine post_bind (post_and (hpos _ _) (post_onFrom _ _ _)) ?_
    rintro ⟨_, _⟩ ⟨_, _, _, _⟩
    (try simp only [id] at *)
    refine post_mono (ih _ _ _ (by omega) (.inr (by omega))) ?_
    rintro ⟨_, _, _⟩ ⟨_, _, _, _, _⟩
    (try simp only [id] at *)
    refine ⟨by omega, by omega, by omega, by omega, fun k hk => ?_⟩
    simp (disch := omega) only [*]

instance {T : Type} [FSOperItem T] [OpFramed T] (v : FSOperVec T) : Framed id v.encodeTo where
  post b := by
    unfold FSOperVec.encodeTo
    split
    · exact post_ok ⟨by simp, rfl, fun _ _ => rfl⟩
    · rename_i hv
      refine post_bind (post_fsLoop _ _ _ _ (by omega) (.inl (by simpa using hv))) ?_
      rintro ⟨_, _, _⟩ ⟨_, _, _, _, _⟩
      (try simp only [id] at *)
      frame

/-- FlowSpec prefixes keep the bytes behind their announced size -/
class FsFramed (T : Type) [FSItem T] : Prop where
  post : ∀ (x : T) (b : Bytes), Post (FSItem.encodeFs x b) fun r =>
    FSItem.storeSize x ≤ b.length ∧ r.length = b.length ∧ ∀ k, FSItem.storeSize x ≤ k → r[k]? = b[k]?

theorem post_onFrom_of {α : Type} {f : Bytes → Res (Bytes × α)} {n : Nat}
    (hf : ∀ b, Post (f b) fun r => n ≤ b.length ∧ r.1.length = b.length ∧ ∀ k, n ≤ k → r.1[k]? = b[k]?) (b : Bytes) (s : Nat) :
    Post (onFrom b s f) fun r => s + n ≤ b.length ∧ r.1.length = b.length ∧ ∀ k, s + n ≤ k → r.1[k]? = b[k]? := by
  have : Framed (fun _ => n) f := ⟨hf⟩
  exact post_onFrom b s f

instance : FsFramed BgpAddrV4 where
  post x b := by
    simp only [FSItem.encodeFs, FSItem.storeSize]
    frame_step
    refine post_bind (post_onFrom_of (n := (x.prefixlen.toNat + 7) / 8) (fun b => post_mono (post_toBitsV4 x b) ?_) _ _) ?_
    · rintro ⟨_, _, _⟩ ⟨h, h2⟩
      rw [h] at h2; exact h2
    · rintro ⟨_, _⟩ ⟨_, _, _⟩
      frame

instance : FsFramed FS6 where
  post x b := by
    simp only [FSItem.encodeFs, FSItem.storeSize]
    frame_step
    frame_step
    refine post_bind (post_onFrom_of (n := (x.ipv6.prefixlen.toNat + 7) / 8)
      (fun b => post_mono (post_toBitsV6 x.ipv6 b) ?_) _ _) ?_
    · rintro ⟨_, _, _⟩ ⟨h, h2⟩
      rw [h] at h2; exact h2
    · rintro ⟨_, _⟩ ⟨_, _, _⟩
      frame

instance : FsFramed FSV4U where
  post x b := by
    simp only [FSItem.encodeFs, FSItem.storeSize]
    frame_step
    frame_step
    have hw : ∀ b, Post (BgpItem.setBits x.pfx b) fun r => 8 + (x.pfx.pfx.prefixlen.toNat + 7) / 8 ≤ b.length ∧
        r.1.length = b.length ∧ ∀ k, 8 + (x.pfx.pfx.prefixlen.toNat + 7) / 8 ≤ k → r.1[k]? = b[k]? := by
      intro b
      simp only [BgpItem.setBits]
      frame_step
      refine post_bind (post_onFrom_of (n := (x.pfx.pfx.prefixlen.toNat + 7) / 8)
        (fun b => post_mono (post_toBitsV4 x.pfx.pfx b) ?_) _ _) ?_
      · rintro ⟨_, _, _⟩ ⟨h, h2⟩
        rw [h] at h2; exact h2
      · rintro ⟨_, _⟩ ⟨_, _, _⟩
        (try simp only [id] at *)
        frame
    refine post_bind (post_onFrom_of hw _ _) ?_
    rintro ⟨_, _⟩ ⟨_, _, _⟩
    frame

section flowspec

variable {T : Type} [FSItem T] [hfs : FsFramed T]

theorem post_putOps {I : Type} [FSOperItem I] [OpFramed I] (code : U8) (v : FSOperVec I) (b : Bytes) (pos : Nat) :
    Post (BgpFlowSpec.putOps code v b pos) fun r => pos ≤ r.2 ∧ r.2 ≤ b.length ∧ r.1.length = b.length ∧
      ∀ k, r.2 ≤ k → r.1[k]? = b[k]? := by
  unfold BgpFlowSpec.putOps
  (repeat' frame_step) <;> refine ⟨by simp only; omega, ?_⟩ <;> frame_end

theorem post_putPrefix (code : U8) (a : T) (b : Bytes) (pos : Nat) :
    Post (BgpFlowSpec.putPrefix code a b pos) fun r => pos ≤ r.2 ∧ r.2 ≤ b.length ∧ r.1.length = b.length ∧
      ∀ k, r.2 ≤ k → r.1[k]? = b[k]? := by
  have : Fills (FSItem.storeSize a) (FSItem.encodeFs a) := ⟨hfs.post a⟩
  unfold BgpFlowSpec.putPrefix
  (repeat' frame_step) <;> refine ⟨by simp only; omega, ?_⟩ <;> frame_end

theorem post_putBody (x : BgpFlowSpec T) (b : Bytes) (pos : Nat) :
    Post (x.putBody b pos) fun r => pos ≤ r.2 ∧ r.2 ≤ b.length ∧ r.1.length = b.length ∧
      ∀ k, r.2 ≤ k → r.1[k]? = b[k]? := by
  cases x <;> first | exact post_putPrefix _ _ _ _ | exact post_putOps _ _ _ _

instance (x : BgpFlowSpec T) (mode : BgpTransportMode) : Framed id (BgpAddrItem.encodeTo x mode) where
  post b := by
    change Post (x.encodeTo b) _
    unfold BgpFlowSpec.encodeTo
    simp only []
    (repeat' frame_step)
    all_goals
      refine post_mono (post_putBody _ _ _) ?_
      rintro ⟨_, _⟩ ⟨_, _, _, _⟩
      frame_end

end flowspec

theorem framed_addrs (x : BgpAddrs) (p : BgpSessionParams) (hl2 : ∀ v, x ≠ .L2VPLS v)
    (hev : ∀ v, x = .EVPN v → ∀ e ∈ v, EvpnFramed e) : Framed id (x.encodeTo p) where
  post b := by
    cases x <;> unfold BgpAddrs.encodeTo
    case L2VPLS v => exact absurd rfl (hl2 v)
    case EVPN v => exact (framed_addrItems v _ fun e he => framed_evpn e _ (hev v rfl e he)).post b
    case None => exact post_ok ⟨by simp, rfl, fun _ _ => rfl⟩
    all_goals first
      | exact Framed.post (f := encodeItems _) b
      | exact Framed.post (f := encodePathIdItems _) b
      | exact (framed_addrItems _ _ fun e he => inferInstance).post b

/-! ## Attributes -/

instance (x : BgpOrigin) : Framed id x.encodeTo where
  post b := by unfold BgpOrigin.encodeTo; frame

theorem post_asns (as32 : Bool) (l : List BgpAS) (b : Bytes) (pos : Nat) (hp : pos ≤ b.length) :
    Post (BgpASpath.encodeAsns as32 l b pos) fun r => pos ≤ r.2 ∧ r.2 ≤ b.length ∧ r.1.length = b.length ∧
      ∀ k, r.2 ≤ k → r.1[k]? = b[k]? := by
  induction l generalizing b pos with
  | nil => exact post_ok ⟨Nat.le_refl _, hp, rfl, fun _ _ => rfl⟩
  | cons x l ih =>
    unfold BgpASpath.encodeAsns
    (repeat' frame_step)
    all_goals
      refine post_mono (ih _ _ (by omega)) ?_
      rintro ⟨_, _⟩ ⟨_, _, _, _⟩
      (try simp only [id] at *)
      refine ⟨by omega, by omega, by omega, fun k hk => ?_⟩
      simp (disch := omega) only [*]

instance (x : BgpASpath) (p : BgpSessionParams) : Framed id (x.encodeTo p) where
  post b := by
    unfold BgpASpath.encodeTo
    split
    · exact post_ok ⟨by simp, rfl, fun _ _ => rfl⟩
    · (repeat' frame_step)
      all_goals
        refine post_mono (post_asns _ _ _ _ (by omega)) ?_
        rintro ⟨_, _⟩ ⟨_, _, _, _⟩
        frame_end

instance (x : BgpNextHop) (p : BgpSessionParams) : Framed id (x.encodeTo p) where
  post b := by
    unfold BgpNextHop.encodeTo
    (repeat' frame_step)
    all_goals first | exact Framed.post (f := encodeAddrV4 _) b | exact Framed.post (f := encodeAddrV6 _) b

instance (x : BgpMED) : Framed id x.encodeTo where
  post b := by unfold BgpMED.encodeTo; frame
instance (x : BgpLocalpref) : Framed id x.encodeTo where
  post b := by unfold BgpLocalpref.encodeTo; frame
instance (x : BgpAtomicAggregate) : Framed id x.encodeTo where
  post b := Framed.post (f := encodeAddr _) b
instance (x : BgpOriginatorID) (p : BgpSessionParams) : Framed id (x.encodeTo p) where
  post b := by
    unfold BgpOriginatorID.encodeTo
    (repeat' frame_step)
    all_goals first | exact Framed.post (f := encodeAddrV4 _) b | exact Framed.post (f := encodeAddrV6 _) b
instance (x : BgpClusterList) : Framed id x.encodeTo where
  post b := Framed.post (f := fun b => encLoop encodeAddr x.value b 0) b
instance (x : BgpConnector) : Framed id x.encodeTo where
  post b := by unfold BgpConnector.encodeTo; frame
instance (x : BgpAttrUnknown) : Framed id x.encodeTo where
  post b := by unfold BgpAttrUnknown.encodeTo; frame
instance (x : BgpCommunity) : Framed id x.encodeTo where
  post b := by unfold BgpCommunity.encodeTo; frame
instance (x : BgpLargeCommunity) : Framed id x.encodeTo where
  post b := by unfold BgpLargeCommunity.encodeTo; frame
instance (x : BgpExtCommunity) : Framed id x.encodeTo where
  post b := by unfold BgpExtCommunity.encodeTo; frame
instance (x : BgpCommunityList) : Framed id x.encodeTo where
  post b := by
    unfold BgpCommunityList.encodeTo
    split
    · exact post_err
    · exact Framed.post (f := fun b => encLoop BgpCommunity.encodeTo x.value b 0) b
instance (x : BgpLargeCommunityList) : Framed id x.encodeTo where
  post b := Framed.post (f := fun b => encLoop BgpLargeCommunity.encodeTo x.value b 0) b
instance (x : BgpExtCommunityList) : Framed id x.encodeTo where
  post b := Framed.post (f := fun b => encLoop BgpExtCommunity.encodeTo x.value b 0) b

theorem post_nexthop (nh : BgpAddr) (p : BgpSessionParams) (b : Bytes) :
    Post (BgpMPUpdates.encodeNexthop nh p b) fun r => (nh ≠ .None → r.2 + 4 ≤ b.length) ∧ r.1.length = b.length ∧
      ∀ k, r.2 + 4 ≤ k → r.1[k]? = b[k]? := by
  unfold BgpMPUpdates.encodeNexthop
  split
  · exact post_ok ⟨fun h => absurd rfl h, rfl, fun _ _ => rfl⟩
  all_goals first
    | exact post_err
    | (refine post_mono (post_onFrom _ _ _) ?_
       rintro ⟨_, _⟩ ⟨_, _, _⟩
       (try simp only [id] at *)
       refine ⟨fun _ => by omega, by assumption, fun k hk => ?_⟩
       simp (disch := omega) only [*])

theorem framed_mpUpdates (x : BgpMPUpdates) (p : BgpSessionParams) [Framed id (x.addrs.encodeTo p)] :
    Framed id (x.encodeTo p) where
  post b := by
    unfold BgpMPUpdates.encodeTo
    frame_step
    frame_step
    refine post_bind (post_nexthop _ _ _) ?_
    rintro ⟨_, _⟩ ⟨_, _, _⟩
    (try simp only [id] at *)
    frame

theorem framed_mpWithdraws (x : BgpMPWithdraws) (p : BgpSessionParams) [Framed id (x.addrs.encodeTo p)] :
    Framed id (x.encodeTo p) where
  post b := by
    unfold BgpMPWithdraws.encodeTo
    frame

theorem frame_iff {f : Enc} : Frame f ↔ Framed id f := by
  constructor
  · intro h
    refine ⟨fun b r hr => ?_⟩
    obtain ⟨b', n⟩ := r
    have := h b b' n hr
    exact ⟨this.1, (upd_iff.1 this.2).1, (upd_iff.1 this.2).2⟩
  · intro h b b' n hr
    have := h.post b (b', n) hr
    exact ⟨this.1, upd_iff.2 ⟨this.2.1, this.2.2⟩⟩

theorem framed_value (x : BgpAttrItem) (p : BgpSessionParams) (h : AttrFramed x) : Framed id (x.encodeValue p) where
  post b := by
    cases x <;> unfold BgpAttrItem.encodeValue
    case AggregatorAS x => exact h.elim
    case MPUpdates x =>
      have := framed_addrs x.addrs p h.1 h.2
      exact (framed_mpUpdates x p).post b
    case MPWithdraws x =>
      have := framed_addrs x.addrs p h.1 h.2
      exact (framed_mpWithdraws x p).post b
    case PMSITunnel x => exact post_panic
    case AttrSet a l => exact post_panic
    all_goals
      rename_i x
      first | exact Framed.post (f := x.encodeTo) b | exact Framed.post (f := x.encodeTo p) b

instance framed_bgpattr (a : BgpAttrParams) (enc : Enc) [Framed id enc] : Framed id (BgpAttrItem.encodeBgpattr a enc) where
  post b := by
    unfold BgpAttrItem.encodeBgpattr
    by_cases hx : a.flags &&& 16 > 0
    · simp only [hx, ↓reduceIte]
      frame
    · simp only [hx, ↓reduceIte]
      frame

theorem framed_attr (x : BgpAttrItem) (p : BgpSessionParams) (h : AttrFramed x) : Framed id (x.encodeTo p) where
  post b := by
    have := framed_value x p h
    exact Framed.post (f := BgpAttrItem.encodeBgpattr x.attr (x.encodeValue p)) b

end Zbgp
