/-!
# Outcomes, bytes and buffers

The vocabulary every model module uses: the outcome type of a Rust call, byte buffers and the
slice / index primitives of the language.  `src/util.rs` itself is modelled in `Model/Util.lean`.
-/

namespace Zbgp

abbrev U8 := BitVec 8
abbrev U16 := BitVec 16
abbrev U32 := BitVec 32
abbrev U64 := BitVec 64
abbrev U128 := BitVec 128

/-- A byte slice `&[u8]` / a `Vec<u8>`. -/
abbrev Bytes := List U8

/-- `src/error.rs:18-25`. The message texts are not modelled. -/
inductive BgpError
  | static
  | insufficientBufferSize
  | protocolError
  | tooManyData
  | dynStr
  | other
deriving DecidableEq, Repr

/-- The outcome of a Rust call returning `Result<α, BgpError>`.
`panic` is any Rust panic (slice/index out of range, overflow with overflow checks on,
`unwrap`, `unimplemented!`, length mismatch in `clone_from_slice`).
`hang` is a loop that used up the fuel it was given by the model. -/
inductive Res (α : Type) : Type
  | ok (a : α)
  | err (e : BgpError)
  | panic
  | hang
deriving DecidableEq, Repr

namespace Res

variable {α β γ : Type}

/-- Rust's `?`, and sequencing of code that may panic. -/
@[inline] protected def bind : Res α → (α → Res β) → Res β
  | .ok a, f => f a
  | .err e, _ => .err e
  | .panic, _ => .panic
  | .hang, _ => .hang

instance : Monad Res where
  pure := Res.ok
  bind := Res.bind

@[simp] theorem pure_eq (a : α) : (pure a : Res α) = .ok a := rfl
@[simp] theorem ok_bind (a : α) (f : α → Res β) : (Res.ok a >>= f) = f a := rfl
@[simp] theorem err_bind (e : BgpError) (f : α → Res β) : (Res.err e >>= f) = .err e := rfl
@[simp] theorem panic_bind (f : α → Res β) : (Res.panic >>= f) = .panic := rfl
@[simp] theorem hang_bind (f : α → Res β) : (Res.hang >>= f) = .hang := rfl

instance : LawfulMonad Res := LawfulMonad.mk'
  (id_map := by intro α x; cases x <;> rfl)
  (pure_bind := by intros; rfl)
  (bind_assoc := by intro α β γ x f g; cases x <;> rfl)

@[simp] theorem map_ok (f : α → β) (a : α) : (f <$> Res.ok a) = Res.ok (f a) := rfl

/-- The call came back to its caller: `Ok` or `Err`, no panic and no endless loop. -/
def Returns : Res α → Prop
  | .ok _ => True
  | .err _ => True
  | .panic => False
  | .hang => False

instance (r : Res α) : Decidable r.Returns := by
  cases r <;> unfold Returns <;> infer_instance

/-- The call returned `Err`. -/
def IsErr : Res α → Prop
  | .err _ => True
  | _ => False

instance (r : Res α) : Decidable r.IsErr := by
  cases r <;> unfold IsErr <;> infer_instance

@[simp] theorem returns_ok (a : α) : (Res.ok a).Returns := trivial
@[simp] theorem returns_err (e : BgpError) : (Res.err e : Res α).Returns := trivial
@[simp] theorem returns_panic : ¬ (Res.panic : Res α).Returns := id
@[simp] theorem returns_hang : ¬ (Res.hang : Res α).Returns := id
@[simp] theorem isErr_err (e : BgpError) : (Res.err e : Res α).IsErr := trivial
@[simp] theorem isErr_ok (a : α) : ¬ (Res.ok a).IsErr := id
@[simp] theorem isErr_panic : ¬ (Res.panic : Res α).IsErr := id
@[simp] theorem isErr_hang : ¬ (Res.hang : Res α).IsErr := id

theorem returns_bind {x : Res α} {f : α → Res β} (hx : x.Returns)
    (hf : ∀ a, x = .ok a → (f a).Returns) : (x >>= f).Returns := by
  cases x <;> simp_all

theorem bind_eq_ok {x : Res α} {f : α → Res β} {b : β} :
    (x >>= f) = .ok b ↔ ∃ a, x = .ok a ∧ f a = .ok b := by
  cases x <;> simp

theorem returns_iff {r : Res α} : r.Returns ↔ r ≠ .panic ∧ r ≠ .hang := by
  cases r <;> simp

end Res

/-! ## Arithmetic with overflow checks -/

/-- `a + b` on an unsigned Rust integer with overflow checks. -/
def addC {w : Nat} (a b : BitVec w) : Res (BitVec w) :=
  if a.toNat + b.toNat < 2 ^ w then .ok (a + b) else .panic

/-- `a - b` on an unsigned Rust integer with overflow checks. -/
def subC {w : Nat} (a b : BitVec w) : Res (BitVec w) :=
  if b.toNat ≤ a.toNat then .ok (a - b) else .panic

/-- `a - b` on `usize` with overflow checks. -/
def subN (a b : Nat) : Res Nat :=
  if b ≤ a then .ok (a - b) else .panic

/-- `a << n` with overflow checks (the shift amount must be below the width). -/
def shlC {w : Nat} (a : BitVec w) (n : Nat) : Res (BitVec w) :=
  if n < w then .ok (a <<< n) else .panic

/-! ## Indexing and slicing -/

/-- `buf[i]` as an rvalue. -/
def idx {α : Type} (b : List α) (i : Nat) : Res α :=
  match b[i]? with
  | some x => .ok x
  | none => .panic

/-- `buf[i] = x`. -/
def setIdx {α : Type} (b : List α) (i : Nat) (x : α) : Res (List α) :=
  if i < b.length then .ok (b.set i x) else .panic

/-- `&buf[s..e]`. -/
def rslice {α : Type} (b : List α) (s e : Nat) : Res (List α) :=
  if s ≤ e ∧ e ≤ b.length then .ok ((b.take e).drop s) else .panic

/-- `&buf[s..]`. -/
def rfrom {α : Type} (b : List α) (s : Nat) : Res (List α) :=
  if s ≤ b.length then .ok (b.drop s) else .panic

/-- `f(&mut buf[s..])`: run a writer on the tail of the buffer. -/
def onFrom {α : Type} (b : Bytes) (s : Nat) (f : Bytes → Res (Bytes × α)) : Res (Bytes × α) :=
  if s ≤ b.length then do
    let (t, a) ← f (b.drop s)
    .ok (b.take s ++ t, a)
  else .panic

/-- `f(&mut buf[s..e])`: run a writer on a sub-slice of the buffer. -/
def onRange {α : Type} (b : Bytes) (s e : Nat) (f : Bytes → Res (Bytes × α)) :
    Res (Bytes × α) :=
  if s ≤ e ∧ e ≤ b.length then do
    let (t, a) ← f ((b.take e).drop s)
    .ok (b.take s ++ t ++ b.drop e, a)
  else .panic

/-- `f(&mut buf[s..])` for a writer that returns nothing but its success. -/
def modFrom (b : Bytes) (s : Nat) (f : Bytes → Res Bytes) : Res Bytes :=
  if s ≤ b.length then do
    let t ← f (b.drop s)
    .ok (b.take s ++ t)
  else .panic

/-- `f(&mut buf[s..e])` for a writer that returns nothing but its success. -/
def modRange (b : Bytes) (s e : Nat) (f : Bytes → Res Bytes) : Res Bytes :=
  if s ≤ e ∧ e ≤ b.length then do
    let t ← f ((b.take e).drop s)
    .ok (b.take s ++ t ++ b.drop e)
  else .panic

/-- `buf.clone_from_slice(src)`: panics unless the lengths agree. -/
def copyAll (b src : Bytes) : Res Bytes :=
  if b.length = src.length then .ok src else .panic

/-- `buf[s..e].clone_from_slice(src)` / `copy_from_slice`. -/
def copyAt (b : Bytes) (s e : Nat) (src : Bytes) : Res Bytes :=
  if s ≤ e ∧ e ≤ b.length ∧ src.length = e - s then
    .ok (b.take s ++ src ++ b.drop e)
  else .panic

/-! ## Encoders -/

/-- An encoder: given the buffer, the new buffer and the number of bytes it reports. -/
abbrev Enc := Bytes → Res (Bytes × Nat)

end Zbgp
