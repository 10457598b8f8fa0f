import Verif.Lemmas.Nlri

/-!
# Writing at a cursor

The buffer is what has been written (`p`) and the rest (`t`); every primitive that writes at position `p.length`
moves octets from the rest to the written part.
-/

namespace Zbgp

open Spec

theorem cur_setIdx (p t : Bytes) (i : Nat) (x : U8) (hi : i = p.length) (ht : 1 ≤ t.length) :
    setIdx (p ++ t) i x = .ok ((p ++ [x]) ++ t.drop 1) := by
  subst hi
  obtain ⟨a, t, rfl⟩ := List.exists_cons_of_length_pos ht
  rw [setIdx_append (Nat.le_refl _)]
  simp

theorem cur_onFrom {f : Enc} {w : Bytes} (hf : Writes f w) (p t : Bytes) (i : Nat) (hi : i = p.length)
    (ht : w.length ≤ t.length) :
    onFrom (p ++ t) i f = .ok ((p ++ w) ++ t.drop w.length, w.length) := by
  rw [onFrom_append p t i f hi, hf t ht]
  simp

theorem cur_onRange {f : Enc} {w : Bytes} (hf : Writes f w) (p t : Bytes) (i j : Nat) (hi : i = p.length)
    (hj : j = p.length + w.length) (ht : w.length ≤ t.length) :
    onRange (p ++ t) i j f = .ok ((p ++ w) ++ t.drop w.length, w.length) := by
  obtain ⟨m, t, rfl, hm, -⟩ := exists_split w.length ht
  rw [onRange_append p m t i j f hi (by omega), hf m (by omega)]
  simp [← hm]

theorem cur_copyAt (p t src : Bytes) (i j : Nat) (hi : i = p.length) (hj : j = p.length + src.length)
    (ht : src.length ≤ t.length) : copyAt (p ++ t) i j src = .ok ((p ++ src) ++ t.drop src.length) := by
  rw [copyAt_drop p t src i j hi hj ht]
  simp

/-- a writer without a count that fills its sub-slice -/
theorem cur_modRange {f : Bytes → Res Bytes} {w : Bytes} (hf : ∀ m, m.length = w.length → f m = .ok w)
    (p t : Bytes) (i j : Nat) (hi : i = p.length) (hj : j = p.length + w.length) (ht : w.length ≤ t.length) :
    modRange (p ++ t) i j f = .ok ((p ++ w) ++ t.drop w.length) := by
  obtain ⟨m, t, rfl, hm, -⟩ := exists_split w.length ht
  rw [modRange_append p m t i j f hi (by omega), hf m hm]
  simp [← hm]

/-- a writer without a count on the tail -/
theorem cur_modFrom {f : Bytes → Res Bytes} {w : Bytes}
    (hf : ∀ m : Bytes, w.length ≤ m.length → f m = .ok (w ++ m.drop w.length))
    (p t : Bytes) (i : Nat) (hi : i = p.length) (ht : w.length ≤ t.length) :
    modFrom (p ++ t) i f = .ok ((p ++ w) ++ t.drop w.length) := by
  rw [modFrom_append p t i f hi, hf t ht]
  simp

theorem fill16 (v : U16) : ∀ m : Bytes, m.length = (be 2 v.toNat).length → setn16 v m = .ok (be 2 v.toNat) := by
  intro m hm
  rw [be_length] at hm
  rw [setn16_ok v (by omega), List.drop_of_length_le (by omega), List.append_nil]

theorem fill32 (v : U32) : ∀ m : Bytes, m.length = (be 4 v.toNat).length → setn32 v m = .ok (be 4 v.toNat) := by
  intro m hm
  rw [be_length] at hm
  rw [setn32_ok v (by omega), List.drop_of_length_le (by omega), List.append_nil]

theorem fill64 (v : U64) : ∀ m : Bytes, m.length = (be 8 v.toNat).length → setn64 v m = .ok (be 8 v.toNat) := by
  intro m hm
  rw [be_length] at hm
  rw [setn64_ok v (by omega), List.drop_of_length_le (by omega), List.append_nil]

theorem put16 (v : U16) : ∀ m : Bytes, (be 2 v.toNat).length ≤ m.length →
    setn16 v m = .ok (be 2 v.toNat ++ m.drop (be 2 v.toNat).length) := by
  intro m hm
  rw [be_length] at *
  exact setn16_ok v hm

theorem put32 (v : U32) : ∀ m : Bytes, (be 4 v.toNat).length ≤ m.length →
    setn32 v m = .ok (be 4 v.toNat ++ m.drop (be 4 v.toNat).length) := by
  intro m hm
  rw [be_length] at *
  exact setn32_ok v hm

theorem put64 (v : U64) : ∀ m : Bytes, (be 8 v.toNat).length ≤ m.length →
    setn64 v m = .ok (be 8 v.toNat ++ m.drop (be 8 v.toNat).length) := by
  intro m hm
  rw [be_length] at *
  exact setn64_ok v hm

/-- the wire form of an address, by family -/
theorem writes_encodeAddr (a : IpAddr) : Writes (encodeAddr a) (match a with
    | .v4 x => be 4 x.toNat | .v6 x => be 16 x.toNat) := by
  cases a with
  | v4 x => exact writes_encodeAddrV4 x
  | v6 x => exact writes_encodeAddrV6 x

end Zbgp
