import Verif.Lemmas.ReadsRoutes

/-!
# C51: the VPLS address without label block
-/

namespace Zbgp.Props

open Zbgp Spec

/-- The layout of RFC 4761 3.2.2 without the label base: RD, VE ID, VE block offset, VE block size. -/
def l2Body (x : BgpL2) : Bytes :=
  be 4 x.rd.rdh.toNat ++ be 4 x.rd.rdl.toNat ++ be 2 x.site.toNat ++ be 2 x.offset.toNat ++ be 2 x.range.toNat

theorem l2Body_eq (x : BgpL2) (t : Bytes) : l2Body x ++ t =
    rdBody x.rd ++ (be 2 x.site.toNat ++ (be 2 x.offset.toNat ++ (be 2 x.range.toNat ++ t))) := by
  simp [l2Body, rdBody]

@[simp] theorem l2Body_length (x : BgpL2) : (l2Body x).length = 14 := by simp [l2Body]

theorem l2_reads (m : BgpTransportMode) (x : BgpL2) (t : Bytes) :
    BgpAddrItem.decodeFrom m (l2Body x ++ t) = .ok (x, 14) := by
  simp only [BgpAddrItem.decodeFrom]
  rw [if_pos (by simp), l2Body_eq, rslice_append_zero _ _ _ (by simp)]
  simp only [Res.ok_bind]
  rw [show rdBody x.rd = rdBody x.rd ++ [] by simp, rd_reads, List.append_nil]
  simp only [Res.ok_bind]
  rw [rslice_append_mid _ _ _ _ _ (by simp) (by simp)]
  simp only [Res.ok_bind, getn16_two]
  rw [rslice_append_right (by simp) (by omega), rslice_append_mid _ _ _ _ _ (by simp) (by simp)]
  simp only [Res.ok_bind, getn16_two]
  rw [rslice_append_right (by simp) (by omega), rslice_append_right (by simp) (by simp),
    rslice_append_mid _ _ _ _ _ (by simp) (by simp)]
  simp [getn16_two]

/-- **C51**, the VPLS address without label block: the decoder reads exactly the 14 octets of the fields in the order of
RFC 4761, rejects anything shorter, and does not crash; it takes 14 octets whatever follows. -/
theorem C51_l2_decode_exactly (m : BgpTransportMode) (b : Bytes) :
    Exactly (BgpAddrItem.decodeFrom (T := BgpL2) m b) (fun y => y.2 = 14 ∧ b.take 14 = l2Body y.1) False := by
  by_cases h : 14 ≤ b.length
  · obtain ⟨rd, s, o, r, t, rfl, -⟩ := exists_vpls h
    have e := l2Body_eq ⟨rd, s, o, r⟩ t
    simp only at e
    rw [← e]
    refine .of_cases ?_ False.elim (.inl ⟨(⟨rd, s, o, r⟩, 14), rfl, List.take_left' (by simp)⟩)
    rintro ⟨x, n⟩ ⟨hn, hx⟩
    simp only at hn hx
    subst hn
    rw [← List.take_append_drop 14 (l2Body ⟨rd, s, o, r⟩ ++ t), hx]
    exact l2_reads m x _
  · refine .of_cases ?_ False.elim (.inr (.inr ?_))
    · rintro ⟨x, n⟩ ⟨-, hx⟩
      have := congrArg List.length hx
      simp at this; omega
    · simp only [BgpAddrItem.decodeFrom]
      rw [if_neg h]; trivial

/-- **C51**, the same address, encoding: 14 octets or more take exactly the fields and leave the rest alone, and what was
written reads back. A shorter buffer makes the encoder panic. -/
theorem C51_l2_encode_exactly (m : BgpTransportMode) (x : BgpL2) (buf : Bytes) :
    (14 ≤ buf.length → BgpAddrItem.encodeTo x m buf = .ok (l2Body x ++ buf.drop 14, 14) ∧
      BgpAddrItem.decodeFrom m (l2Body x ++ buf.drop 14) = .ok (x, 14)) ∧
    (buf.length < 14 → BgpAddrItem.encodeTo x m buf = .panic) := by
  refine ⟨fun h => ⟨?_, l2_reads m x _⟩, fun h2 => ?_⟩
  · simp only [BgpAddrItem.encodeTo]
    rw [rd_writes _ buf (by simp; omega)]
    simp only [Res.ok_bind]
    rw [cur_modFrom (put16 _) _ _ _ rfl (by simp; omega)]
    simp only [Res.ok_bind]
    rw [cur_modFrom (put16 _) _ _ _ (by simp) (by simp; omega)]
    simp only [Res.ok_bind]
    rw [cur_modFrom (put16 _) _ _ _ (by simp) (by simp; omega)]
    simp [l2Body, rdBody]
  by_cases h1 : buf.length < 8
  · simp only [BgpAddrItem.encodeTo]
    rw [show x.rd.encodeTo buf = .panic by
      unfold BgpRD.encodeTo
      match buf, h1 with
      | [], _ => rfl
      | [_], _ => rfl
      | [_, _], _ => rfl
      | [_, _, _], _ => rfl
      | [_, _, _, _], _ => rfl
      | [_, _, _, _, _], _ => rfl
      | [_, _, _, _, _, _], _ => rfl
      | [_, _, _, _, _, _, _], _ => rfl]
    rfl
  · simp only [BgpAddrItem.encodeTo]
    rw [rd_writes _ buf (by simp; omega)]
    simp only [Res.ok_bind]
    have ht : (buf.drop (rdBody x.rd).length).length < 6 := by simp; omega
    generalize buf.drop (rdBody x.rd).length = t at ht
    have small : ∀ (v : U16) (t : Bytes), t.length < 2 → setn16 v t = .panic := by
      intro v t h
      match t, h with
      | [], _ => rfl
      | [a], _ => rfl
    by_cases h3 : t.length < 2
    · rw [modFrom_append _ _ _ _ rfl, small _ _ h3]; rfl
    rw [cur_modFrom (put16 _) _ _ _ rfl (by simp; omega)]
    simp only [Res.ok_bind]
    by_cases h3 : t.length < 4
    · rw [modFrom_append _ _ _ _ (by simp), small _ _ (by simp; omega)]; rfl
    rw [cur_modFrom (put16 _) _ _ _ (by simp) (by simp; omega)]
    simp only [Res.ok_bind]
    rw [modFrom_append _ _ _ _ (by simp), small _ _ (by simp; omega)]; rfl

/-- non-vacuity of C51 for the address without label block -/
example : BgpAddrItem.decodeFrom (T := BgpL2) .IPv4 [0, 0, 0xfd, 0xe8, 0, 0, 0, 100, 0, 7, 0, 1, 0, 10, 99] =
    .ok (⟨⟨0xfde8, 100⟩, 7, 1, 10⟩, 14) := by decide

end Zbgp.Props
