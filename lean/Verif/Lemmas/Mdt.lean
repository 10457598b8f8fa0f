import Verif.Lemmas.Cursor
import Verif.Lemmas.Label
import Verif.Spec.Families

namespace Zbgp

open Spec

theorem mdt4_set (x : BgpMdtV4) (buf : Bytes) :
    BgpItem.setBits x buf = (do
      let (b, r) ← BgpItem.setBits x.addr buf
      let b ← copyAt b r.2 (r.2 + 4) (ipv4Octets x.group)
      .ok (b, (← addC x.addr.prefixlen 32, r.2 + 4))) := by
  simp only [BgpItem.setBits, BgpAddrV4.toBits]
  by_cases h : x.addr.prefixlen.toNat = 0
  · rw [if_neg (by omega), if_pos h]; simp
  · rw [if_pos (by omega), if_neg h]
    cases copyAll (List.replicate 4 0) (ipv4Octets x.addr.addr) <;> simp

theorem mdt6_set (x : BgpMdtV6) (buf : Bytes) :
    BgpItem.setBits x buf = (do
      let (b, r) ← BgpItem.setBits x.addr buf
      let b ← copyAt b r.2 (r.2 + 16) (ipv6Octets x.group)
      .ok (b, (← addC x.addr.prefixlen 128, r.2 + 16))) := by
  simp only [BgpItem.setBits, BgpAddrV6.toBits]
  by_cases h : x.addr.prefixlen.toNat = 0
  · rw [if_neg (by omega), if_pos h]; simp
  · rw [if_pos (by omega), if_neg h]
    cases copyAll (List.replicate 16 0) (ipv6Octets x.addr.addr) <;> simp

theorem mdt4_get {bits : U8} {buf : Bytes} (h1 : 32 ≤ bits.toNat) (h2 : bits.toNat ≤ 64)
    (h3 : octets (bits.toNat - 32) ≤ buf.length) :
    BgpItem.extractBits (T := BgpMdtV4) bits buf = (do
      let (a, n) ← BgpItem.extractBits (T := BgpAddrV4) (bits - 32) buf
      .ok (⟨a, ← decodeAddrV4 (← rfrom buf n)⟩, n + 4)) := by
  have hs : (bits - 32).toNat = bits.toNat - 32 := by
    rw [BitVec.toNat_sub_of_le (by rw [BitVec.le_def]; simpa using h1)]; rfl
  simp only [BgpItem.extractBits]
  rw [if_neg (by simp; omega)]
  by_cases h : bits.toNat = 32
  · have : bits - 32 = 0 := BitVec.eq_of_toNat_eq (by simp [hs, h])
    rw [if_pos h, this, fromBitsV4_ok (by simp) (by simp [octets]), decodeAddrV4_ok (b := List.replicate 4 0) (by simp)]
    simp [octets]
  · rw [if_neg h, subC_ok (by simpa using h1)]
    simp only [Res.ok_bind]
    obtain ⟨h4, h5⟩ := addC_seven (b := bits - 32) (by omega)
    rw [h4]
    simp only [Res.ok_bind, h5]
    simp only [BgpAddrV4.fromBits, h4, Res.ok_bind, h5, hs]
    unfold octets at h3
    rw [if_neg (by omega), if_neg (by omega)]
    cases rslice buf 0 ((bits.toNat - 32 + 7) / 8) <;> simp

theorem mdt6_get {bits : U8} {buf : Bytes} (h1 : 128 ≤ bits.toNat) (h2 : bits.toNat ≤ 254)
    (h3 : octets (bits.toNat - 128) ≤ buf.length) :
    BgpItem.extractBits (T := BgpMdtV6) bits buf = (do
      let (a, n) ← BgpItem.extractBits (T := BgpAddrV6) (bits - 128) buf
      .ok (⟨a, ← decodeAddrV6 (← rfrom buf n)⟩, n + 16)) := by
  have hs : (bits - 128).toNat = bits.toNat - 128 := by
    rw [BitVec.toNat_sub_of_le (by rw [BitVec.le_def]; simpa using h1)]; rfl
  simp only [BgpItem.extractBits]
  rw [if_neg (by simp; omega)]
  by_cases h : bits.toNat = 128
  · have : bits - 128 = 0 := BitVec.eq_of_toNat_eq (by simp [hs, h])
    rw [if_pos h, this, fromBitsV6_ok (by simp) (by simp [octets]), decodeAddrV6_ok (b := List.replicate 16 0) (by simp)]
    simp [octets]
  · rw [if_neg h, subC_ok (by simpa using h1)]
    simp only [Res.ok_bind]
    obtain ⟨h4, h5⟩ := addC_seven (b := bits - 128) (by omega)
    rw [h4]
    simp only [Res.ok_bind, h5]
    simp only [BgpAddrV6.fromBits, h4, Res.ok_bind, h5, hs]
    unfold octets at h3
    rw [if_neg (by omega), if_neg (by omega)]
    cases rslice buf 0 ((bits.toNat - 128 + 7) / 8) <;> simp only [Res.ok_bind, Res.err_bind, Res.panic_bind, Res.hang_bind]
    rename_i s
    cases copyAt (List.replicate 16 0) 0 ((bits.toNat - 128 + 7) / 8) s <;> simp only [Res.ok_bind, Res.err_bind, Res.panic_bind, Res.hang_bind]
    rename_i s
    cases decodeAddrV6 s <;> simp

instance : NlriLawful BgpMdtV4 where
  lt x h := by simp only [NlriKind.WF] at h; simp only [NlriKind.bits]; omega
  writes x h := by
    intro buf hb
    simp only [NlriKind.WF] at h
    simp only [NlriKind.body, NlriKind.bits] at hb ⊢
    have hw := NlriLawful.writes x.addr (show NlriKind.WF x.addr from h)
    have hl := prefixBody_length 4 x.addr.addr.toNat x.addr.prefixlen.toNat (by omega)
    simp only [List.length_append, be_length] at hb
    rw [mdt4_set, hw buf (by simp only [NlriKind.body]; omega)]
    simp only [NlriKind.body, Res.ok_bind, NlriKind.bits]
    rw [cur_copyAt _ _ _ _ _ rfl (by simp [ipv4Octets]) (by simp [ipv4Octets]; omega),
      addC_ok (by simp; omega)]
    simp [ipv4Octets, BitVec.add_comm]
    congr 1
  reads x h := by
    intro rest
    simp only [NlriKind.WF] at h
    have hr := NlriLawful.reads x.addr (show NlriKind.WF x.addr from h)
    have hl := prefixBody_length 4 x.addr.addr.toNat x.addr.prefixlen.toNat (by omega)
    simp only [NlriKind.body, NlriKind.bits, NlriKind.received, ItemReads] at hr ⊢
    have e : (BitVec.ofNat 8 (x.addr.prefixlen.toNat + 32)).toNat = x.addr.prefixlen.toNat + 32 :=
      ofNat8_toNat (by omega)
    rw [mdt4_get (by omega) (by omega) (by rw [e]; simp [hl])]
    have e2 : BitVec.ofNat 8 (x.addr.prefixlen.toNat + 32) - 32 = BitVec.ofNat 8 x.addr.prefixlen.toNat := by
      apply BitVec.eq_of_toNat_eq
      rw [BitVec.toNat_sub_of_le (by rw [BitVec.le_def, e]; simp)]
      rw [e]; simp
    rw [e2, List.append_assoc, hr]
    simp only [Res.ok_bind]
    rw [rfrom_append _ _ _ rfl]
    simp [decodeAddrV4_be]

instance : NlriLawful BgpMdtV6 where
  lt x h := by simp only [NlriKind.WF] at h; simp only [NlriKind.bits]; omega
  writes x h := by
    intro buf hb
    simp only [NlriKind.WF] at h
    simp only [NlriKind.body, NlriKind.bits] at hb ⊢
    have hw := NlriLawful.writes x.addr (show x.addr.prefixlen.toNat ≤ 128 by omega)
    have hl := prefixBody_length 16 x.addr.addr.toNat x.addr.prefixlen.toNat (by omega)
    simp only [List.length_append, be_length] at hb
    rw [mdt6_set, hw buf (by simp only [NlriKind.body]; omega)]
    simp only [NlriKind.body, Res.ok_bind, NlriKind.bits]
    rw [cur_copyAt _ _ _ _ _ rfl (by simp [ipv6Octets]) (by simp [ipv6Octets]; omega),
      addC_ok (by simp; omega)]
    simp [ipv6Octets, BitVec.add_comm]
    congr 1
  reads x h := by
    intro rest
    simp only [NlriKind.WF] at h
    have hr := NlriLawful.reads x.addr (show x.addr.prefixlen.toNat ≤ 128 by omega)
    have hl := prefixBody_length 16 x.addr.addr.toNat x.addr.prefixlen.toNat (by omega)
    simp only [NlriKind.body, NlriKind.bits, NlriKind.received, ItemReads] at hr ⊢
    have e : (BitVec.ofNat 8 (x.addr.prefixlen.toNat + 128)).toNat = x.addr.prefixlen.toNat + 128 :=
      ofNat8_toNat (by omega)
    rw [mdt6_get (by omega) (by omega) (by rw [e]; simp [hl])]
    have e2 : BitVec.ofNat 8 (x.addr.prefixlen.toNat + 128) - 128 = BitVec.ofNat 8 x.addr.prefixlen.toNat := by
      apply BitVec.eq_of_toNat_eq
      rw [BitVec.toNat_sub_of_le (by rw [BitVec.le_def, e]; simp)]
      rw [e]; simp
    rw [e2, List.append_assoc, hr]
    simp only [Res.ok_bind]
    rw [rfrom_append _ _ _ rfl]
    simp [decodeAddrV6_be]

end Zbgp

namespace Zbgp

open Spec

theorem take_append_same {α : Type} (b r : List α) (n k : Nat) (h : k ≤ n) (h2 : n ≤ b.length) :
    (b.take n ++ r).take k = b.take k := by
  rw [List.take_append_of_le_length (by simp; omega), List.take_take, Nat.min_eq_left h]

theorem mdt4_ok_bounds {bits : U8} {buf : Bytes} {x : BgpMdtV4} {n : Nat}
    (h : BgpItem.extractBits bits buf = .ok (x, n)) :
    32 ≤ bits.toNat ∧ bits.toNat ≤ 64 ∧ octets (bits.toNat - 32) ≤ buf.length := by
  simp only [BgpItem.extractBits] at h
  split at h
  · cases h
  rename_i hr
  simp only [not_and, not_not] at hr
  have hr : 32 ≤ bits.toNat ∧ bits.toNat ≤ 128 := by omega
  split at h
  · rename_i h32; simp [h32, octets]
  · rw [subC_ok (by simpa using hr.1)] at h
    have hs : (bits - 32).toNat = bits.toNat - 32 := by
      rw [BitVec.toNat_sub_of_le (by rw [BitVec.le_def]; simpa using hr.1)]; rfl
    simp only [Res.ok_bind] at h
    obtain ⟨h4, h5⟩ := addC_seven (b := bits - 32) (by omega)
    rw [h4] at h
    simp only [Res.ok_bind, h5, hs] at h
    obtain ⟨s, h6, h7⟩ := Res.bind_eq_ok.1 h
    obtain ⟨s', h8, h9⟩ := Res.bind_eq_ok.1 h7
    rw [rslice_eq_ok] at h6
    unfold copyAt at h8
    split at h8
    · rename_i h10
      simp only [List.length_replicate] at h10
      unfold octets; omega
    · cases h8

theorem mdt6_ok_bounds {bits : U8} {buf : Bytes} {x : BgpMdtV6} {n : Nat}
    (h : BgpItem.extractBits bits buf = .ok (x, n)) :
    128 ≤ bits.toNat ∧ bits.toNat ≤ 254 ∧ octets (bits.toNat - 128) ≤ buf.length := by
  simp only [BgpItem.extractBits] at h
  split at h
  · cases h
  rename_i hr
  simp only [not_and, not_not] at hr
  have hr : 128 ≤ bits.toNat ∧ bits.toNat ≤ 254 := by omega
  split at h
  · rename_i h32; simp [h32, octets]
  · rw [subC_ok (by simpa using hr.1)] at h
    have hs : (bits - 128).toNat = bits.toNat - 128 := by
      rw [BitVec.toNat_sub_of_le (by rw [BitVec.le_def]; simpa using hr.1)]; rfl
    simp only [Res.ok_bind] at h
    obtain ⟨h4, h5⟩ := addC_seven (b := bits - 128) (by omega)
    rw [h4] at h
    simp only [Res.ok_bind, h5, hs] at h
    obtain ⟨s, h6, h7⟩ := Res.bind_eq_ok.1 h
    rw [rslice_eq_ok] at h6
    unfold octets; omega

instance : ItemLocal BgpMdtV4 where
  loc bits := by
    intro b x n h
    obtain ⟨h1, h2, h3⟩ := mdt4_ok_bounds h
    have hs : (bits - 32).toNat = bits.toNat - 32 := by
      rw [BitVec.toNat_sub_of_le (by rw [BitVec.le_def]; simpa using h1)]; rfl
    rw [mdt4_get h1 h2 h3] at h
    obtain ⟨⟨a, k⟩, h4, h5⟩ := Res.bind_eq_ok.1 h
    obtain ⟨hk, hl⟩ := ItemLocal.loc (T := BgpAddrV4) (bits - 32) b a k h4
    have hk2 : k = octets (bits.toNat - 32) := by
      simp only [BgpItem.extractBits] at h4
      rw [fromBitsV4_ok (by omega) (by rw [hs]; exact h3), hs] at h4
      cases h4; rfl
    simp only [rfrom_ok hk, Res.ok_bind] at h5
    by_cases h6 : 4 ≤ (b.drop k).length
    · rw [decodeAddrV4_ok h6] at h5
      cases h5
      simp only [List.length_drop] at h6
      refine ⟨by omega, fun rest => ?_⟩
      rw [mdt4_get h1 h2 (by simp only [List.length_append, List.length_take]; omega), take_add_append, hl]
      simp only [Res.ok_bind]
      rw [rfrom_append _ _ _ (by simp; omega)]
      simp only [Res.ok_bind]
      rw [decodeAddrV4_ok (by simp; omega), take_append_same _ _ _ _ (Nat.le_refl _) (by simp; omega)]
      rfl
    · rw [decodeAddrV4_short (by omega)] at h5; cases h5

instance : ItemLocal BgpMdtV6 where
  loc bits := by
    intro b x n h
    obtain ⟨h1, h2, h3⟩ := mdt6_ok_bounds h
    have hs : (bits - 128).toNat = bits.toNat - 128 := by
      rw [BitVec.toNat_sub_of_le (by rw [BitVec.le_def]; simpa using h1)]; rfl
    rw [mdt6_get h1 h2 h3] at h
    obtain ⟨⟨a, k⟩, h4, h5⟩ := Res.bind_eq_ok.1 h
    obtain ⟨hk, hl⟩ := ItemLocal.loc (T := BgpAddrV6) (bits - 128) b a k h4
    have hk2 : k = octets (bits.toNat - 128) := by
      simp only [BgpItem.extractBits] at h4
      rw [fromBitsV6_ok (by omega) (by rw [hs]; exact h3), hs] at h4
      cases h4; rfl
    simp only [rfrom_ok hk, Res.ok_bind] at h5
    by_cases h6 : 16 ≤ (b.drop k).length
    · rw [decodeAddrV6_ok h6] at h5
      cases h5
      simp only [List.length_drop] at h6
      refine ⟨by omega, fun rest => ?_⟩
      rw [mdt6_get h1 h2 (by simp only [List.length_append, List.length_take]; omega), take_add_append, hl]
      simp only [Res.ok_bind]
      rw [rfrom_append _ _ _ (by simp; omega)]
      simp only [Res.ok_bind]
      rw [decodeAddrV6_ok (by simp; omega), take_append_same _ _ _ _ (Nat.le_refl _) (by simp; omega)]
      rfl
    · rw [decodeAddrV6_short (by omega)] at h5; cases h5

theorem Spec.PrefixKind.lawful {T : Type} [BgpItem T] [NlriKind T] (h : PrefixKind T) : NlriLawful T := by
  induction h with
  | labeled _ ih => exact inferInstance
  | withRd _ ih => exact inferInstance
  | _ => exact inferInstance

theorem Spec.PrefixKind.isLocal {T : Type} [BgpItem T] [NlriKind T] (h : PrefixKind T) : ItemLocal T := by
  induction h with
  | labeled _ ih => exact inferInstance
  | withRd _ ih => exact inferInstance
  | _ => exact inferInstance

end Zbgp
