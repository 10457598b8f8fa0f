import Verif.Lemmas.Nlri

/-! # IPv4 / IPv6 prefix codecs -/

namespace Zbgp

open Spec

/-! ## Codecs -/

theorem copy_into_zeros (n : Nat) (src : Bytes) (k : Nat) (hk : src.length = k) (h : k ≤ n) :
    copyAt (List.replicate n (0 : U8)) 0 k src = .ok (src ++ List.replicate (n - k) 0) := by
  simp [copyAt, h, hk]

theorem addC_seven {b : U8} (h : b.toNat ≤ 248) : addC b 7 = .ok (b + 7) ∧ (b + 7).toNat = b.toNat + 7 := by
  have h7 : (7 : U8).toNat = 7 := rfl
  refine ⟨by simp only [addC, h7]; rw [if_pos (by omega)], ?_⟩
  rw [BitVec.toNat_add, h7]; omega

theorem addC_seven_panic {b : U8} (h : 249 ≤ b.toNat) : addC b 7 = .panic := by
  have h7 : (7 : U8).toNat = 7 := rfl
  simp only [addC, h7]; rw [if_neg (by omega)]

theorem fromBitsV4_panic {bits : U8} {buf : Bytes} (h : 249 ≤ bits.toNat) :
    BgpAddrV4.fromBits bits buf = .panic := by
  simp only [BgpAddrV4.fromBits, addC_seven_panic h, Res.panic_bind]

theorem fromBitsV6_panic {bits : U8} {buf : Bytes} (h : 249 ≤ bits.toNat) :
    BgpAddrV6.fromBits bits buf = .panic := by
  simp only [BgpAddrV6.fromBits, addC_seven_panic h, Res.panic_bind]

theorem fromBitsV4_err {bits : U8} {buf : Bytes} (h : bits.toNat ≤ 248)
    (h2 : 32 < bits.toNat ∨ buf.length < octets bits.toNat) :
    BgpAddrV4.fromBits bits buf = .err .dynStr := by
  obtain ⟨h1, h3⟩ := addC_seven h
  simp only [BgpAddrV4.fromBits, h1, Res.ok_bind, h3]
  rw [if_pos (by simpa [octets] using h2)]

theorem fromBitsV6_err {bits : U8} {buf : Bytes} (h : bits.toNat ≤ 248)
    (h2 : 128 < bits.toNat ∨ buf.length < octets bits.toNat) :
    BgpAddrV6.fromBits bits buf = .err .dynStr := by
  obtain ⟨h1, h3⟩ := addC_seven h
  simp only [BgpAddrV6.fromBits, h1, Res.ok_bind, h3]
  rw [if_pos (by simpa [octets] using h2)]

/-- the decoder on a body that is long enough -/
theorem fromBitsV4_ok {bits : U8} {buf : Bytes} (h : bits.toNat ≤ 32)
    (h2 : octets bits.toNat ≤ buf.length) :
    BgpAddrV4.fromBits bits buf =
      .ok (⟨BitVec.ofNat 32 (unbe (buf.take (octets bits.toNat) ++
        List.replicate (4 - octets bits.toNat) (0 : U8))), bits⟩, octets bits.toNat) := by
  obtain ⟨h1, h3⟩ := addC_seven (b := bits) (by omega)
  have ho : octets bits.toNat ≤ 4 := octets_le (by omega)
  simp only [BgpAddrV4.fromBits, h1, Res.ok_bind, h3]
  rw [if_neg (by simp only [not_or, not_lt]; exact ⟨h, h2⟩)]
  split
  · rename_i hz
    have hb : bits = 0 := BitVec.eq_of_toNat_eq (by simpa using hz)
    subst hb
    rw [decodeAddrV4_ok (by simp)]
    simp [octets]
  · rw [rslice_ok (e := (bits.toNat + 7) / 8) (by omega) h2]
    simp only [Res.ok_bind, List.drop_zero]
    have hl : (List.take (octets bits.toNat) buf).length = octets bits.toNat := by simp [h2]
    have := copy_into_zeros 4 _ _ hl ho
    simp only [octets] at this ⊢
    rw [this]
    simp only [Res.ok_bind]
    have hl2 : (List.take ((bits.toNat + 7) / 8) buf ++
      List.replicate (4 - (bits.toNat + 7) / 8) (0 : U8)).length = 4 := by
      simp only [octets] at ho h2; simp; omega
    rw [decodeAddrV4_ok (by omega), List.take_of_length_le (by omega)]
    rfl

theorem fromBitsV6_ok {bits : U8} {buf : Bytes} (h : bits.toNat ≤ 128)
    (h2 : octets bits.toNat ≤ buf.length) :
    BgpAddrV6.fromBits bits buf =
      .ok (⟨BitVec.ofNat 128 (unbe (buf.take (octets bits.toNat) ++
        List.replicate (16 - octets bits.toNat) (0 : U8))), bits⟩, octets bits.toNat) := by
  obtain ⟨h1, h3⟩ := addC_seven (b := bits) (by omega)
  have ho : octets bits.toNat ≤ 16 := octets_le (by omega)
  simp only [BgpAddrV6.fromBits, h1, Res.ok_bind, h3]
  rw [if_neg (by simp only [not_or, not_lt]; exact ⟨h, h2⟩)]
  split
  · rename_i hz
    have hb : bits = 0 := BitVec.eq_of_toNat_eq (by simpa using hz)
    subst hb
    rw [decodeAddrV6_ok (by simp)]
    simp [octets]
  · rw [rslice_ok (e := (bits.toNat + 7) / 8) (by omega) h2]
    simp only [Res.ok_bind, List.drop_zero]
    have hl : (List.take (octets bits.toNat) buf).length = octets bits.toNat := by simp [h2]
    have := copy_into_zeros 16 _ _ hl ho
    simp only [octets] at this ⊢
    rw [this]
    simp only [Res.ok_bind]
    have hl2 : (List.take ((bits.toNat + 7) / 8) buf ++
      List.replicate (16 - (bits.toNat + 7) / 8) (0 : U8)).length = 16 := by
      simp only [octets] at ho h2
      rw [List.length_append, List.length_replicate, List.length_take]; omega
    rw [decodeAddrV6_ok (by omega), List.take_of_length_le (by omega)]
    rfl

instance : NlriLawful BgpAddrV4 where
  lt x h := by simp only [NlriKind.WF] at h; simp only [NlriKind.bits]; omega
  writes x h := by
    intro buf hb
    simp only [NlriKind.WF] at h
    simp only [NlriKind.body, NlriKind.bits] at hb ⊢
    have hl := prefixBody_length 4 x.addr.toNat x.prefixlen.toNat (by omega)
    have ho : octets x.prefixlen.toNat ≤ 4 := octets_le (by omega)
    simp only [BgpItem.setBits, BgpAddrV4.toBits]
    split
    · rename_i hz
      have : octets x.prefixlen.toNat = 0 := by rw [hz]; rfl
      have hn : prefixBody 4 x.addr.toNat x.prefixlen.toNat = [] :=
        List.eq_nil_of_length_eq_zero (by omega)
      rw [hn, hz]; simp
    · obtain ⟨h1, h3⟩ := addC_seven (b := x.prefixlen) (by omega)
      rw [copyAll_ok (by simp [ipv4Octets])]
      simp only [h1, h3, Res.ok_bind]
      simp only [ipv4Octets]
      change (do
        let __do_lift ← rslice (be 4 x.addr.toNat) 0 (octets x.prefixlen.toNat)
        let buf ← copyAt buf 0 (octets x.prefixlen.toNat) __do_lift
        Res.ok (buf, x.prefixlen, octets x.prefixlen.toNat)) = _
      rw [rslice_ok (by omega) (by simp [ho])]
      simp only [Res.ok_bind, List.drop_zero]
      change (do
        let buf ← copyAt buf 0 (octets x.prefixlen.toNat) (prefixBody 4 x.addr.toNat x.prefixlen.toNat)
        Res.ok (buf, x.prefixlen, octets x.prefixlen.toNat)) = _
      rw [copyAt, if_pos ⟨by omega, by omega, by omega⟩]
      simp [hl]
  reads x h := by
    intro rest
    simp only [NlriKind.WF] at h
    simp only [NlriKind.body, NlriKind.bits, NlriKind.received, BgpItem.extractBits]
    have hl := prefixBody_length 4 x.addr.toNat x.prefixlen.toNat (by omega)
    have ho : octets x.prefixlen.toNat ≤ 4 := octets_le (by omega)
    have hb : (BitVec.ofNat 8 x.prefixlen.toNat) = x.prefixlen := by simp
    rw [hb, fromBitsV4_ok h (by simp [hl]), List.take_left' hl, hl]
    simp only [prefixBody]
    rw [unbe_keep 4 _ _ ho x.addr.isLt]

instance : NlriLawful BgpAddrV6 where
  lt x h := by simp only [NlriKind.WF] at h; simp only [NlriKind.bits]; omega
  writes x h := by
    intro buf hb
    simp only [NlriKind.WF] at h
    simp only [NlriKind.body, NlriKind.bits] at hb ⊢
    have hl := prefixBody_length 16 x.addr.toNat x.prefixlen.toNat (by omega)
    have ho : octets x.prefixlen.toNat ≤ 16 := octets_le (by omega)
    simp only [BgpItem.setBits, BgpAddrV6.toBits]
    split
    · rename_i hz
      have : octets x.prefixlen.toNat = 0 := by rw [hz]; rfl
      have hn : prefixBody 16 x.addr.toNat x.prefixlen.toNat = [] :=
        List.eq_nil_of_length_eq_zero (by omega)
      rw [hn, hz]; simp
    · obtain ⟨h1, h3⟩ := addC_seven (b := x.prefixlen) (by omega)
      rw [copyAll_ok (by rw [List.length_replicate]; simp [ipv6Octets])]
      simp only [h1, h3, Res.ok_bind]
      simp only [ipv6Octets]
      change (do
        let __do_lift ← rslice (be 16 x.addr.toNat) 0 (octets x.prefixlen.toNat)
        let buf ← copyAt buf 0 (octets x.prefixlen.toNat) __do_lift
        Res.ok (buf, x.prefixlen, octets x.prefixlen.toNat)) = _
      rw [rslice_ok (by omega) (by simp [ho])]
      simp only [Res.ok_bind, List.drop_zero]
      change (do
        let buf ← copyAt buf 0 (octets x.prefixlen.toNat) (prefixBody 16 x.addr.toNat x.prefixlen.toNat)
        Res.ok (buf, x.prefixlen, octets x.prefixlen.toNat)) = _
      rw [copyAt, if_pos ⟨by omega, by omega, by omega⟩]
      simp [hl]
  reads x h := by
    intro rest
    simp only [NlriKind.WF] at h
    simp only [NlriKind.body, NlriKind.bits, NlriKind.received, BgpItem.extractBits]
    have hl := prefixBody_length 16 x.addr.toNat x.prefixlen.toNat (by omega)
    have ho : octets x.prefixlen.toNat ≤ 16 := octets_le (by omega)
    have hb : (BitVec.ofNat 8 x.prefixlen.toNat) = x.prefixlen := by simp
    rw [hb, fromBitsV6_ok h (by simp [hl]), List.take_left' hl, hl]
    simp only [prefixBody]
    rw [unbe_keep 16 _ _ ho x.addr.isLt]

/-! ## Locality and totality -/

theorem fromBitsV4_cases (bits : U8) (buf : Bytes) :
    (249 ≤ bits.toNat ∧ BgpAddrV4.fromBits bits buf = .panic) ∨
    (bits.toNat ≤ 248 ∧ (32 < bits.toNat ∨ buf.length < octets bits.toNat) ∧
      BgpAddrV4.fromBits bits buf = .err .dynStr) ∨
    (bits.toNat ≤ 32 ∧ octets bits.toNat ≤ buf.length ∧
      ∃ x, BgpAddrV4.fromBits bits buf = .ok (x, octets bits.toNat)) := by
  by_cases h : 249 ≤ bits.toNat
  · exact .inl ⟨h, fromBitsV4_panic h⟩
  · by_cases h2 : 32 < bits.toNat ∨ buf.length < octets bits.toNat
    · exact .inr (.inl ⟨by omega, h2, fromBitsV4_err (by omega) h2⟩)
    · exact .inr (.inr ⟨by omega, by omega, _, fromBitsV4_ok (by omega) (by omega)⟩)

theorem fromBitsV6_cases (bits : U8) (buf : Bytes) :
    (249 ≤ bits.toNat ∧ BgpAddrV6.fromBits bits buf = .panic) ∨
    (bits.toNat ≤ 248 ∧ (128 < bits.toNat ∨ buf.length < octets bits.toNat) ∧
      BgpAddrV6.fromBits bits buf = .err .dynStr) ∨
    (bits.toNat ≤ 128 ∧ octets bits.toNat ≤ buf.length ∧
      ∃ x, BgpAddrV6.fromBits bits buf = .ok (x, octets bits.toNat)) := by
  by_cases h : 249 ≤ bits.toNat
  · exact .inl ⟨h, fromBitsV6_panic h⟩
  · by_cases h2 : 128 < bits.toNat ∨ buf.length < octets bits.toNat
    · exact .inr (.inl ⟨by omega, h2, fromBitsV6_err (by omega) h2⟩)
    · exact .inr (.inr ⟨by omega, by omega, _, fromBitsV6_ok (by omega) (by omega)⟩)

instance : ItemLocal BgpAddrV4 where
  loc bits := by
    intro b x n h
    simp only [BgpItem.extractBits] at h ⊢
    rcases fromBitsV4_cases bits b with ⟨_, h1⟩ | ⟨_, _, h1⟩ | ⟨h1, h2, _⟩
    · rw [h1] at h; cases h
    · rw [h1] at h; cases h
    · rw [fromBitsV4_ok h1 h2] at h
      simp only [Res.ok.injEq, Prod.mk.injEq] at h
      obtain ⟨rfl, rfl⟩ := h
      refine ⟨h2, fun r => ?_⟩
      rw [fromBitsV4_ok h1 (by simp; omega), List.take_left' (by simp [h2])]

instance : ItemLocal BgpAddrV6 where
  loc bits := by
    intro b x n h
    simp only [BgpItem.extractBits] at h ⊢
    rcases fromBitsV6_cases bits b with ⟨_, h1⟩ | ⟨_, _, h1⟩ | ⟨h1, h2, _⟩
    · rw [h1] at h; cases h
    · rw [h1] at h; cases h
    · rw [fromBitsV6_ok h1 h2] at h
      simp only [Res.ok.injEq, Prod.mk.injEq] at h
      obtain ⟨rfl, rfl⟩ := h
      refine ⟨h2, fun r => ?_⟩
      rw [fromBitsV6_ok h1 (by simp; omega), List.take_left' (by simp [h2])]

end Zbgp
