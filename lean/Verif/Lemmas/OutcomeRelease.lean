import Verif.Lemmas.Outcome
import Verif.Lemmas.ReleaseWire

/-!
# Lemmas on the outcome of encoding without overflow checks
-/

namespace Zbgp

open Spec

/-! ## Prefixes -/

/-- kinds of prefixes whose encoder without overflow checks does what `UncheckedForm` says -/
class SendsUnchecked (T : Type) [BgpItemIn T] [UncheckedForm T] : Prop where
  sends : ∀ (x : T) n b, UncheckedForm.form x = some (n, b) → @ItemWrites T (itemIn T .release) x n b
  fails : ∀ x : T, UncheckedForm.form x = none → ∃ room, ∀ buf : Bytes, room ≤ buf.length →
    BgpItemIn.setBits Build.release x buf = .panic

theorem toBits_unchecked (n : Nat) (x : U8) (src buf : Bytes) (hn : 8 * n < x.toNat) (hs : src.length = n) :
    (do
      let bf ← copyAll (List.replicate n 0) src
      let bytes := (← Build.release.add x 7).toNat / 8
      let buf ← copyAt buf 0 bytes (← rslice bf 0 bytes)
      Res.ok (buf, bytes) : Res (Bytes × Nat)) = if 249 ≤ x.toNat then .ok (buf, 0) else .panic := by
  rw [copyAll_ok (by simp [hs])]
  simp only [Res.ok_bind, Build.add]
  have hx := x.isLt
  by_cases h : 249 ≤ x.toNat
  · rw [if_pos h]
    have e : (x + 7).toNat / 8 = 0 := by rw [BitVec.toNat_add]; simp; omega
    rw [e, rslice_ok (by omega) (by omega)]
    simp only [Res.ok_bind]
    have hc := copyAt_append [] [] buf (List.drop 0 (List.take 0 src)) 0 0 rfl rfl (by simp)
    simp only [List.nil_append] at hc
    rw [hc]
    simp
  · rw [if_neg h]
    have e : (x + 7).toNat = x.toNat + 7 := by rw [BitVec.toNat_add]; simp; omega
    rw [e]
    have : rslice src 0 ((x.toNat + 7) / 8) = .panic := by
      unfold rslice
      rw [if_neg (by omega)]
    rw [this]; rfl

theorem v4_unchecked (x : BgpAddrV4) (h : ¬ x.prefixlen.toNat ≤ 32) (buf : Bytes) :
    BgpItemIn.setBits Build.release x buf = if 249 ≤ x.prefixlen.toNat then .ok (buf, (x.prefixlen, 0)) else .panic := by
  simp only [BgpItemIn.setBits, BgpAddrV4.toBitsIn]
  rw [if_neg (by omega)]
  have := congrArg (fun r : Res (Bytes × Nat) => r >>= fun r => .ok (r.1, (x.prefixlen, r.2)))
    (toBits_unchecked 4 x.prefixlen (ipv4Octets x.addr) buf (by omega) (by simp [ipv4Octets]))
  simp only [bind_assoc, Res.ok_bind] at this
  rw [this]
  split <;> rfl

theorem v6_unchecked (x : BgpAddrV6) (h : ¬ x.prefixlen.toNat ≤ 128) (buf : Bytes) :
    BgpItemIn.setBits Build.release x buf = if 249 ≤ x.prefixlen.toNat then .ok (buf, (x.prefixlen, 0)) else .panic := by
  simp only [BgpItemIn.setBits, BgpAddrV6.toBitsIn]
  rw [if_neg (by omega)]
  have := congrArg (fun r : Res (Bytes × Nat) => r >>= fun r => .ok (r.1, (x.prefixlen, r.2)))
    (toBits_unchecked 16 x.prefixlen (ipv6Octets x.addr) buf (by omega) (by simp [ipv6Octets]))
  simp only [bind_assoc, Res.ok_bind] at this
  rw [this]
  split <;> rfl

theorem unchecked_cases {n a p : Nat} {b : Bytes} (h : uncheckedOctets n a p = some b) :
    (p ≤ 8 * n ∧ b = prefixBody n a p) ∨ (¬ p ≤ 8 * n ∧ 249 ≤ p ∧ b = []) := by
  unfold uncheckedOctets at h
  split at h
  · left; simp at h; exact ⟨by assumption, h.symm⟩
  · split at h
    · right; simp at h; exact ⟨by assumption, by assumption, h⟩
    · cases h

theorem unchecked_none {n a p : Nat} (h : uncheckedOctets n a p = none) : ¬ p ≤ 8 * n ∧ ¬ 249 ≤ p := by
  unfold uncheckedOctets at h
  split at h
  · cases h
  · split at h
    · cases h
    · exact ⟨by assumption, by assumption⟩

instance : SendsUnchecked BgpAddrV4 where
  sends x n b h := by
    simp only [UncheckedForm.form, Option.map_eq_some_iff, Prod.mk.injEq] at h
    obtain ⟨b, h, rfl, rfl⟩ := h
    rcases unchecked_cases h with ⟨h1, rfl⟩ | ⟨h1, h2, rfl⟩
    · exact release_of_writes (NlriLawful.writes x (show x.prefixlen.toNat ≤ 32 by omega))
    · intro buf _
      refine (v4_unchecked x (by omega) buf).trans ?_
      rw [if_pos h2]
      simp
  fails x h := by
    obtain ⟨h1, h2⟩ := unchecked_none (by simpa [UncheckedForm.form] using h)
    exact ⟨0, fun buf _ => by rw [v4_unchecked x (by omega) buf, if_neg h2]⟩

instance : SendsUnchecked BgpAddrV6 where
  sends x n b h := by
    simp only [UncheckedForm.form, Option.map_eq_some_iff, Prod.mk.injEq] at h
    obtain ⟨b, h, rfl, rfl⟩ := h
    rcases unchecked_cases h with ⟨h1, rfl⟩ | ⟨h1, h2, rfl⟩
    · exact release_of_writes (NlriLawful.writes x (show x.prefixlen.toNat ≤ 128 by omega))
    · intro buf _
      refine (v6_unchecked x (by omega) buf).trans ?_
      rw [if_pos h2]
      simp
  fails x h := by
    obtain ⟨h1, h2⟩ := unchecked_none (by simpa [UncheckedForm.form] using h)
    exact ⟨0, fun buf _ => by rw [v6_unchecked x (by omega) buf, if_neg h2]⟩

theorem mdt4_setIn (m : Build) (x : BgpMdtV4) (buf : Bytes) : BgpItemIn.setBits m x buf = (do
    let (buf, r) ← BgpItemIn.setBits m x.addr buf
    let buf ← copyAt buf r.2 (r.2 + 4) (ipv4Octets x.group)
    .ok (buf, (← m.add x.addr.prefixlen 32, r.2 + 4))) := by
  simp only [BgpItemIn.setBits, BgpAddrV4.toBitsIn]
  by_cases h : x.addr.prefixlen.toNat = 0
  · rw [if_pos h, if_neg (by omega)]
    rfl
  · rw [if_neg h, if_pos (by omega)]
    simp only [bind_assoc, Res.ok_bind]

theorem mdt6_setIn (m : Build) (x : BgpMdtV6) (buf : Bytes) : BgpItemIn.setBits m x buf = (do
    let (buf, r) ← BgpItemIn.setBits m x.addr buf
    let buf ← copyAt buf r.2 (r.2 + 16) (ipv6Octets x.group)
    .ok (buf, (← m.add x.addr.prefixlen 128, r.2 + 16))) := by
  simp only [BgpItemIn.setBits, BgpAddrV6.toBitsIn]
  by_cases h : x.addr.prefixlen.toNat = 0
  · rw [if_pos h, if_neg (by omega)]
    rfl
  · rw [if_neg h, if_pos (by omega)]
    simp only [bind_assoc, Res.ok_bind]

instance : SendsUnchecked BgpMdtV4 where
  sends x n b h := by
    simp only [UncheckedForm.form, Option.map_eq_some_iff, Prod.mk.injEq] at h
    obtain ⟨b, h, rfl, rfl⟩ := h
    intro buf hb
    simp only [List.length_append, be_length] at hb
    have hw := SendsUnchecked.sends x.addr x.addr.prefixlen.toNat b (by simp [UncheckedForm.form, h]) buf (by omega)
    change BgpItemIn.setBits Build.release x.addr buf = _ at hw
    change BgpItemIn.setBits Build.release x buf = _
    rw [mdt4_setIn, hw]
    simp only [Res.ok_bind, Build.add]
    rw [cur_copyAt _ _ _ _ _ rfl (by simp [ipv4Octets]) (by simp [ipv4Octets]; omega)]
    simp only [Res.ok_bind, ipv4Octets, be_length, List.length_append, List.drop_drop, Res.ok.injEq, Prod.mk.injEq, true_and, and_true]
    apply BitVec.eq_of_toNat_eq
    simp [BitVec.toNat_add]
  fails x h := by
    obtain ⟨room, hr⟩ := SendsUnchecked.fails x.addr (by simpa [UncheckedForm.form] using h)
    exact ⟨room, fun buf hb => by rw [mdt4_setIn, hr buf hb]; rfl⟩

instance : SendsUnchecked BgpMdtV6 where
  sends x n b h := by
    simp only [UncheckedForm.form, Option.map_eq_some_iff, Prod.mk.injEq] at h
    obtain ⟨b, h, rfl, rfl⟩ := h
    intro buf hb
    simp only [List.length_append, be_length] at hb
    have hw := SendsUnchecked.sends x.addr x.addr.prefixlen.toNat b (by simp [UncheckedForm.form, h]) buf (by omega)
    change BgpItemIn.setBits Build.release x.addr buf = _ at hw
    change BgpItemIn.setBits Build.release x buf = _
    rw [mdt6_setIn, hw]
    simp only [Res.ok_bind, Build.add]
    rw [cur_copyAt _ _ _ _ _ rfl (by simp [ipv6Octets]) (by simp [ipv6Octets]; omega)]
    simp only [Res.ok_bind, ipv6Octets, be_length, List.length_append, List.drop_drop, Res.ok.injEq, Prod.mk.injEq, true_and, and_true]
    apply BitVec.eq_of_toNat_eq
    simp [BitVec.toNat_add]
  fails x h := by
    obtain ⟨room, hr⟩ := SendsUnchecked.fails x.addr (by simpa [UncheckedForm.form] using h)
    exact ⟨room, fun buf hb => by rw [mdt6_setIn, hr buf hb]; rfl⟩

instance {T : Type} [BgpItemIn T] [UncheckedForm T] [SendsUnchecked T] : SendsUnchecked (Labeled T) where
  sends x n b h := by
    simp only [UncheckedForm.form, Option.map_eq_some_iff, Prod.mk.injEq] at h
    obtain ⟨⟨k, b⟩, h, rfl, rfl⟩ := h
    intro buf hb
    simp only [List.length_append] at hb ⊢
    change BgpItemIn.setBits Build.release x buf = _
    simp only [BgpItemIn.setBits]
    rw [setLabels_release x.labels buf (by omega)]
    simp only [Res.ok_bind]
    rw [onFrom_append _ _ _ _ rfl]
    have h2 := SendsUnchecked.sends x.pfx k b h (buf.drop (labelsBody x.labels.labels).length) (by simp; omega)
    change BgpItemIn.setBits Build.release x.pfx _ = _ at h2
    rw [h2]
    simp only [Res.ok_bind, Build.add, List.drop_drop, List.append_assoc, Res.ok.injEq, Prod.mk.injEq, true_and,
      and_true]
    apply BitVec.eq_of_toNat_eq
    simp only [BitVec.toNat_add, BitVec.toNat_ofNat]
    omega
  fails x h := by
    obtain ⟨room, hr⟩ := SendsUnchecked.fails x.pfx (by simpa [UncheckedForm.form] using h)
    refine ⟨(labelsBody x.labels.labels).length + room, fun buf hb => ?_⟩
    simp only [BgpItemIn.setBits]
    rw [setLabels_release x.labels buf (by omega)]
    simp only [Res.ok_bind]
    rw [onFrom_append _ _ _ _ rfl, hr _ (by simp; omega)]
    rfl

instance {T : Type} [BgpItemIn T] [UncheckedForm T] [SendsUnchecked T] : SendsUnchecked (WithRd T) where
  sends x n b h := by
    simp only [UncheckedForm.form, Option.map_eq_some_iff, Prod.mk.injEq] at h
    obtain ⟨⟨k, b⟩, h, rfl, rfl⟩ := h
    intro buf hb
    simp only [List.length_append, rdBody_length] at hb ⊢
    change BgpItemIn.setBits Build.release x buf = _
    simp only [BgpItemIn.setBits]
    rw [rd_writes x.rd buf (by simp; omega)]
    simp only [Res.ok_bind]
    rw [onFrom_append _ _ _ _ rfl]
    have h2 := SendsUnchecked.sends x.pfx k b h (buf.drop (rdBody x.rd).length) (by simp; omega)
    change BgpItemIn.setBits Build.release x.pfx _ = _ at h2
    rw [h2]
    simp only [Res.ok_bind, Build.add, rdBody_length, List.drop_drop, List.append_assoc, Res.ok.injEq, Prod.mk.injEq,
      true_and, and_true]
    apply BitVec.eq_of_toNat_eq
    simp only [BitVec.toNat_add, BitVec.toNat_ofNat]
    omega
  fails x h := by
    obtain ⟨room, hr⟩ := SendsUnchecked.fails x.pfx (by simpa [UncheckedForm.form] using h)
    refine ⟨8 + room, fun buf hb => ?_⟩
    simp only [BgpItemIn.setBits]
    rw [rd_writes x.rd buf (by simp; omega)]
    simp only [Res.ok_bind]
    rw [onFrom_append _ _ _ _ rfl, hr _ (by simp; omega)]
    rfl

section prefixes
variable {T : Type} [BgpItemIn T] [NlriKind T] [LengthOctet T] [UncheckedForm T] [SendsUnchecked T]

theorem ends_prefix_unchecked (x : T) : Ends (@encodeItem T (itemIn T .release) x) (prefixFate .release x) := by
  rw [prefixFate_eq]
  exact @ends_form T (itemIn T .release) _ x (SendsUnchecked.sends x) (SendsUnchecked.fails x)

theorem ends_pathId_unchecked (x : WithPathId T) : Ends (@encodePathIdItem T (itemIn T .release) x) (pathIdFate .release x) := by
  rw [pathIdFate_eq]
  exact @ends_form_id T (itemIn T .release) _ x (SendsUnchecked.sends x.nlri) (SendsUnchecked.fails x.nlri)

theorem ends_prefixes_unchecked (l : List T) : Ends (BgpAddrs.encItemsIn .release l) (.all (prefixFate .release) l) :=
  ends_all l fun x _ => ends_prefix_unchecked x
theorem ends_pathIds_unchecked (l : List (WithPathId T)) :
    Ends (BgpAddrs.encPathIdItemsIn .release l) (.all (pathIdFate .release) l) :=
  ends_all l fun x _ => ends_pathId_unchecked x

end prefixes

/-! ## FlowSpec -/

section fs
open BgpFlowSpec

class FsSendsUnchecked (T : Type) (i : FSItem T) [FsUnchecked T] : Prop where
  enc : ∀ (x : T) w, FsUnchecked.written x = some w → ∀ m : Bytes, w.length ≤ m.length →
    i.encodeFs x m = .ok (w ++ m.drop w.length)
  size : ∀ x : T, i.storeSize x = FsUnchecked.given x
  fits : ∀ (x : T) w, FsUnchecked.written x = some w → w.length ≤ FsUnchecked.given x
  small : ∀ x : T, FsUnchecked.given x < 200
  fails : ∀ x : T, FsUnchecked.written x = none → ∃ room, ∀ m : Bytes, room ≤ m.length → i.encodeFs x m = .panic

theorem unchecked_le {n a p : Nat} {b : Bytes} (h : uncheckedOctets n a p = some b) : b.length ≤ octets p := by
  rcases unchecked_cases h with ⟨h1, rfl⟩ | ⟨h1, h2, rfl⟩
  · simp [prefixBody]
  · simp

instance : FsSendsUnchecked BgpAddrV4 (fsV4In .release) where
  enc x w h m hm := by
    simp only [FsUnchecked.written, Option.map_eq_some_iff] at h
    obtain ⟨b, h, rfl⟩ := h
    simp only [List.length_cons] at hm
    obtain ⟨a, r, rfl⟩ := List.exists_cons_of_length_pos (l := m) (by omega)
    simp only [List.length_cons] at hm
    have hw := SendsUnchecked.sends x x.prefixlen.toNat b (by simp [UncheckedForm.form, h]) r (by omega)
    change BgpAddrV4.toBitsIn Build.release x r = _ at hw
    simp only [FSItem.encodeFs, setIdx_cons_zero, Res.ok_bind]
    rw [show x.prefixlen :: r = [x.prefixlen] ++ r from rfl, onFrom_append _ _ 1 _ rfl, hw]
    simp
  size x := rfl
  fits x w h := by
    simp only [FsUnchecked.written, Option.map_eq_some_iff] at h
    obtain ⟨b, h, rfl⟩ := h
    have := unchecked_le h
    simp only [FsUnchecked.given, List.length_cons]
    omega
  small x := by have := x.prefixlen.isLt; simp only [FsUnchecked.given, octets]; omega
  fails x h := by
    obtain ⟨room, hr⟩ := SendsUnchecked.fails x (by simpa [UncheckedForm.form, FsUnchecked.written] using h)
    refine ⟨1 + room, fun m hm => ?_⟩
    obtain ⟨a, r, rfl⟩ := List.exists_cons_of_length_pos (l := m) (by omega)
    simp only [List.length_cons] at hm
    simp only [FSItem.encodeFs, setIdx_cons_zero, Res.ok_bind]
    have := hr r (by omega)
    change BgpAddrV4.toBitsIn Build.release x r = _ at this
    rw [show x.prefixlen :: r = [x.prefixlen] ++ r from rfl, onFrom_panic _ _ 1 _ rfl this]
    rfl

instance : FsSendsUnchecked FS6 (fsV6In .release) where
  enc x w h m hm := by
    simp only [FsUnchecked.written, Option.map_eq_some_iff] at h
    obtain ⟨b, h, rfl⟩ := h
    simp only [List.length_cons] at hm
    obtain ⟨a, a', r, rfl⟩ := exists_cons2 (l := m) (by omega)
    simp only [List.length_cons] at hm
    have hw := SendsUnchecked.sends x.ipv6 x.ipv6.prefixlen.toNat b (by simp [UncheckedForm.form, h]) r (by omega)
    change BgpAddrV6.toBitsIn Build.release x.ipv6 r = _ at hw
    simp only [FSItem.encodeFs, setIdx_cons_zero, setIdx_cons_succ, Res.ok_bind]
    rw [show x.ipv6.prefixlen :: x.offset :: r = [x.ipv6.prefixlen, x.offset] ++ r from rfl, onFrom_append _ _ 2 _ rfl, hw]
    simp
  size x := rfl
  fits x w h := by
    simp only [FsUnchecked.written, Option.map_eq_some_iff] at h
    obtain ⟨b, h, rfl⟩ := h
    have := unchecked_le h
    simp only [FsUnchecked.given, List.length_cons]
    omega
  small x := by have := x.ipv6.prefixlen.isLt; simp only [FsUnchecked.given, octets]; omega
  fails x h := by
    obtain ⟨room, hr⟩ := SendsUnchecked.fails x.ipv6 (by simpa [UncheckedForm.form, FsUnchecked.written] using h)
    refine ⟨2 + room, fun m hm => ?_⟩
    obtain ⟨a, a', r, rfl⟩ := exists_cons2 (l := m) (by omega)
    simp only [List.length_cons] at hm
    simp only [FSItem.encodeFs, setIdx_cons_zero, setIdx_cons_succ, Res.ok_bind]
    have := hr r (by omega)
    change BgpAddrV6.toBitsIn Build.release x.ipv6 r = _ at this
    rw [show x.ipv6.prefixlen :: x.offset :: r = [x.ipv6.prefixlen, x.offset] ++ r from rfl, onFrom_panic _ _ 2 _ rfl this]
    rfl

instance : FsSendsUnchecked FSV4U (fsVpnIn .release) where
  enc x w h m hm := by
    simp only [FsUnchecked.written, Option.map_eq_some_iff] at h
    obtain ⟨b, h, rfl⟩ := h
    simp only [List.length_append, List.length_cons, List.length_nil] at hm
    obtain ⟨a, a', r, rfl⟩ := exists_cons2 (l := m) (by omega)
    simp only [List.length_cons] at hm
    have hw := SendsUnchecked.sends x.pfx ((64 + x.pfx.pfx.prefixlen.toNat) % 256) (rdBody x.pfx.rd ++ b)
      (by simp [UncheckedForm.form, h]) r (by simp only [List.length_append]; omega)
    change BgpItemIn.setBits Build.release x.pfx r = _ at hw
    simp only [FSItem.encodeFs, setIdx_cons_zero, setIdx_cons_succ, Res.ok_bind]
    rw [show (0 : U8) :: 0 :: r = [0, 0] ++ r from rfl, onFrom_append _ _ 2 _ rfl, hw]
    simp
  size x := rfl
  fits x w h := by
    simp only [FsUnchecked.written, Option.map_eq_some_iff] at h
    obtain ⟨b, h, rfl⟩ := h
    have := unchecked_le h
    simp only [FsUnchecked.given, List.length_append, List.length_cons, List.length_nil, rdBody_length]
    omega
  small x := by have := x.pfx.pfx.prefixlen.isLt; simp only [FsUnchecked.given, octets]; omega
  fails x h := by
    obtain ⟨room, hr⟩ := SendsUnchecked.fails x.pfx (by simpa [UncheckedForm.form, FsUnchecked.written] using h)
    refine ⟨2 + room, fun m hm => ?_⟩
    obtain ⟨a, a', r, rfl⟩ := exists_cons2 (l := m) (by omega)
    simp only [List.length_cons] at hm
    simp only [FSItem.encodeFs, setIdx_cons_zero, setIdx_cons_succ, Res.ok_bind]
    rw [show (0 : U8) :: 0 :: r = [0, 0] ++ r from rfl, onFrom_panic _ _ 2 _ rfl (hr r (by omega))]
    rfl

variable {T : Type} [FsPrefix T] [FsSendable T] [FsUnchecked T]

theorem ends_fs_prefix_unchecked (i : FSItem T) [FsSendsUnchecked T i] (x : BgpFlowSpec T) (c : U8) (a : T)
    (hn : x.nlen = 1 + FSItem.storeSize a) (hb : putBody x = putPrefix c a) :
    Ends x.encodeTo (fsPrefixFate .release c a) := by
  have h2 := FsSendsUnchecked.small (i := i) a
  have hsz := FsSendsUnchecked.size (i := i) a
  have hl : (fsLen x.nlen).length ≤ 2 := by unfold fsLen; split <;> simp
  unfold fsPrefixFate
  cases hw : FsUnchecked.written a with
  | none =>
    obtain ⟨room, hr⟩ := FsSendsUnchecked.fails (i := i) a hw
    refine ends_of (x.nlen + 2 + (1 + room)) fun buf h => ?_
    show x.encodeTo buf = .panic
    rw [fs_frame x (by omega) buf (by omega), hb]
    unfold putPrefix
    rw [cur_setIdx _ _ _ _ rfl (by simp; omega)]
    simp only [Res.ok_bind, modFrom]
    rw [if_pos (by simp), hr _ (by simp; omega)]
    rfl
  | some w =>
    have hf := FsSendsUnchecked.fits (i := i) a w hw
    refine ends_of (x.nlen + 4) fun buf h => ?_
    obtain ⟨g, rest, hg, hgl, -⟩ := exists_split (FsUnchecked.given a - w.length)
      (show FsUnchecked.given a - w.length ≤ ((buf.drop (fsLen x.nlen).length).drop (1 + w.length)).length by simp; omega)
    refine ⟨(fsLen x.nlen ++ c :: w) ++ g, rest, ?_, ?_, ?_⟩
    · have : x.nlen = 1 + FsUnchecked.given a := by rw [hn, hsz]
      rw [← this, ← hgl]
      exact fits_append (fits_some _) (fits_none g)
    · rw [fs_frame x (by omega) buf (by omega), hb]
      unfold putPrefix
      rw [cur_setIdx _ _ _ _ rfl (by simp; omega)]
      simp only [Res.ok_bind]
      rw [cur_modFrom (FsSendsUnchecked.enc (i := i) a w hw) _ _ _ (by simp) (by simp; omega)]
      rw [hsz]
      simp only [Res.ok_bind, List.nil_append, List.length_nil, Nat.zero_add]
      rw [show ((buf.drop (fsLen x.nlen).length).drop 1).drop w.length =
        (buf.drop (fsLen x.nlen).length).drop (1 + w.length) by rw [List.drop_drop], hg]
      simp only [List.append_assoc, List.cons_append, List.nil_append, List.length_append, List.length_cons, Res.ok.injEq, Prod.mk.injEq,
        true_and]
      omega
    · have := congrArg List.length hg
      simp only [List.length_append, List.length_drop, List.length_cons] at this ⊢
      omega

theorem ends_fs_unchecked (i : FSItem T) [FsSendsUnchecked T i] (x : BgpFlowSpec T) :
    Ends (@BgpFlowSpec.encodeTo T i x) (fsFate .release x) := by
  cases x with
  | prefixDst a => exact ends_fs_prefix_unchecked i (.prefixDst a) 1 a rfl rfl
  | prefixSrc a => exact ends_fs_prefix_unchecked i (.prefixSrc a) 2 a rfl rfl
  | _ => exact ends_fs_oper .release _ (by simp) (by simp)

end fs

/-! ## What does not depend on the build -/

theorem ends_bsim {f g : Enc} {fate : Fate} (h : Ends f fate) (hc : fate ≠ .crash) (hs : ∀ b, BSim (f b) (g b)) : Ends g fate := by
  obtain ⟨room, h⟩ := h
  refine ⟨room, ?_⟩
  cases fate with
  | sent pat =>
    intro buf hb
    obtain ⟨w, rest, f1, e1, l1⟩ := h buf hb
    refine ⟨w, rest, f1, ?_, l1⟩
    rcases hs buf with h2 | h2
    · rw [h2] at e1; cases e1
    · rw [h2, e1]
  | refused =>
    intro buf hb
    have h1 := h buf hb
    rcases hs buf with h2 | h2
    · rw [h2] at h1; cases h1
    · rw [h2]; exact h1
  | crash => exact absurd rfl hc

theorem andThen_ne_crash {a b : Fate} (ha : a ≠ .crash) (hb : b ≠ .crash) : a.andThen b ≠ .crash := by
  cases a <;> cases b <;> first | exact absurd rfl ha | exact absurd rfl hb | (intro h; cases h)

theorem all_ne_crash {α : Type} {fate : α → Fate} (l : List α) (h : ∀ x ∈ l, fate x ≠ .crash) : Fate.all fate l ≠ .crash := by
  induction l with
  | nil => intro h; cases h
  | cons x l ih => exact andThen_ne_crash (h x (by simp)) (ih fun y hy => h y (by simp [hy]))

theorem evpnFate_ne_crash (x : BgpEVPN) : evpnFate x ≠ .crash := by
  unfold evpnFate
  split
  · split <;> (intro h; cases h)
  · intro h; cases h

/-! ## Collections -/

theorem ends_nlri_unchecked (x : BgpAddrs) (p : BgpSessionParams) : Ends (x.encodeToIn .release p) (nlriFate .release x) := by
  cases x
  case None => exact ends_of 0 fun buf _ => ⟨[], buf, trivial, rfl, rfl⟩
  case MVPN v => exact ends_all v fun x _ => ends_writes (mvpn_sent x _)
  case EVPN v =>
    exact ends_bsim (ends_all v fun x _ => ends_evpn x p.peerMode) (all_ne_crash v fun x _ => evpnFate_ne_crash x)
      (bsim_evpnEnc v p.peerMode)
  case FS4U v => exact ends_all v fun x _ => ends_fs_unchecked (fsV4In .release) x
  case FS6U v => exact ends_all v fun x _ => ends_fs_unchecked (fsV6In .release) x
  case FSV4U v => exact ends_all v fun x _ => ends_fs_unchecked (fsVpnIn .release) x
  case L2VPLS v =>
    exact ends_bsim (ends_all v fun x _ => ends_vpls x) (all_ne_crash v fun x _ => by intro h; cases h) (bsim_vplsEnc v)
  all_goals first
    | exact ends_prefixes_unchecked _
    | exact ends_pathIds_unchecked _

end Zbgp
