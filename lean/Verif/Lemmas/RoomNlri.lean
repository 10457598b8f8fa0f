import Verif.Lemmas.Short
import Verif.Spec.Room

/-!
# NLRI in buffers that are too short
-/

namespace Zbgp

open Spec

attribute [-simp] List.length_flatMap

/-- in a buffer that is too short: an error where `e` says so, a panic elsewhere -/
def ShortBy (f : Enc) (w : Bytes) (e : Nat → Prop) : Prop :=
  ∀ buf, buf.length < w.length → (e buf.length → (f buf).IsErr) ∧ (¬ e buf.length → f buf = .panic)

theorem shortBy_plain {f : Enc} {w : Bytes} (he : SizeIndependent f) (hw : Writes f w) (hp : ∀ b, Plain (f b)) :
    ShortBy f w (fun _ => False) :=
  fun buf hb => ⟨False.elim, fun _ => (panics_of_plain he hw hp).2 buf hb⟩

/-- the loop over items, in a buffer that is too short -/
theorem short_encLoop {α : Type} {enc : α → Enc} {w : α → Bytes} {e : α → Nat → Prop} (l : List α)
    (h : ∀ x ∈ l, Writes (enc x) (w x) ∧ ShortBy (enc x) (w x) (e x)) (pre t : Bytes) (ht : t.length < (l.flatMap w).length) :
    (listErrorIn w e l t.length → (encLoop enc l (pre ++ t) pre.length).IsErr) ∧
    (¬ listErrorIn w e l t.length → encLoop enc l (pre ++ t) pre.length = .panic) := by
  induction l generalizing pre t with
  | nil => simp at ht
  | cons x l ih =>
    obtain ⟨hx1, hx2⟩ := h x (by simp)
    simp only [List.flatMap_cons, List.length_append] at ht
    rw [encLoop, onFrom_append pre t _ _ rfl]
    by_cases hb : t.length < (w x).length
    · have e1 : listErrorIn w e (x :: l) t.length ↔ e x t.length := by
        constructor
        · rintro ⟨a, b, c, he, h1, h2, h3⟩
          cases a with
          | nil =>
            simp only [List.nil_append, List.cons.injEq] at he
            obtain ⟨rfl, rfl⟩ := he
            simpa using h3
          | cons y a =>
            simp only [List.cons_append, List.cons.injEq] at he
            obtain ⟨rfl, -⟩ := he
            simp only [List.flatMap_cons, List.length_append] at h1
            omega
        · exact fun hx => ⟨[], x, l, rfl, by simp, by simpa using hb, by simpa using hx⟩
      rw [e1]
      refine ⟨fun h => errs_bind (errs_bind ((hx2 t hb).1 h)), fun h => ?_⟩
      rw [(hx2 t hb).2 h]; rfl
    · rw [hx1 t (by omega)]
      simp only [Res.ok_bind]
      rw [← List.append_assoc, ← List.length_append]
      have := ih (fun b hb => h b (by simp [hb])) (pre ++ w x) (t.drop (w x).length) (by simp only [List.length_drop]; omega)
      have e1 : listErrorIn w e (x :: l) t.length ↔ listErrorIn w e l (t.drop (w x).length).length := by
        simp only [listErrorIn, List.length_drop]
        constructor
        · rintro ⟨a, b, c, he, h1, h2, h3⟩
          cases a with
          | nil =>
            simp only [List.nil_append, List.cons.injEq] at he
            obtain ⟨rfl, rfl⟩ := he
            simp at h2
            omega
          | cons y a =>
            simp only [List.cons_append, List.cons.injEq] at he
            obtain ⟨rfl, he⟩ := he
            simp only [List.flatMap_cons, List.length_append] at h1 h2 h3
            exact ⟨a, b, c, he, by omega, by omega, by simpa only [Nat.sub_sub] using h3⟩
        · rintro ⟨a, b, c, he, h1, h2, h3⟩
          refine ⟨x :: a, b, c, by simp [he], ?_, ?_, ?_⟩
          · simp only [List.flatMap_cons, List.length_append]; omega
          · simp only [List.flatMap_cons, List.length_append]; omega
          · simpa only [List.flatMap_cons, List.length_append, Nat.sub_sub] using h3
      rw [e1]
      exact this

/-! ## Steps that panic for lack of room -/

theorem rd_small (r : BgpRD) (b : Bytes) (h : b.length < 8) : r.encodeTo b = .panic :=
  (panics_of_plain (sizeIndependent_of _) (rd_writes r) (plain_rd r)).2 b (by simpa using h)

theorem modRange_small (b : Bytes) (s e : Nat) (f : Bytes → Res Bytes) (h : b.length < e) : modRange b s e f = .panic := by
  unfold modRange; rw [if_neg (by omega)]

theorem setIdx_small {α : Type} (b : List α) (i : Nat) (x : α) (h : b.length ≤ i) : setIdx b i x = .panic := by
  unfold setIdx; rw [if_neg (by omega)]

theorem plain_esi (t : U8) (e : EVPNESI) (b : Bytes) (pos : Nat) : Plain (EVPNESI.write t e b pos) := by
  unfold EVPNESI.write
  plain

theorem esi_small (t : U8) (e : EVPNESI) (b : Bytes) (pos : Nat) (h : b.length < pos + 10) : EVPNESI.write t e b pos = .panic := by
  unfold EVPNESI.write
  by_cases hp : b.length ≤ pos
  · rw [setIdx_small _ _ _ hp]; rfl
  · simp only [setIdx, if_pos (show pos < b.length by omega), Res.ok_bind, copyAt]
    rw [if_neg]
    simp
    omega

theorem evpnIp_small (a : IpAddr) (b : Bytes) (pos : Nat) (h : b.length ≤ pos) : evpnWriteIp a b pos = .panic := by
  cases a <;> simp only [evpnWriteIp] <;> rw [setIdx_small _ _ _ h] <;> rfl

theorem evpnIp_err (a : IpAddr) (b : Bytes) (pos : Nat) (h : pos < b.length) (h2 : b.length < pos + (lenIpBody a).length) :
    (evpnWriteIp a b pos).IsErr := by
  cases a with
  | v4 a =>
    simp only [evpnWriteIp, setIdx, if_pos h, Res.ok_bind]
    refine errs_bind ?_
    unfold onFrom
    rw [if_pos (by simp; omega)]
    refine errs_bind ((errs_addrV4 a).2 _ ?_)
    simp [lenIpBody] at h2 ⊢
    omega
  | v6 a =>
    simp only [evpnWriteIp, setIdx, if_pos h, Res.ok_bind]
    refine errs_bind ?_
    unfold onFrom
    rw [if_pos (by simp; omega)]
    refine errs_bind ((errs_addrV6 a).2 _ ?_)
    simp [lenIpBody] at h2 ⊢
    omega

/-! ## EVPN -/

theorem plain_evpn1 (x : BgpEVPN1) (mode : BgpTransportMode) (b : Bytes) : Plain (BgpAddrItem.encodeTo x mode b) := by
  simp only [BgpAddrItem.encodeTo]
  exact plain_bind (plain_rd _ _) fun _ => plain_bind (plain_esi _ _ _ _) fun _ =>
    plain_bind (plain_modRange _ _ _ (plain_setn32 _)) fun _ => plain_bind (plain_onFrom _ _ (plain_labels _)) fun _ => plain_ok

theorem plain_onRangeV4 (a : IPv4) (b : Bytes) (s : Nat) : Plain (onRange b s (s + 4) (encodeAddrV4 a)) := by
  unfold onRange
  split
  · rename_i h
    rw [writes_encodeAddrV4 a _ (by simp; omega)]
    exact plain_ok
  · exact plain_panic

theorem plain_onRangeV6 (a : IPv6) (b : Bytes) (s : Nat) : Plain (onRange b s (s + 16) (encodeAddrV6 a)) := by
  unfold onRange
  split
  · rename_i h
    rw [writes_encodeAddrV6 a _ (by simp; omega)]
    exact plain_ok
  · exact plain_panic

theorem plain_mac (m : MacAddress) (b : Bytes) : Plain (m.writeToNetworkBytes b) := by
  unfold MacAddress.writeToNetworkBytes; plain

theorem plain_evpn2 (x : BgpEVPN2) (mode : BgpTransportMode) (b : Bytes) : Plain (BgpAddrItem.encodeTo x mode b) := by
  simp only [BgpAddrItem.encodeTo]
  refine plain_bind (plain_rd _ _) fun _ => plain_bind (plain_esi _ _ _ _) fun _ =>
    plain_bind (plain_modRange _ _ _ (plain_setn32 _)) fun _ => plain_bind (plain_setIdx _ _ _) fun _ =>
    plain_bind (plain_modRange _ _ _ (plain_mac _)) fun _ => plain_bind ?_ fun _ =>
    plain_bind (plain_onFrom _ _ (plain_labels _)) fun _ => plain_ok
  split
  · exact plain_bind (plain_setIdx _ _ _) fun _ => plain_ok
  · exact plain_bind (plain_setIdx _ _ _) fun _ => plain_bind (plain_onRangeV4 _ _ _) fun _ => plain_ok
  · exact plain_bind (plain_setIdx _ _ _) fun _ => plain_bind (plain_onRangeV6 _ _ _) fun _ => plain_ok

theorem short_evpn3 (x : BgpEVPN3) (mode : BgpTransportMode) :
    ShortBy (BgpAddrItem.encodeTo x mode) (evpnBody (.evpn3 x)) (fun n => 13 ≤ n) := by
  intro buf hb
  simp only [evpnBody, List.length_append, rdBody_length, be_length] at hb
  simp only [BgpAddrItem.encodeTo]
  by_cases h8 : buf.length < 8
  · rw [rd_small _ _ h8]; exact ⟨fun h => by omega, fun _ => rfl⟩
  rw [rd_writes _ buf (by simp; omega)]
  simp only [Res.ok_bind, rdBody_length]
  by_cases h12 : buf.length < 12
  · rw [modRange_small _ _ _ _ (by simp; omega)]; exact ⟨fun h => by omega, fun _ => rfl⟩
  rw [cur_modRange (fill32 _) _ _ _ _ (by simp) (by simp) (by simp; omega)]
  simp only [Res.ok_bind]
  exact ⟨fun h => evpnIp_err _ _ _ (by simp; omega) (by simp; omega), fun h => evpnIp_small _ _ _ (by simp; omega)⟩

theorem short_evpn4 (x : BgpEVPN4) (mode : BgpTransportMode) :
    ShortBy (BgpAddrItem.encodeTo x mode) (evpnBody (.evpn4 x)) (fun n => 19 ≤ n) := by
  intro buf hb
  simp only [evpnBody, List.length_append, rdBody_length, esiBody_length] at hb
  simp only [BgpAddrItem.encodeTo]
  by_cases h8 : buf.length < 8
  · rw [rd_small _ _ h8]; exact ⟨fun h => by omega, fun _ => rfl⟩
  rw [rd_writes _ buf (by simp; omega)]
  simp only [Res.ok_bind, rdBody_length]
  by_cases h18 : buf.length < 18
  · rw [esi_small _ _ _ _ (by simp; omega)]; exact ⟨fun h => by omega, fun _ => rfl⟩
  rw [cur_esi _ _ _ _ _ (by simp) (by simp; omega)]
  simp only [Res.ok_bind]
  exact ⟨fun h => evpnIp_err _ _ _ (by simp; omega) (by simp; omega), fun h => evpnIp_small _ _ _ (by simp; omega)⟩

theorem onFrom_errs {f : Enc} {w : Bytes} (hf : ErrsWhenShort f w) (p t : Bytes) (i : Nat) (hi : i = p.length)
    (ht : t.length < w.length) : (onFrom (p ++ t) i f).IsErr := by
  rw [onFrom_append _ _ _ _ hi]
  exact errs_bind (hf.2 _ ht)

theorem short_evpn5 (x : BgpEVPN5) (mode : BgpTransportMode) {p g : IPv4} (hp : x.pfx = .v4 p) (hg : x.gwIp = .v4 g) :
    ShortBy (BgpAddrItem.encodeTo x mode) (evpnBody (.evpn5 x)) (fun n => 23 ≤ n ∧ n < 31) := by
  intro buf hb
  have hno := short_not_ok (sizeIndependent_of _) (evpn5_writes x mode hp hg) hb
  obtain ⟨rd, t, e, etag, len, pfx, gw, l⟩ := x
  simp only at hp hg
  subst hp hg
  simp only [evpnBody, ipBody, List.length_append, List.length_cons, rdBody_length, esiBody_length, be_length] at hb
  simp only [BgpAddrItem.encodeTo] at hno ⊢
  by_cases h8 : buf.length < 8
  · rw [rd_small _ _ h8]; exact ⟨fun h => by omega, fun _ => rfl⟩
  rw [rd_writes _ buf (by simp; omega)] at hno ⊢
  simp only [Res.ok_bind, rdBody_length] at hno ⊢
  by_cases h18 : buf.length < 18
  · rw [esi_small _ _ _ _ (by simp; omega)]; exact ⟨fun h => by omega, fun _ => rfl⟩
  rw [cur_esi _ _ _ _ _ (by simp) (by simp; omega)] at hno ⊢
  simp only [Res.ok_bind] at hno ⊢
  by_cases h22 : buf.length < 22
  · rw [modRange_small _ _ _ _ (by simp; omega)]; exact ⟨fun h => by omega, fun _ => rfl⟩
  rw [cur_modRange (fill32 _) _ _ _ _ (by simp) (by simp) (by simp; omega)] at hno ⊢
  simp only [Res.ok_bind] at hno ⊢
  by_cases h23 : buf.length < 23
  · rw [setIdx_small _ _ _ (by simp; omega)]; exact ⟨fun h => by omega, fun _ => rfl⟩
  rw [cur_setIdx _ _ _ _ (by simp) (by simp; omega)] at hno ⊢
  simp only [Res.ok_bind] at hno ⊢
  by_cases h27 : buf.length < 27
  · refine ⟨fun _ => errs_bind (errs_bind (onFrom_errs (errs_addrV4 p) _ _ _ (by simp) (by simp; omega))), fun h => by omega⟩
  rw [cur_onFrom (writes_encodeAddrV4 p) _ _ _ (by simp) (by simp; omega)] at hno ⊢
  simp only [Res.ok_bind] at hno ⊢
  by_cases h31 : buf.length < 31
  · refine ⟨fun _ => errs_bind (errs_bind (onFrom_errs (errs_addrV4 g) _ _ _ (by simp) (by simp; omega))), fun h => by omega⟩
  rw [cur_onFrom (writes_encodeAddrV4 g) _ _ _ (by simp) (by simp; omega)] at hno ⊢
  simp only [Res.ok_bind] at hno ⊢
  exact ⟨fun h => by omega, fun _ => (plain_bind (plain_onFrom _ _ (plain_labels _)) fun _ => plain_ok).resolve_left
    fun ⟨a, ha⟩ => hno a ha⟩

/-- type octet and body behind the length octet -/
theorem tlv_short {f : Enc} {w : Bytes} {e : Nat → Prop} (hf : ShortBy f w e) (t : U8) (buf : Bytes) (hb : buf.length < 2 + w.length) :
    (2 ≤ buf.length ∧ e (buf.length - 2) → (do onFrom (← setIdx buf 0 t) 2 f : Res (Bytes × Nat)).IsErr) ∧
    (¬ (2 ≤ buf.length ∧ e (buf.length - 2)) → (do onFrom (← setIdx buf 0 t) 2 f : Res (Bytes × Nat)) = .panic) := by
  match buf, hb with
  | [], _ => exact ⟨fun h => by simp at h, fun _ => rfl⟩
  | [a], _ => exact ⟨fun h => by simp at h, fun _ => rfl⟩
  | a :: b :: r, h =>
    simp only [setIdx_cons_zero, Res.ok_bind]
    rw [show t :: b :: r = [t, b] ++ r by rfl, onFrom_append _ _ 2 _ rfl]
    have := hf r (by simp at h; omega)
    simp only [List.length_cons, Nat.reduceLeDiff, Nat.add_one_sub_one, Nat.le_add_left, true_and]
    refine ⟨fun h => errs_bind (this.1 (by simpa using h)), fun h => ?_⟩
    rw [this.2 (by simpa using h)]; rfl

theorem short_evpn (x : BgpEVPN) (mode : BgpTransportMode) (h : evpnOk x) :
    ShortBy (BgpAddrItem.encodeTo x mode) (evpnWire x) (evpnErrorIn x) := by
  intro buf hb
  have hb' : buf.length < 2 + (evpnBody x).length := by simp [evpnWire] at hb; omega
  change (_ → (BgpEVPN.encodeTo x mode buf).IsErr) ∧ (_ → BgpEVPN.encodeTo x mode buf = _)
  cases x with
  | evpn1 r =>
    have := tlv_short (shortBy_plain (sizeIndependent_of _) (evpn1_writes r mode) (plain_evpn1 r mode)) 1 buf hb'
    exact ⟨False.elim, fun _ => by simp only [BgpEVPN.encodeTo]; rw [this.2 (fun h => h.2)]; rfl⟩
  | evpn2 r =>
    have := tlv_short (shortBy_plain (sizeIndependent_of _) (evpn2_writes r mode) (plain_evpn2 r mode)) 2 buf hb'
    exact ⟨False.elim, fun _ => by simp only [BgpEVPN.encodeTo]; rw [this.2 (fun h => h.2)]; rfl⟩
  | evpn3 r =>
    have := tlv_short (short_evpn3 r mode) 3 buf hb'
    simp only [BgpEVPN.encodeTo, evpnErrorIn]
    exact ⟨fun h => errs_bind (this.1 (by omega)), fun h => by rw [this.2 (by omega)]; rfl⟩
  | evpn4 r =>
    have := tlv_short (short_evpn4 r mode) 4 buf hb'
    simp only [BgpEVPN.encodeTo, evpnErrorIn]
    exact ⟨fun h => errs_bind (this.1 (by omega)), fun h => by rw [this.2 (by omega)]; rfl⟩
  | evpn5 r =>
    obtain ⟨p, g, hp, hg⟩ := evpn5_v4 h
    have := tlv_short (short_evpn5 r mode hp hg) 5 buf hb'
    simp only [BgpEVPN.encodeTo, evpnErrorIn]
    exact ⟨fun h => errs_bind (this.1 (by omega)), fun h => by rw [this.2 (by omega)]; rfl⟩

/-! ## MVPN -/

theorem plain_modFrom (b : Bytes) (s : Nat) {f : Bytes → Res Bytes} (h : ∀ b, Plain (f b)) : Plain (modFrom b s f) := by
  unfold modFrom
  split
  · exact plain_bind (h _) fun _ => plain_ok
  · exact plain_panic

theorem short_mvpn1 (x : BgpMVPN1) (mode : BgpTransportMode) :
    ShortBy (BgpAddrItem.encodeTo x mode) (mvpnBody (.t1 x)) (fun n => 8 ≤ n) := by
  intro buf hb
  simp only [mvpnBody, List.length_append, rdBody_length] at hb
  simp only [BgpAddrItem.encodeTo]
  by_cases h8 : buf.length < 8
  · rw [rd_small _ _ h8]; exact ⟨fun h => by omega, fun _ => rfl⟩
  rw [rd_writes _ buf (by simp; omega)]
  simp only [Res.ok_bind]
  exact ⟨fun _ => errs_bind (onFrom_errs (errs_addr x.originator) _ _ _ (by simp) (by simp; omega)), fun h => by omega⟩

theorem short_mvpn {m : BgpTransportMode} (x : BgpMVPN) (mode : BgpTransportMode) (h : mvpnOk m x) :
    ShortBy (BgpAddrItem.encodeTo x mode) (mvpnWire x) (mvpnErrorIn x) := by
  intro buf hb
  have hb' : buf.length < 2 + (mvpnBody x).length := by simp [mvpnWire] at hb; omega
  change (_ → (BgpMVPN.encodeTo x mode buf).IsErr) ∧ (_ → BgpMVPN.encodeTo x mode buf = _)
  cases x with
  | t1 r =>
    have := tlv_short (short_mvpn1 r mode) 1 buf hb'
    simp only [BgpMVPN.encodeTo, mvpnErrorIn]
    exact ⟨fun h => errs_bind (this.1 (by omega)), fun h => by rw [this.2 (by omega)]; rfl⟩
  | t2 r =>
    have hp : ∀ b, Plain (BgpAddrItem.encodeTo r mode b) := fun b => by
      simp only [BgpAddrItem.encodeTo]
      exact plain_bind (plain_rd _ _) fun _ => plain_bind (plain_modFrom _ _ (plain_setn32 _)) fun _ => plain_ok
    have := tlv_short (shortBy_plain (sizeIndependent_of _) (mvpn2_writes r mode) hp) 2 buf hb'
    exact ⟨False.elim, fun _ => by simp only [BgpMVPN.encodeTo]; rw [this.2 (fun h => h.2)]; rfl⟩
  | _ => exact h.elim

/-! ## All families -/

theorem listErrorIn_true {α : Type} {w : α → Bytes} (l : List α) (n : Nat) (h : n < (l.flatMap w).length) :
    listErrorIn w (fun _ _ => True) l n := by
  induction l generalizing n with
  | nil => simp at h
  | cons x l ih =>
    by_cases hx : n < (w x).length
    · exact ⟨[], x, l, rfl, by simp, by simpa using hx, trivial⟩
    · simp only [List.flatMap_cons, List.length_append] at h
      obtain ⟨a, b, c, e, h1, h2, -⟩ := ih (n - (w x).length) (by omega)
      refine ⟨x :: a, b, c, by simp [e], ?_, ?_, trivial⟩ <;> simp only [List.flatMap_cons, List.length_append] <;> omega

theorem short_items {T : Type} [BgpAddrItem T] {w : T → Bytes} {e : T → Nat → Prop} {mode : BgpTransportMode} (l : List T)
    (h : ∀ x ∈ l, Writes (BgpAddrItem.encodeTo x mode) (w x) ∧ ShortBy (BgpAddrItem.encodeTo x mode) (w x) (e x)) :
    ShortBy (encodeAddrItems l mode) (l.flatMap w) (listErrorIn w e l) :=
  fun buf hb => short_encLoop l h [] buf hb

theorem short_fsList {T : Type} [FSItem T] [FsPrefix T] [FsPrefixLawful T] (v : List (BgpFlowSpec T)) (mode : BgpTransportMode)
    (h : FsListOk v) : ShortBy (encodeAddrItems v mode) (v.flatMap fsWire) (fun _ => True) := by
  intro buf hb
  have := short_items (mode := mode) (e := fun _ _ => True) v (fun x hx => ⟨fs_writes x (h.1 x hx).1 (h.1 x hx).2,
    fun b hb => ⟨fun _ => short_fs x (h.1 x hx).1 b hb, fun h => (h trivial).elim⟩⟩) buf hb
  exact ⟨fun _ => this.1 (listErrorIn_true v _ hb), fun h => (h trivial).elim⟩

theorem short_addrs (p : BgpSessionParams) (x : BgpAddrs) (h : AddrsWF x) : ShortBy (x.encodeTo p) (addrsWire x) (nlriErrorIn x) := by
  cases x
  case None => exact h.elim
  case L2VPLS v => intro buf hb; simp [addrsWire] at hb
  case MVPN v => exact short_items v fun x hx =>
    ⟨mvpn_writes x _ (mvpnOk_of (h x hx).1 (h x hx).2), short_mvpn x _ (mvpnOk_of (h x hx).1 (h x hx).2)⟩
  case EVPN v => exact short_items v fun x hx => ⟨evpn_writes x _ (h x hx), short_evpn x _ (h x hx)⟩
  case FS4U v => exact short_fsList v _ h
  case FS6U v => exact short_fsList v _ h
  case FSV4U v => exact short_fsList v _ h
  all_goals first
    | exact shortBy_plain (sizeIndependent_of _) (addrs_writes _ p h) (plain_encLoop (fun x b => plain_item x b) _ · 0)
    | exact shortBy_plain (sizeIndependent_of _) (addrs_writes _ p h) (plain_encLoop (fun x b => plain_pathIdItem x b) _ · 0)

end Zbgp
