import Verif.Lemmas.RoomNlri

/-!
# UPDATE messages in buffers that are too short
-/

namespace Zbgp

open Spec

attribute [-simp] List.length_flatMap

/-- the NLRI are lists of prefixes -/
def PrefixNlri : BgpAddrs → Prop
  | .MVPN _ | .FS4U _ | .FSV4U _ | .FS6U _ | .L2VPLS _ | .EVPN _ => False
  | _ => True

theorem plain_addrs (p : BgpSessionParams) {x : BgpAddrs} (h : PrefixNlri x) (b : Bytes) : Plain (x.encodeTo p b) := by
  cases x <;> first
    | exact h.elim
    | exact plain_ok
    | exact plain_encLoop (fun x b => plain_item x b) _ b 0
    | exact plain_encLoop (fun x b => plain_pathIdItem x b) _ b 0

theorem plain_setn16 (v : U16) (b : Bytes) : Plain (setn16 v b) := by unfold setn16; plain

theorem plain_not_ok {α : Type} {r : Res α} (h : Plain r) (hn : ∀ a, r ≠ .ok a) : r = .panic :=
  h.resolve_left fun ⟨a, ha⟩ => hn a ha

theorem mod_two (a b : U8) (r : Bytes) (v : U16) : modRange (a :: b :: r) 0 2 (setn16 v) = .ok (be 2 v.toNat ++ r) := by
  simp [modRange, setn16_cons2]

theorem short_mpUnreach (p : BgpSessionParams) (x : BgpMPWithdraws) (h : AddrsWF x.addrs) (buf : Bytes)
    (hb : buf.length < 3 + (addrsWire x.addrs).length) :
    (3 ≤ buf.length ∧ nlriErrorIn x.addrs (buf.length - 3) → (x.encodeTo p buf).IsErr) ∧
    (¬ (3 ≤ buf.length ∧ nlriErrorIn x.addrs (buf.length - 3)) → x.encodeTo p buf = .panic) := by
  unfold BgpMPWithdraws.encodeTo
  match buf, hb with
  | [], _ => exact ⟨fun h => by simp at h, fun _ => rfl⟩
  | [_], _ => exact ⟨fun h => by simp at h, fun _ => rfl⟩
  | [_, _], _ => exact ⟨fun h => by simp at h, fun _ => by rw [mod_two, Res.ok_bind, setIdx_small _ _ _ (by simp)]; rfl⟩
  | a :: b :: c :: t, hb =>
    rw [mod_two, Res.ok_bind, setIdx_append (by simp)]
    simp only [be_length, Nat.sub_self, setIdx_cons_zero, Res.ok_bind, List.length_cons] at hb ⊢
    rw [show be 2 x.addrs.getAfiSafi.1.toNat ++ x.addrs.getAfiSafi.2 :: t =
      (be 2 x.addrs.getAfiSafi.1.toNat ++ [x.addrs.getAfiSafi.2]) ++ t by simp, onFrom_append _ _ _ _ (by simp)]
    have := short_addrs p x.addrs h t (by omega)
    simp only [Nat.add_sub_cancel]
    refine ⟨fun h => errs_bind (errs_bind (this.1 h.2)), fun h => ?_⟩
    rw [this.2 fun hh => h ⟨by omega, hh⟩]; rfl

theorem short_nexthop (p : BgpSessionParams) {f : Family} {nh : BgpAddr} (h : NexthopKind f nh) (pre t : Bytes) (hp : pre.length = 4)
    (ht : t.length < (nexthopWire nh).length) :
    (nexthopRd nh ≤ t.length → (BgpMPUpdates.encodeNexthop nh p (pre ++ t)).IsErr) ∧
    (t.length < nexthopRd nh → BgpMPUpdates.encodeNexthop nh p (pre ++ t) = .panic) := by
  have key2 : ∀ (r : BgpRD) (g : Enc) (w : Bytes) , ErrsWhenShort g w → t.length < 8 + w.length →
      (8 ≤ t.length →
        (onFrom (pre ++ t) 4 fun b => do
          let (b, p) ← r.encodeTo b
          let (b, n) ← onFrom b p g
          .ok (b, p + n)).IsErr) ∧
      (t.length < 8 →
        (onFrom (pre ++ t) 4 fun b => do
          let (b, p) ← r.encodeTo b
          let (b, n) ← onFrom b p g
          .ok (b, p + n)) = .panic) := by
    intro r g w hg hlt
    rw [onFrom_append pre t _ _ hp.symm]
    refine ⟨fun h8 => ?_, fun h8 => ?_⟩
    · simp only [rd_writes r t (by simpa using h8), Res.ok_bind, rdBody_length]
      exact errs_bind (errs_bind (onFrom_errs hg _ _ _ (by simp) (by simp; omega)))
    · rw [rd_small r t h8]; rfl
  cases nh with
  | None => cases f <;> exact h.elim
  | V4 a => exact ⟨fun _ => onFrom_errs (errs_addrV4 a) _ _ _ hp.symm ht, fun h => by simp [nexthopRd] at h⟩
  | V6 a => exact ⟨fun _ => onFrom_errs (errs_addrV6 a) _ _ _ hp.symm ht, fun h => by simp [nexthopRd] at h⟩
  | V4RD a => exact key2 a.rd _ _ (errs_addrV4 a.addr) (by simpa [nexthopWire] using ht)
  | V6RD a => exact key2 a.rd _ _ (errs_addrV6 a.addr) (by simpa [nexthopWire] using ht)
  | L2 _ => cases f <;> exact h.elim
  | MVPN _ => cases f <;> exact h.elim

theorem short_mpReach (p : BgpSessionParams) {f : Family} (x : BgpMPUpdates) (h : AddrsWF x.addrs) (hn : NexthopKind f x.nexthop) (buf : Bytes)
    (hb : buf.length < 5 + (nexthopWire x.nexthop).length + (addrsWire x.addrs).length) :
    ((4 + nexthopRd x.nexthop ≤ buf.length ∧ buf.length < 4 + (nexthopWire x.nexthop).length) ∨
      (5 + (nexthopWire x.nexthop).length ≤ buf.length ∧ nlriErrorIn x.addrs (buf.length - (5 + (nexthopWire x.nexthop).length))) →
      (x.encodeTo p buf).IsErr) ∧
    (¬ ((4 + nexthopRd x.nexthop ≤ buf.length ∧ buf.length < 4 + (nexthopWire x.nexthop).length) ∨
      (5 + (nexthopWire x.nexthop).length ≤ buf.length ∧ nlriErrorIn x.addrs (buf.length - (5 + (nexthopWire x.nexthop).length)))) →
      x.encodeTo p buf = .panic) := by
  unfold BgpMPUpdates.encodeTo
  match buf, hb with
  | [], _ => exact ⟨fun h => by simp at h, fun _ => rfl⟩
  | [_], _ => exact ⟨fun h => by simp at h; omega, fun _ => rfl⟩
  | [_, _], _ => exact ⟨fun h => by simp at h; omega, fun _ => by rw [mod_two, Res.ok_bind, setIdx_small _ _ _ (by simp)]; rfl⟩
  | [a, b, c], _ =>
    refine ⟨fun h => by simp at h; omega, fun _ => ?_⟩
    have e : ∀ t : Bytes, t.length = 3 → BgpMPUpdates.encodeNexthop x.nexthop p t = .panic := by
      intro t ht
      cases hx : x.nexthop with
      | None => rw [hx] at hn; cases f <;> exact hn.elim
      | L2 _ => rw [hx] at hn; cases f <;> exact hn.elim
      | MVPN _ => rw [hx] at hn; cases f <;> exact hn.elim
      | V4 a => simp [BgpMPUpdates.encodeNexthop, onFrom, ht]
      | V6 a => simp [BgpMPUpdates.encodeNexthop, onFrom, ht]
      | V4RD a => simp [BgpMPUpdates.encodeNexthop, onFrom, ht]
      | V6RD a => simp [BgpMPUpdates.encodeNexthop, onFrom, ht]
    rw [mod_two, Res.ok_bind, show be 2 x.addrs.getAfiSafi.1.toNat ++ [c] = be 2 x.addrs.getAfiSafi.1.toNat ++ ([c] ++ []) from rfl,
      setIdx_append (by simp)]
    simp only [be_length, Nat.sub_self, List.cons_append, setIdx_cons_zero, Res.ok_bind]
    rw [e _ (by simp)]
    rfl
  | a :: b :: c :: d :: t, hb =>
    rw [mod_two, Res.ok_bind, setIdx_append (by simp)]
    simp only [be_length, Nat.sub_self, setIdx_cons_zero, Res.ok_bind, List.length_cons] at hb ⊢
    have hno : (∀ a, x.nexthop ≠ .L2 a) ∧ ∀ a, x.nexthop ≠ .MVPN a := by
      constructor <;> (intro a e; rw [e] at hn; cases f <;> exact hn.elim)
    by_cases hs : t.length < (nexthopWire x.nexthop).length
    · rw [show be 2 x.addrs.getAfiSafi.1.toNat ++ x.addrs.getAfiSafi.2 :: d :: t =
        (be 2 x.addrs.getAfiSafi.1.toNat ++ [x.addrs.getAfiSafi.2, d]) ++ t by simp]
      have := short_nexthop p hn (be 2 x.addrs.getAfiSafi.1.toNat ++ [x.addrs.getAfiSafi.2, d]) t (by simp) hs
      refine ⟨fun h => errs_bind (this.1 (by omega)), fun h' => ?_⟩
      rw [this.2 (by omega)]; rfl
    · obtain ⟨a', b', h2⟩ : ∃ a' b', be 2 x.addrs.getAfiSafi.1.toNat = [a', b'] := ⟨_, _, be_two _⟩
      rw [h2]
      simp only [List.cons_append, List.nil_append]
      rw [nexthop_encode _ hno p _ _ _ _ _ (by omega)]
      simp only [Res.ok_bind, setIdx_cons_succ, setIdx_cons_zero]
      rw [show a' :: b' :: x.addrs.getAfiSafi.2 :: BitVec.ofNat 8 (nexthopWire x.nexthop).length ::
          (nexthopWire x.nexthop ++ List.drop (nexthopWire x.nexthop).length t) =
          ([a', b', x.addrs.getAfiSafi.2, BitVec.ofNat 8 (nexthopWire x.nexthop).length] ++ nexthopWire x.nexthop) ++
            List.drop (nexthopWire x.nexthop).length t by simp]
      by_cases h1 : t.length = (nexthopWire x.nexthop).length
      · rw [setIdx_small _ _ _ (by simp; omega)]
        exact ⟨fun h => by omega, fun _ => rfl⟩
      · rw [cur_setIdx _ _ _ _ (by simp; omega) (by simp; omega)]
        simp only [Res.ok_bind]
        rw [onFrom_append _ _ _ _ (by simp; omega)]
        have := short_addrs p x.addrs h (List.drop 1 (List.drop (nexthopWire x.nexthop).length t)) (by simp; omega)
        rw [show (List.drop 1 (List.drop (nexthopWire x.nexthop).length t)).length =
          t.length + 1 + 1 + 1 + 1 - (5 + (nexthopWire x.nexthop).length) by simp; omega] at this
        refine ⟨fun h => errs_bind (errs_bind (this.1 (h.resolve_left (by omega)).2)), fun h => ?_⟩
        rw [this.2 fun hh => h (.inr ⟨by omega, hh⟩)]; rfl

/-- what the encoder of an attribute does in a buffer that is too short -/
theorem attr_room (p : BgpSessionParams) (x : BgpAttrItem) (h : AttrOk p x)
    (hl : (valueWire p.hasAs32bit x).length ≤ maxValue (attrCode x).2) (buf : Bytes)
    (hb : buf.length < (attrWire p.hasAs32bit x).length) :
    (ErrorIn x buf.length → (x.encodeTo p buf).IsErr) ∧ (¬ ErrorIn x buf.length → x.encodeTo p buf = .panic) := by
  have hno := short_not_ok (sizeIndependent_of _) (attr_writes p x h hl) hb
  have hv := short_not_ok (sizeIndependent_of (x.encodeValue p)) (value_writes p x h) (buf := buf.drop (if extended x.attr.flags then 4 else 3))
  by_cases hc : ChecksSize x
  · have := short_attr h hc hb
    have e : ErrorIn x buf.length ↔ (if extended (attrCode x).2 then 4 else 3) ≤ buf.length := by
      cases x <;> first | exact hc.elim | exact Iff.rfl
    rw [e]
    exact ⟨this.2, fun h => this.1 (by omega)⟩
  · have hcode := attr_code x
    have hf : x.attr.flags = (attrCode x).2 := by rw [← hcode]
    have hlen := hb
    simp only [attrWire, List.length_append, attrHeader_length, ← hf] at hlen
    by_cases hs : (if extended x.attr.flags then 4 else 3) ≤ buf.length
    · have he : x.encodeTo p buf = _ := encodeBgpattr_eq x.attr (x.encodeValue p) buf hs
      rw [he]
      have hv := hv (by simp only [List.length_drop]; omega)
      cases x with
      | MPUpdates m =>
        have hsx : (if extended (BgpAttrItem.MPUpdates m).attr.flags then 4 else 3) = 4 := if_pos (by show extended 144 = true; decide)
        rw [hsx] at hs hlen ⊢
        obtain ⟨h1, -, f, ap, hk, hn, -⟩ := h
        have hv : (valueWire p.hasAs32bit (.MPUpdates m)).length = 5 + (nexthopWire m.nexthop).length + (addrsWire m.addrs).length := by
          simp only [valueWire, hk, mpReachWire, familyWire, List.length_append, List.length_cons, List.length_nil, be_length]; omega
        rw [hv] at hlen
        have := short_mpReach p m h1 hn (buf.drop 4) (by simp only [List.length_drop]; omega)
        rw [List.length_drop, Nat.sub_sub, show 4 + (5 + (nexthopWire m.nexthop).length) = 9 + (nexthopWire m.nexthop).length by omega] at this
        simp only [ErrorIn]
        refine ⟨fun h => errs_bind (this.1 (h.imp (by omega) fun h => ⟨by omega, h.2⟩)), fun h => ?_⟩
        have h2 : BgpAttrItem.encodeValue (.MPUpdates m) p (buf.drop 4) = .panic :=
          this.2 fun hh => h (hh.imp (by omega) fun h => ⟨by omega, h.2⟩)
        rw [h2]; rfl
      | MPWithdraws m =>
        have hsx : (if extended (BgpAttrItem.MPWithdraws m).attr.flags then 4 else 3) = 4 := if_pos (by show extended 144 = true; decide)
        rw [hsx] at hs hlen ⊢
        obtain ⟨h1, -⟩ := h
        have hv : (valueWire p.hasAs32bit (.MPWithdraws m)).length ≤ 3 + (addrsWire m.addrs).length := by
          simp only [valueWire]
          split
          · simp only [mpUnreachWire, familyWire, List.length_append, List.length_cons, List.length_nil, be_length]; omega
          · simp
        have := short_mpUnreach p m h1 (buf.drop 4) (by simp only [List.length_drop]; omega)
        rw [List.length_drop, Nat.sub_sub] at this
        simp only [ErrorIn]
        refine ⟨fun h => errs_bind (this.1 ⟨by omega, h.2⟩), fun h => ?_⟩
        have h2 : BgpAttrItem.encodeValue (.MPWithdraws m) p (buf.drop 4) = .panic := this.2 fun hh => h ⟨by omega, hh.2⟩
        rw [h2]; rfl
      | Unknown m =>
        refine ⟨fun h => h.elim, fun _ => ?_⟩
        have h2 : BgpAttrItem.encodeValue (.Unknown m) p _ = .panic := plain_not_ok (by
          show Plain (BgpAttrUnknown.encodeTo _ _)
          unfold BgpAttrUnknown.encodeTo
          plain) hv
        rw [h2]; rfl
      | _ => exact absurd trivial hc
    · have he : x.encodeTo p buf = .panic := encodeBgpattr_small _ _ _ (by omega)
      refine ⟨fun h => ?_, fun _ => he⟩
      cases x with
      | MPUpdates m =>
        have hsx : (if extended (BgpAttrItem.MPUpdates m).attr.flags then 4 else 3) = 4 := if_pos (by show extended 144 = true; decide)
        simp only [ErrorIn] at h
        omega
      | MPWithdraws m =>
        have hsx : (if extended (BgpAttrItem.MPWithdraws m).attr.flags then 4 else 3) = 4 := if_pos (by show extended 144 = true; decide)
        simp only [ErrorIn] at h
        omega
      | Unknown m => exact h.elim
      | _ => exact absurd trivial hc

/-- the loop over the attributes, in a buffer that is too short -/
theorem attrs_room (p : BgpSessionParams) (lp : Nat) (l : List BgpAttrItem)
    (h : ∀ a ∈ l, AttrOk p a ∧ (valueWire p.hasAs32bit a).length ≤ maxValue (attrCode a).2) (pre t : Bytes)
    (hfit : ∀ a b c, l = a ++ b :: c → pre.length + (attrsWire p a).length - lp ≤ 65535)
    (ht : t.length < (attrsWire p l).length) :
    ((∃ a b c, l = a ++ b :: c ∧ (attrsWire p a).length ≤ t.length ∧
        t.length < (attrsWire p a).length + (attrWire p.hasAs32bit b).length ∧ ¬ ErrorIn b (t.length - (attrsWire p a).length)) →
      BgpUpdateMessage.encodeAttrs p lp l (pre ++ t) pre.length = .panic) ∧
    ((¬ ∃ a b c, l = a ++ b :: c ∧ (attrsWire p a).length ≤ t.length ∧
        t.length < (attrsWire p a).length + (attrWire p.hasAs32bit b).length ∧ ¬ ErrorIn b (t.length - (attrsWire p a).length)) →
      (BgpUpdateMessage.encodeAttrs p lp l (pre ++ t) pre.length).IsErr) := by
  induction l generalizing pre t with
  | nil => simp [attrsWire] at ht
  | cons x l ih =>
    have h0 := hfit [] x l rfl
    simp only [attrsWire, List.flatMap_nil, List.length_nil, Nat.add_zero] at h0
    simp only [attrsWire, List.flatMap_cons, List.length_append] at ht
    rw [BgpUpdateMessage.encodeAttrs, if_neg (by omega), onSliceE_tail pre t _ _ _ rfl (by simp)]
    obtain ⟨hx1, hx2⟩ := h x (by simp)
    by_cases hb : t.length < (attrWire p.hasAs32bit x).length
    · have hx := attr_room p x hx1 hx2 t hb
      constructor
      · rintro ⟨a, b, c, e, h1, h2, h3⟩
        cases a with
        | nil =>
          simp only [List.nil_append, List.cons.injEq] at e
          obtain ⟨rfl, rfl⟩ := e
          rw [hx.2 (by simpa [attrsWire] using h3)]; rfl
        | cons y a =>
          simp only [List.cons_append, List.cons.injEq] at e
          obtain ⟨rfl, -⟩ := e
          simp only [attrsWire, List.flatMap_cons, List.length_append] at h1
          omega
      · intro hn
        refine errs_bind (errs_bind (hx.1 ?_))
        by_contra hne
        exact hn ⟨[], x, l, rfl, by simp [attrsWire], by simpa [attrsWire] using hb, by simpa [attrsWire] using hne⟩
    · rw [attr_writes p x hx1 hx2 t (by omega)]
      simp only [Res.ok_bind]
      rw [← List.append_assoc, ← List.length_append]
      have := ih (fun b hb => h b (by simp [hb])) (pre ++ attrWire p.hasAs32bit x) (t.drop (attrWire p.hasAs32bit x).length) (by
        intro a b c hl
        have := hfit (x :: a) b c (by simp [hl])
        simp only [attrsWire, List.flatMap_cons, List.length_append] at this ⊢
        omega) (by simp only [attrsWire, List.length_drop]; omega)
      have e : (∃ a b c, x :: l = a ++ b :: c ∧ (attrsWire p a).length ≤ t.length ∧
          t.length < (attrsWire p a).length + (attrWire p.hasAs32bit b).length ∧ ¬ ErrorIn b (t.length - (attrsWire p a).length)) ↔
          (∃ a b c, l = a ++ b :: c ∧ (attrsWire p a).length ≤ (t.drop (attrWire p.hasAs32bit x).length).length ∧
          (t.drop (attrWire p.hasAs32bit x).length).length < (attrsWire p a).length + (attrWire p.hasAs32bit b).length ∧
            ¬ ErrorIn b ((t.drop (attrWire p.hasAs32bit x).length).length - (attrsWire p a).length)) := by
        simp only [List.length_drop]
        constructor
        · rintro ⟨a, b, c, e, h1, h2, h3⟩
          cases a with
          | nil =>
            simp only [List.nil_append, List.cons.injEq] at e
            obtain ⟨rfl, rfl⟩ := e
            simp [attrsWire] at h2
            omega
          | cons y a =>
            simp only [List.cons_append, List.cons.injEq] at e
            obtain ⟨rfl, e⟩ := e
            simp only [attrsWire, List.flatMap_cons, List.length_append] at h1 h2 h3
            refine ⟨a, b, c, e, ?_, ?_, ?_⟩
            · simp only [attrsWire]; omega
            · simp only [attrsWire]; omega
            · simpa only [attrsWire, Nat.sub_sub] using h3
        · rintro ⟨a, b, c, e, h1, h2, h3⟩
          refine ⟨x :: a, b, c, by simp [e], ?_, ?_, ?_⟩
          · simp only [attrsWire, List.flatMap_cons, List.length_append] at h1 ⊢; omega
          · simp only [attrsWire, List.flatMap_cons, List.length_append] at h2 ⊢; omega
          · simpa only [attrsWire, List.flatMap_cons, List.length_append, Nat.sub_sub] using h3
      rw [e]
      exact this

theorem prefix_section {p : BgpSessionParams} {x : BgpAddrs} (h : InSession p x) : PrefixNlri x := by
  obtain ⟨_, _, mode, _, _, _, _⟩ := p
  cases mode <;> cases x <;> first | exact trivial | (simp [InSession, kindOf, sessionFamily] at h)

/-- `encode_to` of an UPDATE message in a buffer that is too short -/
theorem update_room (p : BgpSessionParams) (x : BgpUpdateMessage) (h : PartsOk p x)
    (hw : (addrsWire x.withdraws).length ≤ 65535)
    (hfit : ∀ a b c, x.attrs = a ++ b :: c → (attrsWire p a).length ≤ 65533) (buf : Bytes)
    (hb : buf.length < (updateWire p x).length) :
    (PanicsIn p x buf.length → x.encodeTo p buf = .panic) ∧ (¬ PanicsIn p x buf.length → (x.encodeTo p buf).IsErr) := by
  obtain ⟨h1, h2, h3⟩ := h
  have hlen : (updateWire p x).length = 4 + (addrsWire x.withdraws).length + (attrsWire p x.attrs).length +
      (addrsWire x.updates).length := by simp [updateWire, updateBytes]; omega
  unfold PanicsIn
  unfold BgpUpdateMessage.encodeTo
  by_cases c1 : buf.length < 2 + (addrsWire x.withdraws).length
  · -- the withdrawn routes do not fit
    have hp : (buf.length < 2 ∧ x.withdraws = .None) ∨ 2 ≤ buf.length → x.encodeWithdraws p buf = .panic := by
      unfold BgpUpdateMessage.encodeWithdraws
      rw [nlriEncoder_eq]
      rintro (⟨hs, hn⟩ | hs)
      · rw [if_neg (by rw [hn]; simp [InSession, kindOf])]
        rcases buf with _ | ⟨a, _ | ⟨b, t⟩⟩
        · rfl
        · rfl
        · simp at hs; omega
      · rcases section_in h1 with ⟨hi, hw'⟩ | ⟨hi, hw'⟩
        · rw [if_pos hi]
          obtain ⟨c, d, r, rfl⟩ := exists_cons2 (l := buf) hs
          simp only [List.length_cons] at c1
          simp only
          rw [show c :: d :: r = [c, d] ++ r from rfl, onSliceE_tail _ _ _ _ _ (by simp) (by simp; omega)]
          rw [plain_not_ok (plain_addrs p (prefix_section hi) r) (short_not_ok (sizeIndependent_of _) hw' (by omega))]
          rfl
        · rw [hw'] at c1; simp at c1; omega
    have he : ¬ ((buf.length < 2 ∧ x.withdraws = .None) ∨ 2 ≤ buf.length) → (x.encodeWithdraws p buf).IsErr := by
      intro hn
      have hi : InSession p x.withdraws := by
        rcases h1 with h1 | ⟨⟨ap, hk⟩, -⟩
        · exact absurd (Or.inl ⟨by omega, h1⟩) hn
        · simp [InSession, hk]
      unfold BgpUpdateMessage.encodeWithdraws
      rw [nlriEncoder_eq, if_pos hi]
      simp only
      unfold onSliceE
      rw [if_neg (by omega)]
      trivial
    constructor
    · intro h
      rw [hp ?_]; · rfl
      rcases h with h | h | ⟨a, b, c, -, h, -⟩ | h
      · exact .inl h
      · exact .inr h.1
      · omega
      · omega
    · intro h
      refine errs_bind (he fun h' => h ?_)
      rcases h' with h' | h'
      · exact .inl h'
      · exact .inr (.inl ⟨h', c1⟩)
  · rw [encodeWithdraws_writes p x h1 hw buf (by omega)]
    simp only [Res.ok_bind]
    have hd : (buf.drop (2 + (addrsWire x.withdraws).length)).length = buf.length - (2 + (addrsWire x.withdraws).length) := by
      simp
    by_cases c2 : buf.length < 4 + (addrsWire x.withdraws).length
    · -- the length of the attributes does not fit
      constructor
      · rintro (h | h | ⟨a, b, c, -, h, -⟩ | h) <;> omega
      · intro _
        cases ha : x.attrs with
        | nil =>
          simp only [BgpUpdateMessage.encodeAttrs, Res.ok_bind]
          refine errs_bind ?_
          unfold onSliceE
          rw [if_neg (by simp only [List.length_append, be_length, List.length_drop]; omega)]
          trivial
        | cons a l =>
          refine errs_bind ?_
          rw [BgpUpdateMessage.encodeAttrs, if_neg (by omega)]
          refine errs_bind ?_
          unfold onSliceE
          rw [if_neg (by simp only [List.length_append, be_length, List.length_drop]; omega)]
          trivial
    · obtain ⟨c, d, r, hr⟩ := exists_cons2 (l := buf.drop (2 + (addrsWire x.withdraws).length)) (by rw [hd]; omega)
      rw [hr] at hd ⊢
      simp only [List.length_cons] at hd
      generalize hwd : addrsWire x.withdraws = w at *
      have hc1 : ¬ (buf.length < 2 ∧ x.withdraws = .None) := by omega
      have hc2 : ¬ (2 ≤ buf.length ∧ buf.length < 2 + w.length) := by omega
      rw [show be 2 w.length ++ w ++ c :: d :: r = (be 2 w.length ++ w ++ [c, d]) ++ r by simp,
        show 2 + w.length + 2 = (be 2 w.length ++ w ++ [c, d]).length by simp; omega]
      have hpre : (be 2 w.length ++ w ++ [c, d]).length = 4 + w.length := by simp; omega
      by_cases c3 : r.length < (attrsWire p x.attrs).length
      · have key := attrs_room p (2 + w.length) x.attrs h3 (be 2 w.length ++ w ++ [c, d]) r (by
          intro a b c' e
          have := hfit a b c' e
          omega) c3
        constructor
        · intro h
          rw [key.1 ?_]; · rfl
          rcases h with h | h | ⟨a, b, c', e, h1, h2, h3⟩ | h
          · exact absurd h hc1
          · exact absurd h hc2
          · refine ⟨a, b, c', e, by clear key; omega, by clear key; omega, ?_⟩
            rwa [show r.length - (attrsWire p a).length = buf.length - (4 + w.length + (attrsWire p a).length) by clear key; omega]
          · clear key; omega
        · intro h
          refine errs_bind (key.2 ?_)
          rintro ⟨a, b, c', e, h1, h2, h3⟩
          refine h (.inr (.inr (.inl ⟨a, b, c', e, by clear key h; omega, by clear key h; omega, ?_⟩)))
          rwa [show r.length - (attrsWire p a).length = buf.length - (4 + w.length + (attrsWire p a).length) by clear key h; omega] at h3
      · have hpan : 4 + w.length + (attrsWire p x.attrs).length ≤ buf.length := by omega
        refine ⟨fun _ => ?_, fun h => absurd (.inr (.inr (.inr hpan))) h⟩
        rw [encodeAttrs_writes p _ _ h3 _ _ (by
          intro a b c' e
          have := hfit a b c' e
          omega) (by omega)]
        simp only [Res.ok_bind]
        generalize attrsWire p x.attrs = a at *
        rw [show be 2 w.length ++ w ++ [c, d] ++ (a ++ r.drop a.length) =
          (be 2 w.length ++ w) ++ ([c, d] ++ (a ++ r.drop a.length)) by simp,
          onSliceE_append _ _ _ _ _ _ (by simp) (by simp; omega)]
        simp only [setn16_cons2, Res.ok_bind, List.append_nil]
        rw [nlriEncoder_eq]
        rcases section_in h2 with ⟨hi, hw'⟩ | ⟨hi, hw'⟩
        · rw [if_pos hi]
          simp only
          rw [show ∀ z : Bytes, be 2 w.length ++ w ++ (z ++ (a ++ r.drop a.length)) =
            (be 2 w.length ++ w ++ z ++ a) ++ r.drop a.length by simp,
            onSliceE_tail _ _ _ _ _ (by simp; omega) (by simp; omega)]
          rw [plain_not_ok (plain_addrs p (prefix_section hi) _) (short_not_ok (sizeIndependent_of _) hw' (by simp; omega))]
          rfl
        · rw [hw'] at hlen; simp at hlen; omega

/-! ## BMP -/

/-- the two outcomes of an encoder in a buffer that is too short -/
def PanicsIff (r : Res (Bytes × Nat)) (c : Prop) : Prop := (c → r = .panic) ∧ (¬ c → r.IsErr)

theorem panicsIff_bind {r : Res (Bytes × Nat)} {c : Prop} {f : Bytes × Nat → Res (Bytes × Nat)} (h : PanicsIff r c) : PanicsIff (r >>= f) c :=
  ⟨fun hc => by rw [h.1 hc]; rfl, fun hc => errs_bind (h.2 hc)⟩

theorem panicsIff_err {r : Res (Bytes × Nat)} {c : Prop} (hc : ¬ c) (h : r.IsErr) : PanicsIff r c := ⟨fun h' => absurd h' hc, fun _ => h⟩
theorem panicsIff_panic {r : Res (Bytes × Nat)} {c : Prop} (hc : c) (h : r = .panic) : PanicsIff r c := ⟨fun _ => h, fun h' => absurd hc h'⟩

theorem panicsIff_typed (code : U8) {enc : Enc} (a : U8) (t : Bytes) {c : Prop} (h : PanicsIff (enc t) c) :
    PanicsIff (BmpMessage.encodeTyped code enc (a :: t)) c := by
  unfold BmpMessage.encodeTyped
  simp only [setIdx_cons_zero, Res.ok_bind]
  rw [show code :: t = [code] ++ t from rfl, onFrom_append [code] t 1 enc rfl]
  exact panicsIff_bind (panicsIff_bind h)

theorem panicsIff_embedded (ty : BgpMessageType) {enc : Enc} (p t : Bytes) (ht : 19 ≤ t.length) {c : Prop} (h : PanicsIff (enc (t.drop 19)) c) :
    PanicsIff (encodeEmbedded ty enc (p ++ t) p.length) c := by
  unfold encodeEmbedded
  obtain ⟨m, t, rfl, hm, -⟩ := exists_split 19 ht
  rw [List.drop_left' hm] at h
  rw [← List.append_assoc, onFrom_append (p ++ m) t _ enc (by simp [hm])]
  exact panicsIff_bind (panicsIff_bind h)

theorem embedded_cut (ty : BgpMessageType) (enc : Enc) (p t : Bytes) (ht : t.length < 19) : encodeEmbedded ty enc (p ++ t) p.length = .panic := by
  unfold encodeEmbedded onFrom
  rw [if_neg (by simp; omega)]
  rfl

theorem rmon_room (x : BmpMessageRouteMonitoring) (h : PartsOk (.ofPeerHeader x.peer) x.update)
    (hw : (addrsWire x.update.withdraws).length ≤ 65535)
    (hfit : ∀ a b c, x.update.attrs = a ++ b :: c → (attrsWire (.ofPeerHeader x.peer) a).length ≤ 65533) (buf : Bytes)
    (hb : buf.length < 62 + (updateWire (.ofPeerHeader x.peer) x.update).length) :
    PanicsIff ((BmpMessage.RouteMonitoring x).encodeTo buf) (RmonPanicsIn x buf.length) := by
  unfold RmonPanicsIn
  cases buf with
  | nil => exact panicsIff_err (by simp) trivial
  | cons a t =>
    refine panicsIff_typed 0 a t ?_
    simp only [List.length_cons] at hb ⊢
    unfold BmpMessageRouteMonitoring.encodeTo
    by_cases h62 : t.length < 62
    · rw [if_pos h62]
      exact panicsIff_err (by omega) trivial
    · rw [if_neg h62, peerHeader_clears x.peer t (by simp [peerHeaderWire_length]; omega)]
      simp only [Res.ok_bind]
      refine panicsIff_embedded _ _ _ (by simp [behind_length, peerHeaderWire_length]; omega) ?_
      have := update_room (.ofPeerHeader x.peer) x.update h hw hfit
        ((behind (isV4 x.peer.peeraddress) (t.drop (peerHeaderWire x.peer).length)).drop 19) (by
          simp [behind_length, peerHeaderWire_length]; omega)
      simp only [List.length_drop, behind_length, peerHeaderWire_length] at this ⊢
      rw [show t.length - 42 - 19 = t.length + 1 - 62 by omega] at this
      exact ⟨fun h => this.1 h.2, fun h => this.2 fun h' => h ⟨by omega, h'⟩⟩

theorem open_room (m : BgpOpenMessage) (hc : ∀ c ∈ m.caps, CapEncodable c) (buf : Bytes) (hb : buf.length < openSize m) :
    PanicsIff (m.encodeTo buf) (OpenPanicsIn m buf.length) := short_open m hc buf hb

theorem peerUp_room (x : BmpMessagePeerUp) (h1 : ∀ c ∈ x.msg1.caps, CapEncodable c) (h2 : ∀ c ∈ x.msg2.caps, CapEncodable c)
    (hl : openSize x.msg1 ≤ 65516) (buf : Bytes) (hb : buf.length < 101 + openSize x.msg1 + openSize x.msg2) :
    PanicsIff ((BmpMessage.PeerUpNotification x).encodeTo buf) (PeerUpPanicsIn x buf.length) := by
  unfold PeerUpPanicsIn
  cases buf with
  | nil => exact panicsIff_err (by simp) trivial
  | cons a t =>
    refine panicsIff_typed 3 a t ?_
    simp only [List.length_cons] at hb ⊢
    unfold BmpMessagePeerUp.encodeTo
    by_cases h62 : t.length < 62
    · rw [if_pos h62]
      exact panicsIff_err (by omega) trivial
    · rw [if_neg h62, peerHeader_clears x.peer t (by simp [peerHeaderWire_length]; omega)]
      simp only [Res.ok_bind]
      rw [cur_clears (bmpAddr_clears _) _ _ _ rfl (by simp [behind_length, peerHeaderWire_length, bmpAddr_length]; omega)]
      simp only [Res.ok_bind]
      rw [cur_modFrom (put16 _) _ _ _ (by simp [bmpAddr_length])
          (by simp [behind_length, peerHeaderWire_length, bmpAddr_length]; omega), Res.ok_bind,
        cur_modFrom (put16 _) _ _ _ (by simp [bmpAddr_length])
          (by simp [behind_length, peerHeaderWire_length, bmpAddr_length]; omega), Res.ok_bind]
      generalize hP : peerHeaderWire x.peer ++ bmpAddr x.localaddress ++ be 2 x.localport.toNat ++ be 2 x.remoteport.toNat = P
      have hPl : P.length = 62 := by rw [← hP]; simp [peerHeaderWire_length, bmpAddr_length]
      rw [show (peerHeaderWire x.peer).length + 16 + 2 + 2 = P.length by rw [hPl, peerHeaderWire_length]]
      generalize hR : List.drop _ _ = R
      have hRl : R.length = t.length - 62 := by
        rw [← hR]; simp [behind_length, peerHeaderWire_length, bmpAddr_length]; omega
      by_cases c1 : R.length < 19
      · exact panicsIff_panic (.inl (by omega)) (by rw [embedded_cut _ _ _ _ c1]; rfl)
      · by_cases c2 : R.length < 19 + openSize x.msg1
        · refine panicsIff_bind (panicsIff_embedded _ _ _ (by omega) ?_)
          have := open_room x.msg1 h1 (R.drop 19) (by simp; omega)
          rw [List.length_drop, show R.length - 19 = t.length + 1 - 82 by omega] at this
          refine ⟨fun h => this.1 ?_, fun h => this.2 fun h' => h (.inr (.inl ⟨by omega, by omega, h'⟩))⟩
          rcases h with h | h | h | h
          · omega
          · exact h.2.2
          · omega
          · omega
        · have e := openWire_length x.msg1.asNum.toNat x.msg1.holdTime.toNat x.msg1.routerId.toNat (capsParams x.msg1.caps)
          have e' : (openWire x.msg1.asNum.toNat x.msg1.holdTime.toNat x.msg1.routerId.toNat (capsParams x.msg1.caps)).length = openSize x.msg1 := e
          rw [embedded_writes .Open (clears_false.2 (writes_open x.msg1 h1)) (by omega) _ _ (by omega)]
          simp only [Res.ok_bind]
          generalize hW : openWire x.msg1.asNum.toNat x.msg1.holdTime.toNat x.msg1.routerId.toNat (capsParams x.msg1.caps) = W at *
          by_cases c3 : R.length < 38 + openSize x.msg1
          · exact panicsIff_panic (.inr (.inr (.inl (by omega)))) (embedded_cut _ _ _ _ (by simp [behind_length, message_length]; omega))
          · refine panicsIff_embedded _ _ _ (by simp [behind_length, message_length]; omega) ?_
            have := open_room x.msg2 h2 ((behind false (R.drop (message .Open W).length)).drop 19) (by simp [behind_length, message_length]; omega)
            simp only [List.length_drop, behind_length, message_length] at this ⊢
            rw [show R.length - (19 + W.length) - 19 = t.length + 1 - (101 + openSize x.msg1) by omega] at this
            refine ⟨fun h => this.1 ?_, fun h => this.2 fun h' => h (.inr (.inr (.inr ⟨by omega, h'⟩)))⟩
            rcases h with h | h | h | h
            · omega
            · omega
            · omega
            · exact h.2

/-- the information elements of an initiation message, one behind the other -/
def encodeInfos : List (Option Bytes) → Bytes → Nat → Res (Bytes × Nat)
  | [], buf, pos => .ok (buf, pos)
  | s :: l, buf, pos => do
    let (buf, pos) ← BmpMessageInitiation.encodeInfo 0 s buf pos
    encodeInfos l buf pos

theorem infos_room (l : List (Option Bytes)) (pre t : Bytes) (ht : t.length < infoSize (l.filterMap id)) :
    PanicsIff (encodeInfos l (pre ++ t) pre.length)
      (∃ a s b, l.filterMap id = a ++ s :: b ∧ infoSize a + 4 ≤ t.length ∧ t.length < infoSize a + 4 + s.length) := by
  induction l generalizing pre t with
  | nil => simp [infoSize] at ht
  | cons o l ih =>
    cases o with
    | none => exact ih pre t ht
    | some s =>
      simp only [List.filterMap_cons_some (show id (some s) = some s from rfl)] at ht ⊢
      have hs : ∀ a : List Bytes, infoSize (s :: a) = 4 + s.length + infoSize a := fun a => by simp [infoSize]
      rw [hs] at ht
      rw [encodeInfos]
      by_cases h4 : t.length < 4 + s.length
      · refine panicsIff_bind ?_
        rw [BmpMessageInitiation.encodeInfo, onFrom_append pre t _ _ rfl]
        refine panicsIff_bind (panicsIff_bind ?_)
        by_cases h : t.length < 4
        · refine panicsIff_err ?_ ?_
          · rintro ⟨a, s', b, -, h1, -⟩
            omega
          · unfold BmpInfoVal.encodeTo
            rw [if_pos h]; trivial
        · refine panicsIff_panic ⟨[], s, l.filterMap id, rfl, by simp [infoSize]; omega, by simp [infoSize]; omega⟩ ?_
          refine plain_not_ok ?_ (short_not_ok (sizeIndependent_of _) (info_writes ⟨0, s⟩) (by rw [infoWire_length]; exact h4))
          unfold BmpInfoVal.encodeTo
          rw [if_neg h]
          unfold modFrom setn16
          plain
      · rw [encodeInfo_writes 0 (some s) pre t (by simp [optInfo, infoWire_length]; omega)]
        simp only [Res.ok_bind]
        have := ih (pre ++ optInfo (0 : U16).toNat (some s)) (t.drop (optInfo (0 : U16).toNat (some s)).length) (by
          simp only [List.length_drop, optInfo, infoWire_length]; omega)
        rw [List.length_drop, show (optInfo (0 : U16).toNat (some s)).length = 4 + s.length by simp [optInfo, infoWire_length]] at this
        rw [show (optInfo (0 : U16).toNat (some s)).length = 4 + s.length by simp [optInfo, infoWire_length]]
        refine ⟨fun h => ?_, fun h => ?_⟩
        · refine this.1 ?_
          obtain ⟨a, s', b, e, h1, h2⟩ := h
          cases a with
          | nil =>
            simp only [List.nil_append, List.cons.injEq] at e
            obtain ⟨rfl, -⟩ := e
            simp [infoSize] at h2
            omega
          | cons y a =>
            simp only [List.cons_append, List.cons.injEq] at e
            obtain ⟨rfl, e⟩ := e
            rw [hs] at h1 h2
            exact ⟨a, s', b, e, by omega, by omega⟩
        · refine this.2 fun h' => h ?_
          obtain ⟨a, s', b, e, h1, h2⟩ := h'
          exact ⟨s :: a, s', b, by rw [e]; rfl, by rw [hs]; omega, by rw [hs]; omega⟩

theorem init_room (x : BmpMessageInitiation) (buf : Bytes) (hb : buf.length < 1 + infoSize (initTexts x)) :
    PanicsIff ((BmpMessage.Initiation x).encodeTo buf) (InitPanicsIn x buf.length) := by
  unfold InitPanicsIn
  cases buf with
  | nil => exact panicsIff_err (by rintro ⟨a, s, b, -, h, -⟩; simp at h) trivial
  | cons a t =>
    refine panicsIff_typed 4 a t ?_
    simp only [List.length_cons] at hb ⊢
    have key := infos_room [x.str0, x.sysDescr, x.sysName] [] t (by show t.length < infoSize (initTexts x); omega)
    have e : x.encodeTo t = encodeInfos [x.str0, x.sysDescr, x.sysName] ([] ++ t) ([] : Bytes).length := by
      simp only [BmpMessageInitiation.encodeTo, encodeInfos, List.nil_append, List.length_nil]
      cases BmpMessageInitiation.encodeInfo 0 x.str0 t 0 with
      | ok r =>
        simp only [Res.ok_bind]
        cases BmpMessageInitiation.encodeInfo 0 x.sysDescr r.1 r.2 with
        | ok r =>
          simp only [Res.ok_bind]
          cases BmpMessageInitiation.encodeInfo 0 x.sysName r.1 r.2 <;> rfl
        | err _ => rfl
        | panic => rfl
        | hang => rfl
      | err _ => rfl
      | panic => rfl
      | hang => rfl
    rw [e]
    refine ⟨fun h => key.1 ?_, fun h => key.2 fun h' => h ?_⟩
    · obtain ⟨a, s, b, e, h1, h2⟩ := h
      exact ⟨a, s, b, e, by omega, by omega⟩
    · obtain ⟨a, s, b, e, h1, h2⟩ := h'
      exact ⟨a, s, b, e, by omega, by omega⟩

end Zbgp
