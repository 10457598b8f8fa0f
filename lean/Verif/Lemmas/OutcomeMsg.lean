import Verif.Lemmas.OutcomeUpdate
import Verif.Lemmas.ReleaseBmp
import Verif.Lemmas.BmpReads
import Verif.Spec.OutcomeMsg

/-! # What comes of encoding OPEN, framed and BMP messages -/

namespace Zbgp

open Spec

attribute [-simp] List.length_flatMap

/-! ## Encoders that are given a position -/

/-- at every position with enough room behind it, the encoder comes to this end -/
def PosEnds (f : Bytes → Nat → Res (Bytes × Nat)) (fate : Fate) : Prop :=
  ∃ room, ∀ p t : Bytes, room ≤ t.length → EndCase (f (p ++ t) p.length) p t fate

theorem posEnds_seq {f g : Bytes → Nat → Res (Bytes × Nat)} {a b : Fate} (hf : PosEnds f a) (hg : PosEnds g b) :
    PosEnds (fun buf pos => f buf pos >>= fun r => g r.1 r.2) (a.andThen b) := by
  obtain ⟨r1, h1⟩ := hf
  obtain ⟨r2, h2⟩ := hg
  cases a with
  | sent pat =>
    refine ⟨r1 + (pat.length + r2), fun p t ht => ?_⟩
    obtain ⟨w, rest, f1, e1, l1⟩ := h1 p t (by omega)
    have fl := fits_length f1
    simp only [List.length_append] at l1
    have h4 := h2 (p ++ w) rest (by omega)
    simp only [e1, Res.ok_bind]
    rw [← List.append_assoc, show p.length + w.length = (p ++ w).length by simp]
    cases b with
    | sent pat2 =>
      obtain ⟨w2, rest2, f2, e2, l2⟩ := h4
      exact ⟨w ++ w2, rest2, fits_append f1 f2, by rw [e2]; simp [Nat.add_assoc], by simp only [List.length_append] at l2 ⊢; omega⟩
    | refused => exact h4
    | crash => exact h4
  | refused => exact ⟨r1, fun p t ht => err_bind (h1 p t ht)⟩
  | crash =>
    refine ⟨r1, fun p t ht => ?_⟩
    have := h1 p t ht
    simp only [EndCase, Fate.andThen] at this ⊢
    rw [this]; rfl

theorem posEnds_ends {f : Enc} {fate : Fate} (h : Ends f fate) :
    PosEnds (fun buf pos => onFrom buf pos f >>= fun r => .ok (r.1, pos + r.2)) fate := by
  obtain ⟨room, h⟩ := ends_case h
  refine ⟨room, fun p t ht => ?_⟩
  have h3 := endCase_onFrom (p := p) (f := f) p.length rfl (h t ht)
  cases fate with
  | sent pat =>
    obtain ⟨w, rest, f1, e1, l1⟩ := h3
    exact ⟨w, rest, f1, by simp only [e1, Res.ok_bind, List.append_assoc], l1⟩
  | refused => exact err_bind h3
  | crash =>
    simp only [AtCase] at h3
    simp only [EndCase, h3]; rfl

theorem ends_pos {f : Enc} {g : Bytes → Nat → Res (Bytes × Nat)} {fate : Fate} (room : Nat) (h : PosEnds g fate)
    (hf : ∀ buf : Bytes, room ≤ buf.length → f buf = g buf 0) : Ends f fate := by
  obtain ⟨r, h⟩ := h
  exact ends_of (room + r) fun buf hb => by rw [hf buf (by omega)]; simpa using h [] buf (by omega)

/-- first one encoder, then the other behind it -/
theorem ends_seq {f g h : Enc} {a b : Fate} (room : Nat) (hf : Ends f a) (hg : Ends g b)
    (e : ∀ buf : Bytes, room ≤ buf.length → h buf = (f buf >>= fun r => onFrom r.1 r.2 g >>= fun q => .ok (q.1, r.2 + q.2))) :
    Ends h (a.andThen b) := by
  refine ends_pos room (posEnds_seq (posEnds_ends hf) (posEnds_ends hg)) fun buf hb => ?_
  rw [e buf hb, show onFrom buf 0 f = f buf by
    have := onFrom_append [] buf 0 f rfl
    rw [List.nil_append] at this
    rw [this]; cases f buf <;> rfl]
  cases f buf with
  | ok r => simp
  | _ => rfl

theorem ends_clears {f : Enc} {c : Bool} {w : Bytes} (h : Clears c f w) : Ends f (.octets w) :=
  ends_octets_extra w w.length fun buf hb => ⟨_, h buf hb, by simp [behind_length]; omega⟩

/-! ## OPEN -/

theorem capSize_eq (c : BgpCapability) : capSize c = c.bytesLen := by
  by_cases h : ∃ a d, c = .CapFQDN a d
  · obtain ⟨a, d, rfl⟩ := h; rfl
  · have := capTlv_length c fun a d e => h ⟨a, d, e⟩
    cases c <;> first | exact this | rfl

/-- one capability, as in the loop of the OPEN encoder -/
def capEnc (c : BgpCapability) : Enc := fun t => do
  let t ← setIdx t 0 2
  let t ← setIdx t 1 (BitVec.ofNat 8 c.bytesLen)
  let (t, _) ← onSliceE t 2 (c.bytesLen + 2) (fun b => do .ok (← c.fillBuffer b, ()))
  .ok (t, 2 + c.bytesLen)

theorem capEnc_eq (c : BgpCapability) (x y : U8) (m r : Bytes) (hm : m.length = c.bytesLen) :
    capEnc c (x :: y :: (m ++ r)) = (c.fillBuffer m >>= fun q => .ok (2 :: BitVec.ofNat 8 c.bytesLen :: (q ++ r), 2 + c.bytesLen)) := by
  unfold capEnc
  simp only [setIdx_cons_zero, setIdx_cons_succ, Res.ok_bind]
  have h1 := onSliceE_append [2, BitVec.ofNat 8 c.bytesLen] m r 2 (c.bytesLen + 2)
    (fun b => do .ok (← c.fillBuffer b, ())) rfl (by simp; omega)
  simp only [List.cons_append, List.nil_append] at h1
  rw [h1]
  cases c.fillBuffer m <;> rfl

theorem cap_split (c : BgpCapability) (buf : Bytes) (hb : 2 + c.bytesLen ≤ buf.length) :
    ∃ x y m r, buf = x :: y :: (m ++ r) ∧ m.length = c.bytesLen := by
  obtain ⟨x, y, t, rfl⟩ := exists_cons2 (by omega : 2 ≤ buf.length)
  simp only [List.length_cons] at hb
  obtain ⟨m, r, rfl, hm, -⟩ := exists_split c.bytesLen (by omega : c.bytesLen ≤ t.length)
  exact ⟨x, y, m, r, rfl, hm⟩

theorem ends_cap_ok (c : BgpCapability) (hq : ∀ h d, c ≠ .CapFQDN h d) (h : ∀ m : Bytes, m.length = c.bytesLen →
    c.fillBuffer m = .ok (capTlv c)) : Ends (capEnc c) (.octets (capParam (capTlv c))) := by
  have hl := capTlv_length c hq
  refine ends_octets_extra _ (2 + c.bytesLen) fun buf hb => ?_
  obtain ⟨x, y, m, r, rfl, hm⟩ := cap_split c buf hb
  refine ⟨r, ?_, ?_⟩
  · rw [capEnc_eq c x y m r hm, h m hm]
    simp [capParam, tlv, hl]; omega
  · simp [capParam, tlv, hl, hm]

theorem ends_cap_refused (c : BgpCapability) (h : ∀ m : Bytes, m.length = c.bytesLen → (c.fillBuffer m).IsErr) :
    Ends (capEnc c) .refused := by
  refine ends_of (2 + c.bytesLen) fun buf hb => ?_
  obtain ⟨x, y, m, r, rfl, hm⟩ := cap_split c buf hb
  rw [capEnc_eq c x y m r hm]
  exact err_bind (h m hm)

theorem gr_refused (t : U16) (s : Bool) (afis : List BgpCapGR) (ht : ¬ t.toNat < 2 ^ 12) (m : Bytes)
    (hm : m.length = (BgpCapability.CapGR t s afis).bytesLen) : ((BgpCapability.CapGR t s afis).fillBuffer m).IsErr := by
  unfold BgpCapability.fillBuffer
  rw [if_neg (by omega)]
  simp only [BgpCapability.bytesLen] at hm
  obtain ⟨x, y, r, rfl⟩ := exists_cons2 (by omega : 2 ≤ m.length)
  simp only [setIdx_cons_zero, setIdx_cons_succ, Res.ok_bind]
  rw [if_pos (by omega)]
  trivial

theorem llgr_entry_refused (c : BgpCapLLGR) (hc : ¬ c.staleTime.toNat < 2 ^ 24) (b : Bytes) : (c.encodeTo b).IsErr := by
  unfold BgpCapLLGR.encodeTo
  split
  · trivial
  · rw [if_pos (by omega)]; trivial

theorem llgr_chunks_refused (v : List BgpCapLLGR) (h : ¬ ∀ l ∈ v, l.staleTime.toNat < 2 ^ 24) (t : Bytes)
    (ht : t.length = 7 * v.length) : (BgpCapability.fillChunks 7 BgpCapLLGR.encodeTo v t).IsErr := by
  induction v generalizing t with
  | nil => exact absurd (by simp) h
  | cons x xs ih =>
    simp only [List.length_cons, Nat.mul_add, Nat.mul_one] at ht
    unfold BgpCapability.fillChunks
    rw [if_pos (by omega)]
    by_cases hx : x.staleTime.toNat < 2 ^ 24
    · rw [llgr_encode x hx _ (by simp; omega)]
      simp only [Res.ok_bind]
      refine err_bind (ih (fun hh => h ?_) _ (by simp; omega))
      intro l hl
      rcases List.mem_cons.1 hl with rfl | hl
      · exact hx
      · exact hh l hl
    · exact err_bind (llgr_entry_refused x hx _)

theorem llgr_refused (v : List BgpCapLLGR) (h : ¬ ∀ l ∈ v, l.staleTime.toNat < 2 ^ 24) (m : Bytes)
    (hm : m.length = (BgpCapability.CapLLGR v).bytesLen) : ((BgpCapability.CapLLGR v).fillBuffer m).IsErr := by
  unfold BgpCapability.fillBuffer
  rw [if_neg (by omega)]
  simp only [BgpCapability.bytesLen] at hm
  obtain ⟨x, y, r, rfl⟩ := exists_cons2 (by omega : 2 ≤ m.length)
  simp only [List.length_cons] at hm
  simp only [setIdx_cons_zero, setIdx_cons_succ, Res.ok_bind]
  have := modFrom_append [71, BitVec.ofNat 8 (7 * v.length)] r 2 (BgpCapability.fillChunks 7 BgpCapLLGR.encodeTo v) rfl
  simp only [List.cons_append, List.nil_append] at this
  rw [this]
  exact err_bind (llgr_chunks_refused v h r (by omega))

theorem fqdn_fills (h d m : Bytes) (hm : m.length = 4 + h.length + d.length) :
    ∃ u v, (BgpCapability.CapFQDN h d).fillBuffer m = .ok ((73 :: (h ++ (BitVec.ofNat 8 d.length :: d))) ++ [u, v]) := by
  unfold BgpCapability.fillBuffer
  rw [if_neg (by simp [BgpCapability.bytesLen]; omega)]
  obtain ⟨x, z, t, rfl⟩ := exists_cons2 (by omega : 2 ≤ m.length)
  simp only [setIdx_cons_zero, setIdx_cons_succ, Res.ok_bind]
  have hT : (BitVec.ofNat 8 h.length :: t).length = h.length + (1 + (d.length + 2)) := by
    simp only [List.length_cons] at hm ⊢; omega
  generalize BitVec.ofNat 8 h.length :: t = T at hT
  obtain ⟨m1, T, rfl, h1, -⟩ := exists_split h.length (by omega : h.length ≤ T.length)
  simp only [List.length_append, h1] at hT
  obtain ⟨y, T, rfl⟩ := List.exists_cons_of_length_pos (l := T) (by omega)
  simp only [List.length_cons] at hT
  obtain ⟨m2, T, rfl, h2, -⟩ := exists_split d.length (by omega : d.length ≤ T.length)
  simp only [List.length_append, h2] at hT
  obtain ⟨u, v, T, rfl⟩ := exists_cons2 (by omega : 2 ≤ T.length)
  have : T = [] := by
    simp only [List.length_cons] at hT
    exact List.eq_nil_of_length_eq_zero (by omega)
  subst this
  refine ⟨u, v, ?_⟩
  have e1 := copyAt_append [73] m1 (y :: (m2 ++ [u, v])) h 1 (1 + h.length) rfl (by simp [h1]) (by omega)
  simp only [List.cons_append, List.nil_append] at e1
  rw [e1]
  simp only [Res.ok_bind]
  have e2 := cur_setIdx (73 :: h) (y :: (m2 ++ [u, v])) (1 + h.length) (BitVec.ofNat 8 d.length) (by simp; omega) (by simp)
  simp only [List.cons_append] at e2
  rw [e2]
  simp only [Res.ok_bind]
  have e3 := copyAt_append (73 :: (h ++ [BitVec.ofNat 8 d.length])) m2 [u, v] d (2 + h.length) (2 + h.length + d.length)
    (by simp; omega) (by simp [h2]; omega) (by omega)
  simp only [List.cons_append, List.append_assoc, List.nil_append] at e3
  simp only [List.drop_succ_cons, List.drop_zero, List.append_assoc, List.cons_append, List.nil_append]
  rw [e3]
  
theorem ends_fqdn (h d : Bytes) : Ends (capEnc (.CapFQDN h d)) (capFate (.CapFQDN h d)) := by
  refine ends_of (2 + (4 + h.length + d.length)) fun buf hb => ?_
  obtain ⟨x, y, m, r, rfl, hm⟩ := cap_split (.CapFQDN h d) buf hb
  obtain ⟨u, v, e⟩ := fqdn_fills h d m hm
  rw [capEnc_eq _ x y m r hm, e]
  refine ⟨2 :: BitVec.ofNat 8 (4 + h.length + d.length) :: ((73 :: (h ++ (BitVec.ofNat 8 d.length :: d))) ++ [u, v]), r, ?_, ?_, ?_⟩
  · have := fits_append (fits_some (be 1 2 ++ be 1 (4 + h.length + d.length) ++ [73] ++ h ++ be 1 d.length ++ d)) (fits_none [u, v])
    simpa using this
  · simp [BgpCapability.bytesLen]; omega
  · simp [BgpCapability.bytesLen, hm]; omega

theorem ends_cap (c : BgpCapability) : Ends (capEnc c) (capFate c) := by
  cases c with
  | CapFQDN h d => exact ends_fqdn h d
  | CapGR t s afis =>
    show Ends _ (if _ then _ else _)
    by_cases h : t.toNat < 2 ^ 12
    · rw [if_pos h]
      exact ends_cap_ok _ (by simp) fun m hm => fillBuffer_any _ (by simp) h m hm
    · rw [if_neg h]
      exact ends_cap_refused _ fun m hm => gr_refused t s afis h m hm
  | CapLLGR v =>
    show Ends _ (if _ then _ else _)
    by_cases h : ∀ l ∈ v, l.staleTime.toNat < 2 ^ 24
    · rw [if_pos h]
      exact ends_cap_ok _ (by simp) fun m hm => fillBuffer_any _ (by simp) h m hm
    · rw [if_neg h]
      exact ends_cap_refused _ fun m hm => llgr_refused v h m hm
  | _ => exact ends_cap_ok _ (by simp) fun m hm => fillBuffer_any _ (by simp) trivial m hm

theorem ends_caps (caps : List BgpCapability) : Ends (BgpOpenMessage.encodeCaps caps) (.all capFate caps) := by
  induction caps with
  | nil => exact ends_of 0 fun buf _ => ⟨[], buf, trivial, by simp [BgpOpenMessage.encodeCaps], by simp⟩
  | cons c cs ih =>
    refine ends_seq 0 (ends_cap c) ih fun buf _ => ?_
    unfold BgpOpenMessage.encodeCaps capEnc
    simp only [bind_assoc, Res.ok_bind]

theorem capSizes (caps : List BgpCapability) (k : Nat) :
    caps.foldl (fun sum i => sum + i.bytesLen + 2) k = k + (caps.map fun c => capSize c + 2).sum := by
  induction caps generalizing k with
  | nil => simp
  | cons c cs ih => rw [List.foldl_cons, ih, List.map_cons, List.sum_cons, capSize_eq]; omega

theorem ends_open (m : BgpOpenMessage) : Ends m.encodeTo (openFate m) := by
  have hl : (openHead m).length = 10 := by simp [openHead]
  refine ends_behind (ends_caps m.caps) (openHead m) 10 fun buf hb => ?_
  unfold BgpOpenMessage.encodeTo
  rw [if_neg (by omega), hl]
  have e1 : storeLe16 (ntoh16 (if m.asNum.toNat < 65536 then m.asNum.setWidth 16 else 23456)) =
      be 2 (as2 m.asNum.toNat) := by
    rw [store_ntoh16]
    unfold as2
    split
    · congr 1; simp; omega
    · rfl
  obtain ⟨b0, t, rfl⟩ := List.exists_cons_of_length_pos (l := buf) (by omega)
  simp only [List.length_cons] at hb
  simp only [setIdx_cons_zero, Res.ok_bind, e1, store_ntoh16]
  rw [show (4 : U8) :: t = [4] ++ t from rfl, cur_copyAt [4] t _ 1 3 rfl (by simp) (by simp; omega)]
  simp only [Res.ok_bind]
  rw [cur_copyAt _ _ _ _ _ (by simp) (by simp) (by simp; omega)]
  simp only [Res.ok_bind]
  rw [cur_copyAt _ _ _ _ _ (by simp) (by simp [ipv4Octets]) (by simp [ipv4Octets]; omega)]
  simp only [Res.ok_bind]
  rw [cur_setIdx _ _ _ _ (by simp [ipv4Octets]) (by simp [ipv4Octets]; omega)]
  simp only [Res.ok_bind]
  rw [capSizes, Nat.zero_add]
  have e : [4] ++ be 2 (as2 m.asNum.toNat) ++ be 2 m.holdTime.toNat ++ ipv4Octets m.routerId ++
      [BitVec.ofNat 8 (m.caps.map fun c => capSize c + 2).sum] = openHead m := by
    simp [openHead, ipv4Octets, be]
  rw [e]
  simp only [List.drop_drop, be_length, ipv4Octets, Nat.reduceAdd, List.drop_succ_cons]

/-! ## Headers -/

theorem fits_take : ∀ {p : List (Option U8)} {w : Bytes} (n : Nat), Fits p w → Fits (p.take n) (w.take n)
  | _, _, 0, _ => trivial
  | [], [], _ + 1, _ => trivial
  | _ :: _, _ :: _, n + 1, h => ⟨h.1, fits_take n h.2⟩
  | [], _ :: _, _, h => h.elim
  | _ :: _, [], _, h => h.elim

theorem posEnds_message (b : Build) {enc : Enc} {fate : Fate} (ty : BgpMessageType) (h : Ends enc fate) :
    PosEnds (encodeEmbeddedIn b ty enc) (messageFate b ty fate) := by
  obtain ⟨room, h⟩ := ends_case h
  refine ⟨19 + room, fun p t ht => ?_⟩
  obtain ⟨m, t, rfl, hm, -⟩ := exists_split 19 (show 19 ≤ t.length by omega)
  simp only [List.length_append, hm] at ht
  have h3 := endCase_onFrom (p := p ++ m) (f := enc) (p.length + 19) (by simp [hm]) (h t (by omega))
  unfold encodeEmbeddedIn
  rw [← List.append_assoc]
  cases fate with
  | sent pat =>
    obtain ⟨w, rest, f1, e1, l1⟩ := h3
    have fl := fits_length f1
    simp only [List.length_append] at l1
    rw [e1]
    simp only [Res.ok_bind]
    rw [show p ++ m ++ w ++ rest = p ++ (m ++ (w ++ rest)) by simp, onFrom_append _ _ _ _ rfl]
    cases b with
    | checked =>
      rw [prepare_checked, prepare_eq _ _ _ (by simp [hm]; omega)]
      simp only [messageFate, fl]
      have hle := Nat.mod_le w.length 65536
      by_cases hw : w.length % 65536 ≤ 65516
      · rw [if_pos hw, if_pos hw]
        refine ⟨header ty (w.length % 65536) ++ w.take (w.length % 65536), w.drop (w.length % 65536) ++ rest,
          fits_append (fits_some _) (fits_take _ f1), ?_, ?_⟩
        · simp only [Res.ok_bind]
          rw [List.drop_left' hm]
          simp only [List.append_assoc, List.length_append, header_length, List.length_take, Nat.min_eq_left hle]
          rw [← List.append_assoc (w.take _), List.take_append_drop, Nat.add_comm 19]
        · simp only [List.length_append, header_length, List.length_take, Nat.min_eq_left hle, List.length_drop, hm]
          omega
      · rw [if_neg hw, if_neg hw]; rfl
    | release =>
      rw [prepare_release _ _ _ (by simp [hm]; omega)]
      simp only [messageFate, fl, Res.ok_bind]
      have hle := Nat.mod_le (w.length + 19) 65536
      have htk : ((header ty w.length ++ w).take ((w.length + 19) % 65536)).length = (w.length + 19) % 65536 := by
        rw [List.length_take, List.length_append, header_length]; omega
      refine ⟨(header ty w.length ++ w).take ((w.length + 19) % 65536), (header ty w.length ++ w).drop ((w.length + 19) % 65536) ++ rest,
        fits_take _ (fits_append (fits_some _) f1), ?_, ?_⟩
      · rw [List.drop_left' hm, htk, ← List.append_assoc (List.take _ _), List.take_append_drop,
          List.append_assoc (header ty w.length)]
      · rw [← List.append_assoc, List.take_append_drop]
        simp only [List.length_append, header_length, hm]
        omega
  | refused => exact err_bind h3
  | crash =>
    simp only [AtCase] at h3
    simp only [EndCase, messageFate, h3]; rfl

theorem ends_message (b : Build) {enc : Enc} {fate : Fate} (ty : BgpMessageType) (h : Ends enc fate) :
    Ends (fun buf => encodeEmbeddedIn b ty enc buf 0) (messageFate b ty fate) :=
  ends_pos 0 (posEnds_message b ty h) fun _ _ => rfl

/-! ## BMP -/

/-- an encoder that starts with fixed octets and goes on at a position -/
theorem ends_head {f : Enc} {g : Bytes → Nat → Res (Bytes × Nat)} {fate : Fate} (w : Bytes) (room : Nat) (h : PosEnds g fate)
    (hf : ∀ buf : Bytes, room ≤ buf.length → ∃ t : Bytes, (w ++ t).length = buf.length ∧ f buf = g (w ++ t) w.length) :
    Ends f ((Fate.octets w).andThen fate) := by
  obtain ⟨r, h⟩ := h
  refine ends_of (room + (w.length + r)) fun buf hb => ?_
  obtain ⟨t, ht, e⟩ := hf buf (by omega)
  simp only [List.length_append] at ht
  have := h w t (by omega)
  rw [e]
  cases fate with
  | sent pat =>
    obtain ⟨v, rest, f1, e1, l1⟩ := this
    refine ⟨w ++ v, rest, fits_append (fits_some w) f1, by simpa using e1, ?_⟩
    simp only [List.length_append] at l1 ⊢
    omega
  | refused => exact this
  | crash => exact this

theorem octets_append (a b : Bytes) : Fate.octets (a ++ b) = (Fate.octets a).andThen (.octets b) := by
  simp [Fate.octets, Fate.andThen]

theorem andThen_assoc (a b c : Fate) : (a.andThen b).andThen c = a.andThen (b.andThen c) := by
  cases a <;> cases b <;> cases c <;> simp [Fate.andThen]

theorem ends_rmon (b : Build) (x : BmpMessageRouteMonitoring) : Ends (x.encodeToIn b) ((Fate.octets (peerHeaderWire x.peer)).andThen
    (messageFate b .Update (updateFate b (headerParams x.peer) x.update))) := by
  rw [← headerParams_eq]
  refine ends_head _ 62 (posEnds_message b .Update (ends_update b _ x.update)) fun buf hb => ?_
  unfold BmpMessageRouteMonitoring.encodeToIn
  rw [if_neg (by omega), peerHeader_clears x.peer buf (by simp [peerHeaderWire_length]; omega)]
  exact ⟨_, by simp [behind_length, peerHeaderWire_length]; omega, rfl⟩

theorem ends_peerUp (b : Build) (x : BmpMessagePeerUp) : Ends (x.encodeToIn b) ((Fate.octets (peerHeaderWire x.peer ++ bmpAddr x.localaddress ++
    be 2 x.localport.toNat ++ be 2 x.remoteport.toNat)).andThen
      ((messageFate b .Open (openFate x.msg1)).andThen (messageFate b .Open (openFate x.msg2)))) := by
  refine ends_head _ 62 (posEnds_seq (posEnds_message b .Open (ends_open x.msg1)) (posEnds_message b .Open (ends_open x.msg2)))
    fun buf hb => ?_
  unfold BmpMessagePeerUp.encodeToIn
  rw [if_neg (by omega), peerHeader_clears x.peer buf (by simp [peerHeaderWire_length]; omega)]
  simp only [Res.ok_bind]
  rw [cur_clears (bmpAddr_clears _) _ _ _ rfl (by simp [behind_length, peerHeaderWire_length, bmpAddr_length]; omega)]
  simp only [Res.ok_bind]
  rw [cur_modFrom (put16 _) _ _ _ (by simp [bmpAddr_length])
      (by simp [behind_length, peerHeaderWire_length, bmpAddr_length]; omega), Res.ok_bind,
    cur_modFrom (put16 _) _ _ _ (by simp [bmpAddr_length])
      (by simp [behind_length, peerHeaderWire_length, bmpAddr_length]; omega)]
  simp only [Res.ok_bind]
  have hl : (peerHeaderWire x.peer).length + 16 + 2 + 2 = (peerHeaderWire x.peer ++ bmpAddr x.localaddress ++
      be 2 x.localport.toNat ++ be 2 x.remoteport.toNat).length := by simp [bmpAddr_length]
  rw [hl]
  exact ⟨_, by simp [behind_length, peerHeaderWire_length, bmpAddr_length]; omega, rfl⟩

theorem ends_typed {enc : Enc} {fate : Fate} (code : U8) (h : Ends enc fate) :
    Ends (BmpMessage.encodeTyped code enc) ((Fate.octets [code]).andThen fate) := by
  refine ends_behind h [code] 1 fun buf hb => ?_
  obtain ⟨x, t, rfl⟩ := List.exists_cons_of_length_pos (l := buf) (by omega)
  simp [BmpMessage.encodeTyped]

theorem ends_nonempty {f g : Enc} {fate : Fate} (h : Ends g fate) (e : ∀ buf : Bytes, 1 ≤ buf.length → f buf = g buf) : Ends f fate := by
  obtain ⟨room, h⟩ := ends_case h
  exact ends_of (1 + room) fun buf hb => by rw [e buf (by omega)]; exact h buf (by omega)

theorem ends_build {f : Enc} {g : Build → Enc} {fate : Fate} (b : Build) (h : Ends f fate) (hc : fate ≠ .crash) (h1 : g .checked = f)
    (h2 : ∀ buf, BSim (f buf) (g .release buf)) : Ends (g b) fate := by
  cases b with
  | checked => rw [h1]; exact h
  | release => exact ends_bsim h hc h2

theorem ends_bmp (b : Build) (x : BmpMessage) : Ends (x.encodeToIn b) (bmpFate b x) := by
  have e : ∀ buf : Bytes, 1 ≤ buf.length → buf.isEmpty = false := by
    intro buf hb; cases buf <;> simp at hb ⊢
  cases x with
  | RouteMonitoring m =>
    have := ends_typed 0 (ends_rmon b m)
    rw [← andThen_assoc, ← octets_append] at this
    exact ends_nonempty this fun buf hb => by simp [BmpMessage.encodeToIn, e buf hb]
  | PeerUpNotification m =>
    have := ends_typed 3 (ends_peerUp b m)
    rw [← andThen_assoc, ← octets_append] at this
    exact ends_nonempty this fun buf hb => by simp [BmpMessage.encodeToIn, e buf hb]
  | PeerDownNotification m =>
    have := ends_typed 2 (ends_build (g := fun b => m.encodeToIn b) b (ends_clears (peerDown_clears m)) (by intro h; cases h) (by simp only [downEnc_checked]) (bsim_downEnc m))
    rw [← octets_append] at this
    exact ends_nonempty this fun buf hb => by simp [BmpMessage.encodeToIn, e buf hb]
  | Initiation m =>
    have := ends_typed 4 (ends_writes (init_writes m))
    rw [← octets_append, ← List.append_assoc (optInfo 0 m.str0)] at this
    exact ends_nonempty this fun buf hb => by simp [BmpMessage.encodeToIn, e buf hb]
  | Termination m =>
    have := ends_typed 5 (ends_build (g := fun b => m.encodeToIn b) b (ends_writes (term_writes m)) (by intro h; cases h) (by simp only [termEnc_checked]) (bsim_termEnc m))
    rw [← octets_append] at this
    exact ends_nonempty this fun buf hb => by simp [BmpMessage.encodeToIn, e buf hb]
  | StatisticsReport => exact ends_of 1 fun buf hb => by simp [BmpMessage.encodeToIn, e buf hb, EndCase, bmpFate]
  | RouteMirroring => exact ends_of 1 fun buf hb => by simp [BmpMessage.encodeToIn, e buf hb, EndCase, bmpFate]

end Zbgp
