import Verif.Lemmas.Relay
import Verif.Lemmas.Extend
import Verif.Lemmas.MvpnSent

/-! # Which collections can not be sent on: what is written for them is read as something else -/

namespace Zbgp

open Spec

attribute [-simp] List.length_flatMap

/-! ## Encoders with a known result in long buffers -/

/-- in buffers of at least `N` octets, `f` writes `w` -/
def Emits {α : Type} (f : Bytes → Res (Bytes × α)) (N : Nat) (w : Bytes) (r : α) : Prop :=
  ∀ buf : Bytes, N ≤ buf.length → f buf = .ok (w ++ buf.drop w.length, r)

theorem emits_reports {α : Type} {f : Bytes → Res (Bytes × α)} [Ext f] {N : Nat} {w : Bytes} {r : α} (h : Emits f N w r)
    {buf buf' : Bytes} {n : α} (hb : f buf = .ok (buf', n)) : n = r := by
  obtain ⟨y, hy, rfl⟩ := Ext.sim (f := f) buf (List.replicate N 0) _ hb
  rw [h _ (by simp)] at hy
  simp only [Res.ok.injEq, Prod.mk.injEq] at hy
  exact hy.2.symm

/-- what `f` does in any buffer in which it succeeds -/
theorem emits_ok {α : Type} {f : Bytes → Res (Bytes × α)} [Ext f] {N : Nat} {w : Bytes} {r : α} (h : Emits f N w r)
    {buf buf' : Bytes} {n : α} (hb : f buf = .ok (buf', n)) :
    n = r ∧ w.length ≤ buf.length ∧ buf' = w ++ buf.drop w.length := by
  have key : ∀ c : U8, buf' ++ List.replicate (N + w.length) c = w ++ (buf ++ List.replicate (N + w.length) c).drop w.length := by
    intro c
    obtain ⟨y, hy, rfl⟩ := Ext.sim (f := f) buf (List.replicate (N + w.length) c) _ hb
    rw [h _ (by simp; omega)] at hy
    simp only [Res.ok.injEq, Prod.mk.injEq] at hy
    exact hy.1.symm
  have hlen : buf'.length = buf.length := by
    have := congrArg List.length (key 0)
    simp only [List.length_append, List.length_replicate, List.length_drop] at this
    omega
  have hw : w.length ≤ buf.length := by
    apply Nat.le_of_not_lt
    intro hlt
    have at_ : ∀ c : U8, w[buf.length]? = some c := by
      intro c
      have := congrArg (fun l => l[buf.length]?) (key c)
      rw [List.getElem?_append_right (by omega), List.getElem?_append_left hlt, hlen, Nat.sub_self,
        List.getElem?_replicate, if_pos (by omega)] at this
      exact this.symm
    have h0 := at_ 0
    rw [at_ 1] at h0
    exact absurd h0 (by decide)
  refine ⟨emits_reports h hb, hw, ?_⟩
  have := key 0
  rw [List.drop_append_of_le_length hw, ← List.append_assoc] at this
  exact List.append_cancel_right this

theorem emits_take {f : Enc} [Ext f] {N : Nat} {w : Bytes} (h : Emits f N w w.length) {buf buf' : Bytes} {n : Nat}
    (hb : f buf = .ok (buf', n)) : buf'.take n = w := by
  obtain ⟨rfl, -, rfl⟩ := emits_ok h hb
  exact List.take_left' rfl

theorem emits_of_writes {f : Enc} {w : Bytes} (h : Writes f w) : Emits f w.length w w.length := h

/-! ## VPLS -/

theorem vpls_pack' (x : BgpAddrL2) : Emits (BgpItemLong.packTo x) ((vplsBody x).length + 1) (vplsBody x) (vplsBody x).length := by
  intro buf hb
  have hb' : 15 + 3 * x.labels.labels.length ≤ buf.length := by rw [vplsBody_length] at hb; omega
  simp only [BgpItemLong.packTo]
  rw [if_neg (by omega), rd_writes _ buf (by simp; omega)]
  simp only [Res.ok_bind]
  rw [cur_modRange (fill16 _) _ _ _ _ (by simp) (by simp) (by lens)]
  simp only [Res.ok_bind]
  rw [cur_modRange (fill16 _) _ _ _ _ (by simp) (by simp) (by lens)]
  simp only [Res.ok_bind]
  rw [cur_modRange (fill16 _) _ _ _ _ (by simp) (by simp) (by lens)]
  simp only [Res.ok_bind]
  rw [cur_labels _ _ _ _ (by simp) (by lens)]
  simp [vplsBody, labelsBody_length, Nat.add_comm]
  omega

theorem onFrom_inv {α : Type} {b : Bytes} {i : Nat} {f : Bytes → Res (Bytes × α)} {b' : Bytes} {r : α}
    (h : onFrom b i f = .ok (b', r)) : i ≤ b.length ∧ ∃ c, f (b.drop i) = .ok (c, r) ∧ b' = b.take i ++ c := by
  unfold onFrom at h
  split at h
  · rename_i hi
    obtain ⟨⟨c, r'⟩, h1, h2⟩ := Res.bind_eq_ok.1 h
    simp only [Res.ok.injEq, Prod.mk.injEq] at h2
    obtain ⟨rfl, rfl⟩ := h2
    exact ⟨hi, c, h1, rfl⟩
  · cases h

theorem vpls_reports {x : BgpAddrL2} {buf buf' : Bytes} {n : Nat} (h : encodeLongItem x buf = .ok (buf', n)) :
    n = 14 + 3 * x.labels.labels.length := by
  unfold encodeLongItem at h
  obtain ⟨⟨b1, sz⟩, h1, h⟩ := Res.bind_eq_ok.1 h
  obtain ⟨b2, h2, h⟩ := Res.bind_eq_ok.1 h
  simp only [Res.ok.injEq, Prod.mk.injEq] at h
  obtain ⟨-, c, h1, -⟩ := onFrom_inv h1
  rw [← h.2, emits_reports (vpls_pack' x) h1, vplsBody_length]

theorem vpls_total {v : List BgpAddrL2} {buf buf' : Bytes} {pos n : Nat} (h : encLoop encodeLongItem v buf pos = .ok (buf', n)) :
    n = pos + (v.map fun x => 14 + 3 * x.labels.labels.length).sum := by
  induction v generalizing buf pos with
  | nil => simp only [encLoop, Res.ok.injEq, Prod.mk.injEq] at h; simp [h.2]
  | cons x v ih =>
    simp only [encLoop] at h
    obtain ⟨⟨b1, sz⟩, h1, h⟩ := Res.bind_eq_ok.1 h
    obtain ⟨-, c, h1, -⟩ := onFrom_inv h1
    have := ih h
    have := vpls_reports h1
    simp only [List.map_cons, List.sum_cons]
    omega

theorem vplsRead_size {b : Bytes} {x : BgpAddrL2} {n : Nat} (h : VplsRead b x n) :
    16 + 3 * x.labels.labels.length ≤ n ∧ n ≤ b.length := by
  obtain ⟨body, lab, t, k, rfl, -, -, hb, hl, rfl⟩ := h
  obtain ⟨h1, -, h3, -⟩ := labelsRead_shape hl
  have := congrArg List.length hb
  simp only [List.length_append, be_length, rdBody_length] at this ⊢
  omega

theorem vplsRead_sizes {b : Bytes} {v : List BgpAddrL2} {n : Nat} (h : ItemsRead 0 VplsRead b v n) :
    (v.map fun x => 16 + 3 * x.labels.labels.length).sum ≤ b.length := by
  induction h with
  | done b h => simp
  | item b x n xs m hlt hx hr ih =>
    obtain ⟨h1, h2⟩ := vplsRead_size hx
    rw [List.length_drop] at ih
    simp only [List.map_cons, List.sum_cons]
    omega

/-- what is reported for VPLS routes is too short to hold them -/
theorem vpls_needed {v : List BgpAddrL2} {buf buf' : Bytes} {k n : Nat} (h : encodeLongItems v buf = .ok (buf', k))
    (hr : ItemsRead 0 VplsRead (buf'.take k) v n) : v = [] := by
  have h1 := vpls_total h
  have h2 := vplsRead_sizes hr
  have h3 : (buf'.take k).length ≤ k := List.length_take_le _ _
  have h4 : ∀ l : List BgpAddrL2, (l.map fun x => 16 + 3 * x.labels.labels.length).sum =
      (l.map fun x => 14 + 3 * x.labels.labels.length).sum + 2 * l.length := by
    intro l
    induction l with
    | nil => rfl
    | cons a l ih => simp only [List.map_cons, List.sum_cons, List.length_cons, ih]; omega
  rw [h4] at h2
  exact List.length_eq_zero_iff.1 (by omega)

/-! ## MVPN -/

theorem mvpnSent_size {mode : BgpTransportMode} {x : BgpMVPN} (hx : mvpnType x = 1 ∨ mvpnType x = 2) {rest : Bytes} {n : Nat}
    (h : MvpnItemRead mode (mvpnSent x ++ rest) x n) : n = (mvpnSent x).length := by
  obtain ⟨l, body, t, k, -, -, hr, rfl⟩ := h
  cases hr with
  | plain x t h4 hw h5 =>
    cases x with
    | t1 r => rfl
    | t2 r => rfl
    | _ => simp [mvpnType] at hx
  | leaf s o hw => simp [mvpnType] at hx

theorem mvpn_needed {mode : BgpTransportMode} {v : List BgpMVPN} {n : Nat}
    (h : ItemsRead 0 (MvpnItemRead mode) (v.flatMap mvpnSent) v n) : ∀ x ∈ v, mvpnType x = 1 ∨ mvpnType x = 2 := by
  induction v generalizing n with
  | nil => simp
  | cons x v ih =>
    rw [List.flatMap_cons] at h
    cases h with
    | item _ _ n _ m hlt hx hr =>
      have ht : mvpnType x = 1 ∨ mvpnType x = 2 := by
        cases x with
        | t1 r => exact .inl rfl
        | t2 r => exact .inr rfl
        | _ => exact absurd hx (sent_not_read (by simp [mvpnType]))
      rw [mvpnSent_size ht hx, List.drop_left' rfl] at hr
      simpa using ⟨ht, ih hr⟩

/-! ## FlowSpec -/

/-- what is known of prefixes that were read: how they are written -/
class FsSent (T : Type) [FSItem T] [FsPrefix T] [FsPrefixReads T] : Prop where
  enc : ∀ {b : Bytes} {x : T} {n : Nat}, FsPrefixReads.Read b x n → ∀ m : Bytes, (FsPrefix.body x).length ≤ m.length →
    FSItem.encodeFs x m = .ok (FsPrefix.body x ++ m.drop (FsPrefix.body x).length)
  size : ∀ {b : Bytes} {x : T} {n : Nat}, FsPrefixReads.Read b x n → FSItem.storeSize x = (FsPrefix.body x).length
  small : ∀ {b : Bytes} {x : T} {n : Nat}, FsPrefixReads.Read b x n → (FsPrefix.body x).length ≤ 18
  /-- from what was written for it, it is not read unless it is well-formed -/
  same : ∀ {b : Bytes} {x : T} {n : Nat} {rest t : Bytes}, FsPrefixReads.Read b x n → b ++ t = FsPrefix.body x ++ rest →
    FsPrefix.WF x
  took : ∀ {b : Bytes} {x : T} {n : Nat}, FsPrefixReads.Read b x n → (∀ y : T, ¬ FsPrefix.WF y) ∨
    (n ≤ b.length ∧ (FsPrefix.body x).length = n)

instance : FsSent BgpAddrV4 where
  enc h := FsPrefixLawful.enc _ (nlriRead_normal h).1
  size h := FsPrefixLawful.size _ (nlriRead_normal h).1
  small {b x n} h := by
    have : x.prefixlen.toNat ≤ 32 := (nlriRead_normal h).1
    simp only [FsPrefix.body, prefixBody, octets, List.length_cons, List.length_take, be_length]; omega
  same h _ := (nlriRead_normal h).1
  took {b x n} h := .inr ⟨(nlriRead_normal h).2.2.1, by
    have := (nlriRead_normal h).2.2.2.1
    simpa [nlriWire, FsPrefix.body, NlriKind.body] using this⟩

instance : FsSent FS6 where
  enc {b x n} h := by
    obtain ⟨bits, t, m, rfl, h, rfl⟩ := h
    exact FsPrefixLawful.enc _ (Normal.normal bits.isLt h).1
  size {b x n} h := by
    obtain ⟨bits, t, m, rfl, h, rfl⟩ := h
    exact FsPrefixLawful.size _ (Normal.normal bits.isLt h).1
  small {b x n} h := by
    obtain ⟨bits, t, m, rfl, h, rfl⟩ := h
    have : x.ipv6.prefixlen.toNat ≤ 128 := (Normal.normal bits.isLt h).1
    simp only [FsPrefix.body, prefixBody, octets, List.length_cons, List.length_take, be_length]; omega
  same {b x n rest t} h _ := by
    obtain ⟨bits, t, m, rfl, h, rfl⟩ := h
    exact (Normal.normal bits.isLt h).1
  took {b x n} h := by
    obtain ⟨bits, t, m, rfl, h, rfl⟩ := h
    obtain ⟨-, -, -, h4, h5, -⟩ := Normal.normal bits.isLt h
    refine .inr ⟨by simpa using h4, ?_⟩
    simpa [FsPrefix.body, NlriKind.body] using h5

instance : FsSent FSV4U where
  enc {b x n} h m hm := by
    have hw := (nlriRead_normal h).1
    simp only [FsPrefix.body, List.cons_append, List.nil_append, List.length_cons] at hm
    obtain ⟨a, c, r, rfl⟩ := exists_cons2 (l := m) (by omega)
    have hw := NlriLawful.writes x.pfx hw r (by simpa [NlriKind.body] using hm)
    simp only [FSItem.encodeFs, setIdx_cons_zero, setIdx_cons_succ, Res.ok_bind]
    rw [show (0 : U8) :: 0 :: r = [0, 0] ++ r by rfl, onFrom_append _ _ 2 _ rfl, hw]
    simp [FsPrefix.body, NlriKind.body]
  size {b x n} h := by
    have : x.pfx.pfx.prefixlen.toNat ≤ 32 := (nlriRead_normal h).1.1
    simp [FSItem.storeSize, FsPrefix.body, prefixBody, octets]; omega
  small {b x n} h := by
    have : x.pfx.pfx.prefixlen.toNat ≤ 32 := (nlriRead_normal h).1.1
    simp [FsPrefix.body, prefixBody, octets]; omega
  same {b x n rest t} h e := by
    obtain ⟨bits, t', m, rfl, ⟨_, _, h64, -⟩, rfl⟩ := h
    simp only [FsPrefix.body, List.cons_append, List.cons.injEq] at e
    obtain ⟨rfl, -⟩ := e
    simp at h64
  took _ := .inl fun _ h => h

section fs
variable {T : Type} [FSItem T] [FsPrefix T] [FsPrefixReads T] [FsSent T]

open BgpFlowSpec

/-- its prefix was read from something -/
def FsSeen : BgpFlowSpec T → Prop
  | .prefixDst a => ∃ b n, FsPrefixReads.Read b a n
  | .prefixSrc a => ∃ b n, FsPrefixReads.Read b a n
  | _ => True

omit [FSItem T] [FsPrefix T] [FsSent T] in
theorem fs_seen {b : Bytes} {x : BgpFlowSpec T} {n : Nat} (h : FsItemRead b x n) : FsSeen x := by
  obtain ⟨pre, l, code, body, t, k, -, -, -, h, -⟩ := h
  cases h <;> first | trivial | exact ⟨_, _, ‹_›⟩

theorem sum_le_of {α : Type} {f g : α → Nat} (l : List α) (h : ∀ x ∈ l, f x ≤ g x) : (l.map f).sum ≤ (l.map g).sum := by
  induction l with
  | nil => simp
  | cons a l ih =>
    have := h a (by simp)
    have := ih fun x hx => h x (by simp [hx])
    simp only [List.map_cons, List.sum_cons]; omega

theorem vals_le (v : FSOperVec FSOperValItem) : v.bytesLen ≤ (fsOpsWire v.items).length := by
  rw [fsOpsWire_length, FSOperVec.bytesLen, foldl_add_sum, Nat.zero_add]
  refine sum_le_of _ fun x _ => ?_
  simp only [FSOperItem.bytesLen, FsOperator.value]
  rcases fsLenCode_cases x.value.toNat with ⟨hv, e⟩ | ⟨hv, hv', e⟩ | ⟨hv, e⟩ <;> rw [e]
  · rw [if_neg (by omega), if_neg (by omega)]; decide
  · rw [if_neg (by omega), if_pos (by omega)]; decide
  · rw [if_pos (by omega)]; decide

theorem masks_le (v : FSOperVec FSOperMaskItem) : v.bytesLen ≤ (fsOpsWire v.items).length := by
  rw [fsOpsWire_length, FSOperVec.bytesLen, foldl_add_sum, Nat.zero_add]
  refine sum_le_of _ fun x _ => ?_
  simp only [FSOperItem.bytesLen, FsOperator.value]
  rcases fsLenCode_cases x.value.toNat with ⟨hv, e⟩ | ⟨hv, hv', e⟩ | ⟨hv, e⟩ <;> rw [e]
  · rw [if_neg (by omega), if_neg (by omega), if_neg (by omega)]; decide
  · rw [if_neg (by omega), if_neg (by omega), if_pos (by omega)]; decide
  · by_cases h : x.value.toNat > 0xffffff
    · rw [if_pos h]; decide
    · rw [if_neg h, if_pos (by omega)]; decide

/-- the announced length is at most one too long -/
theorem nlen_le {x : BgpFlowSpec T} (h : FsSeen x) : x.nlen ≤ (fsComponent x).length + 1 := by
  cases x <;> simp only [nlen, fsComponent, List.length_cons]
  case prefixDst a => obtain ⟨b, n, h⟩ := h; rw [FsSent.size h]; omega
  case prefixSrc a => obtain ⟨b, n, h⟩ := h; rw [FsSent.size h]; omega
  case tcpFlags v => have := masks_le v; omega
  case fragment v => have := masks_le v; omega
  all_goals rename_i v; have := vals_le v; omega

theorem putPrefix_seen (c : U8) {a : T} (h : ∃ b n, FsPrefixReads.Read b a n) (p t : Bytes)
    (pos : Nat) (hp : pos = p.length) (ht : 1 + (FsPrefix.body a).length ≤ t.length) :
    putPrefix c a (p ++ t) pos = .ok ((p ++ c :: FsPrefix.body a) ++ t.drop (1 + (FsPrefix.body a).length),
      pos + (1 + (FsPrefix.body a).length)) := by
  obtain ⟨b, n, h⟩ := h
  unfold putPrefix
  rw [cur_setIdx _ _ _ _ hp (by omega)]
  simp only [Res.ok_bind]
  rw [cur_modFrom (FsSent.enc h) _ _ _ (by simp [hp]) (by simp; omega), FsSent.size h]
  simp
  omega

theorem putBody_seen {x : BgpFlowSpec T} (h : FsSeen x) (p t : Bytes) (pos : Nat) (hp : pos = p.length)
    (ht : (fsComponent x).length ≤ t.length) :
    putBody x (p ++ t) pos = .ok ((p ++ fsComponent x) ++ t.drop (fsComponent x).length,
      pos + (fsComponent x).length) := by
  cases x <;> simp only [fsComponent, List.length_cons, Nat.add_comm _ 1] at ht ⊢ <;> simp only [putBody]
  case prefixDst a => exact putPrefix_seen _ h p t pos hp ht
  case prefixSrc a => exact putPrefix_seen _ h p t pos hp ht
  all_goals exact putOps_ok _ _ p t pos hp ht

/-- what is written: the announced length, and the component -/
def fsSent (x : BgpFlowSpec T) : Bytes := fsLen x.nlen ++ fsComponent x

theorem fs_emits {x : BgpFlowSpec T} (h : FsSeen x) (hl : x.nlen ≤ 4094) (buf : Bytes)
    (hb : (fsSent x).length + 1 ≤ buf.length) :
    x.encodeTo buf = .ok (fsSent x ++ buf.drop (fsSent x).length, (fsSent x).length) := by
  have hn := nlen_le h
  unfold BgpFlowSpec.encodeTo fsSent fsLen at *
  simp only []
  rw [if_neg (by omega)]
  by_cases h240 : x.nlen < 240
  · rw [if_pos h240] at hb ⊢
    rw [if_pos h240]
    simp only [List.length_append, List.length_cons, List.length_nil] at hb
    rw [if_neg (by omega)]
    have := cur_setIdx [] buf 0 (BitVec.ofNat 8 x.nlen) rfl (by omega)
    rw [List.nil_append] at this
    rw [this]
    simp only [Res.ok_bind, List.nil_append]
    rw [putBody_seen h _ _ _ (by simp) (by simp; omega)]
    simp
    omega
  · rw [if_neg h240] at hb ⊢
    rw [if_neg h240]
    simp only [List.length_append, be_length] at hb
    rw [if_neg (by omega), setn16_ok _ (by omega)]
    simp only [Res.ok_bind, BitVec.toNat_ofNat, be_two, List.cons_append, idx_cons_zero, setIdx_cons_zero, List.nil_append]
    rw [or_f0 _ (by omega)]
    have e1 : (240 + x.nlen % 2 ^ 16 / 256) = (0xf000 + x.nlen) / 256 := by omega
    have e2 : BitVec.ofNat 8 (x.nlen % 2 ^ 16) = BitVec.ofNat 8 (0xf000 + x.nlen) := by
      apply BitVec.eq_of_toNat_eq; simp; omega
    rw [e1, e2]
    have := putBody_seen h (be 2 (0xf000 + x.nlen)) (buf.drop 2) 2 (by simp) (by simp; omega)
    rw [be_two] at this
    simp only [List.cons_append, List.nil_append] at this
    rw [this]
    simp
    omega

theorem encLoop_emits {α : Type} {enc : α → Enc} {w : α → Bytes} (l : List α)
    (h : ∀ x ∈ l, ∀ buf : Bytes, (w x).length + 1 ≤ buf.length → enc x buf = .ok (w x ++ buf.drop (w x).length, (w x).length))
    (p t : Bytes) (pos : Nat) (hp : pos = p.length) (ht : (l.flatMap w).length + 1 ≤ t.length) :
    encLoop enc l (p ++ t) pos =
      .ok (p ++ (l.flatMap w ++ t.drop (l.flatMap w).length), pos + (l.flatMap w).length) := by
  induction l generalizing p t pos with
  | nil => simp [encLoop]
  | cons x xs ih =>
    simp only [List.flatMap_cons, List.length_append] at ht ⊢
    have h1 := h x (by simp) t (by omega)
    simp only [encLoop]
    rw [onFrom_append p t pos _ hp, h1]
    simp only [Res.ok_bind]
    rw [← List.append_assoc, ih (fun y hy => h y (by simp [hy])) _ _ _ (by simp [hp]) (by simp; omega)]
    simp only [List.append_assoc, List.drop_drop, Nat.add_assoc]

theorem encLoop_each {α : Type} {enc : α → Enc} {l : List α} {b : Bytes} {pos : Nat} {r : Bytes × Nat}
    (h : encLoop enc l b pos = .ok r) : ∀ x ∈ l, ∃ c s, enc x c = .ok s := by
  induction l generalizing b pos with
  | nil => simp
  | cons x l ih =>
    simp only [encLoop] at h
    obtain ⟨⟨b1, sz⟩, h1, h⟩ := Res.bind_eq_ok.1 h
    obtain ⟨-, c, h1, -⟩ := onFrom_inv h1
    exact List.forall_mem_cons.2 ⟨⟨_, _, h1⟩, ih h⟩

omit [FsPrefix T] [FsPrefixReads T] [FsSent T] in
theorem fs_nlen {x : BgpFlowSpec T} {b : Bytes} {r : Bytes × Nat} (h : x.encodeTo b = .ok r) : x.nlen ≤ 4094 := by
  unfold BgpFlowSpec.encodeTo at h
  simp only [] at h
  split at h
  · cases h
  · omega

/-- what is written for a list -/
theorem fs_list_sent [FsExt T] {v : List (BgpFlowSpec T)} {mode : BgpTransportMode} {buf buf' : Bytes} {k : Nat}
    (hs : ∀ x ∈ v, FsSeen x) (h : encodeAddrItems v mode buf = .ok (buf', k)) :
    buf'.take k = v.flatMap fsSent ∧ ∀ x ∈ v, x.nlen ≤ 4094 := by
  have hn : ∀ x ∈ v, x.nlen ≤ 4094 := by
    intro x hx
    obtain ⟨c, s, hc⟩ := encLoop_each h x hx
    exact fs_nlen hc
  refine ⟨?_, hn⟩
  have : Ext (encodeAddrItems v mode) := inferInstance
  refine emits_take (f := encodeAddrItems v mode) (N := (v.flatMap fsSent).length + 1) (fun b hb => ?_) h
  have := encLoop_emits (enc := fun x => BgpAddrItem.encodeTo x mode) v (fun x hx => fs_emits (hs x hx) (hn x hx)) [] b 0 rfl hb
  simpa [encodeAddrItems] using this

/-! what is read from it -/

theorem fsLen_length (n : Nat) : (fsLen n).length = if n < 240 then 1 else 2 := by
  unfold fsLen; split <;> simp

theorem fsLen_read {n l : Nat} (hn : n ≤ 4094) {pre rest r : Bytes} (h : FsLength pre l) (e : fsLen n ++ rest = pre ++ r) :
    pre = fsLen n ∧ l = n ∧ rest = r := by
  unfold fsLen at e ⊢
  by_cases hs : n < 240
  · rw [if_pos hs] at e ⊢
    cases h with
    | one b hb =>
      simp only [List.cons_append, List.nil_append, List.cons.injEq] at e
      obtain ⟨rfl, rfl⟩ := e
      exact ⟨rfl, by rw [BitVec.toNat_ofNat, Nat.mod_eq_of_lt (by omega)], rfl⟩
    | two b c hb =>
      simp only [List.cons_append, List.nil_append, List.cons.injEq] at e
      obtain ⟨rfl, -⟩ := e
      rw [BitVec.toNat_ofNat, Nat.mod_eq_of_lt (by omega)] at hb
      omega
  · rw [if_neg hs] at e ⊢
    rw [be_two] at e ⊢
    cases h with
    | one b hb =>
      simp only [List.cons_append, List.nil_append, List.cons.injEq] at e
      obtain ⟨rfl, -⟩ := e
      rw [BitVec.toNat_ofNat, Nat.mod_eq_of_lt (by omega)] at hb
      omega
    | two b c hb =>
      simp only [List.cons_append, List.nil_append, List.cons.injEq] at e
      obtain ⟨rfl, rfl, rfl⟩ := e
      refine ⟨rfl, ?_, rfl⟩
      simp only [BitVec.toNat_ofNat]
      omega

/-- reading and writing agree about the length code -/
class OpSame (I : Type) [FsOperator I] [FsOpReads I] : Prop where
  code : ∀ (last : Bool) (x : I), opCode (fsOpOctet last x) = fsLenCode (FsOperator.value x)
  val : ∀ x : I, FsOpReads.value x = FsOperator.value x

instance : OpSame FSOperValItem where
  code last x := by
    obtain ⟨a, l, g, e, v⟩ := x
    unfold fsOpOctet opCode
    simp only [FsOperator.value, FsOperator.flags]
    rcases lenCode_le v.toNat with h | h | h <;> rw [h] <;>
      cases last <;> cases a <;> cases l <;> cases g <;> cases e <;> rfl
  val _ := rfl

instance : OpSame FSOperMaskItem where
  code last x := by
    obtain ⟨a, n, m, v⟩ := x
    unfold fsOpOctet opCode
    simp only [FsOperator.value, FsOperator.flags]
    rcases lenCode_le v.toNat with h | h | h <;> rw [h] <;>
      cases last <;> cases a <;> cases n <;> cases m <;> rfl
  val _ := rfl

section ops
variable {I : Type} [FsOperator I] [FsOpReads I] [OpSame I]

theorem op_size {b : Bytes} {x : I} {n : Nat} (h : FsOpRead b x n) :
    1 + 2 ^ fsLenCode (FsOperator.value x) ≤ n ∧ n ≤ b.length := by
  obtain ⟨op, t, hc, -, hv, rfl, rfl⟩ := h
  rw [OpSame.val] at hv
  refine ⟨?_, by simp; omega⟩
  have h3 : opCode op = 0 ∨ opCode op = 1 ∨ opCode op = 2 := by omega
  have : fsLenCode (FsOperator.value x) ≤ opCode op := by
    rcases fsLenCode_cases (FsOperator.value x) with ⟨h, e⟩ | ⟨h, h', e⟩ | ⟨h, e⟩ <;>
      rcases h3 with h3 | h3 | h3 <;> rw [h3] at hv ⊢ <;> rw [e] <;> simp at hv h <;> omega
  have := Nat.pow_le_pow_right (n := 2) (by omega) this
  omega

theorem ops_size {b : Bytes} {v : List I} {n : Nat} (h : ItemsRead 0 FsOpRead b v n) : (fsOpsWire v).length ≤ b.length := by
  rw [fsOpsWire_length]
  induction h with
  | done b h => simp
  | item b x n xs m hlt hx hr ih =>
    obtain ⟨h1, h2⟩ := op_size hx
    rw [List.length_drop] at ih
    simp only [List.map_cons, List.sum_cons]
    omega

/-- operators read from what was written for them take exactly that -/
theorem ops_same {b t rest : Bytes} {v : List I} {n : Nat} (h : ItemsRead 0 FsOpRead b v n)
    (e : b ++ t = fsOpsWire v ++ rest) : b.length = (fsOpsWire v).length := by
  induction v generalizing b n with
  | nil =>
    cases h with
    | done _ h => simp [fsOpsWire, List.length_eq_zero_iff.1 (Nat.le_zero.1 h)]
  | cons x v ih =>
    cases h with
    | item _ _ n _ m hlt hx hr =>
      obtain ⟨-, hn⟩ := op_size hx
      obtain ⟨last, w, hw⟩ : ∃ last w, fsOpsWire (x :: v) = fsOpWire last x ++ w ∧ w = fsOpsWire v := by
        cases v with
        | nil => exact ⟨true, [], by simp [fsOpsWire]⟩
        | cons y v => exact ⟨false, _, rfl, rfl⟩
      obtain ⟨hw, rfl⟩ := hw
      rw [hw, List.append_assoc] at e
      have h1 : n = (fsOpWire last x).length := by
        obtain ⟨op, t', -, -, -, rfl, rfl⟩ := hx
        simp only [fsOpWire, List.cons_append, List.cons.injEq] at e
        rw [e.1, OpSame.code, fsOpWire_length]
      have h2 := congrArg (List.drop n) e
      rw [List.drop_append_of_le_length hn, List.drop_left' h1.symm] at h2
      have := ih hr h2
      rw [List.length_drop] at this
      rw [hw, List.length_append]
      omega

end ops

theorem vals_exact {v : FSOperVec FSOperValItem} (h : (fsOpsWire v.items).length = v.bytesLen + 1) : FsValsOk v := by
  unfold FsValsOk
  rw [fsOpsWire_length, FSOperVec.bytesLen, foldl_add_sum,
    sum_split (FSOperItem.bytesLen (T := FSOperValItem)) _ (fun i => i.value.toNat < 2 ^ 8) v.items] at h
  · omega
  · intro x _
    simp only [FSOperItem.bytesLen, FsOperator.value, decide_eq_true_eq]
    rcases fsLenCode_cases x.value.toNat with ⟨hv, e⟩ | ⟨hv, hv', e⟩ | ⟨hv, e⟩ <;> rw [e]
    · rw [if_neg (by omega), if_neg (by omega), if_pos hv]; rfl
    · rw [if_neg (by omega), if_pos (by omega), if_neg (by omega)]; rfl
    · rw [if_pos (by omega), if_neg (by omega)]; rfl

theorem sum_split2 {α : Type} (f g : α → Nat) (q r : α → Bool) (l : List α)
    (h : ∀ x ∈ l, g x = f x + (if q x then 1 else 0) + (if r x then 2 else 0)) :
    (l.map g).sum = (l.map f).sum + (l.filter q).length + 2 * (l.filter r).length := by
  induction l with
  | nil => rfl
  | cons x l ih =>
    have h1 := h x (by simp)
    have h2 := ih (fun y hy => h y (by simp [hy]))
    simp only [List.map_cons, List.sum_cons, h1, h2, List.filter_cons]
    split <;> split <;> (try simp only [List.length_cons]) <;> omega

theorem masks_exact {v : FSOperVec FSOperMaskItem} (h : (fsOpsWire v.items).length = v.bytesLen + 1) : FsMasksOk v := by
  rw [fsOpsWire_length, FSOperVec.bytesLen, foldl_add_sum,
    sum_split2 (FSOperItem.bytesLen (T := FSOperMaskItem)) _ (fun i => i.value.toNat < 2 ^ 16)
      (fun i => decide (2 ^ 16 ≤ i.value.toNat ∧ i.value.toNat < 2 ^ 24)) v.items] at h
  · have h0 : (v.items.filter fun i => decide (2 ^ 16 ≤ i.value.toNat ∧ i.value.toNat < 2 ^ 24)) = [] :=
      List.length_eq_zero_iff.1 (by omega)
    refine ⟨by omega, fun i hi => ?_⟩
    have := List.filter_eq_nil_iff.1 h0 i hi
    simp only [decide_eq_true_eq] at this
    omega
  · intro x _
    simp only [FSOperItem.bytesLen, FsOperator.value, decide_eq_true_eq]
    rcases fsLenCode_cases x.value.toNat with ⟨hv, e⟩ | ⟨hv, hv', e⟩ | ⟨hv, e⟩ <;> rw [e]
    · rw [if_neg (by omega), if_neg (by omega), if_neg (by omega), if_pos (by omega), if_neg (by omega)]; rfl
    · rw [if_neg (by omega), if_neg (by omega), if_pos (by omega), if_pos (by omega), if_neg (by omega)]; rfl
    · by_cases h : x.value.toNat > 0xffffff
      · rw [if_pos h, if_neg (by omega), if_neg (by omega)]; rfl
      · rw [if_neg h, if_pos (by omega), if_neg (by omega), if_pos (by omega)]; rfl

/-- what is read as itself from what was written for it -/
theorem fs_aligned {x : BgpFlowSpec T} {rest : Bytes} {n : Nat} (hn : x.nlen ≤ 4094)
    (h : FsItemRead (fsSent x ++ rest) x n) :
    (fsComponent x).length ≤ 4094 ∧ ((FsOpsOk x ∧ n = (fsSent x).length) ∨ (FsPrefixOk x ∧ n = (fsSent x).length + 1)) := by
  have hs := fs_seen h
  obtain ⟨pre, l, code, body, t, k, hl, e, hb, hc, rfl⟩ := h
  rw [fsSent, List.append_assoc, List.append_assoc] at e
  obtain ⟨rfl, rfl, e⟩ := fsLen_read hn hl e
  have hlen : (fsSent x).length = (fsLen x.nlen).length + (fsComponent x).length := by simp [fsSent]
  have vals : ∀ {v : FSOperVec FSOperValItem} {c : U8}, FsOpsRead body v → c :: fsOpsWire v.items ++ rest = code :: body ++ t →
      2 + v.bytesLen ≤ 4094 → body.length + 1 = 2 + v.bytesLen →
      (fsOpsWire v.items).length = body.length ∧ FsValsOk v := by
    intro v c ⟨m, hr⟩ e hn hb
    simp only [List.cons_append, List.cons.injEq] at e
    have := ops_same hr e.2.symm
    exact ⟨this.symm, vals_exact (by omega)⟩
  have masks : ∀ {v : FSOperVec FSOperMaskItem} {c : U8}, FsOpsRead body v → c :: fsOpsWire v.items ++ rest = code :: body ++ t →
      2 + v.bytesLen ≤ 4094 → body.length + 1 = 2 + v.bytesLen →
      (fsOpsWire v.items).length = body.length ∧ FsMasksOk v := by
    intro v c ⟨m, hr⟩ e hn hb
    simp only [List.cons_append, List.cons.injEq] at e
    have := ops_same hr e.2.symm
    exact ⟨this.symm, masks_exact (by omega)⟩
  have pfx : ∀ {a : T} {c : U8} {m : Nat}, FsPrefixReads.Read body a m → c :: FsPrefix.body a ++ rest = code :: body ++ t →
      FsPrefix.WF a ∧ m = (FsPrefix.body a).length ∧ (FsPrefix.body a).length ≤ 18 := by
    intro a c m hr e
    simp only [List.cons_append, List.cons.injEq] at e
    have hw := FsSent.same hr e.2.symm
    refine ⟨hw, ?_, FsSent.small hr⟩
    rcases FsSent.took hr with h | ⟨-, h⟩
    · exact absurd hw (h a)
    · exact h.symm
  rw [hlen]
  cases hc with
  | prefixDst _ a m h =>
    obtain ⟨h1, h2, h3⟩ := pfx h e
    refine ⟨by simp only [fsComponent, List.length_cons]; omega, .inr ⟨h1, ?_⟩⟩
    simp only [fsComponent, List.length_cons]; omega
  | prefixSrc _ a m h =>
    obtain ⟨h1, h2, h3⟩ := pfx h e
    refine ⟨by simp only [fsComponent, List.length_cons]; omega, .inr ⟨h1, ?_⟩⟩
    simp only [fsComponent, List.length_cons]; omega
  | tcpFlags _ v h =>
    obtain ⟨h1, h2⟩ := masks h e hn hb
    simp only [nlen] at hn hb
    refine ⟨by simp only [fsComponent, List.length_cons]; omega, .inl ⟨h2, ?_⟩⟩
    simp only [fsComponent, List.length_cons]; omega
  | fragment _ v h =>
    obtain ⟨h1, h2⟩ := masks h e hn hb
    simp only [nlen] at hn hb
    refine ⟨by simp only [fsComponent, List.length_cons]; omega, .inl ⟨h2, ?_⟩⟩
    simp only [fsComponent, List.length_cons]; omega
  | _ _ v h =>
    obtain ⟨h1, h2⟩ := vals h e hn hb
    simp only [nlen] at hn hb
    refine ⟨by simp only [fsComponent, List.length_cons]; omega, .inl ⟨h2, ?_⟩⟩
    simp only [fsComponent, List.length_cons]; omega

/-- how much is looked at when it is read, wherever that is: the length field, and at least the component; and how much is
taken -/
theorem fs_size (hT : ∃ y : T, FsPrefix.WF y) {b : Bytes} {x : BgpFlowSpec T} {n : Nat} (h : FsItemRead b x n) :
    ∃ pre l r c, FsLength pre l ∧ b = pre ++ r ∧ (fsComponent x).length ≤ c ∧ pre.length + c ≤ b.length ∧ pre.length + c ≤ n ∧
      ((c = l ∧ c ≠ 0) ∨ (fsComponent x).length ≤ 19) := by
  obtain ⟨y, hy⟩ := hT
  obtain ⟨pre, l, code, body, t, k, hl, rfl, hb, hc, rfl⟩ := h
  have pfx : ∀ {a : T} {m : Nat}, FsPrefixReads.Read body a m →
      m ≤ body.length ∧ (FsPrefix.body a).length = m ∧ m ≤ 18 := by
    intro a m hr
    have := FsSent.small hr
    rcases FsSent.took hr with h | ⟨h1, h2⟩
    · exact absurd hy (h y)
    · exact ⟨h1, h2, by omega⟩
  refine ⟨pre, l, code :: body ++ t, ?_⟩
  cases hc with
  | prefixDst _ a m h =>
    obtain ⟨h1, h2, h3⟩ := pfx h
    refine ⟨m + 1, hl, by simp, ?_⟩
    simp only [fsComponent, List.length_cons, List.length_append, List.cons_append]
    omega
  | prefixSrc _ a m h =>
    obtain ⟨h1, h2, h3⟩ := pfx h
    refine ⟨m + 1, hl, by simp, ?_⟩
    simp only [fsComponent, List.length_cons, List.length_append, List.cons_append]
    omega
  | _ _ v h =>
    obtain ⟨m, h⟩ := h
    have := ops_size h
    refine ⟨body.length + 1, hl, by simp, ?_⟩
    simp only [fsComponent, List.length_cons, List.length_append, List.cons_append]
    omega

/-- once behind the place where the next one begins, reading on never gets right again -/
theorem fs_shift (hT : ∃ y : T, FsPrefix.WF y) {v : List (BgpFlowSpec T)} (hv : v ≠ [])
    (hn : ∀ x ∈ v, FsSeen x ∧ x.nlen ≤ 4094) {s n : Nat} (hs : 1 ≤ s)
    (h : ItemsRead 0 FsItemRead ((v.flatMap fsSent).drop s) v n) : False := by
  induction v generalizing s n with
  | nil => exact hv rfl
  | cons x v ih =>
    rw [List.flatMap_cons] at h
    cases h with
    | item _ _ n _ m hlt hx hr =>
      obtain ⟨hseen, hx4⟩ := hn x (by simp)
      have hle := nlen_le hseen
      obtain ⟨pre, l, r, c, hl, e, h1, h2, h3, h4⟩ := fs_size hT hx
      have hlen : (fsSent x).length = (fsLen x.nlen).length + (fsComponent x).length := by simp [fsSent]
      have hpre : 1 ≤ pre.length := by cases hl <;> simp
      have key : (fsSent x).length + 1 ≤ s + (pre.length + c) := by
        rw [hlen, fsLen_length]
        by_cases h240 : x.nlen < 240
        · rw [if_pos h240]; omega
        · rw [if_neg h240]
          by_cases hs2 : 2 ≤ s
          · omega
          · obtain rfl : s = 1 := by omega
            by_cases hc : c = (fsComponent x).length
            · rcases h4 with ⟨rfl, h4⟩ | h4
              · cases hl with
                | two b c hb => simp only [List.length_cons, List.length_nil]; omega
                | one b hb =>
                  exfalso
                  rw [fsSent, fsLen, if_neg h240, be_two] at e
                  simp only [List.cons_append, List.nil_append, List.drop_succ_cons, List.drop_zero, List.cons.injEq] at e
                  obtain ⟨rfl, -⟩ := e
                  simp only [BitVec.toNat_ofNat] at hb hc
                  omega
              · omega
            · omega
      have hd : ((fsSent x ++ v.flatMap fsSent).drop s).drop n = (v.flatMap fsSent).drop (s + n - (fsSent x).length) := by
        rw [List.drop_drop, List.drop_append, List.drop_eq_nil_of_le (by omega), List.nil_append]
      by_cases hv0 : v = []
      · subst hv0
        simp only [List.flatMap_nil, List.append_nil, List.length_drop] at h2
        omega
      · rw [hd] at hr
        exact ih hv0 (fun y hy => hn y (by simp [hy])) (by omega) hr

theorem fs_needed {v : List (BgpFlowSpec T)} {n : Nat} (hn : ∀ x ∈ v, x.nlen ≤ 4094)
    (h : ItemsRead 0 FsItemRead (v.flatMap fsSent) v n) : FsListOk v := by
  induction v generalizing n with
  | nil => exact ⟨by simp, by simp⟩
  | cons x v ih =>
    have hseen : ∀ y ∈ x :: v, FsSeen y := items_all (P := FsSeen) (fun _ _ _ => fs_seen) h
    rw [List.flatMap_cons] at h
    cases h with
    | item _ _ n _ m hlt hx hr =>
      obtain ⟨h1, ⟨h2, rfl⟩ | ⟨h2, rfl⟩⟩ := fs_aligned (hn x (by simp)) hx
      · rw [List.drop_left' rfl] at hr
        obtain ⟨i1, i2⟩ := ih (fun y hy => hn y (by simp [hy])) hr
        refine ⟨List.forall_mem_cons.2 ⟨⟨.inl h2, h1⟩, i1⟩, ?_⟩
        cases v with
        | nil => simp
        | cons y v => simpa using ⟨h2, i2⟩
      · by_cases hv : v = []
        · subst hv
          exact ⟨by simpa using ⟨.inr h2, h1⟩, by simp⟩
        · exfalso
          rw [List.drop_append, List.drop_eq_nil_of_le (by omega), List.nil_append] at hr
          refine fs_shift ?_ hv (fun y hy => ⟨hseen y (by simp [hy]), hn y (by simp [hy])⟩) (by omega) hr
          cases x <;> first | exact ⟨_, h2⟩ | exact h2.elim

end fs

/-! ## Collections -/

theorem relay_needed {p : BgpSessionParams} {f : Family} {x : BgpAddrs} {buf buf' : Bytes} {k n : Nat}
    (h : x.encodeTo p buf = .ok (buf', k)) (hr : AddrsRead p f (buf'.take k) x n) : Relayable x := by
  cases hr
  case ipv4Mvpn v hr =>
    have he := emits_take (f := encodeAddrItems v p.peerMode)
      (emits_of_writes (encLoop_writes_zero v (fun x _ => mvpn_sent x p.peerMode))) h
    rw [he] at hr
    exact mvpn_needed hr
  case ipv4FlowSpec v hr =>
    obtain ⟨h1, h2⟩ := fs_list_sent (items_all (P := FsSeen) (fun _ _ _ => fs_seen) hr) h
    rw [h1] at hr
    exact fs_needed h2 hr
  case ipv4VpnFlowSpec v hr =>
    obtain ⟨h1, h2⟩ := fs_list_sent (items_all (P := FsSeen) (fun _ _ _ => fs_seen) hr) h
    rw [h1] at hr
    exact fs_needed h2 hr
  case ipv6FlowSpec v hr =>
    obtain ⟨h1, h2⟩ := fs_list_sent (items_all (P := FsSeen) (fun _ _ _ => fs_seen) hr) h
    rw [h1] at hr
    exact fs_needed h2 hr
  case l2Vpls v hr => exact vpls_needed h hr
  all_goals trivial

/-! ## Multiprotocol attributes -/

theorem nexthop_reports {nh : BgpAddr} {p : BgpSessionParams} {b b' : Bytes} {n : Nat}
    (h : BgpMPUpdates.encodeNexthop nh p b = .ok (b', n)) :
    n = (nexthopWire nh).length ∧ b'.length = b.length ∧ (∀ a, nh ≠ .L2 a) ∧ ∀ a, nh ≠ .MVPN a := by
  have hl := (post_nexthop nh p b _ h).2.1
  cases nh with
  | None =>
    simp only [BgpMPUpdates.encodeNexthop, Res.ok.injEq, Prod.mk.injEq] at h
    exact ⟨h.2.symm, hl, by simp, by simp⟩
  | V4 x =>
    obtain ⟨-, c, hc, -⟩ := onFrom_inv h
    exact ⟨emits_reports (emits_of_writes (writes_encodeAddrV4 x)) hc, hl, by simp, by simp⟩
  | V6 x =>
    obtain ⟨-, c, hc, -⟩ := onFrom_inv h
    exact ⟨emits_reports (emits_of_writes (writes_encodeAddrV6 x)) hc, hl, by simp, by simp⟩
  | V4RD x =>
    obtain ⟨-, c, hc, -⟩ := onFrom_inv h
    exact ⟨emits_reports (emits_of_writes (v4rd_writes x _)) hc, hl, by simp, by simp⟩
  | V6RD x =>
    obtain ⟨-, c, hc, -⟩ := onFrom_inv h
    exact ⟨emits_reports (emits_of_writes (v6rd_writes x _)) hc, hl, by simp, by simp⟩
  | L2 x => simp [BgpMPUpdates.encodeNexthop] at h
  | MVPN x => simp [BgpMPUpdates.encodeNexthop] at h

/-- what is in front of the NLRI of MP_REACH_NLRI -/
def reachHead (f : Family) (nh : BgpAddr) : Bytes :=
  familyWire f ++ BitVec.ofNat 8 (nexthopWire nh).length :: (nexthopWire nh ++ [0])

theorem reach_inv {p : BgpSessionParams} {x : BgpMPUpdates} {f : Family} {ap : Bool} {buf buf' : Bytes} {n : Nat}
    (hk : kindOf x.addrs = some (f, ap)) (h : x.encodeTo p buf = .ok (buf', n)) :
    ∃ s s' k, x.addrs.encodeTo p s = .ok (s', k) ∧ n = (reachHead f x.nexthop).length + k ∧
      buf' = reachHead f x.nexthop ++ s' := by
  have h' := h
  unfold BgpMPUpdates.encodeTo at h'
  obtain ⟨b1, h1, h'⟩ := Res.bind_eq_ok.1 h'
  obtain ⟨b2, h2, h'⟩ := Res.bind_eq_ok.1 h'
  obtain ⟨⟨b3, nhl⟩, h3, h'⟩ := Res.bind_eq_ok.1 h'
  obtain ⟨b4, h4, h'⟩ := Res.bind_eq_ok.1 h'
  obtain ⟨b5, h5, h'⟩ := Res.bind_eq_ok.1 h'
  have l1 := (post_modRange _ _ _ _ _ h1).2.2.1
  have l2 := (post_setIdx _ _ _ _ h2).2.1
  obtain ⟨l3, l3', hnh⟩ := nexthop_reports h3
  have l4 := (post_setIdx _ _ _ _ h4).2.1
  have l5 := (post_setIdx _ _ _ _ h5).1
  subst l3
  have hroom : 5 + (nexthopWire x.nexthop).length ≤ buf.length := by omega
  clear h1 h2 h3 h4 h5 h' l1 l2 l3' l4 l5
  obtain ⟨a', b', h2, hfw⟩ := familyWire_cons f
  obtain ⟨a, b, c, d, t, rfl⟩ := exists_cons4 (l := buf) (by omega)
  simp only [List.length_cons] at hroom
  unfold BgpMPUpdates.encodeTo at h
  rw [addrs_code _ hk] at h
  have h1 := cur_modRange (fill16 (familyCode f).1) [] (a :: b :: c :: d :: t) 0 2 rfl (by simp) (by simp)
  rw [List.nil_append, h2] at h1
  rw [h1] at h
  simp only [Res.ok_bind, List.nil_append, List.cons_append, List.length_cons, List.length_nil, List.drop_succ_cons, List.drop_zero,
    setIdx_cons_succ, setIdx_cons_zero] at h
  rw [nexthop_encode _ hnh p _ _ _ _ _ (by omega)] at h
  simp only [Res.ok_bind, setIdx_cons_succ, setIdx_cons_zero] at h
  rw [show a' :: b' :: (familyCode f).2 :: BitVec.ofNat 8 (nexthopWire x.nexthop).length ::
      (nexthopWire x.nexthop ++ List.drop (nexthopWire x.nexthop).length t) =
      ([a', b', (familyCode f).2, BitVec.ofNat 8 (nexthopWire x.nexthop).length] ++ nexthopWire x.nexthop) ++
        List.drop (nexthopWire x.nexthop).length t by simp] at h
  rw [cur_setIdx _ _ _ _ (by simp; omega) (by simp; omega)] at h
  simp only [Res.ok_bind] at h
  obtain ⟨⟨b6, ps⟩, h6, h⟩ := Res.bind_eq_ok.1 h
  obtain ⟨-, s', hs, rfl⟩ := onFrom_inv h6
  simp only [Res.ok.injEq, Prod.mk.injEq] at h
  obtain ⟨rfl, rfl⟩ := h
  refine ⟨_, _, _, hs, by simp [reachHead, hfw]; omega, ?_⟩
  rw [List.take_left' (by simp; omega)]
  simp [reachHead, hfw]

theorem unreach_inv {p : BgpSessionParams} {x : BgpMPWithdraws} {f : Family} {ap : Bool} {buf buf' : Bytes} {n : Nat}
    (hk : kindOf x.addrs = some (f, ap)) (h : x.encodeTo p buf = .ok (buf', n)) :
    ∃ s s' k, x.addrs.encodeTo p s = .ok (s', k) ∧ n = (familyWire f).length + k ∧ buf' = familyWire f ++ s' := by
  have h' := h
  unfold BgpMPWithdraws.encodeTo at h'
  obtain ⟨b1, h1, h'⟩ := Res.bind_eq_ok.1 h'
  obtain ⟨b2, h2, h'⟩ := Res.bind_eq_ok.1 h'
  have l1 := (post_modRange _ _ _ _ _ h1).2.2.1
  have l2 := (post_setIdx _ _ _ _ h2).1
  have hroom : 3 ≤ buf.length := by omega
  clear h1 h2 h' l1 l2
  obtain ⟨a', b', h2, hfw⟩ := familyWire_cons f
  obtain ⟨a, b, t, rfl⟩ := exists_cons2 (l := buf) (by omega)
  obtain ⟨c, t, rfl⟩ := List.exists_cons_of_length_pos (l := t) (by simp at hroom; omega)
  unfold BgpMPWithdraws.encodeTo at h
  rw [addrs_code _ hk] at h
  have h1 := cur_modRange (fill16 (familyCode f).1) [] (a :: b :: c :: t) 0 2 rfl (by simp) (by simp)
  rw [List.nil_append, h2] at h1
  rw [h1] at h
  simp only [Res.ok_bind, List.nil_append, List.cons_append, List.length_cons, List.length_nil, List.drop_succ_cons, List.drop_zero,
    setIdx_cons_succ, setIdx_cons_zero] at h
  obtain ⟨⟨b6, ps⟩, h6, h⟩ := Res.bind_eq_ok.1 h
  obtain ⟨-, s', hs, rfl⟩ := onFrom_inv h6
  simp only [Res.ok.injEq, Prod.mk.injEq] at h
  obtain ⟨rfl, rfl⟩ := h
  refine ⟨_, _, _, hs, by simp [hfw], ?_⟩
  simp [hfw]

theorem familyWire_inj {f g : Family} {a b : Bytes} (h : familyWire f ++ a = familyWire g ++ b) : f = g ∧ a = b := by
  obtain ⟨h1, h2⟩ := List.append_inj h (by simp [familyWire])
  refine ⟨?_, h2⟩
  revert h1; cases f <;> cases g <;> decide

theorem nexthopKind_size {f : Family} {nh : BgpAddr} (h : NexthopKind f nh) : (nexthopWire nh).length = nexthopSize f := by
  cases f <;> cases nh <;> first | exact h.elim | (simp [nexthopWire, nexthopSize])

theorem reach_needed {p : BgpSessionParams} {x : BgpMPUpdates} {buf buf' : Bytes} {n : Nat}
    (h : x.encodeTo p buf = .ok (buf', n)) (hr : ReachRead p (buf'.take n) x.nexthop x.addrs) : Relayable x.addrs := by
  obtain ⟨f, l, rest, snpas, nlri, m, -, hv, hnk, -, -, hd, hs, ha⟩ := hr
  obtain ⟨ap, hk⟩ := addrsRead_kind ha
  obtain ⟨s, s', k, he, rfl, rfl⟩ := reach_inv hk h
  rw [List.take_length_add_append, reachHead, List.append_assoc, List.cons_append] at hv
  obtain ⟨-, hv⟩ := familyWire_inj hv
  simp only [List.cons.injEq] at hv
  obtain ⟨rfl, rfl⟩ := hv
  have hsz := nexthopKind_size hnk
  have hsm := nexthopWire_small x.nexthop
  have hl : (if VpnFamily f then nexthopSize f else (BitVec.ofNat 8 (nexthopWire x.nexthop).length).toNat) =
      (nexthopWire x.nexthop).length := by
    split
    · exact hsz.symm
    · rw [BitVec.toNat_ofNat, Nat.mod_eq_of_lt (by omega)]
  rw [hl, List.append_assoc, List.drop_left' rfl, snpasWire] at hd
  simp only [List.cons_append, List.nil_append, List.cons.injEq] at hd
  obtain ⟨h0, hd⟩ := hd
  have : snpas = [] := by
    have h1 := congrArg BitVec.toNat h0
    rw [BitVec.toNat_ofNat, Nat.mod_eq_of_lt (by have := hs.1; omega)] at h1
    exact List.eq_nil_of_length_eq_zero h1.symm
  subst this
  simp only [List.flatMap_nil, List.nil_append] at hd
  subst hd
  exact relay_needed he ha

theorem value_needed {p : BgpSessionParams} {code flags : U8} {x : BgpAttrItem} {buf buf' : Bytes} {n : Nat}
    (h : x.encodeValue p buf = .ok (buf', n)) (hr : ValueRead p code flags (buf'.take n) x) : ValueRelayable p x := by
  generalize hv : buf'.take n = v at hr
  cases hr with
  | fixed _ _ w t _ hf ht =>
    cases hf with
    | aggregator4 asn a =>
      have h1 := congrArg List.length hv
      simp only [BgpAttrItem.encodeValue, BgpAggregatorAS.encodeTo, Res.ok.injEq, Prod.mk.injEq] at h
      have : n ≤ 4 := by rw [← h.2]; split <;> omega
      simp [aggregatorWire] at h1
      omega
    | aggregator2 asn a ha =>
      have h1 := congrArg List.length hv
      simp only [BgpAttrItem.encodeValue, BgpAggregatorAS.encodeTo, Res.ok.injEq, Prod.mk.injEq] at h
      have : n ≤ 4 := by rw [← h.2]; split <;> omega
      simp [aggregatorWire] at h1
      omega
    | _ => trivial
  | asPath _ _ l hl =>
    have hw := emits_take (emits_of_writes (aspath_writes p ⟨l⟩)) h
    rw [hw] at hv
    obtain ⟨pre, rfl, hp, -⟩ := hl
    cases h32 : p.hasAs32bit with
    | true => exact .inr h32
    | false =>
      left
      cases l with
      | nil => rfl
      | cons a l =>
        have h1 := congrArg List.length hv
        simp [asPathWire, h32] at h1 hp
        omega
  | originatorId _ a t ha =>
    simp only [BgpAttrItem.encodeValue, BgpOriginatorID.encodeTo] at h
    show addrFamily a = p.peerMode
    split at h
    · rename_i h2; exact h2.symm
    · rename_i h2; exact h2.symm
    · cases h
  | mpReach _ _ nh addrs hr =>
    subst hv
    exact reach_needed (x := ⟨nh, addrs⟩) h hr
  | mpUnreach _ f nlri addrs m hr =>
    obtain ⟨ap, hk⟩ := addrsRead_kind hr
    obtain ⟨s, s', k, he, rfl, rfl⟩ := unreach_inv (x := ⟨addrs⟩) hk h
    rw [List.take_length_add_append] at hv
    obtain ⟨-, rfl⟩ := familyWire_inj hv
    exact relay_needed he hr
  | pmsi => cases h
  | attrSet => cases h
  | _ => trivial

/-! ## Messages -/

theorem onSliceE_end {α : Type} {b : Bytes} {s : Nat} {f : Bytes → Res (Bytes × α)} {b' : Bytes} {r : α}
    (h : onSliceE b s b.length f = .ok (b', r)) : s ≤ b.length ∧ ∃ c, f (b.drop s) = .ok (c, r) ∧ b' = b.take s ++ c := by
  unfold onSliceE at h
  split at h
  · rename_i hi
    obtain ⟨⟨c, r'⟩, h1, h2⟩ := Res.bind_eq_ok.1 h
    simp only [Res.ok.injEq, Prod.mk.injEq] at h2
    obtain ⟨rfl, rfl⟩ := h2
    rw [List.take_length] at h1
    exact ⟨hi.1, c, h1, by simp⟩
  · cases h

theorem encodeAttrs_keeps {p : BgpSessionParams} {lp : Nat} {l : List BgpAttrItem} {b b' : Bytes} {pos pos' : Nat}
    (h : BgpUpdateMessage.encodeAttrs p lp l b pos = .ok (b', pos')) : b'.take pos = b.take pos ∧ b'.length = b.length ∧ pos ≤ pos' := by
  induction l generalizing b pos with
  | nil =>
    simp only [BgpUpdateMessage.encodeAttrs, Res.ok.injEq, Prod.mk.injEq] at h
    obtain ⟨rfl, rfl⟩ := h
    exact ⟨rfl, rfl, le_refl _⟩
  | cons x l ih =>
    unfold BgpUpdateMessage.encodeAttrs at h
    split at h
    · cases h
    obtain ⟨⟨b1, n⟩, h1, h⟩ := Res.bind_eq_ok.1 h
    obtain ⟨hp, c, hc, rfl⟩ := onSliceE_end h1
    obtain ⟨h2, h3, h4⟩ := ih h
    have hl := KeepsSize.post (f := x.encodeTo p) _ _ hc
    simp only [List.length_drop] at hl
    refine ⟨?_, ?_, by omega⟩
    · have := congrArg (List.take pos) h2
      rw [List.take_take, List.take_take, Nat.min_eq_left (by omega), List.take_left' (by simp; omega)] at this
      exact this
    · rw [h3]; simp; omega

theorem attrHeader_inj {c c' f f' : U8} {n n' : Nat} {a a' : Bytes} (hn : n ≤ maxValue f) (hn' : n' ≤ maxValue f')
    (h : attrHeader c f n ++ a = attrHeader c' f' n' ++ a') : c = c' ∧ f = f' ∧ n = n' ∧ a = a' := by
  unfold attrHeader at h
  simp only [List.cons_append, List.nil_append, List.cons.injEq] at h
  obtain ⟨rfl, rfl, h⟩ := h
  obtain ⟨h1, h2⟩ := List.append_inj h (by simp)
  refine ⟨rfl, rfl, ?_, h2⟩
  unfold maxValue at hn hn'
  revert h1 hn hn'
  split
  · intro hn hn' h1; exact be_inj (n := 2) (by omega) (by omega) h1
  · intro hn hn' h1; exact be_inj (n := 1) (by omega) (by omega) h1

theorem attrs_needed {p : BgpSessionParams} {lp : Nat} {l : List BgpAttrItem} {b b' a : Bytes} {pos pos' : Nat}
    (h : BgpUpdateMessage.encodeAttrs p lp l b pos = .ok (b', pos')) (hr : AttrsRead (ValueRead p) a l)
    (ha : a <+: b'.drop pos) : (∀ x ∈ l, AttrRelayable p x) ∧ pos' = pos + a.length ∧ a.length = (attrsWire p l).length := by
  induction l generalizing b pos a with
  | nil =>
    cases hr
    simp only [BgpUpdateMessage.encodeAttrs, Res.ok.injEq, Prod.mk.injEq] at h
    exact ⟨by simp, by simp [h.2], by simp [attrsWire]⟩
  | cons x l ih =>
    unfold BgpUpdateMessage.encodeAttrs at h
    split at h
    · cases h
    obtain ⟨⟨b1, n⟩, h1, h⟩ := Res.bind_eq_ok.1 h
    obtain ⟨hp, c, hc, rfl⟩ := onSliceE_end h1
    obtain ⟨k1, k2, k3⟩ := encodeAttrs_keeps h
    unfold BgpAttrItem.encodeTo at hc
    by_cases hroom : (if extended x.attr.flags then 4 else 3) ≤ (b.drop pos).length
    case neg => rw [encodeBgpattr_small _ _ _ (by omega)] at hc; cases hc
    rw [encodeBgpattr_eq _ _ _ hroom] at hc
    obtain ⟨⟨c1, k⟩, hc1, hc⟩ := Res.bind_eq_ok.1 hc
    simp only at hc
    split at hc
    · cases hc
    rename_i hk
    simp only [Res.ok.injEq, Prod.mk.injEq] at hc
    obtain ⟨rfl, rfl⟩ := hc
    cases hr with
    | cons r _ t _ hw hv hl =>
      obtain ⟨z, hz⟩ := ha
      -- what was written at `pos`
      have e1 : (b'.drop pos).take ((if extended x.attr.flags then 4 else 3) + k) =
          attrHeader x.attr.typecode x.attr.flags k ++ c1.take k := by
        have := congrArg (List.drop pos) k1
        rw [List.drop_take, List.drop_take, List.drop_left' (by simp; omega), Nat.add_sub_cancel_left,
          ← attrHeader_length x.attr.typecode x.attr.flags k, List.take_length_add_append] at this
        rw [← attrHeader_length x.attr.typecode x.attr.flags k]
        exact this
      have e2 := List.take_append_drop ((if extended x.attr.flags then 4 else 3) + k) (b'.drop pos)
      rw [e1] at e2
      have hz' := hz
      rw [← e2, rawWire, List.append_assoc, List.append_assoc, List.append_assoc] at hz
      obtain ⟨q1, q2, q3, q4⟩ := attrHeader_inj hw (by omega) hz
      have hN : (rawWire r).length = (if extended x.attr.flags then 4 else 3) + k := by
        rw [rawWire, List.length_append, attrHeader_length, q2, q3]
      have hlen : (c1.take k).length = k := by
        have h5 := congrArg List.length e1
        have h6 := congrArg List.length hz'
        rw [List.length_append, attrHeader_length, List.length_take] at h5
        simp only [List.length_append, hN] at h6
        omega
      obtain ⟨q5, q6⟩ := List.append_inj q4 (by omega)
      rw [q5] at hv
      have hrel := value_needed hc1 hv
      obtain ⟨hok, -⟩ := attr_normal hv hrel
      obtain ⟨hk', -, -⟩ := emits_ok (emits_of_writes (value_writes p x hok)) hc1
      have hcode := attr_code x
      obtain ⟨i1, i2, i3⟩ := ih (a := t) h hl ⟨z, by rw [q6, List.drop_drop]⟩
      have hf : x.attr.flags = (attrCode x).2 := by rw [← hcode]
      refine ⟨?_, ?_, ?_⟩
      · intro y hy
        simp only [List.mem_cons] at hy
        rcases hy with rfl | hy
        · refine ⟨hrel, ?_⟩
          rw [← hf]; omega
        · exact i1 y hy
      · rw [i2, List.length_append, hN]; omega
      · simp only [attrsWire, List.flatMap_cons, List.length_append, attrWire, attrHeader_length] at i3 ⊢
        rw [hN, i3, ← hk', hf]

instance (m : BgpUpdateMessage) (p : BgpSessionParams) : Ext (m.encodeWithdraws p) where
  sim b e := by
    unfold BgpUpdateMessage.encodeWithdraws
    cases h : BgpUpdateMessage.nlriEncoder p m.withdraws with
    | some enc =>
      have := ext_section h
      simp only []
      extend
    | none => simp only []; extend

theorem update_needed {p : BgpSessionParams} {m : BgpUpdateMessage} {buf buf' : Bytes} {n : Nat}
    (h : m.encodeTo p buf = .ok (buf', n)) (hr : UpdateRead p (buf'.take n) m.withdraws m.attrs m.updates) :
    (∀ x ∈ m.attrs, AttrRelayable p x) ∧ (attrsWire p m.attrs).length ≤ 65535 := by
  obtain ⟨w, a, u, hB, hwl, hal, hw, ha, hu⟩ := hr
  obtain ⟨s1, -, s3⟩ := section_normal hw
  unfold BgpUpdateMessage.encodeTo at h
  obtain ⟨⟨b1, lp⟩, h1, h'⟩ := Res.bind_eq_ok.1 h
  clear h
  obtain ⟨⟨b2, cp⟩, h2, h''⟩ := Res.bind_eq_ok.1 h'
  clear h'
  obtain ⟨⟨b3, u3⟩, h3, h⟩ := Res.bind_eq_ok.1 h''
  clear h''
  -- the withdrawn routes
  have hW : Writes (m.encodeWithdraws p) (be 2 (addrsWire m.withdraws).length ++ addrsWire m.withdraws) := by
    intro b hb
    rw [encodeWithdraws_writes p m s1 (by omega) b (by simpa using hb)]
    simp
  obtain ⟨rfl, l1, rfl⟩ := emits_ok (emits_of_writes hW) h1
  simp only [List.length_append, be_length] at h2 h3 h l1
  generalize addrsWire m.withdraws = w₀ at *
  obtain ⟨k1, k2, k3⟩ := encodeAttrs_keeps h2
  -- the length of the attributes
  have hb3 : 2 + w₀.length + 2 ≤ b2.length ∧
      b3 = b2.take (2 + w₀.length) ++ be 2 (BitVec.ofNat 16 (cp - (2 + w₀.length) - 2)).toNat ++ b2.drop (2 + w₀.length + 2) := by
    unfold onSliceE at h3
    split at h3
    · rename_i hc
      obtain ⟨c, d, hcd⟩ : ∃ c d, (b2.take (2 + w₀.length + 2)).drop (2 + w₀.length) = [c, d] := by
        obtain ⟨c, d, t, ht⟩ := exists_cons2 (l := (b2.take (2 + w₀.length + 2)).drop (2 + w₀.length)) (by simp; omega)
        have := congrArg List.length ht
        simp at this
        have : t = [] := List.eq_nil_of_length_eq_zero (by omega)
        exact ⟨c, d, by rw [ht, this]⟩
      rw [hcd] at h3
      simp only [setn16_cons2] at h3
      simp only [Res.ok_bind, Res.ok.injEq, Prod.mk.injEq, List.append_nil] at h3
      exact ⟨hc.2, h3.1.symm⟩
    · cases h3
  obtain ⟨hb2, hb3⟩ := hb3
  -- the announced routes do not change what is before them
  have hn : cp ≤ n ∧ buf'.take cp = b3.take cp := by
    split at h
    · obtain ⟨⟨b4, q⟩, h4, h⟩ := Res.bind_eq_ok.1 h
      simp only [Res.ok.injEq, Prod.mk.injEq] at h
      obtain ⟨rfl, rfl⟩ := h
      obtain ⟨q1, c, -, rfl⟩ := onSliceE_end h4
      exact ⟨by omega, by rw [List.take_left' (by simp; omega)]⟩
    · simp only [Res.ok.injEq, Prod.mk.injEq] at h
      obtain ⟨rfl, rfl⟩ := h
      exact ⟨le_refl _, rfl⟩
  obtain ⟨hn, hpre⟩ := hn
  have hBcp : (updateBytes w a u).take cp = b3.take cp := by rw [← hB, List.take_take, Nat.min_eq_left hn, hpre]
  have hb1 : b2.take (2 + w₀.length) = be 2 w₀.length ++ w₀ := by
    have := congrArg (List.take (2 + w₀.length)) k1
    rw [List.take_take, List.take_take, Nat.min_eq_left (by omega), List.append_assoc] at this
    rw [this, ← List.append_assoc, List.take_left' (by simp)]
  have hfull : (be 2 w.length ++ w ++ be 2 a.length ++ a ++ u).take (2 + w₀.length + 2) =
      be 2 w₀.length ++ w₀ ++ be 2 (BitVec.ofNat 16 (cp - (2 + w₀.length) - 2)).toNat := by
    have := congrArg (List.take (2 + w₀.length + 2)) hBcp
    rw [List.take_take, List.take_take, Nat.min_eq_left k3, hb3, hb1] at this
    rw [← updateBytes, this, List.take_left' (by simp; omega)]
  have hlw : w.length = w₀.length ∧ be 2 a.length = be 2 (BitVec.ofNat 16 (cp - (2 + w₀.length) - 2)).toNat := by
    have hlen := congrArg List.length hB
    have h5 := congrArg (List.take 2) hfull
    rw [List.take_take, Nat.min_eq_left (by omega)] at h5
    simp only [List.append_assoc] at h5
    rw [List.take_left' (by simp), List.take_left' (by simp)] at h5
    have hlw := be_inj (n := 2) (by omega) (by omega) h5
    refine ⟨hlw, ?_⟩
    rw [show be 2 w.length ++ w ++ be 2 a.length ++ a ++ u = (be 2 w.length ++ w ++ be 2 a.length) ++ (a ++ u) by simp,
      List.take_left' (by simp only [List.length_append, be_length]; omega)] at hfull
    exact (List.append_inj hfull (by simp; omega)).2
  obtain ⟨hlw, hla⟩ := hlw
  have hla : a.length = (cp - (2 + w₀.length) - 2) % 65536 := by
    rw [BitVec.toNat_ofNat] at hla
    exact be_inj (n := 2) (by omega) (Nat.mod_lt _ (by decide)) hla
  have hpa : a <+: b2.drop (2 + w₀.length + 2) := by
    have h5 := congrArg (fun b => (b.take (2 + w₀.length + 2 + a.length)).drop (2 + w₀.length + 2)) hBcp
    simp only [List.take_take] at h5
    rw [Nat.min_eq_left (show 2 + w₀.length + 2 + a.length ≤ cp by have := Nat.mod_le (cp - (2 + w₀.length) - 2) 65536; omega), List.drop_take, List.drop_take,
      Nat.add_sub_cancel_left, hb3, List.drop_left' (by simp; omega)] at h5
    rw [updateBytes, show be 2 w.length ++ w ++ be 2 a.length ++ a ++ u = (be 2 w.length ++ w ++ be 2 a.length) ++ (a ++ u) by simp,
      List.drop_left' (by simp; omega), List.take_left' rfl] at h5
    rw [h5]
    exact List.take_prefix _ _
  obtain ⟨r1, r2, r3⟩ := attrs_needed h2 ha hpa
  exact ⟨r1, by omega⟩

end Zbgp
