import Verif.Lemmas.UpdateReads
import Verif.Spec.Relay

/-! # What was read can be written, and is read again as the same -/

namespace Zbgp

open Spec

/-! ## Prefixes -/

theorem labelsRead_shape {bits : Nat} {b : Bytes} {ls : List U32} {k : Nat} (h : LabelsRead bits b ls k) :
    k = 3 * ls.length ∧ 24 * ls.length ≤ bits ∧ k ≤ b.length ∧ (∀ l ∈ ls, l.toNat < 2 ^ 20) ∧
      (∀ l ∈ ls.dropLast, l.toNat ∉ stackEnding) ∧ (ls = [] → bits = 0) := by
  have lab : ∀ v, v < 2 ^ 24 → (BitVec.ofNat 32 (v / 16)).toNat = v / 16 := fun v hv => by
    rw [BitVec.toNat_ofNat, Nat.mod_eq_of_lt]; omega
  induction h with
  | done b => simp
  | last bits v b hv hb he =>
    refine ⟨rfl, by simpa using hb, by simp, ?_, by simp, by simp⟩
    intro l hl
    simp only [List.mem_singleton] at hl
    subst hl
    rw [lab v hv]; omega
  | more bits v b ls n hv he hr ih =>
    obtain ⟨h1, h2, h3, h4, h5, h6⟩ := ih
    refine ⟨by simp; omega, by simp; omega, by simp; omega, ?_, ?_, by simp⟩
    · intro l hl
      simp only [List.mem_cons] at hl
      rcases hl with rfl | hl
      · rw [lab v hv]; omega
      · exact h4 l hl
    · intro l hl
      cases ls with
      | nil => simp at hl
      | cons m ls =>
        simp only [List.dropLast_cons_cons, List.mem_cons] at hl
        rcases hl with rfl | hl
        · rw [lab v hv]
          exact fun hm => he (.inr hm)
        · exact h5 l hl

theorem labelsRead_field {bits : Nat} {b : Bytes} {ls : List U32} {k n : Nat} (h : LabelsRead bits b ls k)
    (hn : n = bits - 24 * ls.length) : LabelFieldWF ls n := by
  obtain ⟨-, -, -, h4, h5, h6⟩ := labelsRead_shape h
  by_cases he : ls = []
  · exact .inr ⟨he, by simp [hn, h6 he]⟩
  · exact .inl ⟨he, h4, h5⟩

theorem labelsBody_head {bits : Nat} {b : Bytes} {ls : List U32} {k : Nat} (h : LabelsRead bits b ls k) :
    (labelsBody ls).take 1 = (b.take k).take 1 := by
  have lab : ∀ v, v < 2 ^ 24 → (BitVec.ofNat 32 (v / 16)).toNat = v / 16 := fun v hv => by
    rw [BitVec.toNat_ofNat, Nat.mod_eq_of_lt]; omega
  have oct : ∀ v c, v < 2 ^ 24 → c ≤ 1 → (be 3 (v / 16 * 16 + c)).take 1 = (be 3 v).take 1 := fun v c hv hc => by
    simp only [be_succ, List.take_succ_cons, List.take_zero, List.cons.injEq, and_true]
    congr 1
    simp only [Nat.reducePow]
    omega
  cases h with
  | done b => simp [labelsBody]
  | last bits v b hv hb he =>
    simp only [labelsBody, lab v hv]
    rw [List.take_left' (by simp), oct v 1 hv (by omega)]
  | more bits v b ls n hv he hr =>
    cases ls with
    | nil =>
      simp only [labelsBody, lab v hv]
      rw [oct v 1 hv (by omega), List.take_take, Nat.min_eq_left (by omega),
        List.take_append_of_le_length (by simp)]
    | cons m ls =>
      simp only [labelsBody, lab v hv]
      rw [List.take_append_of_le_length (by simp), List.take_take, Nat.min_eq_left (by omega),
        List.take_append_of_le_length (by simp)]
      exact oct v 0 hv (by omega)

/-- What is read of a kind of prefixes is in normal form: it can be written, in as many octets as were read, of which the
first is the same, and a receiver gets the same. -/
class Normal (T : Type) [NlriKind T] [PrefixReads T] : Prop where
  normal : ∀ {bits : Nat} {b : Bytes} {x : T} {n : Nat}, bits < 256 → PrefixReads.Read bits b x n →
    NlriKind.WF x ∧ NlriKind.received x = x ∧ NlriKind.bits x = bits ∧ n ≤ b.length ∧ (NlriKind.body x).length = n ∧
      (NlriKind.body x).take 1 = (b.take n).take 1

theorem padded {w addr bits : Nat} {b : Bytes} (hb : bits ≤ 8 * w) (hl : octets bits ≤ b.length) (ha : addr < 256 ^ w)
    (h : PaddedOctets w addr (b.take (octets bits))) :
    prefixBody w addr bits = b.take (octets bits) ∧ keepOctets w (octets bits) addr = addr := by
  have ho : octets bits ≤ w := by unfold octets; omega
  have e : prefixBody w addr bits = b.take (octets bits) := by
    unfold prefixBody
    rw [show be w addr = _ from h, List.take_left' (by rw [List.length_take]; omega)]
  refine ⟨e, ?_⟩
  rw [← unbe_keep w _ addr ho ha]
  have : (be w addr).take (octets bits) = b.take (octets bits) := e
  rw [this]
  have h' : be w addr = _ := h
  rw [List.length_take, Nat.min_eq_left hl] at h'
  rw [← h', unbe_be, Nat.mod_eq_of_lt ha]

instance : Normal BgpAddrV4 where
  normal := by
    rintro bits b ⟨a, l⟩ n h256 ⟨h32, rfl, hl, hp, ho⟩
    simp only at hp ho
    subst hp
    obtain ⟨h1, h2⟩ := padded (w := 4) (by omega) hl (by have := a.isLt; simpa using this) ho
    refine ⟨h32, ?_, rfl, hl, ?_, ?_⟩
    · simp only [NlriKind.received, h2, BitVec.ofNat_toNat, BitVec.setWidth_eq]
    · simp only [NlriKind.body, h1, List.length_take]; omega
    · simp only [NlriKind.body, h1]

instance : Normal BgpAddrV6 where
  normal := by
    rintro bits b ⟨a, l⟩ n h256 ⟨h32, rfl, hl, hp, ho⟩
    simp only at hp ho
    subst hp
    obtain ⟨h1, h2⟩ := padded (w := 16) (by omega) hl (by have := a.isLt; simpa using this) ho
    refine ⟨h32, ?_, rfl, hl, ?_, ?_⟩
    · simp only [NlriKind.received, h2, BitVec.ofNat_toNat, BitVec.setWidth_eq]
    · simp only [NlriKind.body, h1, List.length_take]; omega
    · simp only [NlriKind.body, h1]

/-- what is in front decides about the first octet, or it is empty -/
theorem take_one_append {a a' c c' : Bytes} (hl : a.length = a'.length) (h : a.take 1 = a'.take 1) (hc : c.take 1 = c'.take 1) :
    (a ++ c).take 1 = (a' ++ c').take 1 := by
  cases a with
  | nil =>
    have : a' = [] := List.length_eq_zero_iff.1 (by simpa using hl.symm)
    subst this
    simpa using hc
  | cons u a =>
    cases a' with
    | nil => simp at hl
    | cons v a' => simpa using h

instance : Normal BgpMdtV4 where
  normal := by
    rintro bits b ⟨a, gr⟩ n h256 ⟨m, g, h32, hr, hg, rfl⟩
    obtain ⟨hw, hv, hb, hl, hn, ht⟩ := Normal.normal (by omega) hr
    have hd := congrArg List.length hg
    simp only [List.length_drop, List.length_append, be_length] at hd
    refine ⟨hw, ?_, ?_, by omega, ?_, ?_⟩
    · simp only [NlriKind.received] at hv ⊢; simp only [hv]
    · simp only [NlriKind.bits] at hb ⊢; omega
    · simp only [NlriKind.body, List.length_append, be_length] at hn ⊢; omega
    · have e : b.take (m + 4) = b.take m ++ be 4 gr.toNat := by
        rw [List.take_add, hg, List.take_left' (by simp)]
      rw [e]
      refine take_one_append ?_ ht rfl
      simp only [NlriKind.body] at hn
      rw [List.length_take, hn]; omega

instance : Normal BgpMdtV6 where
  normal := by
    rintro bits b ⟨a, gr⟩ n h256 ⟨m, g, h32, h254, hr, hg, rfl⟩
    obtain ⟨hw, hv, hb, hl, hn, ht⟩ := Normal.normal (by omega) hr
    have hd := congrArg List.length hg
    simp only [List.length_drop, List.length_append, be_length] at hd
    refine ⟨?_, ?_, ?_, by omega, ?_, ?_⟩
    · simp only [NlriKind.WF, NlriKind.bits] at hb ⊢; omega
    · simp only [NlriKind.received] at hv ⊢; simp only [hv]
    · simp only [NlriKind.bits] at hb ⊢; omega
    · simp only [NlriKind.body, List.length_append, be_length] at hn ⊢; omega
    · have e : b.take (m + 16) = b.take m ++ be 16 gr.toNat := by
        rw [List.take_add, hg, List.take_left' (by simp)]
      rw [e]
      refine take_one_append ?_ ht rfl
      simp only [NlriKind.body] at hn
      rw [List.length_take, hn]; omega

instance {T : Type} [NlriKind T] [PrefixReads T] [Normal T] : Normal (Labeled T) where
  normal := by
    rintro bits b ⟨x, ⟨ls⟩⟩ n h256 ⟨k, m, hk, hr, rfl⟩
    obtain ⟨h1, h2, h3, -, -, -⟩ := labelsRead_shape hk
    obtain ⟨hw, hv, hb, hl, hn, ht⟩ := Normal.normal (by omega) hr
    simp only at h1 h2 h3 hb hn hv
    rw [List.length_drop] at hl
    refine ⟨⟨labelsRead_field hk (by rw [hb]; simp only; omega), hw, ?_⟩, ?_, ?_, by omega, ?_, ?_⟩
    · simp only [hb]; omega
    · simp only [NlriKind.received, hv]
    · simp only [NlriKind.bits, hb]; omega
    · simp only [NlriKind.body, List.length_append, labelsBody_length, hn]; omega
    · rw [List.take_add]
      refine take_one_append ?_ (labelsBody_head hk) ht
      rw [labelsBody_length, List.length_take]; simp only; omega

theorem rdBody_len (r : BgpRD) : (rdBody r).length = 8 := by simp [rdBody]

instance {T : Type} [NlriKind T] [PrefixReads T] [Normal T] : Normal (WithRd T) where
  normal := by
    rintro bits b ⟨x, rd⟩ n h256 ⟨t, m, h64, rfl, hr, rfl⟩
    obtain ⟨hw, hv, hb, hl, hn, ht⟩ := Normal.normal (by omega) hr
    refine ⟨⟨hw, by simp only [hb]; omega⟩, ?_, ?_, ?_, ?_, ?_⟩
    · simp only [NlriKind.received, hv]
    · simp only [NlriKind.bits, hb]; omega
    · rw [List.length_append, rdBody_len]; omega
    · simp only [NlriKind.body, List.length_append, rdBody_len, hn]
    · have e : (rdBody rd ++ t).take (8 + m) = rdBody rd ++ t.take m := by
        rw [List.take_add, List.take_left' (rdBody_len rd), List.drop_left' (rdBody_len rd)]
      simp only [e]
      refine take_one_append rfl rfl ?_
      exact ht

/-! ## Lists of prefixes -/

theorem take_append_congr {k : Nat} {a a' c c' : Bytes} (hl : a.length = a'.length) (h : a.take k = a'.take k)
    (hc : c.take k = c'.take k) : (a ++ c).take k = (a' ++ c').take k := by
  rw [List.take_append, List.take_append, h, hl]
  congr 1
  have := congrArg (List.take (k - a'.length)) hc
  rwa [List.take_take, List.take_take, Nat.min_eq_left (by omega)] at this

section lists
variable {T : Type} [NlriKind T] [PrefixReads T] [Normal T]

theorem nlriRead_normal {b : Bytes} {x : T} {n : Nat} (h : NlriRead b x n) :
    NlriKind.WF x ∧ NlriKind.received x = x ∧ n ≤ b.length ∧ (nlriWire x).length = n ∧
      (nlriWire x).take 2 = (b.take n).take 2 := by
  obtain ⟨bits, t, m, rfl, hr, rfl⟩ := h
  obtain ⟨hw, hv, hb, hl, hn, ht⟩ := Normal.normal bits.isLt hr
  refine ⟨hw, hv, by simpa using hl, by simp [nlriWire, hn], ?_⟩
  simp only [nlriWire, List.take_succ_cons, hb, BitVec.ofNat_toNat, BitVec.setWidth_eq, ht]

theorem items_normal {b : Bytes} {v : List T} {n : Nat} (h : ItemsRead 0 NlriRead b v n) :
    (∀ x ∈ v, NlriKind.WF x) ∧ v.map NlriKind.received = v ∧ (v.flatMap nlriWire).length = b.length ∧
      (v.flatMap nlriWire).take 2 = b.take 2 := by
  induction h with
  | done b h => simp [List.length_eq_zero_iff.1 (Nat.le_zero.1 h)]
  | item b x n xs m hlt hx hr ih =>
    obtain ⟨hw, hv, hl, hn, ht⟩ := nlriRead_normal hx
    obtain ⟨iw, iv, il, it⟩ := ih
    refine ⟨by simpa using ⟨hw, iw⟩, by simp [hv, iv], ?_, ?_⟩
    · rw [List.flatMap_cons, List.length_append, hn, il, List.length_drop]; omega
    · rw [List.flatMap_cons]
      conv_rhs => rw [← List.take_append_drop n b]
      exact take_append_congr (by rw [hn, List.length_take]; omega) ht it

theorem items_looks {b : Bytes} {v : List T} {n : Nat} (h : ItemsRead 0 NlriRead b v n) :
    LooksAddPath (v.flatMap nlriWire) = LooksAddPath b := by
  obtain ⟨-, -, hl, ht⟩ := items_normal h
  unfold LooksAddPath
  rw [hl, ht]

theorem pathIds_normal {b : Bytes} {v : List (WithPathId T)} {n : Nat} (h : ItemsRead 4 PathIdRead b v n) :
    (∀ x ∈ v, NlriKind.WF x.nlri) ∧ v.map receivedP = v := by
  induction h with
  | done b h => simp
  | item b x n xs m hlt hx hr ih =>
    obtain ⟨t, k, rfl, hx, rfl⟩ := hx
    obtain ⟨hw, hv, -, -, -⟩ := nlriRead_normal hx
    obtain ⟨iw, iv⟩ := ih
    exact ⟨by simpa using ⟨hw, iw⟩, by simp [receivedP, hv, iv]⟩

theorem pathIds_looks {b : Bytes} {v : List (WithPathId T)} {n : Nat} (h : ItemsRead 4 PathIdRead b v n) :
    LooksAddPath (v.flatMap pathIdWire) = LooksAddPath b := by
  cases h with
  | done b h =>
    have : ¬ 5 ≤ b.length := by omega
    simp [LooksAddPath, this]
  | item b x n xs m hlt hx hr =>
    obtain ⟨t, k, rfl, hx, rfl⟩ := hx
    obtain ⟨bits, t, m, rfl, -, -⟩ := hx
    simp only [LooksAddPath, List.flatMap_cons, pathIdWire, nlriWire, List.append_assoc, List.cons_append]
    rw [List.take_append_of_le_length (by simp), List.take_append_of_le_length (by simp)]
    simp only [List.length_append, be_length, List.length_cons]
    congr 1
    simp only [eq_iff_iff]
    constructor <;> rintro ⟨-, h⟩ <;> exact ⟨by omega, h⟩

theorem pathIds_size {b : Bytes} {v : List (WithPathId T)} {n : Nat} (h : ItemsRead 4 PathIdRead b v n) :
    (v.flatMap pathIdWire).length ≤ b.length := by
  induction h with
  | done b h => simp
  | item b x n xs m hlt hx hr ih =>
    obtain ⟨t, k, rfl, hx, rfl⟩ := hx
    obtain ⟨-, -, hl, hn, -⟩ := nlriRead_normal hx
    rw [List.flatMap_cons, List.length_append, pathIdWire, List.length_append, hn]
    simp only [List.length_drop, List.length_append, be_length] at ih ⊢
    omega

end lists

/-! ## Routes -/

theorem evpn_normal {b : Bytes} {x : BgpEVPN} {n : Nat} (h : EvpnItemRead b x n) :
    EvpnWF x ∧ ¬ EvpnV6Prefix x := by
  obtain ⟨l, body, t, k, -, -, h, -⟩ := h
  have field : ∀ {lab : Bytes} {ls : List U32} {k : Nat}, LabelsRead (leftBits lab) lab ls k → EvpnLabels ls := by
    intro lab ls k h
    obtain ⟨-, h2, -, h4, h5, -⟩ := labelsRead_shape h
    by_cases he : ls = []
    · exact .inl he
    · refine .inr ⟨⟨he, h4, h5⟩, ?_⟩
      unfold leftBits at h2; omega
  have one : ∀ {lab : Bytes} {ls : List U32} {k : Nat}, LabelsRead 24 lab ls k → LabelStackWF ls ∧ ls.length = 1 := by
    intro lab ls k h
    obtain ⟨-, h2, -, h4, h5, h6⟩ := labelsRead_shape h
    have he : ls ≠ [] := fun h => by simpa using h6 h
    refine ⟨⟨he, h4, h5⟩, ?_⟩
    have := List.length_pos_iff.2 he
    omega
  cases h with
  | t1 rd et esi tag ls lab k h => exact ⟨field h, id⟩
  | t2 rd et esi tag mac ip ls lab k h => exact ⟨field h, id⟩
  | t3 rd tag ip t => exact ⟨trivial, id⟩
  | t4 rd et esi ip t => exact ⟨trivial, id⟩
  | t5 rd et esi tag len p g ls lab k hl h => exact ⟨⟨(one h).1, (one h).2, trivial⟩, id⟩
  | t5v6 rd et esi tag len p g q r ls lab k hq hr hl h => exact ⟨⟨(one h).1, (one h).2, trivial⟩, id⟩

theorem mvpn_normal {mode : BgpTransportMode} {b : Bytes} {x : BgpMVPN} {n : Nat} (h : MvpnItemRead mode b x n)
    (hx : mvpnType x = 1 ∨ mvpnType x = 2) : MvpnWF mode x := by
  obtain ⟨l, body, t, k, -, -, h, -⟩ := h
  cases h with
  | plain x t h4 hw h5 => exact hw
  | leaf s o hw => simp [mvpnType] at hx

theorem items_all {α : Type} {lim : Nat} {R : Bytes → α → Nat → Prop} {P : α → Prop} (hP : ∀ b x n, R b x n → P x)
    {b : Bytes} {v : List α} {n : Nat} (h : ItemsRead lim R b v n) : ∀ x ∈ v, P x := by
  induction h with
  | done b h => simp
  | item b x n xs m hlt hx hr ih => simpa using ⟨hP _ _ _ hx, ih⟩

theorem fs4_normal {b : Bytes} {x : BgpFlowSpec BgpAddrV4} {n : Nat} (h : FsItemRead b x n) : fsReceived x = x := by
  obtain ⟨pre, l, code, body, t, k, -, -, -, h, -⟩ := h
  cases h <;> try rfl
  all_goals
    rename_i h
    simp only [fsReceived, FsPrefix.received, (nlriRead_normal h).2.1]

theorem fs6_normal {b : Bytes} {x : BgpFlowSpec FS6} {n : Nat} (h : FsItemRead b x n) : fsReceived x = x := by
  obtain ⟨pre, l, code, body, t, k, -, -, -, h, -⟩ := h
  cases h <;> try rfl
  all_goals
    rename_i h
    obtain ⟨bits, t, m, rfl, h, -⟩ := h
    simp only [fsReceived, FsPrefix.received, (Normal.normal bits.isLt h).2.1]

theorem map_id_of {α : Type} {f : α → α} {v : List α} (h : ∀ x ∈ v, f x = x) : v.map f = v := by
  induction v with
  | nil => rfl
  | cons a v ih => simp [h a (by simp), ih fun x hx => h x (by simp [hx])]

/-! ## Collections -/

theorem addrsRead_kind {p : BgpSessionParams} {f : Family} {b : Bytes} {x : BgpAddrs} {n : Nat} (h : AddrsRead p f b x n) :
    ∃ ap, kindOf x = some (f, ap) := by
  cases h <;> exact ⟨_, rfl⟩

theorem addrs_normal {p : BgpSessionParams} {f : Family} {b : Bytes} {x : BgpAddrs} {n : Nat} (h : AddrsRead p f b x n)
    (hx : Relayable x) : AddrsWF x ∧ addrsReceived x = x ∧ FormExpected p x := by
  have no : hasAddPath f = false → FormExpected p x := by
    intro hf g ap hk ha
    obtain ⟨ap', hk'⟩ := addrsRead_kind h
    rw [hk'] at hk
    simp only [Option.some.injEq, Prod.mk.injEq] at hk
    obtain ⟨rfl, -⟩ := hk
    rw [hf] at ha; cases ha
  have form : ∀ ap, kindOf x = some (f, ap) → AddPathExpected p (familyCode f) b = ap →
      LooksAddPath (addrsWire x) = LooksAddPath b → FormExpected p x := by
    intro ap hk he hl g ap' hk' _
    rw [hk] at hk'
    simp only [Option.some.injEq, Prod.mk.injEq] at hk'
    obtain ⟨rfl, rfl⟩ := hk'
    unfold AddPathExpected at he ⊢
    rw [hl, he]
  cases h with
  | ipv4Mvpn _ v _ h =>
    refine ⟨fun x hm => ⟨?_, hx x hm⟩, rfl, no rfl⟩
    exact items_all (P := fun x => mvpnType x = 1 ∨ mvpnType x = 2 → MvpnWF .IPv4 x) (fun _ _ _ h => mvpn_normal h) h x hm (hx x hm)
  | ipv4FlowSpec _ v _ h =>
    refine ⟨hx, ?_, no rfl⟩
    simp only [addrsReceived, map_id_of (items_all (P := fun x => fsReceived x = x) (fun _ _ _ h => fs4_normal h) h)]
  | ipv6FlowSpec _ v _ h =>
    refine ⟨hx, ?_, no rfl⟩
    simp only [addrsReceived, map_id_of (items_all (P := fun x => fsReceived x = x) (fun _ _ _ h => fs6_normal h) h)]
  | ipv4VpnFlowSpec _ v _ h => exact ⟨hx, rfl, no rfl⟩
  | l2Vpls _ v _ h => exact ⟨hx, rfl, no rfl⟩
  | l2Evpn _ v _ h => exact ⟨items_all (P := fun x => EvpnWF x ∧ ¬ EvpnV6Prefix x) (fun _ _ _ h => evpn_normal h) h, rfl, no rfl⟩
  | _ =>
    rename_i h h'
    first
    | exact ⟨(items_normal h').1, by simp only [addrsReceived, (items_normal h').2.1], form _ rfl h (items_looks h')⟩
    | exact ⟨(pathIds_normal h').1, by simp only [addrsReceived, (pathIds_normal h').2], form _ rfl h (pathIds_looks h')⟩

/-! ## Attributes and messages -/

theorem attr_normal {p : BgpSessionParams} {code flags : U8} {v : Bytes} {x : BgpAttrItem} (h : ValueRead p code flags v x)
    (hx : ValueRelayable p x) : AttrOk p x ∧ attrReceived x = x := by
  cases h with
  | fixed _ _ w t _ h ht =>
    refine ⟨?_, by cases h <;> rfl⟩
    cases h with
    | origin o => trivial
    | nextHop a h => exact h
    | med m => trivial
    | localPref m => trivial
    | aggregator4 asn a => exact hx
    | aggregator2 asn a h => exact hx
    | connector asn a o => trivial
  | asPath _ _ l h => exact ⟨hx, rfl⟩
  | atomicAggregate => exact ⟨trivial, rfl⟩
  | atomicAggregateAddr _ a => exact ⟨trivial, rfl⟩
  | communities _ _ s h =>
    obtain ⟨_, _, _, _, hs, _⟩ := h
    exact ⟨hs, rfl⟩
  | originatorId _ a t h => exact ⟨hx, rfl⟩
  | clusterList _ l t hl ht => exact ⟨hl, rfl⟩
  | mpReach _ _ nh addrs h =>
    obtain ⟨f, l, rest, snpas, nlri, n, hr, -, hk, -, -, -, -, ha⟩ := h
    obtain ⟨h1, h2, h3⟩ := addrs_normal ha hx
    obtain ⟨ap, hf⟩ := addrsRead_kind ha
    refine ⟨⟨h1, h3, f, ap, hf, hk, hr⟩, ?_⟩
    simp only [attrReceived, h2]
  | mpUnreach _ f nlri addrs n h =>
    obtain ⟨h1, h2, h3⟩ := addrs_normal h hx
    refine ⟨⟨h1, h3⟩, ?_⟩
    simp only [attrReceived, h2]
  | extCommunities _ _ s h =>
    obtain ⟨_, _, _, _, hs, _⟩ := h
    exact ⟨hs, rfl⟩
  | pmsi _ fl kind a b c id t h => exact hx.elim
  | largeCommunities _ _ s h =>
    obtain ⟨_, _, _, _, hs, _⟩ := h
    exact ⟨hs, rfl⟩
  | attrSet _ asn b l h32 h => exact hx.elim
  | unknown _ _ v h => exact ⟨h, rfl⟩

theorem attrs_normal {p : BgpSessionParams} {b : Bytes} {l : List BgpAttrItem} (h : AttrsRead (ValueRead p) b l)
    (hx : ∀ a ∈ l, AttrRelayable p a) :
    (∀ a ∈ l, AttrOk p a ∧ (valueWire p.hasAs32bit a).length ≤ maxValue (attrCode a).2) ∧ l.map attrReceived = l := by
  induction h with
  | nil => simp
  | cons r x t l hr hv hl ih =>
    obtain ⟨h1, h2⟩ := attr_normal hv (hx x (by simp)).1
    obtain ⟨h3, h4⟩ := ih fun a ha => hx a (by simp [ha])
    refine ⟨?_, by simp [h2, h4]⟩
    intro a ha
    simp only [List.mem_cons] at ha
    rcases ha with rfl | ha
    · exact ⟨h1, (hx a (by simp)).2⟩
    · exact h3 a ha

theorem section_normal {p : BgpSessionParams} {b : Bytes} {x : BgpAddrs} (h : NlriIs p b x) :
    SectionOk p x ∧ sectionReceived p x = x ∧ (addrsWire x).length ≤ b.length := by
  obtain ⟨n, h⟩ := h
  have hr : Relayable x := by
    unfold sessionFamily at h
    cases hm : p.peerMode <;> rw [hm] at h <;> cases h <;> trivial
  obtain ⟨h1, h2, h3⟩ := addrs_normal h hr
  refine ⟨.inr ⟨addrsRead_kind h, h1, h3⟩, ?_, ?_⟩
  · cases x <;> first | exact h2 | cases hr
  · unfold sessionFamily at h
    cases hm : p.peerMode <;> rw [hm] at h <;> cases h <;> rename_i h <;>
      first
      | exact (items_normal h).2.2.1.le
      | exact pathIds_size h

end Zbgp
