import Verif.Lemmas.DebugTypes
import Verif.Lemmas.Utf8
import Verif.Spec.Texts

/-!
# `{:?}` of messages
-/

namespace Zbgp

open Std

mutual

theorem attr_dbg_wf : ∀ x : BgpAttrItem, x.dbg.Wf
  | .Origin x | .ASPath x | .NextHop x | .MED x | .LocalPref x | .AtomicAggregate x | .AggregatorAS x | .CommunityList x
  | .OriginatorID x | .ClusterList x | .MPUpdates x | .MPWithdraws x | .ExtCommunityList x | .LargeCommunityList x
  | .PMSITunnel x | .Connector x | .Unknown x => by
    rw [BgpAttrItem.dbg]; exact Dbg.tuple_wf (by decide) ⟨DebugOk.wf _, trivial⟩
  | .AttrSet asn attrs => by
    rw [BgpAttrItem.dbg]
    exact Dbg.tuple_wf (by decide) ⟨Dbg.record_wf (by simp only [List.map_cons, List.map_nil]; decide) rfl
      ⟨Dbg.num_wf _, attr_dbgs_wf attrs, trivial⟩, trivial⟩

theorem attr_dbgs_wf : ∀ l : List BgpAttrItem, Dbg.Wfs (BgpAttrItem.dbgs l)
  | [] => trivial
  | x :: l => ⟨attr_dbg_wf x, attr_dbgs_wf l⟩

end

mutual

theorem attr_dbg_inj : ∀ x y : BgpAttrItem, x.dbg = y.dbg → x = y
  | .AttrSet asn attrs, y, h => by
    cases y
    case AttrSet asn' attrs' =>
      rw [BgpAttrItem.dbg, BgpAttrItem.dbg] at h
      have h := Dbg.tuple1 h
      simp only [Dbg.struct, List.map_cons, List.map_nil, Dbg.record.injEq, List.cons.injEq, true_and, and_true, Dbg.num_iff,
        Dbg.list.injEq] at h
      rw [h.1, attr_dbgs_inj attrs attrs' h.2]
    all_goals (rw [BgpAttrItem.dbg, BgpAttrItem.dbg] at h; exact absurd h (Dbg.tuple_ne (by decide)))
  | .Origin x, y, h | .ASPath x, y, h | .NextHop x, y, h | .MED x, y, h | .LocalPref x, y, h | .AtomicAggregate x, y, h
  | .AggregatorAS x, y, h | .CommunityList x, y, h | .OriginatorID x, y, h | .ClusterList x, y, h | .MPUpdates x, y, h
  | .MPWithdraws x, y, h | .ExtCommunityList x, y, h | .LargeCommunityList x, y, h | .PMSITunnel x, y, h | .Connector x, y, h
  | .Unknown x, y, h => by
    cases y
    all_goals rw [BgpAttrItem.dbg, BgpAttrItem.dbg] at h
    all_goals first
      | exact absurd h (Dbg.tuple_ne (by decide))
      | exact congrArg _ (DebugOk.inj _ _ (Dbg.tuple1 h))

theorem attr_dbgs_inj : ∀ l m : List BgpAttrItem, BgpAttrItem.dbgs l = BgpAttrItem.dbgs m → l = m
  | [], [], _ => rfl
  | [], _ :: _, h => by simp [BgpAttrItem.dbgs] at h
  | _ :: _, [], h => by simp [BgpAttrItem.dbgs] at h
  | x :: l, y :: m, h => by
    simp only [BgpAttrItem.dbgs, List.cons.injEq] at h
    rw [attr_dbg_inj x y h.1, attr_dbgs_inj l m h.2]

end

instance : DebugOk BgpAttrItem := ⟨attr_dbg_wf, attr_dbg_inj⟩

instance : DebugOk BgpUpdateMessage where
  wf x := Dbg.record_wf (by simp only [List.map_cons, List.map_nil]; decide) rfl ⟨DebugOk.wf _, DebugOk.wf _, attr_dbgs_wf _, trivial⟩
  inj x y h := by
    have h : Dbg.struct _ _ = Dbg.struct _ _ := h
    simp only [Dbg.struct, List.map_cons, List.map_nil, Dbg.record.injEq, List.cons.injEq, true_and, and_true, Dbg.dbg_iff,
      Dbg.list.injEq] at h
    cases x; cases y
    simp only at h
    rw [h.1, h.2.1, attr_dbgs_inj _ _ h.2.2]

/-! ## Strings -/

theorem utf8Chars_char {c : Nat} (h : Spec.Scalar c) (rest : Bytes) : utf8Chars (Spec.utf8Char c ++ rest) = c :: utf8Chars rest := by
  have hb : ∀ n, Spec.be 1 n = [BitVec.ofNat 8 n] := by
    intro n; simp [Spec.be]
  have hc : c < 0x110000 := by rcases h with h | h <;> omega
  unfold Spec.utf8Char
  simp only [hb]
  split
  · rename_i h1
    rw [List.singleton_append, utf8Chars.eq_def]
    simp only
    have : (BitVec.ofNat 8 c).toNat = c := by rw [BitVec.toNat_ofNat]; omega
    rw [this, if_pos (by omega)]
  split
  · rename_i h1 h2
    simp only [List.cons_append, List.nil_append]
    have e1 : (BitVec.ofNat 8 (0xC0 + c / 2 ^ 6)).toNat = 0xC0 + c / 64 := by rw [BitVec.toNat_ofNat]; omega
    have e2 : (BitVec.ofNat 8 (0x80 + c % 2 ^ 6)).toNat = 0x80 + c % 64 := by rw [BitVec.toNat_ofNat]; omega
    rw [utf8Chars.eq_def]
    simp only [e1, e2]
    rw [if_neg (by omega), if_pos (by omega)]
    congr 1; omega
  split
  · rename_i h1 h2 h3
    simp only [List.cons_append, List.nil_append]
    have e1 : (BitVec.ofNat 8 (0xE0 + c / 2 ^ 12)).toNat = 0xE0 + c / 4096 := by rw [BitVec.toNat_ofNat]; omega
    have e2 : (BitVec.ofNat 8 (0x80 + c / 2 ^ 6 % 2 ^ 6)).toNat = 0x80 + c / 64 % 64 := by rw [BitVec.toNat_ofNat]; omega
    have e3 : (BitVec.ofNat 8 (0x80 + c % 2 ^ 6)).toNat = 0x80 + c % 64 := by rw [BitVec.toNat_ofNat]; omega
    rw [utf8Chars.eq_def]
    simp only [e1, e2, e3]
    rw [if_neg (by omega), if_neg (by omega), if_pos (by omega)]
    congr 1; omega
  · rename_i h1 h2 h3
    simp only [List.cons_append, List.nil_append]
    have e0 : (BitVec.ofNat 8 (0xF0 + c / 2 ^ 18)).toNat = 0xF0 + c / 262144 := by rw [BitVec.toNat_ofNat]; omega
    have e1 : (BitVec.ofNat 8 (0x80 + c / 2 ^ 12 % 2 ^ 6)).toNat = 0x80 + c / 4096 % 64 := by rw [BitVec.toNat_ofNat]; omega
    have e2 : (BitVec.ofNat 8 (0x80 + c / 2 ^ 6 % 2 ^ 6)).toNat = 0x80 + c / 64 % 64 := by rw [BitVec.toNat_ofNat]; omega
    have e3 : (BitVec.ofNat 8 (0x80 + c % 2 ^ 6)).toNat = 0x80 + c % 64 := by rw [BitVec.toNat_ofNat]; omega
    rw [utf8Chars.eq_def]
    simp only [e0, e1, e2, e3]
    rw [if_neg (by omega), if_neg (by omega), if_neg (by omega)]
    congr 1; omega

theorem utf8Chars_text {cs : List Nat} (h : ∀ c ∈ cs, Spec.Scalar c) : utf8Chars (cs.flatMap Spec.utf8Char) = cs := by
  induction cs with
  | nil => rfl
  | cons c cs ih => rw [List.flatMap_cons, utf8Chars_char (h c (by simp)), ih fun d hd => h d (by simp [hd])]

theorem string_wf {b : Bytes} (h : Spec.Utf8 b) : (Dbg.string b).Wf := by
  obtain ⟨cs, hc, rfl⟩ := h
  show ∀ c ∈ utf8Chars _, Spec.Scalar c
  rw [utf8Chars_text hc]
  exact hc

theorem string_inj {a b : Bytes} (ha : Spec.Utf8 a) (hb : Spec.Utf8 b) (h : Dbg.string a = Dbg.string b) : a = b := by
  obtain ⟨cs, hc, rfl⟩ := ha
  obtain ⟨ds, hd, rfl⟩ := hb
  simp only [Dbg.string, Dbg.str.injEq] at h
  rw [utf8Chars_text hc, utf8Chars_text hd] at h
  rw [h]

/-! ## OPEN, NOTIFICATION and the session -/

instance : DebugOk BgpCapGR := by dbg_struct
instance : DebugOk BgpCapLLGR := by dbg_struct
instance : DebugOk BgpCapAddPath := by dbg_struct
instance : DebugOk BgpNotificationMessage := by dbg_struct
instance : DebugOk BgpMessageType := by dbg_enum
instance : DebugOk BgpTransportMode := by dbg_enum

theorem cap_wf {c : BgpCapability} (h : Spec.CapTexts c) : (RDebug.dbg c).Wf := by
  cases c
  case CapGR t s afis =>
    exact Dbg.record_wf (by simp only [List.map_cons, List.map_nil]; decide) rfl ⟨Dbg.num_wf _, Dbg.bool_wf _, Dbg.vecd_wf _, trivial⟩
  case CapFQDN a b => exact Dbg.tuple_wf (by decide) ⟨string_wf h.1, string_wf h.2, trivial⟩
  all_goals first
    | exact Dbg.unit_wf (by decide)
    | exact Dbg.tuple_wf (by decide) ⟨Dbg.num_wf _, trivial⟩
    | exact Dbg.tuple_wf (by decide) ⟨Dbg.vecd_wf _, trivial⟩

/-- The name a value begins with, and whether it is a `debug_struct`. -/
def Dbg.tag : Dbg → Txt × Bool
  | .record n _ _ => (n.toList, true)
  | t => (t.lead, false)

theorem cap_inj {c d : BgpCapability} (hc : Spec.CapTexts c) (hd : Spec.CapTexts d) (h : RDebug.dbg c = RDebug.dbg d) : c = d := by
  cases c <;> cases d
  case CapGR.CapGR t s afis t' s' afis' =>
    have h : Dbg.struct _ _ = Dbg.struct _ _ := h
    simp only [Dbg.struct, List.map_cons, List.map_nil, Dbg.record.injEq, List.cons.injEq, true_and, and_true, Dbg.num_iff,
      Dbg.bool_iff, Dbg.vecd_iff] at h
    rw [h.1, h.2.1, h.2.2]
  case CapFQDN.CapFQDN a b a' b' =>
    have h : Dbg.tuple _ _ = Dbg.tuple _ _ := h
    simp only [Dbg.tuple.injEq, List.cons.injEq, true_and, and_true] at h
    rw [string_inj hc.1 hd.1 h.1, string_inj hc.2 hd.2 h.2]
  all_goals first
    | rfl
    | exact absurd h (Dbg.tuple_ne (by decide))
    | exact absurd h Dbg.unit_ne_tuple
    | exact absurd h Dbg.tuple_ne_unit
    | exact absurd h (Dbg.unit_ne (by decide))
    | exact congrArg _ (Dbg.num_iff.1 (Dbg.tuple1 h))
    | exact congrArg _ (Dbg.vecd_iff.1 (Dbg.tuple1 h))
    | exact absurd (congrArg (fun t => (Dbg.tag t).2) h) (by decide)
    | exact absurd (show true = false from congrArg (fun t => (Dbg.tag t).2) h) (by decide)
    | exact absurd (show false = true from congrArg (fun t => (Dbg.tag t).2) h) (by decide)

theorem caps_wf {l : List BgpCapability} (h : ∀ c ∈ l, Spec.CapTexts c) : (Dbg.vec RDebug.dbg l).Wf := Dbg.wfs_map fun c hc => cap_wf (h c hc)
theorem caps_inj {l m : List BgpCapability} (hl : ∀ c ∈ l, Spec.CapTexts c) (hm : ∀ c ∈ m, Spec.CapTexts c)
    (h : Dbg.vec RDebug.dbg l = Dbg.vec RDebug.dbg m) : l = m := by
  simp only [Dbg.vec, Dbg.list.injEq] at h
  exact Dbg.map_inj_on (P := Spec.CapTexts) (fun x y hx hy => cap_inj hx hy) hl hm h

theorem open_wf {m : BgpOpenMessage} (h : Spec.OpenTexts m) : (RDebug.dbg m).Wf :=
  Dbg.record_wf (by simp only [List.map_cons, List.map_nil]; decide) rfl ⟨Dbg.num_wf _, Dbg.num_wf _, Dbg.v4_wf _, caps_wf h, trivial⟩

theorem open_inj {m n : BgpOpenMessage} (hm : Spec.OpenTexts m) (hn : Spec.OpenTexts n) (h : RDebug.dbg m = RDebug.dbg n) : m = n := by
  have h : Dbg.struct _ _ = Dbg.struct _ _ := h
  simp only [Dbg.struct, List.map_cons, List.map_nil, Dbg.record.injEq, List.cons.injEq, true_and, and_true, Dbg.num_iff, Dbg.v4_iff] at h
  have := caps_inj hm hn h.2.2.2
  cases m; cases n
  simp only at h this
  rw [h.1, h.2.1, h.2.2.1, this]

theorem params_wf {p : BgpSessionParams} (h : ∀ c ∈ p.caps, Spec.CapTexts c) : (RDebug.dbg p).Wf :=
  Dbg.record_wf (by simp only [List.map_cons, List.map_nil]; decide) rfl
    ⟨Dbg.num_wf _, Dbg.num_wf _, DebugOk.wf _, Dbg.bool_wf _, Dbg.v4_wf _, caps_wf h, Dbg.bool_wf _, trivial⟩

theorem params_inj {p q : BgpSessionParams} (hp : ∀ c ∈ p.caps, Spec.CapTexts c) (hq : ∀ c ∈ q.caps, Spec.CapTexts c)
    (h : RDebug.dbg p = RDebug.dbg q) : p = q := by
  have h : Dbg.struct _ _ = Dbg.struct _ _ := h
  simp only [Dbg.struct, List.map_cons, List.map_nil, Dbg.record.injEq, List.cons.injEq, true_and, and_true, Dbg.num_iff, Dbg.v4_iff,
    Dbg.bool_iff, Dbg.dbg_iff] at h
  have := caps_inj hp hq h.2.2.2.2.2.1
  cases p; cases q
  simp only at h this
  simp only [h, this]

/-! ## BMP -/

instance : DebugOk BmpMessagePeerHeader := by dbg_struct
instance : DebugOk BmpMessageRouteMonitoring := by dbg_struct
instance : DebugOk BmpMessagePeerDownReason := by dbg_enum
instance : DebugOk BmpMessagePeerDown := by dbg_struct
instance : DebugOk BgpSessionKey := by dbg_struct

theorem optText_wf {x : Option Bytes} (h : Spec.OptText x) : (Dbg.opt Dbg.string x).Wf := Dbg.opt_wf x fun y hy => string_wf (h y hy)
theorem optText_inj {x y : Option Bytes} (hx : Spec.OptText x) (hy : Spec.OptText y) (h : Dbg.opt Dbg.string x = Dbg.opt Dbg.string y) : x = y :=
  Dbg.opt_inj (fun a b ha hb => string_inj (hx a ha) (hy b hb)) h

theorem bmp_wf {m : BmpMessage} (h : Spec.BmpTexts m) : (RDebug.dbg m).Wf := by
  cases m with
  | RouteMonitoring m => exact Dbg.tuple_wf (by decide) ⟨DebugOk.wf m, trivial⟩
  | StatisticsReport => exact Dbg.unit_wf (by decide)
  | PeerDownNotification m => exact Dbg.tuple_wf (by decide) ⟨DebugOk.wf m, trivial⟩
  | PeerUpNotification m =>
    exact Dbg.tuple_wf (by decide) ⟨Dbg.record_wf (by simp only [List.map_cons, List.map_nil]; decide) rfl
      ⟨DebugOk.wf _, Dbg.ip_wf _, Dbg.num_wf _, Dbg.num_wf _, open_wf h.1, open_wf h.2, trivial⟩, trivial⟩
  | Initiation m =>
    exact Dbg.tuple_wf (by decide) ⟨Dbg.record_wf (by simp only [List.map_cons, List.map_nil]; decide) rfl
      ⟨optText_wf h.1, optText_wf h.2.1, optText_wf h.2.2, trivial⟩, trivial⟩
  | Termination m =>
    exact Dbg.tuple_wf (by decide) ⟨Dbg.record_wf (by simp only [List.map_cons, List.map_nil]; decide) rfl
      ⟨optText_wf h, Dbg.optn_wf _, trivial⟩, trivial⟩
  | RouteMirroring => exact Dbg.unit_wf (by decide)

theorem bmp_inj {m n : BmpMessage} (hm : Spec.BmpTexts m) (hn : Spec.BmpTexts n) (h : RDebug.dbg m = RDebug.dbg n) : m = n := by
  cases m <;> cases n
  case PeerUpNotification.PeerUpNotification m n =>
    have h : Dbg.struct _ _ = Dbg.struct _ _ := Dbg.tuple1 h
    simp only [Dbg.struct, List.map_cons, List.map_nil, Dbg.record.injEq, List.cons.injEq, true_and, and_true, Dbg.num_iff, Dbg.ip_iff,
      Dbg.dbg_iff] at h
    have h1 := open_inj hm.1 hn.1 h.2.2.2.2.1
    have h2 := open_inj hm.2 hn.2 h.2.2.2.2.2
    cases m; cases n
    simp only at h h1 h2
    simp only [h, h1, h2]
  case Initiation.Initiation m n =>
    have h : Dbg.struct _ _ = Dbg.struct _ _ := Dbg.tuple1 h
    simp only [Dbg.struct, List.map_cons, List.map_nil, Dbg.record.injEq, List.cons.injEq, true_and, and_true] at h
    have h1 := optText_inj hm.1 hn.1 h.1
    have h2 := optText_inj hm.2.1 hn.2.1 h.2.1
    have h3 := optText_inj hm.2.2 hn.2.2 h.2.2
    cases m; cases n
    simp only at h1 h2 h3
    simp only [h1, h2, h3]
  case Termination.Termination m n =>
    have h : Dbg.struct _ _ = Dbg.struct _ _ := Dbg.tuple1 h
    simp only [Dbg.struct, List.map_cons, List.map_nil, Dbg.record.injEq, List.cons.injEq, true_and, and_true, Dbg.optn_iff] at h
    have h1 := optText_inj hm hn h.1
    cases m; cases n
    simp only at h h1
    simp only [h, h1]
  all_goals first
    | rfl
    | exact absurd h (Dbg.tuple_ne (by decide))
    | exact absurd h Dbg.unit_ne_tuple
    | exact absurd h Dbg.tuple_ne_unit
    | exact absurd h (Dbg.unit_ne (by decide))
    | exact congrArg _ (DebugOk.inj _ _ (Dbg.tuple1 h))

/-- Texts of values that can be read back are equal only for equal values. -/
theorem render_inj (u : UnicodeTables) {t v : Dbg} (ht : t.Wf) (hv : v.Wf) (h : t.render u = v.render u) : t = v :=
  (Dbg.split u (r := []) (s := []) ht hv (.inl rfl) (.inl rfl) (by simpa using h)).1

theorem debugText_inj {T : Type} [RDebug T] [DebugOk T] (u : UnicodeTables) {x y : T} (h : debugText u x = debugText u y) : x = y :=
  DebugOk.inj x y (render_inj u (DebugOk.wf x) (DebugOk.wf y) h)

/-! ## Lines -/

theorem plain_noLf {s : Txt} (h : s.all plainChar = true) : '\n' ∉ s := fun m => by
  have := List.all_eq_true.1 h _ m
  revert this; decide

theorem escape_noLf (u : UnicodeTables) {c : Nat} (hc : Spec.Scalar c) : '\n' ∉ escapeDebug u c := by
  rcases escape_cases u hc with ⟨e, _⟩ | ⟨e, _⟩ | ⟨e, _⟩ | ⟨e, _⟩ | ⟨e, _⟩ | ⟨e, _⟩ | e | ⟨x, e, h1, h2, h3, h4⟩ <;> rw [e]
  all_goals first
    | decide
    | (simp only [List.mem_cons, List.mem_append, List.not_mem_nil, or_false, not_or]
       refine ⟨by decide, by decide, by decide, nm_hex (by decide), by decide⟩)
    | (simp only [List.mem_cons, List.not_mem_nil, or_false]; exact fun h => h3 h.symm)

mutual

theorem render_noLf (u : UnicodeTables) : ∀ {t : Dbg}, t.Wf → '\n' ∉ t.render u
  | .atom s, h => plain_noLf h.2
  | .str cs, h => by
    simp only [Dbg.render, List.cons_append, List.mem_cons, List.mem_append, List.mem_flatMap, List.not_mem_nil, or_false, not_or,
      not_exists, not_and]
    exact ⟨by decide, fun c hc => escape_noLf u (h c hc), by decide⟩
  | .record n fs vs, h => by
    simp only [Dbg.render, List.mem_append, not_or]
    exact ⟨plain_noLf h.2.1, fields_noLf u h.2.2.2.2.1 h.2.2.2.2.2⟩
  | .tuple n vs, h => by
    simp only [Dbg.render, List.mem_append, List.mem_cons, List.not_mem_nil, or_false, not_or]
    exact ⟨⟨plain_noLf h.2.1, by decide, seq_noLf u h.2.2⟩, by decide⟩
  | .list vs, h => by
    simp only [Dbg.render, List.cons_append, List.mem_append, List.mem_cons, List.not_mem_nil, or_false, not_or]
    exact ⟨by decide, seq_noLf u h, by decide⟩
  | .set vs, h => by
    simp only [Dbg.render, List.cons_append, List.mem_append, List.mem_cons, List.not_mem_nil, or_false, not_or]
    exact ⟨by decide, seq_noLf u h, by decide⟩

theorem fields_noLf (u : UnicodeTables) : ∀ {first : Bool} {fs : List String} {vs : List Dbg},
    (fs.all fun f => f.toList.all fun c => plainChar c && c != ':') = true → Dbg.Wfs vs → '\n' ∉ Dbg.renderFields u first fs vs
  | first, f :: fs, v :: vs, hf, hv => by
    simp only [List.all_cons, Bool.and_eq_true] at hf
    have hn : '\n' ∉ f.toList := fun m => by
      have := List.all_eq_true.1 hf.1 _ m
      revert this; decide
    simp only [Dbg.renderFields, List.mem_append, not_or]
    exact ⟨⟨⟨⟨by cases first <;> decide, hn⟩, by decide⟩, render_noLf u hv.1⟩, fields_noLf u hf.2 hv.2⟩
  | first, [], [], _, _ => by cases first <;> (simp only [Dbg.renderFields]; decide)
  | first, f :: fs, [], _, _ => by cases first <;> (simp only [Dbg.renderFields]; decide)
  | first, [], v :: vs, _, _ => by cases first <;> (simp only [Dbg.renderFields]; decide)

theorem seq_noLf (u : UnicodeTables) : ∀ {first : Bool} {vs : List Dbg}, Dbg.Wfs vs → '\n' ∉ Dbg.renderSeq u first vs
  | first, [], _ => by simp [Dbg.renderSeq]
  | first, v :: vs, h => by
    simp only [Dbg.renderSeq, List.mem_append, not_or]
    exact ⟨⟨by cases first <;> decide, render_noLf u h.1⟩, seq_noLf u h.2⟩

end

/-- Lines without line feeds are seen in the text they make. -/
theorem lines_inj : ∀ {l m : List Txt}, (∀ s ∈ l, '\n' ∉ s) → (∀ s ∈ m, '\n' ∉ s) →
    l.flatMap (· ++ ['\n']) = m.flatMap (· ++ ['\n']) → l = m
  | [], [], _, _, _ => rfl
  | [], s :: m, _, _, h => by simp at h
  | s :: l, [], _, _, h => by simp at h
  | s :: l, t :: m, hl, hm, h => by
    simp only [List.flatMap_cons, List.append_assoc, List.singleton_append] at h
    obtain ⟨h1, h2⟩ := sep (hl s (by simp)) (hm t (by simp)) h
    rw [h1, lines_inj (fun x hx => hl x (by simp [hx])) (fun x hx => hm x (by simp [hx])) h2]

theorem char_scalar (c : Char) : Spec.Scalar c.toNat := by
  rcases c.valid with h | h
  · exact .inl h
  · exact .inr ⟨by have := h.1; simp only [Char.toNat]; omega, h.2⟩

theorem errorText_wf (m : BgpNotificationMessage) : (Dbg.str (m.errorText.map Char.toNat)).Wf := by
  intro c hc
  obtain ⟨d, _, rfl⟩ := List.mem_map.1 hc
  exact char_scalar d

/-- The lines of the two kinds of messages. -/
def toldLine (u : UnicodeTables) : BgpNotificationMessage ⊕ BgpUpdateMessage → Txt
  | .inl m => m.dumperLine u
  | .inr m => debugText u m

theorem filterMap_line (u : UnicodeTables) : ∀ l : List DumperEvent, l.filterMap (DumperEvent.line u) = (Spec.told l).map (toldLine u)
  | [] => rfl
  | .incorrectOpen :: l => filterMap_line u l
  | .notificationError _ :: l => filterMap_line u l
  | .updateError _ :: l => filterMap_line u l
  | .notification m :: l => congrArg (List.cons (m.dumperLine u)) (filterMap_line u l)
  | .update m :: l => congrArg (List.cons (debugText u m)) (filterMap_line u l)

theorem dumperLine_eq (u : UnicodeTables) (m : BgpNotificationMessage) : m.dumperLine u =
    "BGP notification: ".toList ++ (debugText u m ++ (" - ".toList ++ Dbg.render u (.str (m.errorText.map Char.toNat)))) := rfl

theorem dumperLine_noLf (u : UnicodeTables) (m : BgpNotificationMessage) : '\n' ∉ m.dumperLine u := by
  rw [dumperLine_eq]
  simp only [List.mem_append, not_or]
  exact ⟨by decide, render_noLf u (DebugOk.wf m), by decide, render_noLf u (errorText_wf m)⟩

theorem toldLine_noLf (u : UnicodeTables) : ∀ x : BgpNotificationMessage ⊕ BgpUpdateMessage, '\n' ∉ toldLine u x
  | .inl m => dumperLine_noLf u m
  | .inr m => render_noLf u (DebugOk.wf m)

theorem dumperLine_inj (u : UnicodeTables) {m n : BgpNotificationMessage} (h : m.dumperLine u = n.dumperLine u) : m = n := by
  rw [dumperLine_eq, dumperLine_eq] at h
  have h := List.append_cancel_left h
  have e : ∀ m : BgpNotificationMessage, debugText u m = "BgpNotificationMessage".toList ++ Dbg.renderFields u true ["error_code", "error_subcode", "data"]
    [.num m.errorCode, .num m.errorSubcode, .num m.data] := fun m => Dbg.render.eq_3 u _ _ _
  rw [e m, e n, List.append_assoc, List.append_assoc] at h
  have h := List.append_cancel_left h
  have w : ∀ m : BgpNotificationMessage, Dbg.Wfs [.num m.errorCode, .num m.errorSubcode, .num m.data] := fun m =>
    ⟨Dbg.num_wf _, Dbg.num_wf _, Dbg.num_wf _, trivial⟩
  obtain ⟨_, h2, _⟩ := Dbg.splitFields u rfl rfl (by decide) (by decide) (w m) (w n) true (by simp) (by simp) h
  simp only [List.cons.injEq, Dbg.num_iff, and_true] at h2
  cases m; cases n
  simp only at h2
  simp only [h2]

theorem second_update (u : UnicodeTables) (m : BgpUpdateMessage) : (debugText u m)[1]? = some 'g' := by
  have e : debugText u m = "BgpUpdateMessage".toList ++ _ := Dbg.render.eq_3 u _ _ _
  rw [e, List.getElem?_append_left (by decide)]
  decide

theorem second_notification (u : UnicodeTables) (m : BgpNotificationMessage) : (m.dumperLine u)[1]? = some 'G' := by
  rw [dumperLine_eq, List.getElem?_append_left (by decide)]
  decide

theorem toldLine_inj (u : UnicodeTables) : ∀ {x y : BgpNotificationMessage ⊕ BgpUpdateMessage}, toldLine u x = toldLine u y → x = y
  | .inl m, .inl n, h => congrArg _ (dumperLine_inj u h)
  | .inl m, .inr n, h => absurd (second_notification u m) (by rw [show m.dumperLine u = debugText u n from h, second_update]; decide)
  | .inr m, .inl n, h => absurd (second_notification u n) (by rw [show n.dumperLine u = debugText u m from h.symm, second_update]; decide)
  | .inr m, .inr n, h => congrArg _ (debugText_inj u h)

end Zbgp
