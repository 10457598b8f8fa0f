import Verif.Lemmas.Debug
import Verif.Lemmas.DisplayRoutes

/-!
# Every type tells the formatter all it holds
-/

namespace Zbgp

open Std

/-- The values told to the formatter are of the form that can be read back, and different for different values. -/
class DebugOk (T : Type) [RDebug T] : Prop where
  wf : ∀ x : T, (RDebug.dbg x).Wf
  inj : ∀ x y : T, RDebug.dbg x = RDebug.dbg y → x = y

namespace Dbg

theorem dbg_iff {T : Type} [RDebug T] [DebugOk T] {x y : T} : RDebug.dbg x = RDebug.dbg y ↔ x = y :=
  ⟨DebugOk.inj x y, fun h => h ▸ rfl⟩

theorem plain_of {s : Txt} (h : ∀ c ∈ " ,()[]{}\"\n".toList, c ∉ s) : s.all plainChar = true := by
  rw [List.all_eq_true]
  intro c hc
  by_contra hp
  have : c ∈ " ,()[]{}\"\n".toList := by
    simp only [plainChar, Bool.not_eq_true, Bool.not_eq_false', List.contains_iff_mem] at hp
    exact hp
  exact h c this hc

theorem plainMarks_hex : ∀ c ∈ " ,()[]{}\"\n".toList, c ∉ ':' :: '.' :: lowerHex := by decide

theorem num_wf {w : Nat} (x : BitVec w) : (num x).Wf :=
  ⟨toDigits_ne_nil 10 _, plain_of fun c hc => nm_dec fun m => plainMarks_hex c hc (by simp [m])⟩
theorem num_iff {w : Nat} {x y : BitVec w} : num x = num y ↔ x = y :=
  ⟨fun h => decU_inj (by simpa [num] using h), fun h => h ▸ rfl⟩

theorem bool_wf (b : Bool) : (bool b).Wf := by cases b <;> exact ⟨by decide, by decide⟩
theorem bool_iff {a b : Bool} : bool a = bool b ↔ a = b := by
  refine ⟨fun h => ?_, fun h => h ▸ rfl⟩
  cases a <;> cases b <;> first | rfl | (simp only [bool, Dbg.atom.injEq] at h; revert h; decide)

theorem showV4_ne_nil (a : IPv4) : showV4 a ≠ [] := showIp_ne_nil (.v4 a)
theorem showV6_ne_nil (a : IPv6) : showV6 a ≠ [] := showIp_ne_nil (.v6 a)

theorem v4_wf (a : IPv4) : (v4 a).Wf :=
  ⟨showV4_ne_nil a, plain_of fun c hc => nm_showV4 fun m => plainMarks_hex c hc (List.mem_cons_of_mem _ m)⟩
theorem v4_iff {a b : IPv4} : v4 a = v4 b ↔ a = b := ⟨fun h => showV4_inj (by simpa [v4] using h), fun h => h ▸ rfl⟩

theorem v6_wf (a : IPv6) : (v6 a).Wf := ⟨showV6_ne_nil a, plain_of fun c hc => nm_showV6 (plainMarks_hex c hc)⟩
theorem v6_iff {a b : IPv6} : v6 a = v6 b ↔ a = b := ⟨fun h => showV6_inj (by simpa [v6] using h), fun h => h ▸ rfl⟩

theorem ip_wf (a : IpAddr) : (ip a).Wf := by
  cases a with
  | v4 a => exact v4_wf a
  | v6 a => exact v6_wf a
theorem ip_iff {a b : IpAddr} : ip a = ip b ↔ a = b := ⟨fun h => showIp_inj (by simpa [ip] using h), fun h => h ▸ rfl⟩

theorem wfs_map {T : Type} {d : T → Dbg} {l : List T} (h : ∀ x ∈ l, (d x).Wf) : Wfs (l.map d) := by
  induction l with
  | nil => trivial
  | cons x l ih => exact ⟨h x (by simp), ih fun y hy => h y (by simp [hy])⟩

theorem map_inj_on {T : Type} {d : T → Dbg} {P : T → Prop} (hd : ∀ x y, P x → P y → d x = d y → x = y) :
    ∀ {l m : List T}, (∀ x ∈ l, P x) → (∀ x ∈ m, P x) → l.map d = m.map d → l = m
  | [], [], _, _, _ => rfl
  | [], _ :: _, _, _, h => by simp at h
  | _ :: _, [], _, _, h => by simp at h
  | x :: l, y :: m, hl, hm, h => by
    simp only [List.map_cons, List.cons.injEq] at h
    rw [hd x y (hl x (by simp)) (hm y (by simp)) h.1,
      map_inj_on hd (fun z hz => hl z (by simp [hz])) (fun z hz => hm z (by simp [hz])) h.2]

theorem vec_wf {T : Type} {d : T → Dbg} (h : ∀ x, (d x).Wf) (l : List T) : (vec d l).Wf := wfs_map fun x _ => h x
theorem bset_wf {T : Type} {d : T → Dbg} (h : ∀ x, (d x).Wf) (l : List T) : (bset d l).Wf := wfs_map fun x _ => h x
theorem vecn_wf {w : Nat} (l : List (BitVec w)) : (vec num l).Wf := vec_wf num_wf l
theorem vecip_wf (l : List IpAddr) : (vec ip l).Wf := vec_wf ip_wf l
theorem vecd_wf {T : Type} [RDebug T] [DebugOk T] (l : List T) : (vec RDebug.dbg l).Wf := vec_wf DebugOk.wf l
theorem bsetd_wf {T : Type} [RDebug T] [DebugOk T] (l : List T) : (bset RDebug.dbg l).Wf := bset_wf DebugOk.wf l

theorem vec_iff {T : Type} {d : T → Dbg} (hd : ∀ x y, d x = d y → x = y) {l m : List T} : vec d l = vec d m ↔ l = m := by
  refine ⟨fun h => ?_, fun h => h ▸ rfl⟩
  simp only [vec, Dbg.list.injEq] at h
  exact map_inj_on (P := fun _ => True) (fun x y _ _ => hd x y) (fun _ _ => trivial) (fun _ _ => trivial) h
theorem vecn_iff {w : Nat} {l m : List (BitVec w)} : vec num l = vec num m ↔ l = m := vec_iff fun _ _ => num_iff.1
theorem vecip_iff {l m : List IpAddr} : vec ip l = vec ip m ↔ l = m := vec_iff fun _ _ => ip_iff.1
theorem vecd_iff {T : Type} [RDebug T] [DebugOk T] {l m : List T} : vec RDebug.dbg l = vec RDebug.dbg m ↔ l = m := vec_iff DebugOk.inj
theorem bsetd_iff {T : Type} [RDebug T] [DebugOk T] {l m : List T} : bset RDebug.dbg l = bset RDebug.dbg m ↔ l = m := by
  refine ⟨fun h => ?_, fun h => h ▸ rfl⟩
  simp only [bset, Dbg.set.injEq] at h
  exact map_inj_on (P := fun _ => True) (fun x y _ _ => DebugOk.inj x y) (fun _ _ => trivial) (fun _ _ => trivial) h

theorem opt_wf {T : Type} {d : T → Dbg} (x : Option T) (h : ∀ y, x = some y → (d y).Wf) : (opt d x).Wf := by
  cases x with
  | none => exact ⟨by decide, by decide⟩
  | some y => exact ⟨by decide, by decide, h y rfl, trivial⟩
theorem optip_wf (x : Option IpAddr) : (opt ip x).Wf := opt_wf x fun y _ => ip_wf y
theorem optn_wf {w : Nat} (x : Option (BitVec w)) : (opt num x).Wf := opt_wf x fun y _ => num_wf y
theorem opt_inj {T : Type} {d : T → Dbg} {x y : Option T} (hd : ∀ a b, x = some a → y = some b → d a = d b → a = b)
    (h : opt d x = opt d y) : x = y := by
  cases x with
  | none => cases y with
    | none => rfl
    | some b => simp [opt, unit] at h
  | some a => cases y with
    | none => simp [opt, unit] at h
    | some b =>
      simp only [opt, Dbg.tuple.injEq, List.cons.injEq, true_and, and_true] at h
      rw [hd a b rfl rfl h]
theorem optip_iff {x y : Option IpAddr} : opt ip x = opt ip y ↔ x = y := ⟨opt_inj fun _ _ _ _ => ip_iff.1, fun h => h ▸ rfl⟩
theorem optn_iff {w : Nat} {x y : Option (BitVec w)} : opt num x = opt num y ↔ x = y := ⟨opt_inj fun _ _ _ _ => num_iff.1, fun h => h ▸ rfl⟩

/-- The names of a `debug_struct` are words. -/
def namesOk (name : String) (fs : List String) : Bool :=
  !name.toList.isEmpty && name.toList.all plainChar && !fs.isEmpty && fs.all fun f => f.toList.all fun c => plainChar c && c != ':'

theorem record_wf {name : String} {fs : List String} {vs : List Dbg} (h : namesOk name fs = true) (hl : fs.length = vs.length) (hv : Wfs vs) :
    (Dbg.record name fs vs).Wf := by
  simp only [namesOk, Bool.and_eq_true, Bool.not_eq_true', List.isEmpty_eq_false_iff] at h
  exact ⟨h.1.1.1, h.1.1.2, h.1.2, hl, h.2, hv⟩

def nameOk (name : String) : Bool := !name.toList.isEmpty && name.toList.all plainChar

theorem tuple_wf {name : String} {vs : List Dbg} (h : nameOk name = true) (hv : Wfs vs) : (Dbg.tuple name vs).Wf := by
  simp only [nameOk, Bool.and_eq_true, Bool.not_eq_true', List.isEmpty_eq_false_iff] at h
  exact ⟨h.1, h.2, hv⟩

theorem unit_wf {name : String} (h : nameOk name = true) : (Dbg.unit name).Wf := by
  simp only [nameOk, Bool.and_eq_true, Bool.not_eq_true', List.isEmpty_eq_false_iff] at h
  exact ⟨h.1, h.2⟩

theorem unit_ne {a b : String} (h : a ≠ b) : Dbg.unit a ≠ Dbg.unit b := fun e => h (string_toList_inj (by simpa [Dbg.unit] using e))
theorem unit_ne_tuple {a b : String} {vs : List Dbg} : Dbg.unit a ≠ Dbg.tuple b vs := by simp [Dbg.unit]
theorem tuple_ne_unit {a b : String} {vs : List Dbg} : Dbg.tuple b vs ≠ Dbg.unit a := by simp [Dbg.unit]
theorem tuple_ne {a b : String} {vs ws : List Dbg} (h : a ≠ b) : Dbg.tuple a vs ≠ Dbg.tuple b ws := fun e => h (by simp at e; exact e.1)
theorem tuple1 {a : String} {v w : Dbg} (h : Dbg.tuple a [v] = Dbg.tuple a [w]) : v = w := by simpa using h

end Dbg

open Dbg in
/-- A `debug_struct` of known fields. -/
macro "dbg_struct" : tactic => `(tactic|
  (constructor
   · intro x
     show Dbg.Wf (Dbg.struct _ _)
     simp only [Dbg.struct, List.map_cons, List.map_nil]
     refine Dbg.record_wf (by decide) rfl ?_
     simp only [Dbg.Wfs, Dbg.num_wf, Dbg.bool_wf, Dbg.v4_wf, Dbg.v6_wf, Dbg.ip_wf, Dbg.vecn_wf, Dbg.vecip_wf, Dbg.vecd_wf, Dbg.bsetd_wf,
       Dbg.optip_wf, Dbg.optn_wf, DebugOk.wf, and_true, true_and]
   · intro x y h
     have h : Dbg.struct _ _ = Dbg.struct _ _ := h
     simp only [Dbg.struct, List.map_cons, List.map_nil, Dbg.record.injEq, List.cons.injEq, true_and, and_true, Dbg.num_iff,
       Dbg.bool_iff, Dbg.v4_iff, Dbg.v6_iff, Dbg.ip_iff, Dbg.vecn_iff, Dbg.vecip_iff, Dbg.vecd_iff, Dbg.bsetd_iff, Dbg.optip_iff, Dbg.optn_iff,
       Dbg.dbg_iff] at h
     cases x; cases y; simp only at h; simp only [h]))

/-- A derived `Debug` of variants with one field or none. -/
macro "dbg_enum" : tactic => `(tactic|
  (constructor
   · intro x
     cases x
     all_goals first
       | exact Dbg.unit_wf (by decide)
       | exact Dbg.tuple_wf (by decide) ⟨DebugOk.wf _, trivial⟩
       | exact Dbg.tuple_wf (by decide) ⟨Dbg.v4_wf _, trivial⟩
       | exact Dbg.tuple_wf (by decide) ⟨Dbg.v6_wf _, trivial⟩
       | exact Dbg.tuple_wf (by decide) ⟨Dbg.num_wf _, trivial⟩
       | exact Dbg.tuple_wf (by decide) ⟨Dbg.vecd_wf _, trivial⟩
   · intro x y h
     cases x <;> cases y
     all_goals first
       | rfl
       | exact absurd h (Dbg.tuple_ne (by decide))
       | exact absurd h Dbg.unit_ne_tuple
       | exact absurd h Dbg.tuple_ne_unit
       | exact absurd h (Dbg.unit_ne (by decide))
       | exact congrArg _ (DebugOk.inj _ _ (Dbg.tuple1 h))
       | exact congrArg _ (Dbg.v4_iff.1 (Dbg.tuple1 h))
       | exact congrArg _ (Dbg.v6_iff.1 (Dbg.tuple1 h))
       | exact congrArg _ (Dbg.num_iff.1 (Dbg.tuple1 h))
       | exact congrArg _ (Dbg.vecd_iff.1 (Dbg.tuple1 h))))

instance : DebugOk BgpAddrV4 := by dbg_struct
instance : DebugOk BgpAddrV6 := by dbg_struct

instance : DebugOk MacAddress where
  wf x := by
    refine ⟨fun h => ?_, ?_⟩
    · have := mac_length x; rw [h] at this; simp at this
    · refine Dbg.plain_of fun c hc m => Dbg.plainMarks_hex c hc ?_
      simp only [MacAddress.display, List.cons_append, List.append_assoc, List.mem_append, List.mem_cons] at m
      have hx : ∀ {n : Nat}, c ∈ hex2 n → c ∈ ':' :: '.' :: lowerHex := fun h => by simp [(mem_hex2 h).mem]
      have hd : c = ':' → c ∈ ':' :: '.' :: lowerHex := fun h => by simp [h]
      rcases m with m | m | m | m | m | m | m | m | m | m | m <;> first | exact hx m | exact hd m
  inj x y h := mac_inj (by simpa [RDebug.dbg] using h)

instance : DebugOk BgpAddrMac := by dbg_struct
instance : DebugOk BgpNet := by dbg_enum
instance : DebugOk BgpRD := by dbg_struct
instance : DebugOk MplsLabels := by dbg_struct
instance {T : Type} [RDebug T] [DebugOk T] : DebugOk (Labeled T) := by dbg_struct
instance {T : Type} [RDebug T] [DebugOk T] : DebugOk (WithRd T) := by dbg_struct
instance {T : Type} [RDebug T] [DebugOk T] : DebugOk (WithPathId T) := by dbg_struct
instance : DebugOk BgpIPv4RD := by dbg_struct
instance : DebugOk BgpIPv6RD := by dbg_struct
instance : DebugOk BgpMdtV4 := by dbg_struct
instance : DebugOk BgpMdtV6 := by dbg_struct
instance : DebugOk BgpAddrL2 := by dbg_struct
instance : DebugOk BgpL2 := by dbg_struct
instance : DebugOk BgpMVPN1 := by dbg_struct
instance : DebugOk BgpMVPN2 := by dbg_struct
instance : DebugOk BgpMVPN3 := by dbg_struct
instance : DebugOk BgpMVPN4 := by dbg_struct
instance : DebugOk BgpMVPN5 := by dbg_struct
instance : DebugOk BgpMVPN67 := by dbg_struct
instance : DebugOk BgpMVPN := by dbg_enum

instance : DebugOk EVPNESI where
  wf x := Dbg.record_wf (by simp only [List.map_cons, List.map_nil]; decide) rfl ⟨Dbg.vecn_wf _, trivial⟩
  inj x y h := by
    have h : Dbg.struct _ _ = Dbg.struct _ _ := h
    simp only [Dbg.struct, List.map_cons, List.map_nil, Dbg.record.injEq, List.cons.injEq, true_and, and_true, Dbg.vecn_iff] at h
    cases x; cases y
    simp only at h
    exact congrArg _ (Vector.toList_inj.1 h)

instance : DebugOk BgpEVPN1 := by dbg_struct
instance : DebugOk BgpEVPN2 := by dbg_struct
instance : DebugOk BgpEVPN3 := by dbg_struct
instance : DebugOk BgpEVPN4 := by dbg_struct
instance : DebugOk BgpEVPN5 := by dbg_struct
instance : DebugOk BgpEVPN := by dbg_enum
instance : DebugOk FS6 := by dbg_struct
instance : DebugOk FSV4U := by dbg_struct
instance : DebugOk FSOperValItem := by dbg_struct
instance : DebugOk FSOperMaskItem := by dbg_struct
instance {T : Type} [RDebug T] [DebugOk T] : DebugOk (FSOperVec T) := by dbg_struct
instance {T : Type} [RDebug T] [DebugOk T] : DebugOk (BgpFlowSpec T) := by dbg_enum
instance : DebugOk BgpAddrs := by dbg_enum
instance : DebugOk BgpAddr := by dbg_enum
instance : DebugOk BgpAttrParams := by dbg_struct
instance : DebugOk BgpAttrOrigin := by dbg_enum
instance : DebugOk BgpOrigin := by dbg_struct
instance : DebugOk BgpAS := by dbg_struct
instance : DebugOk BgpASpath := by dbg_struct
instance : DebugOk BgpNextHop := by dbg_struct
instance : DebugOk BgpMED := by dbg_struct
instance : DebugOk BgpLocalpref := by dbg_struct
instance : DebugOk BgpAtomicAggregate := by dbg_struct
instance : DebugOk BgpAggregatorAS := by dbg_struct
instance : DebugOk BgpCommunity := by dbg_struct
instance : DebugOk BgpCommunityList := by dbg_struct
instance : DebugOk BgpOriginatorID := by dbg_struct
instance : DebugOk BgpClusterList := by dbg_struct
instance : DebugOk BgpMPUpdates := by dbg_struct
instance : DebugOk BgpMPWithdraws := by dbg_struct
instance : DebugOk BgpExtCommunity := by dbg_struct
instance : DebugOk BgpExtCommunityList := by dbg_struct
instance : DebugOk BgpLargeCommunity := by dbg_struct
instance : DebugOk BgpLargeCommunityList := by dbg_struct

instance : DebugOk BgpPMSITunnelAttr where
  wf x := by
    cases x with
    | None => exact Dbg.unit_wf (by decide)
    | RSVPTe e r t p =>
      exact Dbg.tuple_wf (by decide) ⟨Dbg.record_wf (by simp only [List.map_cons, List.map_nil]; decide) rfl ⟨Dbg.v4_wf _, Dbg.num_wf _, Dbg.num_wf _, Dbg.v4_wf _, trivial⟩, trivial⟩
    | IngressRepl e => exact Dbg.tuple_wf (by decide) ⟨Dbg.record_wf (by simp only [List.map_cons, List.map_nil]; decide) rfl ⟨Dbg.v4_wf _, trivial⟩, trivial⟩
    | MLDP r o => exact Dbg.tuple_wf (by decide) ⟨Dbg.record_wf (by simp only [List.map_cons, List.map_nil]; decide) rfl ⟨Dbg.ip_wf _, Dbg.vecn_wf _, trivial⟩, trivial⟩
  inj x y h := by
    cases x <;> cases y
    all_goals first
      | rfl
      | exact absurd h (Dbg.tuple_ne (by decide))
      | exact absurd h Dbg.unit_ne_tuple
      | exact absurd h Dbg.tuple_ne_unit
      | (have h := Dbg.tuple1 h
         simp only [Dbg.struct, List.map_cons, List.map_nil, Dbg.record.injEq, List.cons.injEq, true_and, and_true, Dbg.num_iff,
           Dbg.v4_iff, Dbg.ip_iff, Dbg.vecn_iff] at h
         simp only [h])

instance : DebugOk BgpPMSITunnel := by dbg_struct
instance : DebugOk BgpConnector := by dbg_struct
instance : DebugOk BgpAttrUnknown := by dbg_struct

end Zbgp
