import Verif.Spec.Addrs
import Verif.Props.Nlri
import Verif.Props.Families

/-! # Lemmas about the AFI/SAFI dispatch -/

namespace Zbgp

open Spec BgpAddrs

attribute [-simp] List.length_flatMap

theorem findAddpathIn_eq (afi : U16) (safi : U8) (caps : List BgpCapability) :
    BgpSessionParams.findAddpathIn afi safi caps =
      (addPathLists caps).flatten.find? fun a => decide (family a = (afi, safi)) := by
  have e : (fun a : BgpCapAddPath => a.afi == afi && a.safi == safi) =
      fun a => decide (family a = (afi, safi)) := by
    funext a
    rw [Bool.eq_iff_iff]
    simp [family]
  induction caps with
  | nil => rfl
  | cons c cs ih =>
    cases c <;> simp only [BgpSessionParams.findAddpathIn, addPathLists, List.filterMap_cons] at ih ⊢ <;> try exact ih
    rw [List.flatten_cons, List.find?_append, ← ih, e]
    cases List.find? _ _ <;> rfl

theorem receive_eq (p : BgpSessionParams) (afi : U16) (safi : U8) :
    p.checkAddpathReceive afi safi = ReceivesAddPath p.caps (afi, safi) := by
  unfold BgpSessionParams.checkAddpathReceive BgpSessionParams.findAddpath ReceivesAddPath
  rw [findAddpathIn_eq]
  generalize List.find? _ _ = o
  cases o <;> rfl

theorem looks_eq (b : Bytes) : isAddpathNlri b = LooksAddPath b := by
  unfold isAddpathNlri LooksAddPath
  match b with
  | [] => rfl
  | [_] => rfl
  | x :: y :: r =>
    rw [Bool.eq_iff_iff]
    simp

theorem decodeAddpath_eq {T : Type} [BgpItem T] (p : BgpSessionParams) (afi : U16) (safi : U8)
    (withId : List (WithPathId T) → BgpAddrs) (plain : List T → BgpAddrs) (buf : Bytes) :
    decodeAddpath p afi safi withId plain buf =
      if AddPathExpected p (afi, safi) buf then (do
        let (v, n) ← decodePathIdItems buf
        .ok (withId v, n))
      else (do
        let (v, n) ← decodeItems buf
        .ok (plain v, n)) := by
  unfold decodeAddpath AddPathExpected
  rw [receive_eq, looks_eq]

theorem decodeAddpath_ok {T : Type} [BgpItem T] {p : BgpSessionParams} {afi : U16} {safi : U8}
    {withId : List (WithPathId T) → BgpAddrs} {plain : List T → BgpAddrs} {buf : Bytes} {x : BgpAddrs} {n : Nat}
    (h : decodeAddpath p afi safi withId plain buf = .ok (x, n)) :
    (AddPathExpected p (afi, safi) buf = true ∧ ∃ v, decodePathIdItems buf = .ok (v, n) ∧ x = withId v) ∨
    (AddPathExpected p (afi, safi) buf = false ∧ ∃ v, decodeItems buf = .ok (v, n) ∧ x = plain v) := by
  rw [decodeAddpath_eq] at h
  split at h
  · rename_i hc
    rw [Res.bind_eq_ok] at h
    obtain ⟨⟨v, m⟩, h1, h2⟩ := h
    simp only [Res.ok.injEq, Prod.mk.injEq] at h2
    exact .inl ⟨hc, v, by rw [h1, h2.2], h2.1.symm⟩
  · rename_i hc
    rw [Res.bind_eq_ok] at h
    obtain ⟨⟨v, m⟩, h1, h2⟩ := h
    simp only [Res.ok.injEq, Prod.mk.injEq] at h2
    exact .inr ⟨by simpa using hc, v, by rw [h1, h2.2], h2.1.symm⟩

theorem decodeAddpath_nil {T : Type} [BgpItem T] {p : BgpSessionParams} {afi : U16} {safi : U8}
    {withId : List (WithPathId T) → BgpAddrs} {plain : List T → BgpAddrs} {P : Res (BgpAddrs × Nat) → Prop}
    (h1 : P (.ok (withId [], 0))) (h2 : P (.ok (plain [], 0))) : P (decodeAddpath p afi safi withId plain []) := by
  rw [decodeAddpath_eq]
  split
  · exact h1
  · exact h2

theorem eq_of_toNat16 {x : U16} {n : Nat} (h : x.toNat = n) : x = BitVec.ofNat 16 n := by
  rw [← h]; exact (ofNat_toNat16 x).symm

theorem eq_of_toNat8 {x : U8} {n : Nat} (h : x.toNat = n) : x = BitVec.ofNat 8 n := by
  rw [← h]; exact (ofNat_toNat8 x).symm

/-- What a successful run of the dispatcher can give. -/
theorem addrs_decode_ok {p : BgpSessionParams} {afi : U16} {safi : U8} {buf : Bytes} {x : BgpAddrs} {n : Nat}
    (h : BgpAddrs.decodeFrom p afi safi buf = .ok (x, n)) :
    ∃ f ap, kindOf x = some (f, ap) ∧ ap = (hasAddPath f && AddPathExpected p (afi, safi) buf) ∧
      familyCode f = (afi, safi) := by
  unfold BgpAddrs.decodeFrom at h
  split at h
  case h_19 => cases h
  all_goals
    rename_i ha hs
    obtain rfl := eq_of_toNat16 ha
    obtain rfl := eq_of_toNat8 hs
  case h_4 | h_8 | h_9 | h_16 | h_17 | h_18 =>
    rw [Res.bind_eq_ok] at h
    obtain ⟨⟨v, m⟩, h1, h2⟩ := h
    simp only [Res.ok.injEq, Prod.mk.injEq] at h2
    obtain ⟨rfl, -⟩ := h2
    exact ⟨_, _, rfl, rfl, rfl⟩
  all_goals
    rcases decodeAddpath_ok h with ⟨hc, v, -, rfl⟩ | ⟨hc, v, -, rfl⟩ <;>
      exact ⟨_, _, rfl, by rw [hc]; rfl, rfl⟩

theorem addrs_code (x : BgpAddrs) {f : Family} {ap : Bool} (h : kindOf x = some (f, ap)) :
    x.getAfiSafi = familyCode f := by
  cases x <;> simp only [kindOf, Option.some.injEq, Prod.mk.injEq, reduceCtorEq] at h <;> obtain ⟨rfl, -⟩ := h <;> rfl

theorem familyCode_inj {f g : Family} (h : familyCode f = familyCode g) : f = g := by
  cases f <;> cases g <;> first | rfl | (simp [familyCode] at h)

theorem addrs_unknown {p : BgpSessionParams} {afi : U16} {safi : U8} {buf : Bytes}
    (h : ∀ f, familyCode f ≠ (afi, safi)) : BgpAddrs.decodeFrom p afi safi buf = .err .dynStr := by
  unfold BgpAddrs.decodeFrom
  split
  case h_19 => rfl
  all_goals
    rename_i ha hs
    obtain rfl := eq_of_toNat16 ha
    obtain rfl := eq_of_toNat8 hs
    exfalso
  · exact h .ipv4Unicast rfl
  · exact h .ipv4Multicast rfl
  · exact h .ipv4Labeled rfl
  · exact h .ipv4Mvpn rfl
  · exact h .ipv4Mdt rfl
  · exact h .ipv4Vpn rfl
  · exact h .ipv4VpnMulticast rfl
  · exact h .ipv4FlowSpec rfl
  · exact h .ipv4VpnFlowSpec rfl
  · exact h .ipv6Unicast rfl
  · exact h .ipv6Multicast rfl
  · exact h .ipv6Labeled rfl
  · exact h .ipv6Mdt rfl
  · exact h .ipv6Vpn rfl
  · exact h .ipv6VpnMulticast rfl
  · exact h .ipv6FlowSpec rfl
  · exact h .l2Vpls rfl
  · exact h .l2Evpn rfl

theorem addrs_none {p : BgpSessionParams} {buf : Bytes} : BgpAddrs.decodeFrom p 0 0 buf = .err .dynStr :=
  addrs_unknown (by intro f; cases f <;> simp [familyCode])

/-! ## Round trip of whole collections -/

theorem pathIdItems_writes {T : Type} [BgpItem T] [NlriKind T] [NlriLawful T] (l : List (WithPathId T))
    (h : ∀ x ∈ l, NlriKind.WF x.nlri) : Writes (encodePathIdItems l) (l.flatMap pathIdWire) :=
  encLoop_writes_zero l fun x hx => encodePathIdItem_writes (NlriLawful.writes x.nlri (h x hx))

theorem pathIdItems_reads {T : Type} [BgpItem T] [NlriKind T] [NlriLawful T] (l : List (WithPathId T))
    (h : ∀ x ∈ l, NlriKind.WF x.nlri) :
    decodePathIdItems (T := T) (l.flatMap pathIdWire) = .ok (l.map receivedP, (l.flatMap pathIdWire).length) := by
  obtain ⟨b, n, h1, h2, -, -, h5⟩ := Props.addpath_round_trip l h (l.flatMap pathIdWire) (Nat.le_refl _)
  rw [pathIdItems_writes l h _ (Nat.le_refl _)] at h1
  simp only [Res.ok.injEq, Prod.mk.injEq] at h1
  obtain ⟨rfl, rfl⟩ := h1
  rw [List.take_left' rfl] at h5
  exact h5

theorem addrItems_writes {T : Type} [BgpAddrItem T] {w : T → Bytes} {mode : BgpTransportMode} (l : List T)
    (h : ∀ x ∈ l, Writes (BgpAddrItem.encodeTo x mode) (w x)) :
    Writes (encodeAddrItems l mode) (l.flatMap w) := encLoop_writes_zero l h

theorem addrItems_reads {T : Type} [BgpAddrItem T] {w : T → Bytes} {mode : BgpTransportMode} (l : List T)
    (h : ∀ x ∈ l, 0 < (w x).length ∧ Reads (BgpAddrItem.decodeFrom mode) (w x) x) :
    decodeAddrItems mode (l.flatMap w) = .ok (l, (l.flatMap w).length) := by
  have := decList_reads' (lim := 0) (dec := BgpAddrItem.decodeFrom (T := T) mode) (w := w) (y := id) l h
  simpa [decodeAddrItems] using this

theorem mvpnOk_of {mode : BgpTransportMode} {x : BgpMVPN} (h : MvpnWF mode x)
    (h2 : mvpnType x = 1 ∨ mvpnType x = 2) : mvpnOk mode x := by
  cases x <;> simp [mvpnType] at h2 <;> exact h

theorem fsWire_pos {T : Type} [FsPrefix T] (x : BgpFlowSpec T) : 0 < (fsWire x).length := by
  simp only [fsWire, fsLen]; split <;> simp

theorem addrs_writes (x : BgpAddrs) (p : BgpSessionParams) (h : AddrsWF x) :
    Writes (x.encodeTo p) (addrsWire x) := by
  cases x
  case None => exact h.elim
  case L2VPLS v =>
    obtain rfl : v = [] := h
    intro buf _; rfl
  case MVPN v => exact addrItems_writes v fun x hx => mvpn_writes x _ (mvpnOk_of (h x hx).1 (h x hx).2)
  case EVPN v => exact addrItems_writes v fun x hx => evpn_writes x _ (h x hx)
  case FS4U v => exact addrItems_writes v fun x hx => fs_writes x (h.1 x hx).1 (h.1 x hx).2
  case FS6U v => exact addrItems_writes v fun x hx => fs_writes x (h.1 x hx).1 (h.1 x hx).2
  case FSV4U v => exact addrItems_writes v fun x hx => fs_writes x (h.1 x hx).1 (h.1 x hx).2
  all_goals first
    | exact Props.writes_items _ h
    | exact pathIdItems_writes _ h

theorem decodeAddpath_plain {T : Type} [BgpItem T] [NlriKind T] [NlriLawful T] {p : BgpSessionParams} {afi : U16}
    {safi : U8} {withId : List (WithPathId T) → BgpAddrs} {plain : List T → BgpAddrs} (v : List T)
    (h : ∀ x ∈ v, NlriKind.WF x) (he : AddPathExpected p (afi, safi) (v.flatMap nlriWire) = false) :
    decodeAddpath p afi safi withId plain (v.flatMap nlriWire) =
      .ok (plain (v.map NlriKind.received), (v.flatMap nlriWire).length) := by
  rw [decodeAddpath_eq, he, if_neg (by simp), Props.reads_items v h]
  rfl

theorem decodeAddpath_withId {T : Type} [BgpItem T] [NlriKind T] [NlriLawful T] {p : BgpSessionParams} {afi : U16}
    {safi : U8} {withId : List (WithPathId T) → BgpAddrs} {plain : List T → BgpAddrs} (v : List (WithPathId T))
    (h : ∀ x ∈ v, NlriKind.WF x.nlri) (he : AddPathExpected p (afi, safi) (v.flatMap pathIdWire) = true) :
    decodeAddpath p afi safi withId plain (v.flatMap pathIdWire) =
      .ok (withId (v.map receivedP), (v.flatMap pathIdWire).length) := by
  rw [decodeAddpath_eq, he, if_pos rfl, pathIdItems_reads v h]
  rfl

theorem fsItems_reads {T : Type} [FSItem T] [FsPrefix T] [FsPrefixLawful T] {mode : BgpTransportMode} (l : List (BgpFlowSpec T))
    (h : FsListOk l) :
    decodeAddrItems mode (l.flatMap fsWire) =
      .ok (l.map fsReceived, (l.flatMap fsWire).length + (fsEndsInPrefix l).toNat) := by
  have key : ∀ l : List (BgpFlowSpec T), FsListOk l → ∀ fuel, (l.flatMap fsWire).length < fuel →
      decLoop 0 (BgpAddrItem.decodeFrom (T := BgpFlowSpec T) mode) fuel (l.flatMap fsWire) =
        .ok (l.map fsReceived, (l.flatMap fsWire).length + (fsEndsInPrefix l).toNat) := by
    intro l
    induction l with
    | nil =>
      intro _ fuel hf
      obtain ⟨f, rfl⟩ : ∃ f, fuel = f + 1 := ⟨fuel - 1, by simp at hf; omega⟩
      rfl
    | cons x r ih =>
      intro h fuel hf
      obtain ⟨f, rfl⟩ : ∃ f, fuel = f + 1 := ⟨fuel - 1, by simp at hf; omega⟩
      obtain ⟨ho, hl⟩ := h.1 x (by simp)
      have hpos := fsWire_pos x
      have hr : FsListOk r := ⟨fun y hy => h.1 y (by simp [hy]), fun y hy => h.2 y (by
        cases r with
        | nil => simp at hy
        | cons z r => simp only [List.dropLast_cons₂, List.mem_cons]; exact .inr hy)⟩
      simp only [List.flatMap_cons, List.length_append] at hf ⊢
      rw [decLoop, if_pos (by simp; omega)]
      by_cases hx : FsOpsOk x
      · have e : fsReceived x = x := by cases x <;> first | rfl | exact hx.elim
        have e2 : fsEndsInPrefix (x :: r) = fsEndsInPrefix r := by
          cases r with
          | nil => cases x <;> first | rfl | exact hx.elim
          | cons y r => simp [fsEndsInPrefix]
        rw [show BgpAddrItem.decodeFrom (T := BgpFlowSpec T) mode (fsWire x ++ r.flatMap fsWire) = _ from
          fs_reads x hx hl _]
        simp only [Res.ok_bind, List.drop_left']
        rw [ih hr f (by omega)]
        simp [e, e2, Nat.add_assoc]
      · obtain rfl : r = [] := by
          cases r with
          | nil => rfl
          | cons y r => exact absurd (h.2 x (by simp)) hx
        have hp := ho.resolve_left hx
        rw [show BgpAddrItem.decodeFrom (T := BgpFlowSpec T) mode (fsWire x ++ [].flatMap fsWire) = _ from
          fs_reads_prefix x hp hl _]
        simp only [Res.ok_bind, List.flatMap_nil, List.append_nil]
        rw [List.drop_of_length_le (by omega)]
        obtain ⟨f, rfl⟩ : ∃ g, f = g + 1 := ⟨f - 1, by omega⟩
        have e2 : fsEndsInPrefix [x] = true := by cases x <;> first | rfl | exact hp.elim
        rw [e2]
        rfl
  exact key l h _ (by omega)

theorem addrs_reads (x : BgpAddrs) (p : BgpSessionParams) (h : AddrsWF x)
    (hf : FormExpected p x) :
    BgpAddrs.decodeFrom p x.getAfiSafi.1 x.getAfiSafi.2 (addrsWire x) =
      .ok (addrsReceived x, addrsTaken x) := by
  cases x
  case None => exact h.elim
  case L2VPLS v =>
    obtain rfl : v = [] := h
    rfl
  case FSV4U v =>
    have hv : v.map fsReceived = v ∧ fsEndsInPrefix v = false := by
      have h1 : ∀ x ∈ v, FsOpsOk x := by
        intro x hx
        rcases (h.1 x hx).1 with h | h
        · exact h
        · cases x <;> exact h.elim
      constructor
      · conv_rhs => rw [← List.map_id v]
        exact List.map_congr_left fun x hx => by have := h1 x hx; cases x <;> first | rfl | exact this.elim
      · unfold fsEndsInPrefix
        cases e : v.getLast? with
        | none => rfl
        | some x => have := h1 x (List.mem_of_getLast? e); cases x <;> first | rfl | exact this.elim
    have e := fsItems_reads (mode := p.peerMode) v h
    rw [hv.1, hv.2] at e
    change Res.bind (decodeAddrItems p.peerMode (v.flatMap fsWire)) _ = _
    rw [e]; rfl
  case MVPN v =>
    have e := addrItems_reads (mode := .IPv4) v (w := mvpnWire) fun x hx =>
      ⟨by simp [mvpnWire], fun r => mvpn_reads x _ (mvpnOk_of (h x hx).1 (h x hx).2) r⟩
    change Res.bind (decodeAddrItems .IPv4 (v.flatMap mvpnWire)) _ = _
    rw [e]; rfl
  case EVPN v =>
    have e := addrItems_reads (mode := p.peerMode) v (w := evpnWire) fun x hx =>
      ⟨by simp [evpnWire], fun r => evpn_reads x _ (h x hx) r⟩
    change Res.bind (decodeAddrItems p.peerMode (v.flatMap evpnWire)) _ = _
    rw [e]; rfl
  case FS4U v =>
    have e := fsItems_reads (mode := p.peerMode) v h
    change Res.bind (decodeAddrItems p.peerMode (v.flatMap fsWire)) _ = _
    rw [e]; rfl
  case FS6U v =>
    have e := fsItems_reads (mode := p.peerMode) v h
    change Res.bind (decodeAddrItems p.peerMode (v.flatMap fsWire)) _ = _
    rw [e]; rfl
  all_goals
    have he := hf _ _ rfl rfl
    first
    | exact decodeAddpath_plain _ h he.symm
    | exact decodeAddpath_withId _ h he.symm

end Zbgp
