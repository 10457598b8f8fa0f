import Verif.Props.Joined
import Verif.Props.Table
import Verif.Props.Values
import Verif.Lemmas.UpdateReads

/-! # The parts of an UPDATE are read independently of one another (C114) -/

namespace Zbgp.Props

open Spec

/-- an UPDATE is read if its three parts are, and as what they are read -/
theorem update_parts {p : BgpSessionParams} {w a u : Bytes} (hw : w.length ≤ 65535) (ha : a.length ≤ 65535)
    (m : BgpUpdateMessage) :
    BgpUpdateMessage.new.decodeFrom p (updateBytes w a u) = .ok m ↔
      NlriIs p w m.withdraws ∧ AttrsRead (ValueRead p) a m.attrs ∧ NlriIs p u m.updates := by
  rw [(update_exactly .new p _).ok m]
  constructor
  · rintro ⟨l, ⟨w', a', u', e, hw', ha', h1, h2, h3⟩, hl⟩
    obtain ⟨rfl, rfl, rfl⟩ := updateBytes_inj hw ha hw' ha' e
    rw [hl]
    exact ⟨h1, h2, h3⟩
  · rintro ⟨h1, h2, h3⟩
    exact ⟨m.attrs, ⟨w, a, u, rfl, hw, ha, h1, h2, h3⟩, rfl⟩

theorem map_ok_iff {α : Type} (l : List RawAttr) (m : List α) (f : RawAttr → Res α) :
    l.map f = m.map .ok ↔ List.Forall₂ (fun r x => f r = .ok x) l m := by
  induction l generalizing m with
  | nil => cases m <;> simp
  | cons a l ih => cases m <;> simp [ih]

/-- **C114**: an UPDATE with attributes `rs` is read exactly if the message without attributes is, and each attribute is by
itself; it is read as what these are read as. -/
theorem C114_each_by_itself (p : BgpSessionParams) (w u : Bytes) (rs : List RawAttr) (m : BgpUpdateMessage)
    (hw : w.length ≤ 65535) (hr : ∀ r ∈ rs, RawWF r) (ha : (rs.flatMap rawWire).length ≤ 65535) :
    BgpUpdateMessage.new.decodeFrom p (updateBytes w (rs.flatMap rawWire) u) = .ok m ↔
      BgpUpdateMessage.new.decodeFrom p (updateBytes w [] u) = .ok { m with attrs := [] } ∧
      List.Forall₂ (fun r x => BgpAttrItem.decodeFrom p r.code r.flags r.value.length r.value = .ok x) rs m.attrs := by
  rw [update_parts hw ha, update_parts hw (by simp), ← attrs_read_iff, ← map_ok_iff]
  constructor
  · rintro ⟨h1, ⟨rs', e, hr', h2⟩, h3⟩
    have := raws_inj hr hr' e
    subst this
    exact ⟨⟨h1, .nil, h3⟩, h2⟩
  · rintro ⟨⟨h1, -, h3⟩, h2⟩
    exact ⟨h1, ⟨rs, rfl, hr, h2⟩, h3⟩

theorem forall₂_perm {α β : Type} {R : α → β → Prop} {l l' : List α} (hp : l.Perm l') {m : List β} (h : List.Forall₂ R l m) :
    ∃ m', m.Perm m' ∧ List.Forall₂ R l' m' := by
  induction hp generalizing m with
  | nil => exact ⟨m, .refl _, h⟩
  | cons a _ ih =>
    cases h with
    | cons h1 h2 =>
      obtain ⟨m', h3, h4⟩ := ih h2
      exact ⟨_, h3.cons _, .cons h1 h4⟩
  | swap a b l =>
    cases h with
    | cons h1 h2 =>
      cases h2 with
      | cons h3 h4 => exact ⟨_, .swap _ _ _, .cons h3 (.cons h1 h4)⟩
  | trans _ _ ih1 ih2 =>
    obtain ⟨m1, h1, h2⟩ := ih1 h
    obtain ⟨m2, h3, h4⟩ := ih2 h2
    exact ⟨m2, h1.trans h3, h4⟩

/-- **C114**: with its attributes in another order the message is read too, as the same attributes in another order and the same
routes. -/
theorem C114_any_order (p : BgpSessionParams) (w u : Bytes) (rs rs' : List RawAttr) (hp : rs.Perm rs') (m : BgpUpdateMessage)
    (hw : w.length ≤ 65535) (hr : ∀ r ∈ rs, RawWF r) (ha : (rs.flatMap rawWire).length ≤ 65535)
    (h : BgpUpdateMessage.new.decodeFrom p (updateBytes w (rs.flatMap rawWire) u) = .ok m) :
    ∃ m', BgpUpdateMessage.new.decodeFrom p (updateBytes w (rs'.flatMap rawWire) u) = .ok m' ∧
      m'.withdraws = m.withdraws ∧ m'.updates = m.updates ∧ m.attrs.Perm m'.attrs := by
  obtain ⟨h1, h2⟩ := (C114_each_by_itself p w u rs m hw hr ha).1 h
  obtain ⟨l, h3, h4⟩ := forall₂_perm hp h2
  refine ⟨{ m with attrs := l }, (C114_each_by_itself p w u rs' _ hw ?_ ?_).2 ⟨h1, h4⟩, rfl, rfl, h3⟩
  · exact fun r hr' => hr r (hp.mem_iff.2 hr')
  · rwa [← (hp.flatMap_right rawWire).length_eq]

/-- ORIGIN, MED and an unknown attribute, in two orders -/
example :
    let rs : List RawAttr := [⟨1, 0x40, [0]⟩, ⟨4, 0x80, [0, 0, 0, 5]⟩, ⟨99, 0xc0, [1, 2]⟩]
    let rs' : List RawAttr := [⟨99, 0xc0, [1, 2]⟩, ⟨1, 0x40, [0]⟩, ⟨4, 0x80, [0, 0, 0, 5]⟩]
    let p : BgpSessionParams := .new 64512 180 .IPv4 1 []
    rs.Perm rs' ∧ BgpUpdateMessage.new.decodeFrom p (updateBytes [8, 10] (rs.flatMap rawWire) [8, 11]) =
      .ok ⟨.IPV4U [⟨0x0b000000, 8⟩], .IPV4U [⟨0x0a000000, 8⟩], [.Origin ⟨.Igp⟩, .MED ⟨5⟩, .Unknown ⟨⟨99, 0xc0⟩, [1, 2]⟩]⟩ :=
  ⟨by decide, rfl⟩

/-- the type codes of the attributes the accessors look for -/
def codeOf : BgpAttrItem → Option U8
  | .Origin _ => some 1
  | .ASPath _ => some 2
  | .NextHop _ => some 3
  | .CommunityList _ => some 8
  | .MPUpdates _ => some 14
  | .MPWithdraws _ => some 15
  | .ExtCommunityList _ => some 16
  | .LargeCommunityList _ => some 32
  | _ => none

theorem codeOf_read {p : BgpSessionParams} {code flags : U8} {v : Bytes} {x : BgpAttrItem} {c : U8}
    (h : ValueRead p code flags v x) (hc : codeOf x = some c) : code = c := by
  cases h with
  | fixed => rename_i h; cases h <;> simp_all [codeOf]
  | _ => simp_all [codeOf]

/-- of what the messages of different type codes are read as, there is one of each kind at most -/
theorem kinds_nodup {p : BgpSessionParams} {rs : List RawAttr} {l : List BgpAttrItem} (hn : (rs.map RawAttr.code).Nodup)
    (h : List.Forall₂ (fun r x => BgpAttrItem.decodeFrom p r.code r.flags r.value.length r.value = .ok x) rs l) :
    l.Pairwise fun x y => codeOf x = none ∨ codeOf x ≠ codeOf y := by
  induction h with
  | nil => exact .nil
  | @cons r x rs l hx hl ih =>
    simp only [List.map_cons, List.nodup_cons] at hn
    refine .cons (fun y hy => ?_) (ih hn.2)
    cases hc : codeOf x with
    | none => exact .inl rfl
    | some c =>
      refine .inr fun he => hn.1 ?_
      obtain ⟨r', hr', hy'⟩ : ∃ r' ∈ rs, BgpAttrItem.decodeFrom p r'.code r'.flags r'.value.length r'.value = .ok y := by
        clear ih hn
        induction hl with
        | nil => cases hy
        | cons h1 _ ih =>
          rcases List.mem_cons.1 hy with rfl | hy
          · exact ⟨_, by simp, h1⟩
          · obtain ⟨r', h1, h2⟩ := ih hy
            exact ⟨r', by simp [h1], h2⟩
      have e1 := codeOf_read ((value_ok_iff p _ _ _ _).1 hx) hc
      have e2 := codeOf_read ((value_ok_iff p _ _ _ _).1 hy') he.symm
      exact List.mem_map.2 ⟨r', hr', e2.trans e1.symm⟩

theorem first_any_order {α : Type} {get : BgpUpdateMessage → Option α} {kind : α → BgpAttrItem} (hg : GivesFirst get kind)
    {c : U8} (hk : ∀ n, codeOf (kind n) = some c) (hi : ∀ a b, kind a = kind b → a = b) {m m' : BgpUpdateMessage}
    (hp : m.attrs.Perm m'.attrs) (hn : m.attrs.Pairwise fun x y => codeOf x = none ∨ codeOf x ≠ codeOf y) :
    get m = get m' := by
  cases h : get m with
  | none =>
    exact (((hg m').2).2 fun n hn => ((hg m).2).1 h n (hp.mem_iff.2 hn)).symm
  | some n =>
    obtain ⟨pre, post, e, h1⟩ := ((hg m).1 n).1 h
    cases h' : get m' with
    | none => exact absurd (hp.mem_iff.1 (by rw [e]; simp)) (((hg m').2).1 h' n)
    | some n' =>
      obtain ⟨pre', post', e', -⟩ := ((hg m').1 n').1 h'
      have h2 : kind n' ∈ m.attrs := hp.mem_iff.2 (by rw [e']; simp)
      rw [e] at h2 hn
      rw [List.pairwise_append, List.pairwise_cons] at hn
      rcases List.mem_append.1 h2 with h2 | h2
      · exact absurd h2 (h1 n')
      · rcases List.mem_cons.1 h2 with h2 | h2
        · rw [hi _ _ h2]
        · rcases hn.2.1.1 _ h2 with h3 | h3
          · rw [hk] at h3; cases h3
          · rw [hk, hk] at h3; exact absurd rfl h3

/-- **C114**: if no type of attribute occurs twice, the order does not matter for any of the accessors. -/
theorem C114_accessors_any_order (p : BgpSessionParams) (w u : Bytes) (rs rs' : List RawAttr) (hp : rs.Perm rs')
    (hn : (rs.map RawAttr.code).Nodup) (m m' : BgpUpdateMessage) (hw : w.length ≤ 65535) (hr : ∀ r ∈ rs, RawWF r)
    (ha : (rs.flatMap rawWire).length ≤ 65535)
    (h : BgpUpdateMessage.new.decodeFrom p (updateBytes w (rs.flatMap rawWire) u) = .ok m)
    (h' : BgpUpdateMessage.new.decodeFrom p (updateBytes w (rs'.flatMap rawWire) u) = .ok m') :
    m.getAttrOrigin = m'.getAttrOrigin ∧ m.getAttrAspath = m'.getAttrAspath ∧
    m.getAttrCommunitylist = m'.getAttrCommunitylist ∧ m.getAttrLargecommunitylist = m'.getAttrLargecommunitylist ∧
    m.getAttrExtcommunitylist = m'.getAttrExtcommunitylist ∧ m.getAttrNexthop = m'.getAttrNexthop ∧
    m.getMpupdates = m'.getMpupdates ∧ m.getMpwithdraws = m'.getMpwithdraws := by
  obtain ⟨m2, h1, -, -, hq⟩ := C114_any_order p w u rs rs' hp m hw hr ha h
  rw [h'] at h1
  cases h1
  have hk := kinds_nodup hn ((C114_each_by_itself p w u rs m hw hr ha).1 h).2
  obtain ⟨g1, g2, g3, g4, g5, g6, g7, g8⟩ := C43_accessors
  exact ⟨first_any_order g1 (fun _ => rfl) (fun _ _ e => BgpAttrItem.Origin.inj e) hq hk,
    first_any_order g2 (fun _ => rfl) (fun _ _ e => BgpAttrItem.ASPath.inj e) hq hk,
    first_any_order g3 (fun _ => rfl) (fun _ _ e => BgpAttrItem.CommunityList.inj e) hq hk,
    first_any_order g4 (fun _ => rfl) (fun _ _ e => BgpAttrItem.LargeCommunityList.inj e) hq hk,
    first_any_order g5 (fun _ => rfl) (fun _ _ e => BgpAttrItem.ExtCommunityList.inj e) hq hk,
    first_any_order g6 (fun _ => rfl) (fun _ _ e => BgpAttrItem.NextHop.inj e) hq hk,
    first_any_order g7 (fun _ => rfl) (fun _ _ e => BgpAttrItem.MPUpdates.inj e) hq hk,
    first_any_order g8 (fun _ => rfl) (fun _ _ e => BgpAttrItem.MPWithdraws.inj e) hq hk⟩

/-- a message that is not read (refused, or the program stops) is not read in any other order of its attributes, and the other
way round. That it is *refused* in every order does not hold: `C114_refused_fails_order`. -/
theorem C114_refused_any_order_partial (p : BgpSessionParams) (w u : Bytes) (rs rs' : List RawAttr) (hp : rs.Perm rs')
    (hw : w.length ≤ 65535) (hr : ∀ r ∈ rs, RawWF r) (ha : (rs.flatMap rawWire).length ≤ 65535) :
    (∃ m, BgpUpdateMessage.new.decodeFrom p (updateBytes w (rs.flatMap rawWire) u) = .ok m) ↔
      ∃ m, BgpUpdateMessage.new.decodeFrom p (updateBytes w (rs'.flatMap rawWire) u) = .ok m := by
  constructor
  · rintro ⟨m, h⟩
    obtain ⟨m', h', -⟩ := C114_any_order p w u rs rs' hp m hw hr ha h
    exact ⟨m', h'⟩
  · rintro ⟨m, h⟩
    obtain ⟨m', h', -⟩ := C114_any_order p w u rs' rs hp.symm m hw (fun r hr' => hr r (hp.mem_iff.2 hr'))
      (by rwa [← (hp.flatMap_right rawWire).length_eq]) h
    exact ⟨m', h'⟩

/-- a wrong ORIGIN value, in both orders -/
example :
    let rs : List RawAttr := [⟨1, 0x40, [9]⟩, ⟨4, 0x80, [0, 0, 0, 5]⟩]
    let p : BgpSessionParams := .new 64512 180 .IPv4 1 []
    (∀ r ∈ rs, RawWF r) ∧
    BgpUpdateMessage.new.decodeFrom p (updateBytes [] (rs.flatMap rawWire) []) = .err .static ∧
    BgpUpdateMessage.new.decodeFrom p (updateBytes [] (rs.reverse.flatMap rawWire) []) = .err .static :=
  ⟨by simp [RawWF, maxValue]; decide, rfl, rfl⟩

/-- **C114 fails**: whether a message that is not read is refused or crashes the program depends on the order. An ORIGIN with
the value 9 and an MP_UNREACH_NLRI of two octets. -/
theorem C114_refused_fails_order :
    let p : BgpSessionParams := .new 64512 180 .IPv4 1 []
    let o : RawAttr := ⟨1, 0x40, [9]⟩
    let u : RawAttr := ⟨15, 0x80, [0, 1]⟩
    BgpUpdateMessage.new.decodeFrom p (updateBytes [] ([o, u].flatMap rawWire) []) = .err .static ∧
    BgpUpdateMessage.new.decodeFrom p (updateBytes [] ([u, o].flatMap rawWire) []) = .panic := ⟨rfl, rfl⟩

/-! ## Messages with some of the routes each -/

theorem nlriIs_join {p : BgpSessionParams} (hf : p.fuzzyPathid = false) {a b : Bytes} {x y z : BgpAddrs}
    (ha : BgpAddrs.decodeFrom p (familyCode (sessionFamily p)).1 (familyCode (sessionFamily p)).2 a = .ok (z, a.length))
    (h : NlriIs p a x) (h' : NlriIs p b y) : ∃ z, NlriIs p (a ++ b) z ∧ Joined x y z := by
  obtain ⟨m, h'⟩ := h'
  have ha := ((addrs_exactly p _ a).ok (z, _)).1 ha
  obtain rfl := nlriIs_inj h ⟨_, ha⟩
  obtain ⟨z, h1, h2⟩ := addrsRead_join hf ha rfl h'
  exact ⟨z, ⟨_, h1⟩, h2⟩

theorem nlriIs_nil {p : BgpSessionParams} {x : BgpAddrs} (h : NlriIs p [] x) : Joined x x x := by
  obtain ⟨n, h⟩ := h
  unfold sessionFamily at h
  cases hm : p.peerMode <;> rw [hm] at h <;> cases h <;> rename_i hi <;> cases hi <;>
    first | rfl | (rename_i h _ _; simp at h)

/-- **C114**, in sessions that do not guess at path identifiers: a message with the routes `u₁` and `u₂` is read as the messages
with `u₁` and with `u₂` and the same attributes, and one that withdraws `w₁` and `w₂` as those that withdraw the one and the
other. -/
theorem C114_split_partial (p : BgpSessionParams) (hf : p.fuzzyPathid = false) (a s₁ s₂ : Bytes) (ha : a.length ≤ 65535)
    (z : BgpAddrs) (hs : BgpAddrs.decodeFrom p (familyCode (sessionFamily p)).1 (familyCode (sessionFamily p)).2 s₁ = .ok (z, s₁.length)) :
    (∀ (w : Bytes) (m₁ m₂ : BgpUpdateMessage), w.length ≤ 65535 →
      BgpUpdateMessage.new.decodeFrom p (updateBytes w a s₁) = .ok m₁ →
      BgpUpdateMessage.new.decodeFrom p (updateBytes [] a s₂) = .ok m₂ →
      ∃ m, BgpUpdateMessage.new.decodeFrom p (updateBytes w a (s₁ ++ s₂)) = .ok m ∧ m.withdraws = m₁.withdraws ∧
        m.attrs = m₁.attrs ∧ m₂.attrs = m₁.attrs ∧ Joined m₁.updates m₂.updates m.updates) ∧
    (∀ (u : Bytes) (m₁ m₂ : BgpUpdateMessage), s₁.length + s₂.length ≤ 65535 →
      BgpUpdateMessage.new.decodeFrom p (updateBytes s₁ [] []) = .ok m₁ →
      BgpUpdateMessage.new.decodeFrom p (updateBytes s₂ a u) = .ok m₂ →
      ∃ m, BgpUpdateMessage.new.decodeFrom p (updateBytes (s₁ ++ s₂) a u) = .ok m ∧ m.updates = m₂.updates ∧
        m.attrs = m₂.attrs ∧ Joined m₁.withdraws m₂.withdraws m.withdraws) := by
  constructor
  · intro w m₁ m₂ hw h1 h2
    obtain ⟨h3, h4, h5⟩ := (update_parts hw ha m₁).1 h1
    obtain ⟨-, h6, h7⟩ := (update_parts (by simp) ha m₂).1 h2
    obtain ⟨y, h8, h9⟩ := nlriIs_join hf hs h5 h7
    exact ⟨⟨y, m₁.withdraws, m₁.attrs⟩, (update_parts hw ha _).2 ⟨h3, h4, h8⟩, rfl, rfl, attrsRead_inj h6 h4, h9⟩
  · intro u m₁ m₂ hl h1 h2
    obtain ⟨h3, -, -⟩ := (update_parts (by omega) (by simp) m₁).1 h1
    obtain ⟨h5, h6, h7⟩ := (update_parts (by omega) ha m₂).1 h2
    obtain ⟨y, h8, h9⟩ := nlriIs_join hf hs h3 h5
    exact ⟨⟨m₂.updates, y, m₂.attrs⟩, (update_parts (by simpa using hl) ha _).2 ⟨h8, h6, h7⟩, rfl, rfl, h9⟩

theorem step_split {T V : Type} [ROrd T] (t : Table T V) (w a₁ a₂ : List T) (v : V) :
    t.step ⟨w, a₁ ++ a₂, v⟩ = (t.step ⟨w, a₁, v⟩).step ⟨[], a₂, v⟩ := by
  simp [Table.step, List.foldl_append]

theorem stepOf_plain {T : Type} (routes : BgpAddrs → List T) (m : BgpUpdateMessage) (hu : ∀ x, BgpAttrItem.MPUpdates x ∉ m.attrs)
    (hw : ∀ x, BgpAttrItem.MPWithdraws x ∉ m.attrs) :
    stepOf routes m = ⟨routes m.withdraws, routes m.updates, m.attrs⟩ := by
  unfold stepOf
  congr 1
  · rw [List.flatMap_eq_nil_iff.2, List.append_nil]
    intro x hx
    cases x <;> first | rfl | exact absurd hx (hw _)
  · rw [List.flatMap_eq_nil_iff.2, List.append_nil]
    intro x hx
    cases x <;> first | rfl | exact absurd hx (hu _)

/-- **C114**, in sessions that do not guess at path identifiers: a table of routes that is kept from the messages ends up the same
if a message with many routes, none of them in a multiprotocol attribute, comes as two messages. -/
theorem C114_table_partial {T : Type} [ROrd T] (p : BgpSessionParams) (hf : p.fuzzyPathid = false) (routes : BgpAddrs → List T)
    (hroutes : ∀ x y z, Joined x y z → routes z = routes x ++ routes y) (w a u₁ u₂ : Bytes) (hw : w.length ≤ 65535)
    (ha : a.length ≤ 65535) (z : BgpAddrs)
    (hu : BgpAddrs.decodeFrom p (familyCode (sessionFamily p)).1 (familyCode (sessionFamily p)).2 u₁ = .ok (z, u₁.length))
    (m₁ m₂ : BgpUpdateMessage) (h₁ : BgpUpdateMessage.new.decodeFrom p (updateBytes w a u₁) = .ok m₁)
    (h₂ : BgpUpdateMessage.new.decodeFrom p (updateBytes [] a u₂) = .ok m₂)
    (hm : m₁.getMpupdates = none ∧ m₁.getMpwithdraws = none) (before after : List Bytes) (t : Table T (List BgpAttrItem)) :
    watch p routes (before ++ updateBytes w a (u₁ ++ u₂) :: after) t =
      watch p routes (before ++ updateBytes w a u₁ :: updateBytes [] a u₂ :: after) t := by
  obtain ⟨m, h, e1, e2, e3, hj⟩ := (C114_split_partial p hf a u₁ u₂ ha z hu).1 w m₁ m₂ hw h₁ h₂
  have hnil := hroutes _ _ _ (nlriIs_nil ((update_parts (by simp) ha m₂).1 h₂).1)
  have hnil : routes m₂.withdraws = [] := by
    have := congrArg List.length hnil
    rw [List.length_append] at this
    exact List.length_eq_zero_iff.1 (by omega)
  have hu' := ((C43_accessors.2.2.2.2.2.2.1) m₁).2.1 hm.1
  have hw' := ((C43_accessors.2.2.2.2.2.2.2) m₁).2.1 hm.2
  have key : ∀ t : Table T (List BgpAttrItem), t.step (stepOf routes m) = (t.step (stepOf routes m₁)).step (stepOf routes m₂) := by
    intro t
    rw [stepOf_plain routes m (by rwa [e2]) (by rwa [e2]), stepOf_plain routes m₁ hu' hw',
      stepOf_plain routes m₂ (by rwa [e3]) (by rwa [e3]), e1, e2, e3, hnil, hroutes _ _ _ hj]
    exact step_split ..
  induction before generalizing t with
  | nil => simp only [List.nil_append, watch, h, h₁, h₂, Res.ok_bind, key]
  | cons b bs ih =>
    simp only [List.cons_append, watch]
    cases BgpUpdateMessage.new.decodeFrom p b with
    | ok x => exact ih _
    | _ => rfl

/-- two prefixes, announced by one message and by two -/
example :
    let p : BgpSessionParams := { BgpSessionParams.new 64512 180 .IPv4 1 [] with fuzzyPathid := false }
    let a := rawWire ⟨1, 0x40, [0]⟩
    BgpAddrs.decodeFrom p 1 1 [8, 10] = .ok (.IPV4U [⟨0x0a000000, 8⟩], 2) ∧
    BgpUpdateMessage.new.decodeFrom p (updateBytes [8, 9] a [8, 10]) =
      .ok ⟨.IPV4U [⟨0x0a000000, 8⟩], .IPV4U [⟨0x09000000, 8⟩], [.Origin ⟨.Igp⟩]⟩ ∧
    BgpUpdateMessage.new.decodeFrom p (updateBytes [] a [8, 11]) =
      .ok ⟨.IPV4U [⟨0x0b000000, 8⟩], .IPV4U [], [.Origin ⟨.Igp⟩]⟩ ∧
    BgpUpdateMessage.new.decodeFrom p (updateBytes [8, 9] a ([8, 10] ++ [8, 11])) =
      .ok ⟨.IPV4U [⟨0x0a000000, 8⟩, ⟨0x0b000000, 8⟩], .IPV4U [⟨0x09000000, 8⟩], [.Origin ⟨.Igp⟩]⟩ :=
  ⟨rfl, rfl, rfl, rfl⟩

/-- **C114 fails** in sessions that guess at path identifiers, as those made with `new` do: two routes with the path
identifiers 1 and 65536 are read as what they are if they come in one message; in two messages the second one is read as
four routes, three of which nobody announced. -/
theorem C114_split_fails_guessing :
    let p : BgpSessionParams := .new 64512 180 .IPv4 1 []
    let r₁ : Bytes := [0, 0, 0, 1, 8, 10]
    let r₂ : Bytes := [0, 1, 0, 0, 8, 11]
    BgpUpdateMessage.new.decodeFrom p (updateBytes [] [] (r₁ ++ r₂)) =
      .ok ⟨.IPV4UP [⟨1, ⟨0x0a000000, 8⟩⟩, ⟨65536, ⟨0x0b000000, 8⟩⟩], .IPV4U [], []⟩ ∧
    BgpUpdateMessage.new.decodeFrom p (updateBytes [] [] r₁) = .ok ⟨.IPV4UP [⟨1, ⟨0x0a000000, 8⟩⟩], .IPV4U [], []⟩ ∧
    BgpUpdateMessage.new.decodeFrom p (updateBytes [] [] r₂) =
      .ok ⟨.IPV4U [⟨0, 0⟩, ⟨0, 1⟩, ⟨0, 0⟩, ⟨0x0b000000, 8⟩], .IPV4U [], []⟩ := ⟨rfl, rfl, rfl⟩

end Zbgp.Props
