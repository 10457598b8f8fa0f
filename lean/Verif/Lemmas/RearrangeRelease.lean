import Verif.Lemmas.ReleaseBmpReads
import Verif.Lemmas.Truncated
import Verif.Spec.Agreed
import Verif.Props.Rearrange

/-!
# Lemmas for C126
-/

namespace Zbgp

open Spec Props

/-- what is read of a prefix does not depend on the octets behind it -/
class WrapGoesOn (T : Type) [WrapReads T] : Prop where
  on : ∀ bits b (x : T) n t, WrapReads.Read bits b x n → WrapReads.Read bits (b ++ t) x n ∧ n ≤ b.length

theorem wrapLabels_on {bits : Nat} {b : Bytes} {ls : List U32} {k : Nat} (h : WrapLabels bits b ls k) (t : Bytes) :
    WrapLabels bits (b ++ t) ls k ∧ k ≤ b.length := by
  induction h with
  | done b => exact ⟨.done _, by simp⟩
  | last bits v b hv hb he => rw [List.append_assoc]; exact ⟨.last _ _ _ hv hb he, by simp [be_length]⟩
  | more bits v b ls n hv hb he hr ih =>
    rw [List.append_assoc]
    refine ⟨.more _ _ _ _ _ hv hb he ih.1, ?_⟩
    have := ih.2
    simp [be_length]
    omega

theorem prefix4_on {bits : Nat} {b : Bytes} {x : BgpAddrV4} {n : Nat} (t : Bytes) (h : PrefixReads.Read bits b x n) :
    PrefixReads.Read bits (b ++ t) x n ∧ n ≤ b.length := by
  obtain ⟨h1, h2, h3, h4, h5⟩ := h
  exact ⟨⟨h1, h2, by simp; omega, h4, by rwa [List.take_append_of_le_length h3]⟩, h3⟩

theorem prefix6_on {bits : Nat} {b : Bytes} {x : BgpAddrV6} {n : Nat} (t : Bytes) (h : PrefixReads.Read bits b x n) :
    PrefixReads.Read bits (b ++ t) x n ∧ n ≤ b.length := by
  obtain ⟨h1, h2, h3, h4, h5⟩ := h
  exact ⟨⟨h1, h2, by simp; omega, h4, by rwa [List.take_append_of_le_length h3]⟩, h3⟩

instance : WrapGoesOn BgpAddrV4 where
  on _ _ _ _ t h := prefix4_on t h

instance : WrapGoesOn BgpAddrV6 where
  on _ _ _ _ t h := prefix6_on t h

instance : WrapGoesOn BgpMdtV4 where
  on bits b x n t := by
    rintro ⟨m, g, h1, h2, h3, rfl⟩
    obtain ⟨h4, h5⟩ := prefix4_on t h2
    refine ⟨⟨m, g ++ t, h1, h4, ?_, rfl⟩, ?_⟩
    · rw [List.drop_append_of_le_length h5, h3, List.append_assoc]
    · have := congrArg List.length h3
      simp [be_length] at this
      omega

instance : WrapGoesOn BgpMdtV6 where
  on bits b x n t := by
    rintro ⟨m, g, h1, h1', h2, h3, rfl⟩
    obtain ⟨h4, h5⟩ := prefix6_on t h2
    refine ⟨⟨m, g ++ t, h1, h1', h4, ?_, rfl⟩, ?_⟩
    · rw [List.drop_append_of_le_length h5, h3, List.append_assoc]
    · have := congrArg List.length h3
      simp [be_length] at this
      omega

instance {T : Type} [WrapReads T] [WrapGoesOn T] : WrapGoesOn (Labeled T) where
  on bits b x n t := by
    rintro ⟨k, m, h1, h2, rfl⟩
    obtain ⟨h3, h4⟩ := wrapLabels_on h1 t
    obtain ⟨h5, h6⟩ := WrapGoesOn.on _ _ _ _ t h2
    refine ⟨⟨k, m, h3, ?_, rfl⟩, ?_⟩
    · rwa [List.drop_append_of_le_length h4]
    · simp at h6; omega

instance {T : Type} [WrapReads T] [WrapGoesOn T] : WrapGoesOn (WithRd T) where
  on bits b x n t := by
    rintro ⟨t', m, rfl, h2, rfl⟩
    obtain ⟨h5, h6⟩ := WrapGoesOn.on _ _ _ _ t h2
    refine ⟨⟨t' ++ t, m, by simp, h5, rfl⟩, ?_⟩
    simp [rdBody_length]; omega

theorem w_goesOn_nlri {T : Type} [BgpItemIn T] [WrapReads T] [WrapExact T] [WrapGoesOn T] : ItemGoesOn (@NlriRead T (wrapReads T)) :=
  goesOn_of (@nlri_exactly T (itemIn T .release) (wrapReads T) wrapExact) fun b x n t => by
    rintro ⟨bits, t', m, rfl, h, rfl⟩
    exact ⟨bits, t' ++ t, m, rfl, (WrapGoesOn.on _ _ _ _ t h).1, rfl⟩

theorem w_goesOn_pathId {T : Type} [BgpItemIn T] [WrapReads T] [WrapExact T] [WrapGoesOn T] :
    ItemGoesOn (@PathIdRead T (wrapReads T)) := by
  have h := w_goesOn_nlri (T := T)
  refine ⟨?_, ?_⟩
  · rintro b x n y m ⟨t, k, hb, hr, rfl⟩ ⟨t', k', hb', hr', rfl⟩
    rw [hb] at hb'
    obtain ⟨h1, rfl⟩ := List.append_inj hb' (by simp)
    obtain ⟨h2, rfl⟩ := h.1 _ _ _ _ _ hr hr'
    obtain ⟨px, nx⟩ := x
    obtain ⟨py, ny⟩ := y
    dsimp only at *
    subst h2
    refine ⟨?_, rfl⟩
    have h3 : px = py := BitVec.eq_of_toNat_eq (be_inj (n := 4) px.isLt py.isLt h1)
    rw [h3]
  · rintro b x n t ⟨t', k, rfl, hr, rfl⟩
    exact ⟨t' ++ t, k, by simp, h.2 _ _ _ t hr, rfl⟩

theorem w_goesOn_vpls : ItemGoesOn WrapVpls := goesOn_of w_vpls_exactly fun b x n t => by
  rintro ⟨body, lab, t', k, rfl, h⟩
  exact ⟨body, lab, t' ++ t, k, by simp, h⟩

theorem w_goesOn_evpn : ItemGoesOn WrapEvpnItem := goesOn_of (w_evpn_exactly .IPv4) fun b x n t => by
  rintro ⟨l, body, t', k, rfl, h⟩
  exact ⟨l, body, t' ++ t, k, by simp, h⟩

theorem w_goesOn_fs4 : ItemGoesOn (@FsItemRead _ wrapFsV4) := @goesOn_fs _ (fsV4In .release) wrapFsV4 wrapFsV4_exact
theorem w_goesOn_fsVpn : ItemGoesOn (@FsItemRead _ wrapFsVpn) := @goesOn_fs _ (fsVpnIn .release) wrapFsVpn wrapFsVpn_exact
theorem w_goesOn_fs6 : ItemGoesOn (@FsItemRead _ wrapFsV6) := @goesOn_fs _ (fsV6In .release) wrapFsV6 wrapFsV6_exact

theorem w_list_join {α : Type} {R : Bytes → α → Nat → Prop} (hR : ItemGoesOn R) {c : List α → BgpAddrs}
    (hc : ∀ v w, Joined (c v) (c w) (c (v ++ w))) {a b : Bytes} {x y : BgpAddrs} {n m : Nat}
    (h : ∃ v, x = c v ∧ ItemsRead 0 R a v n) (hn : n = a.length) (h' : ∃ v, y = c v ∧ ItemsRead 0 R b v m) :
    ∃ z, (∃ v, z = c v ∧ ItemsRead 0 R (a ++ b) v (n + m)) ∧ Joined x y z := by
  obtain ⟨v, rfl, h⟩ := h
  obtain ⟨w, rfl, h'⟩ := h'
  exact ⟨_, ⟨_, rfl, itemsRead_join hR h hn h'⟩, hc v w⟩

theorem w_field_join {T : Type} [BgpItemIn T] [WrapReads T] [WrapExact T] [WrapGoesOn T] {p : BgpSessionParams}
    {f : Family} {plain : List T → BgpAddrs} {withId : List (WithPathId T) → BgpAddrs} {a b : Bytes} {x y : BgpAddrs} {n m : Nat}
    (h1 : ∀ v w, Joined (plain v) (plain w) (plain (v ++ w))) (h2 : ∀ v w, Joined (withId v) (withId w) (withId (v ++ w)))
    (hf : AgreedPathIds p f a b) (h : WrapField T p f plain withId a x n) (hn : n = a.length)
    (h' : WrapField T p f plain withId b y m) : ∃ z, WrapField T p f plain withId (a ++ b) z (n + m) ∧ Joined x y z := by
  unfold WrapField at h h' ⊢
  rw [hf.1] at h'
  rw [hf.2]
  split at h
  · rename_i he
    rw [if_pos he] at h'
    simp only [if_pos he]
    obtain ⟨v, rfl, h⟩ := h
    obtain ⟨w, rfl, h'⟩ := h'
    exact ⟨_, ⟨_, rfl, itemsRead_join w_goesOn_pathId h hn h'⟩, h2 v w⟩
  · rename_i he
    rw [if_neg he] at h'
    simp only [if_neg he]
    exact w_list_join w_goesOn_nlri h1 h hn h'

theorem w_field_agreed {T : Type} [WrapReads T] {p : BgpSessionParams}
    {f : Family} {plain : List T → BgpAddrs} {withId : List (WithPathId T) → BgpAddrs} {a b : Bytes} {x y z : BgpAddrs} {n m k : Nat}
    (h1 : ∀ v w z, ¬ Joined (plain v) (withId w) z) (h2 : ∀ v w z, ¬ Joined (withId v) (plain w) z)
    (h3 : ∀ v w z, ¬ Joined (plain v) w (withId z)) (h4 : ∀ v w z, ¬ Joined (withId v) w (plain z))
    (ha : WrapField T p f plain withId a x n) (hb : WrapField T p f plain withId b y m)
    (hc : WrapField T p f plain withId (a ++ b) z k) (hj : Joined x y z) : AgreedPathIds p f a b := by
  unfold WrapField at ha hb hc
  unfold AgreedPathIds
  cases e1 : AddPathExpected p (familyCode f) a <;> cases e2 : AddPathExpected p (familyCode f) b <;>
    cases e3 : AddPathExpected p (familyCode f) (a ++ b) <;>
    simp only [e1, e2, e3, if_true, if_false, Bool.false_eq_true] at ha hb hc <;>
    obtain ⟨v, rfl, -⟩ := ha <;> obtain ⟨w, rfl, -⟩ := hb <;> obtain ⟨u, rfl, -⟩ := hc <;>
    first
    | exact ⟨rfl, rfl⟩
    | exact (h1 _ _ _ hj).elim
    | exact (h2 _ _ _ hj).elim
    | exact (h3 _ _ _ hj).elim
    | exact (h4 _ _ _ hj).elim

theorem w_addrs_join {p : BgpSessionParams} {f : Family} {a b : Bytes} {x y : BgpAddrs} {n m : Nat}
    (h : WrapAddrs p f a x n) (hn : n = a.length) (h' : WrapAddrs p f b y m) (hf : hasAddPath f = true → AgreedPathIds p f a b) :
    ∃ z, WrapAddrs p f (a ++ b) z (n + m) ∧ Joined x y z := by
  cases f with
  | ipv4Mvpn => exact w_list_join (goesOn_mvpn _) (by intro _ _; rfl) h hn h'
  | ipv4FlowSpec => exact w_list_join w_goesOn_fs4 (by intro _ _; rfl) h hn h'
  | ipv4VpnFlowSpec => exact w_list_join w_goesOn_fsVpn (by intro _ _; rfl) h hn h'
  | ipv6FlowSpec => exact w_list_join w_goesOn_fs6 (by intro _ _; rfl) h hn h'
  | l2Vpls => exact w_list_join w_goesOn_vpls (by intro _ _; rfl) h hn h'
  | l2Evpn => exact w_list_join w_goesOn_evpn (by intro _ _; rfl) h hn h'
  | _ => exact w_field_join (by intro _ _; rfl) (by intro _ _; rfl) (hf rfl) h hn h'

theorem w_addrs_agreed {p : BgpSessionParams} {f : Family} {a b : Bytes} {x y z : BgpAddrs} {n m k : Nat}
    (ha : WrapAddrs p f a x n) (hb : WrapAddrs p f b y m) (hc : WrapAddrs p f (a ++ b) z k) (hj : Joined x y z)
    (hf : hasAddPath f = true) : AgreedPathIds p f a b := by
  cases f with
  | ipv4Mvpn => cases hf
  | ipv4FlowSpec => cases hf
  | ipv4VpnFlowSpec => cases hf
  | ipv6FlowSpec => cases hf
  | l2Vpls => cases hf
  | l2Evpn => cases hf
  | _ =>
    exact w_field_agreed (by intro _ _ z h; cases z <;> exact h) (by intro _ _ z h; cases z <;> exact h)
      (by intro _ w _ h; cases w <;> exact h) (by intro _ w _ h; cases w <;> exact h) ha hb hc hj

theorem agreed_plain {p : BgpSessionParams} (hf : p.fuzzyPathid = false) (f : Family) (a b : Bytes) : AgreedPathIds p f a b :=
  ⟨expected_all hf _ _ _, expected_all hf _ _ _⟩

/-! ## Octets that were cut off -/

theorem w_list_begins {α : Type} {R : Bytes → α → Nat → Prop} (hR : ItemGoesOn R) {c : List α → BgpAddrs}
    (hc : ∀ v w, v <+: w → Begins (c v) (c w)) {b t : Bytes} {x y : BgpAddrs} {n m : Nat}
    (h : ∃ v, x = c v ∧ ItemsRead 0 R b v n) (h' : ∃ v, y = c v ∧ ItemsRead 0 R (b ++ t) v m) : Begins x y := by
  obtain ⟨v, rfl, h⟩ := h
  obtain ⟨w, rfl, h'⟩ := h'
  exact hc _ _ (itemsRead_begins hR h t h')

theorem w_field_begins {T : Type} [BgpItemIn T] [WrapReads T] [WrapExact T] [WrapGoesOn T] {p : BgpSessionParams}
    {f : Family} {plain : List T → BgpAddrs} {withId : List (WithPathId T) → BgpAddrs}
    (h1 : ∀ v w, v <+: w → Begins (plain v) (plain w)) (h2 : ∀ v w, v <+: w → Begins (withId v) (withId w))
    (h3 : ∀ v w, ¬ Begins (plain v) (withId w)) (h4 : ∀ v w, ¬ Begins (withId v) (plain w))
    {b t : Bytes} {x y : BgpAddrs} {n m : Nat} (h : WrapField T p f plain withId b x n)
    (h' : WrapField T p f plain withId (b ++ t) y m) :
    Begins x y ↔ AddPathExpected p (familyCode f) (b ++ t) = AddPathExpected p (familyCode f) b := by
  unfold WrapField at h h'
  cases e1 : AddPathExpected p (familyCode f) b <;> cases e2 : AddPathExpected p (familyCode f) (b ++ t) <;>
    simp only [e1, e2, if_true, if_false, Bool.false_eq_true] at h h'
  · exact iff_of_true (w_list_begins w_goesOn_nlri h1 h h') rfl
  · obtain ⟨v, rfl, h⟩ := h
    obtain ⟨w, rfl, h'⟩ := h'
    exact iff_of_false (h3 v w) (by simp)
  · obtain ⟨v, rfl, h⟩ := h
    obtain ⟨w, rfl, h'⟩ := h'
    exact iff_of_false (h4 v w) (by simp)
  · obtain ⟨v, rfl, h⟩ := h
    obtain ⟨w, rfl, h'⟩ := h'
    exact iff_of_true (h2 _ _ (itemsRead_begins w_goesOn_pathId h t h')) rfl

theorem w_addrs_begins_iff {p : BgpSessionParams} {b t : Bytes} {f : Family} {x y : BgpAddrs} {n m : Nat}
    (h : WrapAddrs p f b x n) (h' : WrapAddrs p f (b ++ t) y m) :
    Begins x y ↔ hasAddPath f = false ∨ AddPathExpected p (familyCode f) (b ++ t) = AddPathExpected p (familyCode f) b := by
  cases f with
  | ipv4Mvpn => exact iff_of_true (w_list_begins (goesOn_mvpn _) (by intro _ _ h; exact h) h h') (.inl rfl)
  | ipv4FlowSpec => exact iff_of_true (w_list_begins w_goesOn_fs4 (by intro _ _ h; exact h) h h') (.inl rfl)
  | ipv4VpnFlowSpec => exact iff_of_true (w_list_begins w_goesOn_fsVpn (by intro _ _ h; exact h) h h') (.inl rfl)
  | ipv6FlowSpec => exact iff_of_true (w_list_begins w_goesOn_fs6 (by intro _ _ h; exact h) h h') (.inl rfl)
  | l2Vpls => exact iff_of_true (w_list_begins w_goesOn_vpls (by intro _ _ h; exact h) h h') (.inl rfl)
  | l2Evpn => exact iff_of_true (w_list_begins w_goesOn_evpn (by intro _ _ h; exact h) h h') (.inl rfl)
  | _ =>
    refine (w_field_begins (by intro _ _ h; exact h) (by intro _ _ h; exact h) (by intro _ _ h; exact h)
      (by intro _ _ h; exact h) h h').trans ?_
    simp [hasAddPath]

/-! ## The parts of an UPDATE -/

theorem w_nlriIs_inj {p : BgpSessionParams} {b : Bytes} {x y : BgpAddrs} (h : WrapNlriIs p b x) (h' : WrapNlriIs p b y) : x = y := by
  obtain ⟨n, h⟩ := h
  obtain ⟨m, h'⟩ := h'
  have := (w_addrs_exactly p _ b).unique (a := (x, n)) (b := (y, m)) h h'
  exact congrArg Prod.fst this

theorem w_update_parts {p : BgpSessionParams} {w a u : Bytes} (hw : w.length ≤ 65535) (ha : a.length ≤ 65535)
    (m : BgpUpdateMessage) :
    BgpUpdateMessage.new.decodeFromIn .release p (updateBytes w a u) = .ok m ↔
      WrapNlriIs p w m.withdraws ∧ AttrsRead (WrapValueRead p) a m.attrs ∧ WrapNlriIs p u m.updates := by
  rw [(w_update_exactly p _).ok m]
  constructor
  · rintro ⟨w', a', u', e, hw', ha', h1, h2, h3⟩
    obtain ⟨rfl, rfl, rfl⟩ := updateBytes_inj hw ha hw' ha' e
    exact ⟨h1, h2, h3⟩
  · rintro ⟨h1, h2, h3⟩
    exact ⟨w, a, u, rfl, hw, ha, h1, h2, h3⟩

theorem w_nlriIs_join {p : BgpSessionParams} (hf : p.fuzzyPathid = false) {a b : Bytes} {x y z : BgpAddrs}
    (ha : BgpAddrs.decodeFromIn .release p (familyCode (sessionFamily p)).1 (familyCode (sessionFamily p)).2 a = .ok (z, a.length))
    (h : WrapNlriIs p a x) (h' : WrapNlriIs p b y) : ∃ z, WrapNlriIs p (a ++ b) z ∧ Joined x y z := by
  obtain ⟨m, h'⟩ := h'
  have ha := ((w_addrs_exactly p _ a).ok (z, _)).1 ha
  obtain rfl := w_nlriIs_inj h ⟨_, ha⟩
  obtain ⟨z, h1, h2⟩ := w_addrs_join ha rfl h' fun _ => agreed_plain hf _ _ _
  exact ⟨z, ⟨_, h1⟩, h2⟩

theorem w_attrs_unique {p : BgpSessionParams} {a : Bytes} {l l' : List BgpAttrItem} (h : AttrsRead (WrapValueRead p) a l)
    (h' : AttrsRead (WrapValueRead p) a l') : l = l' := by
  obtain ⟨rs, rfl, hr, h1⟩ := (Rel.attrs_read_iff p a l).2 h
  obtain ⟨rs', e, hr', h2⟩ := (Rel.attrs_read_iff p _ l').2 h'
  obtain rfl := raws_inj hr hr' e
  have e : l.map Res.ok = l'.map Res.ok := h1.symm.trans h2
  exact List.map_injective_iff.2 (fun _ _ h => Res.ok.inj h) e

end Zbgp
