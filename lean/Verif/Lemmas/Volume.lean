import Verif.Lemmas.BmpReads
import Verif.Lemmas.ValueReads
import Verif.Lemmas.UpdateReads
import Verif.Lemmas.OpenReads
import Verif.Lemmas.ReadsAll
import Verif.Spec.Volume

/-! # Decoded values hold no more than the octets they are read from -/

namespace Zbgp

open Spec

theorem total_nil {α : Type} (v : α → Nat) : total v [] = 0 := rfl

theorem total_cons {α : Type} (v : α → Nat) (x : α) (l : List α) : total v (x :: l) = v x + total v l := by
  simp [total]

theorem total_append {α : Type} (v : α → Nat) (l l' : List α) : total v (l ++ l') = total v l + total v l' := by
  simp [total]

/-- What is read takes at least as many octets as it holds, and they are there. -/
def Paid {α : Type} (v : α → Nat) (R : Bytes → α → Nat → Prop) : Prop :=
  ∀ b x n, R b x n → v x ≤ n ∧ v x ≤ b.length

theorem paid_items {α : Type} {v : α → Nat} {R : Bytes → α → Nat → Prop} (hR : Paid v R) {lim : Nat} {b : Bytes}
    {xs : List α} {n : Nat} (h : ItemsRead lim R b xs n) : total v xs ≤ n ∧ total v xs ≤ b.length := by
  induction h with
  | done b h => simp [total]
  | item b x n xs m h hx hr ih =>
    have h1 := hR _ _ _ hx
    rw [total_cons]
    rw [List.length_drop] at ih
    omega

/-- A list of items without anything in them. -/
theorem paid_one {α : Type} {R : Bytes → α → Nat → Prop} (h : ∀ b x n, R b x n → 1 ≤ n ∧ 1 ≤ b.length) :
    Paid (fun _ => 1) R := h

theorem labels_paid {bits : Nat} {b : Bytes} {ls : List U32} {k : Nat} (h : LabelsRead bits b ls k) :
    ls.length ≤ k ∧ k ≤ b.length := by
  induction h with
  | done b => simp
  | last bits v b hv hb he => simp [be_length]
  | more bits v b ls n hv he hr ih => simp [be_length]; omega

/-- Prefixes, read behind their length octet. -/
class PrefixPaid (T : Type) [PrefixReads T] [Volume T] : Prop where
  paid : ∀ bits b (x : T) n, PrefixReads.Read bits b x n → vol x ≤ n + 1 ∧ n ≤ b.length

instance : PrefixPaid BgpAddrV4 := ⟨fun _ _ _ _ h => ⟨Nat.le_add_left 1 _, h.2.2.1⟩⟩
instance : PrefixPaid BgpAddrV6 := ⟨fun _ _ _ _ h => ⟨Nat.le_add_left 1 _, h.2.2.1⟩⟩
instance : PrefixPaid BgpMdtV4 := ⟨fun bits b x n h => by
  obtain ⟨m, g, _, _, e, rfl⟩ := h
  have := congrArg List.length e
  simp [be_length] at this
  exact ⟨Nat.le_add_left 1 _, by omega⟩⟩
instance : PrefixPaid BgpMdtV6 := ⟨fun bits b x n h => by
  obtain ⟨m, g, _, _, _, e, rfl⟩ := h
  have := congrArg List.length e
  simp [be_length] at this
  exact ⟨Nat.le_add_left 1 _, by omega⟩⟩
instance {T : Type} [PrefixReads T] [Volume T] [PrefixPaid T] : PrefixPaid (Labeled T) := ⟨fun bits b x n h => by
  obtain ⟨k, m, h1, h2, rfl⟩ := h
  have a := labels_paid h1
  have c := PrefixPaid.paid _ _ _ _ h2
  rw [List.length_drop] at c
  show x.labels.labels.length + vol x.pfx ≤ _ ∧ _
  omega⟩
instance {T : Type} [PrefixReads T] [Volume T] [PrefixPaid T] : PrefixPaid (WithRd T) := ⟨fun bits b x n h => by
  obtain ⟨t, m, h1, rfl, h2, rfl⟩ := h
  have c := PrefixPaid.paid _ _ _ _ h2
  show vol x.pfx ≤ _ ∧ _
  simp [rdBody, be_length]
  omega⟩

theorem paid_nlri {T : Type} [PrefixReads T] [Volume T] [PrefixPaid T] : Paid vol (NlriRead (T := T)) := by
  rintro b x n ⟨bits, t, m, rfl, h, rfl⟩
  have c := PrefixPaid.paid _ _ _ _ h
  simp only [List.length_cons]
  omega

theorem paid_pathId {T : Type} [PrefixReads T] [Volume T] [PrefixPaid T] : Paid vol (PathIdRead (T := T)) := by
  rintro b x n ⟨t, m, rfl, h, rfl⟩
  have c := paid_nlri _ _ _ h
  show vol x.nlri ≤ _ ∧ vol x.nlri ≤ _
  simp only [List.length_append, be_length]
  omega

theorem paid_vpls : Paid vol VplsRead := by
  rintro b x n ⟨body, lab, t, k, rfl, _, h17, hb, hl, rfl⟩
  have a := labels_paid hl
  have c := congrArg List.length hb
  show 1 + x.labels.labels.length ≤ _ ∧ 1 + x.labels.labels.length ≤ _
  simp [rdBody, be_length] at c ⊢
  omega

theorem paid_evpn {b : Bytes} {x : BgpEVPN} {k : Nat} (h : EvpnRead b x k) : vol x ≤ k + 1 ∧ vol x ≤ b.length + 1 := by
  cases h with
  | t1 rd et esi tag ls lab k h =>
    have a := labels_paid h
    show 1 + ls.length ≤ _ ∧ 1 + ls.length ≤ _
    simp; omega
  | t2 rd et esi tag mac ip ls lab k h =>
    have a := labels_paid h
    show 1 + ls.length ≤ _ ∧ 1 + ls.length ≤ _
    simp; omega
  | t3 rd tag ip t => show 1 ≤ _ ∧ 1 ≤ _; omega
  | t4 rd et esi ip t => show 1 ≤ _ ∧ 1 ≤ _; omega
  | t5 rd et esi tag len p g ls lab k hl h =>
    have a := labels_paid h
    show 1 + ls.length ≤ _ ∧ 1 + ls.length ≤ _
    simp; omega
  | t5v6 rd et esi tag len p g q r ls lab k hq hr hl h =>
    have a := labels_paid h
    show 1 + ls.length ≤ _ ∧ 1 + ls.length ≤ _
    simp; omega

theorem paid_evpnItem : Paid vol EvpnItemRead := by
  rintro b x n ⟨l, body, t, k, rfl, hl, h, rfl⟩
  have a := paid_evpn h
  simp only [List.cons_append, List.length_cons, List.length_append]
  omega

theorem paid_mvpnItem (mode : BgpTransportMode) : Paid vol (MvpnItemRead mode) := by
  rintro b x n ⟨l, body, t, k, rfl, hl, h, rfl⟩
  show 1 ≤ _ ∧ 1 ≤ _
  simp only [List.cons_append, List.length_cons]
  omega

theorem paid_fsOp {I : Type} [FsOpReads I] : Paid (fun _ => 1) (FsOpRead (I := I)) := by
  rintro b x n ⟨op, t, _, _, _, rfl, rfl⟩
  simp only [List.cons_append, List.length_cons]
  exact ⟨Nat.le_add_right _ _, Nat.le_add_left _ _⟩

theorem total_one {α : Type} (l : List α) : total (fun _ => 1) l = l.length := by
  induction l with
  | nil => rfl
  | cons x l ih => rw [total_cons, ih, List.length_cons]; omega

theorem paid_fsOps {I : Type} [FsOpReads I] {b : Bytes} {v : FSOperVec I} (h : FsOpsRead b v) :
    v.items.length ≤ b.length := by
  obtain ⟨n, h⟩ := h
  have := (paid_items paid_fsOp h).2
  rwa [total_one] at this

theorem paid_fsComponent {T : Type} [FsPrefixReads T] {code : U8} {b : Bytes} {x : BgpFlowSpec T} {k : Nat}
    (h : FsComponentRead code b x k) : vol x ≤ k ∧ vol x ≤ b.length + 1 := by
  cases h with
  | prefixDst b a n h => show 1 ≤ _ ∧ 1 ≤ _; omega
  | prefixSrc b a n h => show 1 ≤ _ ∧ 1 ≤ _; omega
  | _ b v h =>
    have := paid_fsOps h
    show 1 + v.items.length ≤ _ ∧ 1 + v.items.length ≤ _
    omega

theorem paid_fsItem {T : Type} [FsPrefixReads T] : Paid vol (FsItemRead (T := T)) := by
  rintro b x n ⟨pre, l, code, body, t, k, _, rfl, _, h, rfl⟩
  have a := paid_fsComponent h
  simp only [List.length_cons, List.length_append]
  omega

theorem addrs_paid {p : BgpSessionParams} {f : Family} {b : Bytes} {x : BgpAddrs} {n : Nat} (h : AddrsRead p f b x n) :
    addrsVolume x ≤ n ∧ addrsVolume x ≤ b.length := by
  cases h <;> rename_i h <;>
    first
    | exact paid_items paid_nlri h
    | exact paid_items paid_pathId h
    | exact paid_items (paid_mvpnItem _) h
    | exact paid_items paid_fsItem h
    | exact paid_items paid_vpls h
    | exact paid_items paid_evpnItem h

/-! ## Attributes -/

theorem count_le_flatMap {α : Type} (f : α → Bytes) (h : ∀ x, 1 ≤ (f x).length) (l : List α) :
    l.length ≤ (l.flatMap f).length := by
  induction l with
  | nil => simp
  | cons x l ih =>
    have := h x
    rw [List.flatMap_cons, List.length_append, List.length_cons]
    omega

theorem ascending_length_le {α : Type} {number : α → Nat} {s l : List α} (h : Spec.Ascending number s)
    (hs : ∀ c, c ∈ s ↔ c ∈ l) : s.length ≤ l.length := by
  have hn : s.Nodup := List.Pairwise.imp (fun h e => by rw [e] at h; omega) h
  exact (hn.subperm fun c hc => (hs c).1 hc).length_le

theorem members_paid {α : Type} {wire : α → Bytes} {number : α → Nat} {rest : Nat} {v : Bytes} {s : List α}
    (hw : ∀ x, 1 ≤ (wire x).length) (h : MembersRead wire number rest v s) : s.length ≤ v.length := by
  obtain ⟨l, t, rfl, _, h1, h2⟩ := h
  have a := ascending_length_le h1 h2
  have b := count_le_flatMap wire hw l
  rw [List.length_append]
  omega

theorem reach_paid {p : BgpSessionParams} {v : Bytes} {nh : BgpAddr} {addrs : BgpAddrs} (h : ReachRead p v nh addrs) :
    addrsVolume addrs ≤ v.length := by
  obtain ⟨f, l, rest, snpas, nlri, n, _, rfl, _, _, _, hd, _, ha⟩ := h
  have a := (addrs_paid ha).2
  have b := congrArg List.length hd
  rw [List.length_drop, List.length_append] at b
  rw [List.length_append, List.length_cons]
  omega

theorem attrs_paid_of {V : U8 → U8 → Bytes → BgpAttrItem → Prop} {b : Bytes} {l : List BgpAttrItem} (h : AttrsRead V b l)
    (hV : ∀ code flags v x, v.length < b.length → V code flags v x → attrVolume x ≤ v.length + 1 ∧
      7 * setDepth x ≤ v.length + 3) : attrsVolume l ≤ b.length ∧ 7 * setsDepth l ≤ b.length := by
  induction h with
  | nil => exact ⟨Nat.le_refl _, Nat.le_refl _⟩
  | cons r x t l hr hx hl ih =>
    have e := rawWire_length r
    have e' : r.value.length + 3 ≤ (rawWire r).length := by rw [e]; split <;> omega
    rw [List.length_append] at *
    have a := hV _ _ _ _ (by omega) hx
    have b := ih fun code flags v x hv h => hV code flags v x (by omega) h
    show attrVolume x + attrsVolume l ≤ _ ∧ 7 * max (setDepth x) (setsDepth l) ≤ _
    omega

theorem ipBody_pos (a : IpAddr) : 1 ≤ (ipBody a).length := by
  cases a <;> simp [ipBody, be_length]

theorem value_paid (p : BgpSessionParams) (n : Nat) : ∀ (code flags : U8) (v : Bytes) (x : BgpAttrItem), v.length = n →
    ValueRead p code flags v x → attrVolume x ≤ v.length + 1 ∧ 7 * setDepth x ≤ v.length + 3 := by
  induction n using Nat.strong_induction_on with
  | _ n ih =>
    intro code flags v x hv h
    cases h with
    | fixed _ _ w t _ h ht => cases h <;> simp [attrVolume, setDepth]
    | asPath _ _ l h =>
      obtain ⟨pre, rfl, _, _⟩ := h
      have := count_le_flatMap (asnWire p.hasAs32bit) (fun a => by simp only [asnWire, be_length]; split <;> omega) l
      simp only [attrVolume, setDepth, List.length_append]
      omega
    | atomicAggregate => simp [attrVolume, setDepth]
    | atomicAggregateAddr _ a => simp [attrVolume, setDepth]
    | communities _ _ s h =>
      have := members_paid (fun x => by simp [communityWire, be_length]) h
      simp only [attrVolume, setDepth]
      omega
    | originatorId _ a t h => simp [attrVolume, setDepth]
    | clusterList _ l t hl ht =>
      have := count_le_flatMap ipBody ipBody_pos l
      simp only [attrVolume, setDepth, List.length_append]
      omega
    | mpReach _ _ nh addrs h =>
      have := reach_paid h
      simp only [attrVolume, setDepth]
      omega
    | mpUnreach _ f nlri addrs n h =>
      have := (addrs_paid h).2
      simp only [attrVolume, setDepth, List.length_append]
      omega
    | extCommunities _ _ s h =>
      have := members_paid (fun x => by simp [extCommunityWire, be_length]) h
      simp only [attrVolume, setDepth]
      omega
    | pmsi _ fl kind a b c id t h =>
      have : tunnelVolume t ≤ id.length := by
        cases h <;> simp [tunnelVolume]
        omega
      simp only [attrVolume, setDepth, List.length_append, List.length_cons, List.length_nil]
      omega
    | largeCommunities _ _ s h =>
      have := members_paid (fun x => by simp [largeCommunityWire, be_length]) h
      simp only [attrVolume, setDepth]
      omega
    | attrSet _ asn b l h32 h =>
      rw [List.length_append, be_length] at *
      have := attrs_paid_of h fun code flags v x hv' h => ih v.length (by omega) code flags v x rfl h
      simp only [attrVolume, setDepth]
      omega
    | unknown _ _ _ h =>
      simp only [attrVolume, setDepth]
      omega

theorem attrs_paid {p : BgpSessionParams} {b : Bytes} {l : List BgpAttrItem} (h : AttrsRead (ValueRead p) b l) :
    attrsVolume l ≤ b.length ∧ 7 * setsDepth l ≤ b.length :=
  attrs_paid_of h fun code flags v x _ h => value_paid p v.length code flags v x rfl h

theorem update_paid {p : BgpSessionParams} {buf : Bytes} {w u : BgpAddrs} {l : List BgpAttrItem} (h : UpdateRead p buf w l u) :
    addrsVolume w + attrsVolume l + addrsVolume u + 4 ≤ buf.length ∧ 7 * setsDepth l + 4 ≤ buf.length := by
  obtain ⟨wb, ab, ub, rfl, _, _, ⟨n, h1⟩, h2, ⟨m, h3⟩⟩ := h
  have a := (addrs_paid h1).2
  have b := attrs_paid h2
  have c := (addrs_paid h3).2
  simp only [updateBytes, List.length_append, be_length]
  omega

/-! ## Capabilities -/

theorem entries_paid {α : Type} {R : Bytes → α → Prop} (hR : ∀ b x, R b x → 1 ≤ b.length) {b : Bytes} {l : List α}
    (h : EntriesRead R b l) : l.length ≤ b.length := by
  induction h with
  | done => simp
  | entry b rest x xs h hr ih =>
    have := hR _ _ h
    rw [List.length_append, List.length_cons]
    omega

theorem cap_paid {code : U8} {data : Bytes} {o : Option BgpCapability} (h : CapRead code data o) :
    total capVolume o.toList ≤ data.length + 2 := by
  cases h with
  | mp data c h => cases c <;> simp [capValue] at h <;> simp [total, capVolume]
  | gr w b afis hw h =>
    have := entries_paid (R := GrEntryRead) (by rintro b x ⟨f, rfl, _⟩; simp [be_length]) h
    simp [total, capVolume, be_length]; omega
  | addPath b v h =>
    have := entries_paid (R := AddPathEntryRead) (by rintro b x ⟨f, rfl, _⟩; simp [be_length]) h
    simp [total, capVolume]; omega
  | llgr b v h =>
    have := entries_paid (R := LlgrEntryRead) (by rintro b x ⟨rfl, _⟩; simp [llgrEntry, be_length]) h
    simp [total, capVolume]; omega
  | fqdn host hl hu => simp [total, capVolume, fqdnValue, be_length]; omega
  | _ => simp [total, capVolume]

theorem caps_paid {b : Bytes} {l : List BgpCapability} (h : CapsRead b l) : total capVolume l ≤ b.length := by
  induction h with
  | done => simp [total]
  | cap code data rest o l hl h hr ih =>
    have := cap_paid h
    simp only [total_append, tlv, List.length_append, be_length]
    omega

theorem params_paid {b : Bytes} {l : List BgpCapability} (h : ParamsRead b l) : total capVolume l ≤ b.length := by
  induction h with
  | done b h => simp [total]
  | param body rest l l' hl h hr ih =>
    have := caps_paid h
    simp only [total_append, capParam, tlv, List.length_append, be_length]
    omega

theorem open_paid {b : Bytes} {m : BgpOpenMessage} (h : OpenRead b m) : total capVolume m.caps + 10 ≤ b.length := by
  obtain ⟨as, len, params, rfl, _, hp⟩ := h
  have := params_paid hp
  simp only [List.length_append, List.length_cons, be_length]
  omega

/-! ## BMP -/

theorem embedded_paid {α : Type} {ty : BgpMessageType} {R : Bytes → α → Prop} {b : Bytes} {m : α} {rest : Bytes}
    (h : EmbeddedRead ty R b m rest) : ∃ body, body.length + rest.length + 19 = b.length ∧ R body m := by
  obtain ⟨body, rfl, _, h⟩ := h
  refine ⟨body, ?_, h⟩
  simp [message, header, be_length]
  omega

theorem lastOf_volume (ty : Nat) (l : List (Nat × Bytes)) : textVolume (lastOf ty l) ≤
    ((l.filter fun t => t.1 == ty).map fun t => t.2.length).sum := by
  unfold lastOf
  cases h : (l.filter fun t => t.1 == ty).getLast? with
  | none => simp [textVolume]
  | some t =>
    have hm := List.mem_of_getLast? h
    simp only [Option.map_some, textVolume]
    exact List.single_le_sum (by simp) _ (List.mem_map.2 ⟨t, hm, rfl⟩)

theorem sum_filters (l : List (Nat × Bytes)) : ((l.filter fun t => t.1 == 0).map fun t => t.2.length).sum +
    ((l.filter fun t => t.1 == 1).map fun t => t.2.length).sum + ((l.filter fun t => t.1 == 2).map fun t => t.2.length).sum ≤
    (l.flatMap fun t => infoWire t.1 t.2).length := by
  induction l with
  | nil => simp
  | cons t l ih =>
    rw [List.flatMap_cons, List.length_append]
    have e : (infoWire t.1 t.2).length = t.2.length + 4 := by simp [infoWire, be_length]; omega
    rw [e]
    simp only [List.filter_cons]
    by_cases h0 : t.1 = 0
    · simp [h0]; simp at ih; omega
    · by_cases h1 : t.1 = 1
      · simp [h1]; simp at ih; omega
      · by_cases h2 : t.1 = 2
        · simp [h2]; simp at ih; omega
        · simp [h0, h1, h2]; simp at ih; omega

theorem termination_paid {b : Bytes} {m : BmpMessageTermination} (h : TerminationRead b m) :
    textVolume m.str0 ≤ b.length := by
  induction h with
  | done b h => simp [textVolume]
  | text s rest x h hr ih =>
    cases hx : x.str0 with
    | none => simp [textVolume, infoWire]; omega
    | some s' => rw [hx] at ih; simp [textVolume, infoWire] at ih ⊢; omega
  | reason v rest rest' r x hv h hr ih => rw [List.length_append]; simp at ih ⊢; omega
  | other ty v rest x ht ht' hv hr ih => rw [List.length_append]; omega

theorem bmp_paid {P : BmpMessagePeerHeader → BgpSessionParams → Prop} {b : Bytes} {m : BmpMessage} (h : BmpRead P b m) :
    bmpVolume m ≤ b.length := by
  cases h with
  | monitoring h p body rest u hd hp hl hu =>
    obtain ⟨body', e, hb⟩ := embedded_paid hu
    have := (update_paid hb).1
    simp only [bmpVolume, updateVolume, List.length_cons, List.length_append]
    omega
  | statistics b => simp [bmpVolume]
  | down b m h => simp [bmpVolume]
  | up b m h =>
    obtain ⟨opens, rest1, rest2, rfl, _, _, h1, h2⟩ := h
    obtain ⟨b1, e1, h1⟩ := embedded_paid h1
    obtain ⟨b2, e2, h2⟩ := embedded_paid h2
    have := open_paid h1
    have := open_paid h2
    simp only [bmpVolume, List.length_cons, List.length_append]
    omega
  | initiation b m h =>
    obtain ⟨l, rfl, _, rfl⟩ := h
    have := lastOf_volume 0 l
    have := lastOf_volume 1 l
    have := lastOf_volume 2 l
    have := sum_filters l
    simp only [bmpVolume, List.length_cons]
    omega
  | termination b m h =>
    have := termination_paid h
    simp only [bmpVolume, List.length_cons]
    omega
  | mirroring b => simp [bmpVolume]

end Zbgp
