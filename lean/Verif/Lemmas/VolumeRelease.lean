import Verif.Lemmas.Volume
import Verif.Lemmas.ReleaseBmpReads

/-! # What is decoded without overflow checks holds no more than the octets it is read from -/

namespace Zbgp

open Spec

theorem w_labels_paid {bits : Nat} {b : Bytes} {ls : List U32} {k : Nat} (h : WrapLabels bits b ls k) :
    ls.length ≤ k ∧ k ≤ b.length := by
  induction h with
  | done b => simp
  | last bits v b hv hb he => simp [be_length]
  | more bits v b ls n hv hb he hr ih => simp [be_length]; omega

/-- As `PrefixPaid`. -/
class WrapPaid (T : Type) [WrapReads T] [Volume T] : Prop where
  paid : ∀ bits b (x : T) n, WrapReads.Read bits b x n → vol x ≤ n + 1 ∧ n ≤ b.length

instance : WrapPaid BgpAddrV4 := ⟨fun bits b x n h => PrefixPaid.paid (T := BgpAddrV4) bits b x n h⟩
instance : WrapPaid BgpAddrV6 := ⟨fun bits b x n h => PrefixPaid.paid (T := BgpAddrV6) bits b x n h⟩
instance : WrapPaid BgpMdtV4 := ⟨fun bits b x n h => PrefixPaid.paid (T := BgpMdtV4) bits b x n h⟩
instance : WrapPaid BgpMdtV6 := ⟨fun bits b x n h => PrefixPaid.paid (T := BgpMdtV6) bits b x n h⟩
instance {T : Type} [WrapReads T] [Volume T] [WrapPaid T] : WrapPaid (Labeled T) := ⟨fun bits b x n h => by
  obtain ⟨k, m, h1, h2, rfl⟩ := h
  have a := w_labels_paid h1
  have c := WrapPaid.paid _ _ _ _ h2
  rw [List.length_drop] at c
  show x.labels.labels.length + vol x.pfx ≤ _ ∧ _
  omega⟩
instance {T : Type} [WrapReads T] [Volume T] [WrapPaid T] : WrapPaid (WithRd T) := ⟨fun bits b x n h => by
  obtain ⟨t, m, h1, h2, rfl⟩ := h
  have c := WrapPaid.paid _ _ _ _ h2
  subst h1
  show vol x.pfx ≤ _ ∧ _
  simp [rdBody, be_length]
  omega⟩

theorem w_paid_nlri {T : Type} [WrapReads T] [Volume T] [WrapPaid T] : Paid vol (@NlriRead T (wrapReads T)) := by
  rintro b x n ⟨bits, t, m, rfl, h, rfl⟩
  have c := WrapPaid.paid _ _ _ _ h
  simp only [List.length_cons]
  omega

theorem w_paid_pathId {T : Type} [WrapReads T] [Volume T] [WrapPaid T] : Paid vol (@PathIdRead T (wrapReads T)) := by
  rintro b x n ⟨t, m, rfl, h, rfl⟩
  have c := w_paid_nlri _ _ _ h
  show vol x.nlri ≤ _ ∧ vol x.nlri ≤ _
  simp only [List.length_append, be_length]
  omega

theorem w_paid_vpls : Paid vol WrapVpls := by
  rintro b x n ⟨body, lab, t, k, rfl, _, h17, hb, hl, rfl⟩
  have a := w_labels_paid hl
  have c := congrArg List.length hb
  show 1 + x.labels.labels.length ≤ _ ∧ 1 + x.labels.labels.length ≤ _
  simp [rdBody, be_length] at c ⊢
  omega

theorem w_paid_evpn {b : Bytes} {x : BgpEVPN} {k : Nat} (h : WrapEvpn b x k) : vol x ≤ k + 1 ∧ vol x ≤ b.length + 1 := by
  cases h with
  | t1 rd et esi tag ls lab k h =>
    have a := w_labels_paid h
    show 1 + ls.length ≤ _ ∧ 1 + ls.length ≤ _
    simp; omega
  | t2 rd et esi tag mac ip ls lab k h =>
    have a := w_labels_paid h
    show 1 + ls.length ≤ _ ∧ 1 + ls.length ≤ _
    simp; omega
  | other _ _ _ h hr => exact paid_evpn hr

theorem w_paid_evpnItem : Paid vol WrapEvpnItem := by
  rintro b x n ⟨l, body, t, k, rfl, hl, h, rfl⟩
  have a := w_paid_evpn h
  simp only [List.cons_append, List.length_cons, List.length_append]
  omega

theorem w_field_paid {T : Type} [WrapReads T] [Volume T] [WrapPaid T] {p : BgpSessionParams} {f : Family} {plain : List T → BgpAddrs}
    {withId : List (WithPathId T) → BgpAddrs} {b : Bytes} {x : BgpAddrs} {n : Nat} (h : WrapField T p f plain withId b x n)
    (h1 : ∀ v, addrsVolume (plain v) = total vol v) (h2 : ∀ v, addrsVolume (withId v) = total vol v) :
    addrsVolume x ≤ n ∧ addrsVolume x ≤ b.length := by
  unfold WrapField at h
  split at h
  · obtain ⟨v, rfl, h⟩ := h
    rw [h2]
    exact paid_items w_paid_pathId h
  · obtain ⟨v, rfl, h⟩ := h
    rw [h1]
    exact paid_items w_paid_nlri h

theorem w_addrs_paid {p : BgpSessionParams} {f : Family} {b : Bytes} {x : BgpAddrs} {n : Nat} (h : WrapAddrs p f b x n) :
    addrsVolume x ≤ n ∧ addrsVolume x ≤ b.length := by
  cases f <;> simp only [WrapAddrs] at h <;>
    first
    | exact w_field_paid h (fun _ => rfl) (fun _ => rfl)
    | (obtain ⟨v, rfl, h⟩ := h
       first
       | exact paid_items (paid_mvpnItem _) h
       | exact paid_items (@paid_fsItem _ wrapFsV4) h
       | exact paid_items (@paid_fsItem _ wrapFsV6) h
       | exact paid_items (@paid_fsItem _ wrapFsVpn) h
       | exact paid_items w_paid_vpls h
       | exact paid_items w_paid_evpnItem h)

theorem w_reach_paid {p : BgpSessionParams} {v : Bytes} {nh : BgpAddr} {addrs : BgpAddrs} (h : WrapReachRead p v nh addrs) :
    addrsVolume addrs ≤ v.length := by
  obtain ⟨f, l, rest, snpas, nlri, n, _, rfl, _, _, _, hd, _, ha⟩ := h
  have a := (w_addrs_paid ha).2
  have b := congrArg List.length hd
  rw [List.length_drop, List.length_append] at b
  rw [List.length_append, List.length_cons]
  omega

theorem w_value_paid (p : BgpSessionParams) (n : Nat) : ∀ (code flags : U8) (v : Bytes) (x : BgpAttrItem), v.length = n →
    WrapValueRead p code flags v x → attrVolume x ≤ v.length + 1 ∧ 7 * setDepth x ≤ v.length + 3 := by
  induction n using Nat.strong_induction_on with
  | _ n ih =>
    intro code flags v x hv h
    cases h with
    | same _ _ _ _ hc h => exact value_paid p _ _ _ _ _ rfl h
    | mpReach _ _ nh addrs h =>
      have := w_reach_paid h
      simp only [attrVolume, setDepth]
      omega
    | mpUnreach _ f nlri addrs n h =>
      have := (w_addrs_paid h).2
      simp only [attrVolume, setDepth, List.length_append]
      omega
    | attrSet _ asn b l h32 h =>
      rw [List.length_append, be_length] at *
      have := attrs_paid_of h fun code flags v x hv' h => ih v.length (by omega) code flags v x rfl h
      simp only [attrVolume, setDepth]
      omega

theorem w_update_paid {p : BgpSessionParams} {buf : Bytes} {w u : BgpAddrs} {l : List BgpAttrItem} (h : WrapUpdateRead p buf w l u) :
    addrsVolume w + attrsVolume l + addrsVolume u + 4 ≤ buf.length ∧ 7 * setsDepth l + 4 ≤ buf.length := by
  obtain ⟨wb, ab, ub, rfl, _, _, ⟨n, h1⟩, h2, ⟨m, h3⟩⟩ := h
  have a := (w_addrs_paid h1).2
  have b := attrs_paid_of h2 fun code flags v x _ h => w_value_paid p v.length code flags v x rfl h
  have c := (w_addrs_paid h3).2
  simp only [updateBytes, List.length_append, be_length]
  omega

theorem w_embedded_paid {α : Type} {ty : BgpMessageType} {R : Bytes → α → Prop} {b : Bytes} {m : α} {rest : Bytes}
    (h : WrapEmbeddedRead ty R b m rest) : ∃ body, body.length + rest.length + 19 = b.length ∧ R body m := by
  obtain ⟨n, body, rfl, _, _, h⟩ := h
  refine ⟨body, ?_, h⟩
  simp [announced, be_length]
  omega

theorem w_bmp_paid {P : BmpMessagePeerHeader → BgpSessionParams → Prop} {b : Bytes} {m : BmpMessage} (h : WrapBmpRead P b m) :
    bmpVolume m ≤ b.length := by
  cases h with
  | monitoring h p body rest u hd hp hl hu =>
    obtain ⟨body', e, hb⟩ := w_embedded_paid hu
    have := (w_update_paid hb).1
    simp only [bmpVolume, updateVolume, List.length_cons, List.length_append]
    omega
  | statistics b => simp [bmpVolume]
  | down b m h => simp [bmpVolume]
  | up b m h =>
    obtain ⟨opens, rest1, rest2, rfl, _, _, h1, h2⟩ := h
    obtain ⟨b1, e1, h1⟩ := w_embedded_paid h1
    obtain ⟨b2, e2, h2⟩ := w_embedded_paid h2
    have := open_paid h1
    have := open_paid h2
    simp only [bmpVolume, List.length_cons, List.length_append]
    omega
  | initiation b m h => exact bmp_paid (.initiation (P := fun _ _ => True) b m h)
  | termination b m h => exact bmp_paid (.termination (P := fun _ _ => True) b m h)
  | mirroring b => simp [bmpVolume]

theorem w_peer_up_paid {b : Bytes} {m : BmpMessagePeerUp} (h : WrapPeerUpIs b m) :
    1 + bmpVolume (.PeerUpNotification m) + 120 ≤ b.length := by
  obtain ⟨body, rfl, opens, rest1, rest2, rfl, _, _, h1, h2⟩ := h
  obtain ⟨b1, e1, h1⟩ := w_embedded_paid h1
  obtain ⟨b2, e2, h2⟩ := w_embedded_paid h2
  have := open_paid h1
  have := open_paid h2
  have l1 : (peerHeaderWire m.peer).length = 42 := by
    have ha : (bmpAddr m.peer.peeraddress).length = 16 := by cases m.peer.peeraddress <;> simp [bmpAddr, be_length]
    simp [peerHeaderWire, be_length, ha]
  have l2 : (bmpAddr m.localaddress).length = 16 := by cases m.localaddress <;> simp [bmpAddr, be_length]
  simp only [bmpVolume, List.length_cons, List.length_append, l1, l2, be_length]
  omega

end Zbgp
