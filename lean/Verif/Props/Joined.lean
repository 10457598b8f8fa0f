import Verif.Spec.Joined
import Verif.Lemmas.Truncated
import Verif.Props.Attrs

/-! # C15: lists of routes of every family, one behind the other -/

namespace Zbgp.Props

open Zbgp Spec

theorem itemsRead_join {α : Type} {R : Bytes → α → Nat → Prop} (hR : ItemGoesOn R) {lim : Nat} {a : Bytes} {xs : List α} {n : Nat}
    (h : ItemsRead lim R a xs n) (hn : n = a.length) {b : Bytes} {ys : List α} {m : Nat} (h' : ItemsRead lim R b ys m) :
    ItemsRead lim R (a ++ b) (xs ++ ys) (n + m) := by
  induction h with
  | done a ha =>
    obtain rfl := List.eq_nil_of_length_eq_zero hn.symm
    simpa using h'
  | item a x n xs k ha hx hr ih =>
    have ih := ih (by simp; omega)
    rw [Nat.add_assoc]
    refine .item _ x n _ _ (by simp; omega) (hR.2 _ _ _ b hx) ?_
    rwa [List.drop_append_of_le_length (by omega)]

theorem expected_all {p : BgpSessionParams} (hf : p.fuzzyPathid = false) (fam : U16 × U8) (a b : Bytes) :
    AddPathExpected p fam a = AddPathExpected p fam b := by
  simp [AddPathExpected, hf]

theorem addrsRead_join {p : BgpSessionParams} (hf : p.fuzzyPathid = false) {f : Family} {a b : Bytes} {x y : BgpAddrs}
    {n m : Nat} (h : AddrsRead p f a x n) (hn : n = a.length) (h' : AddrsRead p f b y m) :
    ∃ z, AddrsRead p f (a ++ b) z (n + m) ∧ Joined x y z := by
  cases h with
  | ipv4Unicast _ v n ha h =>
    cases h' with
    | ipv4Unicast _ w m ha2 h2 =>
      exact ⟨_, .ipv4Unicast _ _ _ ((expected_all hf _ _ _).trans ha) (itemsRead_join goesOn_nlri h hn h2), rfl⟩
    | ipv4UnicastP _ w m ha2 h2 => exact absurd ((expected_all hf _ b a).trans ha) (by rw [ha2]; simp)
  | ipv4UnicastP _ v n ha h =>
    cases h' with
    | ipv4UnicastP _ w m ha2 h2 =>
      exact ⟨_, .ipv4UnicastP _ _ _ ((expected_all hf _ _ _).trans ha) (itemsRead_join goesOn_pathId h hn h2), rfl⟩
    | ipv4Unicast _ w m ha2 h2 => exact absurd ((expected_all hf _ b a).trans ha) (by rw [ha2]; simp)
  | ipv4Multicast _ v n ha h =>
    cases h' with
    | ipv4Multicast _ w m ha2 h2 =>
      exact ⟨_, .ipv4Multicast _ _ _ ((expected_all hf _ _ _).trans ha) (itemsRead_join goesOn_nlri h hn h2), rfl⟩
    | ipv4MulticastP _ w m ha2 h2 => exact absurd ((expected_all hf _ b a).trans ha) (by rw [ha2]; simp)
  | ipv4MulticastP _ v n ha h =>
    cases h' with
    | ipv4MulticastP _ w m ha2 h2 =>
      exact ⟨_, .ipv4MulticastP _ _ _ ((expected_all hf _ _ _).trans ha) (itemsRead_join goesOn_pathId h hn h2), rfl⟩
    | ipv4Multicast _ w m ha2 h2 => exact absurd ((expected_all hf _ b a).trans ha) (by rw [ha2]; simp)
  | ipv4Labeled _ v n ha h =>
    cases h' with
    | ipv4Labeled _ w m ha2 h2 =>
      exact ⟨_, .ipv4Labeled _ _ _ ((expected_all hf _ _ _).trans ha) (itemsRead_join goesOn_nlri h hn h2), rfl⟩
    | ipv4LabeledP _ w m ha2 h2 => exact absurd ((expected_all hf _ b a).trans ha) (by rw [ha2]; simp)
  | ipv4LabeledP _ v n ha h =>
    cases h' with
    | ipv4LabeledP _ w m ha2 h2 =>
      exact ⟨_, .ipv4LabeledP _ _ _ ((expected_all hf _ _ _).trans ha) (itemsRead_join goesOn_pathId h hn h2), rfl⟩
    | ipv4Labeled _ w m ha2 h2 => exact absurd ((expected_all hf _ b a).trans ha) (by rw [ha2]; simp)
  | ipv4Mvpn _ v n h =>
    cases h' with
    | ipv4Mvpn _ w m h2 =>
      exact ⟨_, .ipv4Mvpn _ _ _ (itemsRead_join (goesOn_mvpn _) h hn h2), rfl⟩
  | ipv4Mdt _ v n ha h =>
    cases h' with
    | ipv4Mdt _ w m ha2 h2 =>
      exact ⟨_, .ipv4Mdt _ _ _ ((expected_all hf _ _ _).trans ha) (itemsRead_join goesOn_nlri h hn h2), rfl⟩
    | ipv4MdtP _ w m ha2 h2 => exact absurd ((expected_all hf _ b a).trans ha) (by rw [ha2]; simp)
  | ipv4MdtP _ v n ha h =>
    cases h' with
    | ipv4MdtP _ w m ha2 h2 =>
      exact ⟨_, .ipv4MdtP _ _ _ ((expected_all hf _ _ _).trans ha) (itemsRead_join goesOn_pathId h hn h2), rfl⟩
    | ipv4Mdt _ w m ha2 h2 => exact absurd ((expected_all hf _ b a).trans ha) (by rw [ha2]; simp)
  | ipv4Vpn _ v n ha h =>
    cases h' with
    | ipv4Vpn _ w m ha2 h2 =>
      exact ⟨_, .ipv4Vpn _ _ _ ((expected_all hf _ _ _).trans ha) (itemsRead_join goesOn_nlri h hn h2), rfl⟩
    | ipv4VpnP _ w m ha2 h2 => exact absurd ((expected_all hf _ b a).trans ha) (by rw [ha2]; simp)
  | ipv4VpnP _ v n ha h =>
    cases h' with
    | ipv4VpnP _ w m ha2 h2 =>
      exact ⟨_, .ipv4VpnP _ _ _ ((expected_all hf _ _ _).trans ha) (itemsRead_join goesOn_pathId h hn h2), rfl⟩
    | ipv4Vpn _ w m ha2 h2 => exact absurd ((expected_all hf _ b a).trans ha) (by rw [ha2]; simp)
  | ipv4VpnMulticast _ v n ha h =>
    cases h' with
    | ipv4VpnMulticast _ w m ha2 h2 =>
      exact ⟨_, .ipv4VpnMulticast _ _ _ ((expected_all hf _ _ _).trans ha) (itemsRead_join goesOn_nlri h hn h2), rfl⟩
    | ipv4VpnMulticastP _ w m ha2 h2 => exact absurd ((expected_all hf _ b a).trans ha) (by rw [ha2]; simp)
  | ipv4VpnMulticastP _ v n ha h =>
    cases h' with
    | ipv4VpnMulticastP _ w m ha2 h2 =>
      exact ⟨_, .ipv4VpnMulticastP _ _ _ ((expected_all hf _ _ _).trans ha) (itemsRead_join goesOn_pathId h hn h2), rfl⟩
    | ipv4VpnMulticast _ w m ha2 h2 => exact absurd ((expected_all hf _ b a).trans ha) (by rw [ha2]; simp)
  | ipv4FlowSpec _ v n h =>
    cases h' with
    | ipv4FlowSpec _ w m h2 =>
      exact ⟨_, .ipv4FlowSpec _ _ _ (itemsRead_join goesOn_fs h hn h2), rfl⟩
  | ipv4VpnFlowSpec _ v n h =>
    cases h' with
    | ipv4VpnFlowSpec _ w m h2 =>
      exact ⟨_, .ipv4VpnFlowSpec _ _ _ (itemsRead_join goesOn_fs h hn h2), rfl⟩
  | ipv6Unicast _ v n ha h =>
    cases h' with
    | ipv6Unicast _ w m ha2 h2 =>
      exact ⟨_, .ipv6Unicast _ _ _ ((expected_all hf _ _ _).trans ha) (itemsRead_join goesOn_nlri h hn h2), rfl⟩
    | ipv6UnicastP _ w m ha2 h2 => exact absurd ((expected_all hf _ b a).trans ha) (by rw [ha2]; simp)
  | ipv6UnicastP _ v n ha h =>
    cases h' with
    | ipv6UnicastP _ w m ha2 h2 =>
      exact ⟨_, .ipv6UnicastP _ _ _ ((expected_all hf _ _ _).trans ha) (itemsRead_join goesOn_pathId h hn h2), rfl⟩
    | ipv6Unicast _ w m ha2 h2 => exact absurd ((expected_all hf _ b a).trans ha) (by rw [ha2]; simp)
  | ipv6Multicast _ v n ha h =>
    cases h' with
    | ipv6Multicast _ w m ha2 h2 =>
      exact ⟨_, .ipv6Multicast _ _ _ ((expected_all hf _ _ _).trans ha) (itemsRead_join goesOn_nlri h hn h2), rfl⟩
    | ipv6MulticastP _ w m ha2 h2 => exact absurd ((expected_all hf _ b a).trans ha) (by rw [ha2]; simp)
  | ipv6MulticastP _ v n ha h =>
    cases h' with
    | ipv6MulticastP _ w m ha2 h2 =>
      exact ⟨_, .ipv6MulticastP _ _ _ ((expected_all hf _ _ _).trans ha) (itemsRead_join goesOn_pathId h hn h2), rfl⟩
    | ipv6Multicast _ w m ha2 h2 => exact absurd ((expected_all hf _ b a).trans ha) (by rw [ha2]; simp)
  | ipv6Labeled _ v n ha h =>
    cases h' with
    | ipv6Labeled _ w m ha2 h2 =>
      exact ⟨_, .ipv6Labeled _ _ _ ((expected_all hf _ _ _).trans ha) (itemsRead_join goesOn_nlri h hn h2), rfl⟩
    | ipv6LabeledP _ w m ha2 h2 => exact absurd ((expected_all hf _ b a).trans ha) (by rw [ha2]; simp)
  | ipv6LabeledP _ v n ha h =>
    cases h' with
    | ipv6LabeledP _ w m ha2 h2 =>
      exact ⟨_, .ipv6LabeledP _ _ _ ((expected_all hf _ _ _).trans ha) (itemsRead_join goesOn_pathId h hn h2), rfl⟩
    | ipv6Labeled _ w m ha2 h2 => exact absurd ((expected_all hf _ b a).trans ha) (by rw [ha2]; simp)
  | ipv6Mdt _ v n ha h =>
    cases h' with
    | ipv6Mdt _ w m ha2 h2 =>
      exact ⟨_, .ipv6Mdt _ _ _ ((expected_all hf _ _ _).trans ha) (itemsRead_join goesOn_nlri h hn h2), rfl⟩
    | ipv6MdtP _ w m ha2 h2 => exact absurd ((expected_all hf _ b a).trans ha) (by rw [ha2]; simp)
  | ipv6MdtP _ v n ha h =>
    cases h' with
    | ipv6MdtP _ w m ha2 h2 =>
      exact ⟨_, .ipv6MdtP _ _ _ ((expected_all hf _ _ _).trans ha) (itemsRead_join goesOn_pathId h hn h2), rfl⟩
    | ipv6Mdt _ w m ha2 h2 => exact absurd ((expected_all hf _ b a).trans ha) (by rw [ha2]; simp)
  | ipv6Vpn _ v n ha h =>
    cases h' with
    | ipv6Vpn _ w m ha2 h2 =>
      exact ⟨_, .ipv6Vpn _ _ _ ((expected_all hf _ _ _).trans ha) (itemsRead_join goesOn_nlri h hn h2), rfl⟩
    | ipv6VpnP _ w m ha2 h2 => exact absurd ((expected_all hf _ b a).trans ha) (by rw [ha2]; simp)
  | ipv6VpnP _ v n ha h =>
    cases h' with
    | ipv6VpnP _ w m ha2 h2 =>
      exact ⟨_, .ipv6VpnP _ _ _ ((expected_all hf _ _ _).trans ha) (itemsRead_join goesOn_pathId h hn h2), rfl⟩
    | ipv6Vpn _ w m ha2 h2 => exact absurd ((expected_all hf _ b a).trans ha) (by rw [ha2]; simp)
  | ipv6VpnMulticast _ v n ha h =>
    cases h' with
    | ipv6VpnMulticast _ w m ha2 h2 =>
      exact ⟨_, .ipv6VpnMulticast _ _ _ ((expected_all hf _ _ _).trans ha) (itemsRead_join goesOn_nlri h hn h2), rfl⟩
    | ipv6VpnMulticastP _ w m ha2 h2 => exact absurd ((expected_all hf _ b a).trans ha) (by rw [ha2]; simp)
  | ipv6VpnMulticastP _ v n ha h =>
    cases h' with
    | ipv6VpnMulticastP _ w m ha2 h2 =>
      exact ⟨_, .ipv6VpnMulticastP _ _ _ ((expected_all hf _ _ _).trans ha) (itemsRead_join goesOn_pathId h hn h2), rfl⟩
    | ipv6VpnMulticast _ w m ha2 h2 => exact absurd ((expected_all hf _ b a).trans ha) (by rw [ha2]; simp)
  | ipv6FlowSpec _ v n h =>
    cases h' with
    | ipv6FlowSpec _ w m h2 =>
      exact ⟨_, .ipv6FlowSpec _ _ _ (itemsRead_join goesOn_fs h hn h2), rfl⟩
  | l2Vpls _ v n h =>
    cases h' with
    | l2Vpls _ w m h2 =>
      exact ⟨_, .l2Vpls _ _ _ (itemsRead_join goesOn_vpls h hn h2), rfl⟩
  | l2Evpn _ v n h =>
    cases h' with
    | l2Evpn _ w m h2 =>
      exact ⟨_, .l2Evpn _ _ _ (itemsRead_join goesOn_evpn h hn h2), rfl⟩

/-- **C15**, decoding, for every family: in a session that does not guess at path identifiers, if octets are read to their
end as routes, and further octets are read as routes, then the octets one behind the other are read as the routes one behind
the other. -/
theorem C15_families_decode (p : BgpSessionParams) (hf : p.fuzzyPathid = false) (f : Family) (a b : Bytes) (x y : BgpAddrs)
    (m : Nat) (ha : BgpAddrs.decodeFrom p (familyCode f).1 (familyCode f).2 a = .ok (x, a.length))
    (hb : BgpAddrs.decodeFrom p (familyCode f).1 (familyCode f).2 b = .ok (y, m)) :
    ∃ z, BgpAddrs.decodeFrom p (familyCode f).1 (familyCode f).2 (a ++ b) = .ok (z, a.length + m) ∧ Joined x y z := by
  obtain ⟨z, h, hj⟩ := addrsRead_join hf (((addrs_exactly p f a).ok (x, _)).1 ha) rfl (((addrs_exactly p f b).ok (y, m)).1 hb)
  exact ⟨z, ((addrs_exactly p f _).ok (z, _)).2 h, hj⟩

theorem addrsWire_join {x y z : BgpAddrs} (h : Joined x y z) : addrsWire z = addrsWire x ++ addrsWire y := by
  unfold Joined at h
  split at h <;> first | exact h.elim | (subst h; simp only [addrsWire, List.flatMap_append, List.append_nil])

theorem fsListOk_join {T : Type} [FSItem T] [FsPrefix T] {v w : List (BgpFlowSpec T)} (h : FsListOk (v ++ w)) :
    FsListOk v ∧ FsListOk w := by
  refine ⟨⟨fun x hx => h.1 x (by simp [hx]), fun x hx => h.2 x ?_⟩, fun x hx => h.1 x (by simp [hx]), fun x hx => h.2 x ?_⟩
  · cases w with
    | nil => simpa using hx
    | cons y w => rw [List.dropLast_append_of_ne_nil (by simp)]; simp [List.mem_of_mem_dropLast hx]
  · cases w with
    | nil => simp at hx
    | cons y w => rw [List.dropLast_append_of_ne_nil (by simp)]; simp [hx]

theorem wf_join {x y z : BgpAddrs} (h : Joined x y z) (hz : AddrsWF z) : AddrsWF x ∧ AddrsWF y := by
  unfold Joined at h
  split at h <;>
    first
    | exact h.elim
    | (subst h; exact fsListOk_join hz)
    | (subst h; exact ⟨fun x hx => hz x (by simp [hx]), fun x hx => hz x (by simp [hx])⟩)
    | (subst h; simpa [AddrsWF] using hz)

/-- **C15**, encoding, for every family whose routes come back from the wire: a list of routes is written as the octets of its
first part followed by those of the rest. -/
theorem C15_families_encode (p : BgpSessionParams) (x y z : BgpAddrs) (h : Joined x y z) (hz : AddrsWF z) (buf : Bytes)
    (hb : (addrsWire z).length ≤ buf.length) :
    ∃ b₁ n₁ b₂ n₂ b n, x.encodeTo p buf = .ok (b₁, n₁) ∧ y.encodeTo p buf = .ok (b₂, n₂) ∧ z.encodeTo p buf = .ok (b, n) ∧
      n = n₁ + n₂ ∧ b.take n = b₁.take n₁ ++ b₂.take n₂ := by
  obtain ⟨hx, hy⟩ := wf_join h hz
  have e := addrsWire_join h
  have e' := congrArg List.length e
  simp only [List.length_append] at e'
  refine ⟨_, _, _, _, _, _, addrs_writes x p hx buf (by omega), addrs_writes y p hy buf (by omega), addrs_writes z p hz buf hb,
    e', ?_⟩
  rw [List.take_left' rfl, List.take_left' rfl, List.take_left' rfl, e]

/-- EVPN, VPLS and FlowSpec routes that are read to their end, and a list of EVPN routes that is written -/
example :
    BgpAddrs.decodeFrom session32 25 70 [3, 17, 0, 0, 0, 1, 0, 0, 0, 1, 0, 0, 0, 0, 32, 10, 0, 0, 1] =
      .ok (.EVPN [.evpn3 ⟨⟨1, 1⟩, 0, .v4 0x0a000001⟩], 19) ∧
    (∃ x, BgpAddrs.decodeFrom session32 25 65 [0, 17, 0, 0, 0, 1, 0, 0, 0, 1, 0, 1, 0, 1, 0, 8, 0, 0, 1] = .ok (x, 19)) ∧
    (∃ x, BgpAddrs.decodeFrom session32 1 133 [3, 3, 0x81, 6] = .ok (x, 4)) ∧
    session32.fuzzyPathid = false ∧
    AddrsWF (.EVPN ([.evpn3 ⟨⟨1, 1⟩, 0, .v4 0x0a000001⟩] ++ [.evpn3 ⟨⟨1, 2⟩, 7, .v4 0x0a000002⟩])) := by
  refine ⟨by decide, ⟨_, rfl⟩, ⟨_, rfl⟩, rfl, ?_⟩
  simp [AddrsWF, EvpnWF, EvpnV6Prefix]

end Zbgp.Props
