import Verif.Lemmas.Addrs
import Verif.Lemmas.ReadsFs

/-! # What is read and what crashes: NLRI fields of all families -/

namespace Zbgp

open Spec BgpAddrs

theorem addpath_exactly {T : Type} [BgpItem T] [PrefixReads T] [PrefixExact T] (p : BgpSessionParams) (afi : U16)
    (safi : U8) (withId : List (WithPathId T) → BgpAddrs) (plain : List T → BgpAddrs) (b : Bytes) :
    Exactly (decodeAddpath p afi safi withId plain b)
      (fun y => (AddPathExpected p (afi, safi) b = true ∧ ∃ v, ItemsRead 4 PathIdRead b v y.2 ∧ y.1 = withId v) ∨
        (AddPathExpected p (afi, safi) b = false ∧ ∃ v, ItemsRead 0 NlriRead b v y.2 ∧ y.1 = plain v))
      (if AddPathExpected p (afi, safi) b then ItemsCrash 4 (PathIdRead (T := T)) (PathIdCrash T) b
        else ItemsCrash 0 (NlriRead (T := T)) (NlriCrash T) b) := by
  rw [decodeAddpath_eq]
  cases h : AddPathExpected p (afi, safi) b with
  | true =>
    rw [if_pos rfl]
    refine ((pathIds_exactly (T := T) b).map fun y => (withId y.1, y.2)).congr (fun y => ?_) (by simp)
    obtain ⟨x, n⟩ := y
    constructor
    · rintro ⟨⟨v, m⟩, h1, e⟩
      simp only [Prod.mk.injEq] at e
      obtain ⟨rfl, rfl⟩ := e
      exact .inl ⟨rfl, v, h1, rfl⟩
    · rintro (⟨-, v, h1, rfl⟩ | ⟨h, -⟩)
      · exact ⟨(v, n), h1, rfl⟩
      · cases h
  | false =>
    rw [if_neg (by simp)]
    refine ((nlris_exactly (T := T) b).map fun y => (plain y.1, y.2)).congr (fun y => ?_) (by simp)
    obtain ⟨x, n⟩ := y
    constructor
    · rintro ⟨⟨v, m⟩, h1, e⟩
      simp only [Prod.mk.injEq] at e
      obtain ⟨rfl, rfl⟩ := e
      exact .inr ⟨rfl, v, h1, rfl⟩
    · rintro (⟨h, -⟩ | ⟨-, v, h1, rfl⟩)
      · cases h
      · exact ⟨(v, n), h1, rfl⟩

theorem vpls_progress : Progress (decodeLongItem (T := BgpAddrL2)) :=
  progress_of_post fun b => by unfold decodeLongItem; counts

theorem wrap_exactly {α : Type} {r : Res (List α × Nat)} {R : List α → Nat → Prop} {C : Prop} (c : List α → BgpAddrs)
    (h : Exactly r (fun y => R y.1 y.2) C) :
    Exactly (do let (v, n) ← r; .ok (c v, n)) (fun y => ∃ v, R v y.2 ∧ y.1 = c v) C := by
  refine (h.map fun y => (c y.1, y.2)).congr (fun y => ?_) Iff.rfl
  obtain ⟨x, n⟩ := y
  constructor
  · rintro ⟨⟨v, m⟩, h1, e⟩
    simp only [Prod.mk.injEq] at e
    obtain ⟨rfl, rfl⟩ := e
    exact ⟨v, h1, rfl⟩
  · rintro ⟨v, h1, rfl⟩
    exact ⟨(v, n), h1, rfl⟩

theorem addrs_exactly (p : BgpSessionParams) (f : Family) (b : Bytes) :
    Exactly (BgpAddrs.decodeFrom p (familyCode f).1 (familyCode f).2 b) (fun y => AddrsRead p f b y.1 y.2)
      (AddrsCrash p f b) := by
  cases f with
  | ipv4Unicast =>
    refine (addpath_exactly p _ _ _ _ b).congr (fun y => ?_) Iff.rfl
    obtain ⟨x, n⟩ := y
    constructor
    · rintro (⟨ha, v, h, rfl⟩ | ⟨ha, v, h, rfl⟩)
      · exact .ipv4UnicastP _ _ _ ha h
      · exact .ipv4Unicast _ _ _ ha h
    · intro h
      cases h with
      | ipv4Unicast _ v _ ha h => exact .inr ⟨ha, v, h, rfl⟩
      | ipv4UnicastP _ v _ ha h => exact .inl ⟨ha, v, h, rfl⟩
  | ipv4Multicast =>
    refine (addpath_exactly p _ _ _ _ b).congr (fun y => ?_) Iff.rfl
    obtain ⟨x, n⟩ := y
    constructor
    · rintro (⟨ha, v, h, rfl⟩ | ⟨ha, v, h, rfl⟩)
      · exact .ipv4MulticastP _ _ _ ha h
      · exact .ipv4Multicast _ _ _ ha h
    · intro h
      cases h with
      | ipv4Multicast _ v _ ha h => exact .inr ⟨ha, v, h, rfl⟩
      | ipv4MulticastP _ v _ ha h => exact .inl ⟨ha, v, h, rfl⟩
  | ipv4Labeled =>
    refine (addpath_exactly p _ _ _ _ b).congr (fun y => ?_) Iff.rfl
    obtain ⟨x, n⟩ := y
    constructor
    · rintro (⟨ha, v, h, rfl⟩ | ⟨ha, v, h, rfl⟩)
      · exact .ipv4LabeledP _ _ _ ha h
      · exact .ipv4Labeled _ _ _ ha h
    · intro h
      cases h with
      | ipv4Labeled _ v _ ha h => exact .inr ⟨ha, v, h, rfl⟩
      | ipv4LabeledP _ v _ ha h => exact .inl ⟨ha, v, h, rfl⟩
  | ipv4Mvpn =>
    refine (wrap_exactly _ (items_exactly (mvpn_progress .IPv4) (fun b _ => mvpn_exactly .IPv4 b) b)).congr (fun y => ?_) Iff.rfl
    obtain ⟨x, n⟩ := y
    constructor
    · rintro ⟨v, h, rfl⟩
      exact .ipv4Mvpn _ _ _ h
    · intro h
      cases h with
      | ipv4Mvpn _ v _ h => exact ⟨v, h, rfl⟩
  | ipv4Mdt =>
    refine (addpath_exactly p _ _ _ _ b).congr (fun y => ?_) Iff.rfl
    obtain ⟨x, n⟩ := y
    constructor
    · rintro (⟨ha, v, h, rfl⟩ | ⟨ha, v, h, rfl⟩)
      · exact .ipv4MdtP _ _ _ ha h
      · exact .ipv4Mdt _ _ _ ha h
    · intro h
      cases h with
      | ipv4Mdt _ v _ ha h => exact .inr ⟨ha, v, h, rfl⟩
      | ipv4MdtP _ v _ ha h => exact .inl ⟨ha, v, h, rfl⟩
  | ipv4Vpn =>
    refine (addpath_exactly p _ _ _ _ b).congr (fun y => ?_) Iff.rfl
    obtain ⟨x, n⟩ := y
    constructor
    · rintro (⟨ha, v, h, rfl⟩ | ⟨ha, v, h, rfl⟩)
      · exact .ipv4VpnP _ _ _ ha h
      · exact .ipv4Vpn _ _ _ ha h
    · intro h
      cases h with
      | ipv4Vpn _ v _ ha h => exact .inr ⟨ha, v, h, rfl⟩
      | ipv4VpnP _ v _ ha h => exact .inl ⟨ha, v, h, rfl⟩
  | ipv4VpnMulticast =>
    refine (addpath_exactly p _ _ _ _ b).congr (fun y => ?_) Iff.rfl
    obtain ⟨x, n⟩ := y
    constructor
    · rintro (⟨ha, v, h, rfl⟩ | ⟨ha, v, h, rfl⟩)
      · exact .ipv4VpnMulticastP _ _ _ ha h
      · exact .ipv4VpnMulticast _ _ _ ha h
    · intro h
      cases h with
      | ipv4VpnMulticast _ v _ ha h => exact .inr ⟨ha, v, h, rfl⟩
      | ipv4VpnMulticastP _ v _ ha h => exact .inl ⟨ha, v, h, rfl⟩
  | ipv4FlowSpec =>
    refine (wrap_exactly _ (items_exactly (fs_progress p.peerMode) (fun b _ => fs_exactly p.peerMode b) b)).congr (fun y => ?_) Iff.rfl
    obtain ⟨x, n⟩ := y
    constructor
    · rintro ⟨v, h, rfl⟩
      exact .ipv4FlowSpec _ _ _ h
    · intro h
      cases h with
      | ipv4FlowSpec _ v _ h => exact ⟨v, h, rfl⟩
  | ipv4VpnFlowSpec =>
    refine (wrap_exactly _ (items_exactly (fs_progress p.peerMode) (fun b _ => fs_exactly p.peerMode b) b)).congr (fun y => ?_) Iff.rfl
    obtain ⟨x, n⟩ := y
    constructor
    · rintro ⟨v, h, rfl⟩
      exact .ipv4VpnFlowSpec _ _ _ h
    · intro h
      cases h with
      | ipv4VpnFlowSpec _ v _ h => exact ⟨v, h, rfl⟩
  | ipv6Unicast =>
    refine (addpath_exactly p _ _ _ _ b).congr (fun y => ?_) Iff.rfl
    obtain ⟨x, n⟩ := y
    constructor
    · rintro (⟨ha, v, h, rfl⟩ | ⟨ha, v, h, rfl⟩)
      · exact .ipv6UnicastP _ _ _ ha h
      · exact .ipv6Unicast _ _ _ ha h
    · intro h
      cases h with
      | ipv6Unicast _ v _ ha h => exact .inr ⟨ha, v, h, rfl⟩
      | ipv6UnicastP _ v _ ha h => exact .inl ⟨ha, v, h, rfl⟩
  | ipv6Multicast =>
    refine (addpath_exactly p _ _ _ _ b).congr (fun y => ?_) Iff.rfl
    obtain ⟨x, n⟩ := y
    constructor
    · rintro (⟨ha, v, h, rfl⟩ | ⟨ha, v, h, rfl⟩)
      · exact .ipv6MulticastP _ _ _ ha h
      · exact .ipv6Multicast _ _ _ ha h
    · intro h
      cases h with
      | ipv6Multicast _ v _ ha h => exact .inr ⟨ha, v, h, rfl⟩
      | ipv6MulticastP _ v _ ha h => exact .inl ⟨ha, v, h, rfl⟩
  | ipv6Labeled =>
    refine (addpath_exactly p _ _ _ _ b).congr (fun y => ?_) Iff.rfl
    obtain ⟨x, n⟩ := y
    constructor
    · rintro (⟨ha, v, h, rfl⟩ | ⟨ha, v, h, rfl⟩)
      · exact .ipv6LabeledP _ _ _ ha h
      · exact .ipv6Labeled _ _ _ ha h
    · intro h
      cases h with
      | ipv6Labeled _ v _ ha h => exact .inr ⟨ha, v, h, rfl⟩
      | ipv6LabeledP _ v _ ha h => exact .inl ⟨ha, v, h, rfl⟩
  | ipv6Mdt =>
    refine (addpath_exactly p _ _ _ _ b).congr (fun y => ?_) Iff.rfl
    obtain ⟨x, n⟩ := y
    constructor
    · rintro (⟨ha, v, h, rfl⟩ | ⟨ha, v, h, rfl⟩)
      · exact .ipv6MdtP _ _ _ ha h
      · exact .ipv6Mdt _ _ _ ha h
    · intro h
      cases h with
      | ipv6Mdt _ v _ ha h => exact .inr ⟨ha, v, h, rfl⟩
      | ipv6MdtP _ v _ ha h => exact .inl ⟨ha, v, h, rfl⟩
  | ipv6Vpn =>
    refine (addpath_exactly p _ _ _ _ b).congr (fun y => ?_) Iff.rfl
    obtain ⟨x, n⟩ := y
    constructor
    · rintro (⟨ha, v, h, rfl⟩ | ⟨ha, v, h, rfl⟩)
      · exact .ipv6VpnP _ _ _ ha h
      · exact .ipv6Vpn _ _ _ ha h
    · intro h
      cases h with
      | ipv6Vpn _ v _ ha h => exact .inr ⟨ha, v, h, rfl⟩
      | ipv6VpnP _ v _ ha h => exact .inl ⟨ha, v, h, rfl⟩
  | ipv6VpnMulticast =>
    refine (addpath_exactly p _ _ _ _ b).congr (fun y => ?_) Iff.rfl
    obtain ⟨x, n⟩ := y
    constructor
    · rintro (⟨ha, v, h, rfl⟩ | ⟨ha, v, h, rfl⟩)
      · exact .ipv6VpnMulticastP _ _ _ ha h
      · exact .ipv6VpnMulticast _ _ _ ha h
    · intro h
      cases h with
      | ipv6VpnMulticast _ v _ ha h => exact .inr ⟨ha, v, h, rfl⟩
      | ipv6VpnMulticastP _ v _ ha h => exact .inl ⟨ha, v, h, rfl⟩
  | ipv6FlowSpec =>
    refine (wrap_exactly _ (items_exactly (fs_progress p.peerMode) (fun b _ => fs_exactly p.peerMode b) b)).congr (fun y => ?_) Iff.rfl
    obtain ⟨x, n⟩ := y
    constructor
    · rintro ⟨v, h, rfl⟩
      exact .ipv6FlowSpec _ _ _ h
    · intro h
      cases h with
      | ipv6FlowSpec _ v _ h => exact ⟨v, h, rfl⟩
  | l2Vpls =>
    refine (wrap_exactly _ (items_exactly vpls_progress (fun b _ => vpls_exactly b) b)).congr (fun y => ?_) Iff.rfl
    obtain ⟨x, n⟩ := y
    constructor
    · rintro ⟨v, h, rfl⟩
      exact .l2Vpls _ _ _ h
    · intro h
      cases h with
      | l2Vpls _ v _ h => exact ⟨v, h, rfl⟩
  | l2Evpn =>
    refine (wrap_exactly _ (items_exactly (evpn_progress p.peerMode) (fun b _ => evpn_exactly p.peerMode b) b)).congr (fun y => ?_) Iff.rfl
    obtain ⟨x, n⟩ := y
    constructor
    · rintro ⟨v, h, rfl⟩
      exact .l2Evpn _ _ _ h
    · intro h
      cases h with
      | l2Evpn _ v _ h => exact ⟨v, h, rfl⟩

end Zbgp
