import Verif.Lemmas.DerivedAttrs

/-! # What a value feeds to a hasher tells it from the others -/

namespace Zbgp

/-- The words a value feeds to a hasher, followed by any others, say which value it was, up to `cmp`. -/
class HashInj (T : Type) [ROrd T] : Prop where
  inj : ∀ (a b : T) (s t : List Nat), ROrd.hash a ++ s = ROrd.hash b ++ t → ROrd.cmp a b = .eq ∧ s = t

instance {n : Nat} : HashInj (BitVec n) :=
  ⟨fun a b s t h => by
    change [a.toNat] ++ s = [b.toNat] ++ t at h
    simp only [List.cons_append, List.nil_append, List.cons.injEq] at h
    exact ⟨by change compare a.toNat b.toNat = .eq; rw [h.1]; exact Nat.compare_eq_eq.2 rfl, h.2⟩⟩

instance : HashInj Unit := ⟨fun _ _ _ _ h => ⟨rfl, h⟩⟩
instance : HashInj MplsLabels := ⟨fun _ _ _ _ h => ⟨rfl, h⟩⟩

instance : HashInj Bool :=
  ⟨fun a b s t h => by
    change [a.toNat] ++ s = [b.toNat] ++ t at h
    simp only [List.cons_append, List.nil_append, List.cons.injEq] at h
    exact ⟨by change compare a.toNat b.toNat = .eq; rw [h.1]; exact Nat.compare_eq_eq.2 rfl, h.2⟩⟩

instance : HashInj BgpAS := ⟨fun a b s t h => HashInj.inj a.value b.value s t h⟩

section
variable {A B : Type} [ROrd A] [ROrd B]

instance [HashInj A] [HashInj B] : HashInj (A × B) :=
  ⟨fun a b s t h => by
    change (ROrd.hash a.1 ++ ROrd.hash a.2) ++ s = (ROrd.hash b.1 ++ ROrd.hash b.2) ++ t at h
    rw [List.append_assoc, List.append_assoc] at h
    obtain ⟨h1, h⟩ := HashInj.inj _ _ _ _ h
    obtain ⟨h2, h⟩ := HashInj.inj _ _ _ _ h
    exact ⟨(then_eq_iff _ _).2 ⟨h1, h2⟩, h⟩⟩

instance [HashInj A] [HashInj B] : HashInj (A ⊕ B) :=
  ⟨fun a b s t h => by
    cases a <;> cases b <;> rename_i a b
    · exact HashInj.inj a b s t (List.cons.inj h).2
    · exact absurd (List.cons.inj h).1 (by decide)
    · exact absurd (List.cons.inj h).1 (by decide)
    · exact HashInj.inj a b s t (List.cons.inj h).2⟩

instance [HashInj A] : HashInj (Option A) :=
  ⟨fun a b s t h => by
    cases a <;> cases b
    · exact ⟨rfl, (List.cons.inj h).2⟩
    · exact absurd (List.cons.inj h).1 (by decide)
    · exact absurd (List.cons.inj h).1 (by decide)
    · rename_i a b; exact HashInj.inj a b s t (List.cons.inj h).2⟩

theorem flatMap_inj {A : Type} {hash : A → List Nat} {cmp : A → A → Ordering} (l r : List A)
    (h : ∀ a ∈ l, ∀ b s t, hash a ++ s = hash b ++ t → cmp a b = .eq ∧ s = t) (s t : List Nat)
    (hl : l.length = r.length) (he : l.flatMap hash ++ s = r.flatMap hash ++ t) : cmpList cmp l r = .eq ∧ s = t := by
  induction l generalizing r with
  | nil =>
    cases r with
    | nil => exact ⟨rfl, he⟩
    | cons y r => simp at hl
  | cons x l ih =>
    cases r with
    | nil => simp at hl
    | cons y r =>
      rw [List.flatMap_cons, List.flatMap_cons, List.append_assoc, List.append_assoc] at he
      obtain ⟨h1, he⟩ := h x (by simp) y _ _ he
      obtain ⟨h2, he⟩ := ih r (fun a ha => h a (by simp [ha])) (by simpa using hl) he
      exact ⟨(then_eq_iff _ _).2 ⟨h1, h2⟩, he⟩

instance [HashInj A] : HashInj (List A) :=
  ⟨fun a b s t h => by
    obtain ⟨h1, h2⟩ := List.cons.inj h
    exact flatMap_inj a b (fun _ _ _ _ _ => HashInj.inj _ _ _ _) s t h1 h2⟩

instance [HashInj A] : HashInj (Labeled A) := ⟨fun a b => HashInj.inj a.pfx b.pfx⟩

omit [ROrd A] in
theorem HashInj.via [HashInj B] (f : A → B) : @HashInj A (ROrd.via f) :=
  letI := ROrd.via f
  ⟨fun a b => HashInj.inj (f a) (f b)⟩

end

instance : HashInj BgpAddrV4 := ⟨fun a b => HashInj.inj (a.addr, a.prefixlen) (b.addr, b.prefixlen)⟩
instance : HashInj BgpAddrV6 := ⟨fun a b => HashInj.inj (a.addr, a.prefixlen) (b.addr, b.prefixlen)⟩
instance : HashInj BgpRD := ⟨fun a b => HashInj.inj (a.rdh, a.rdl) (b.rdh, b.rdl)⟩

instance : HashInj IpAddr :=
  ⟨fun a b s t h => by
    cases a <;> cases b <;> rename_i a b
    · exact HashInj.inj a b s t (List.cons.inj h).2
    · exact absurd (List.cons.inj h).1 (by decide)
    · exact absurd (List.cons.inj h).1 (by decide)
    · exact HashInj.inj a b s t (List.cons.inj h).2⟩

instance : HashInj BgpAddrL2 :=
  ⟨fun a b => HashInj.inj (a.rd, a.site, a.offset, a.range, a.labels) (b.rd, b.site, b.offset, b.range, b.labels)⟩

instance {A : Type} [ROrd A] [HashInj A] : HashInj (WithRd A) :=
  ⟨fun a b s t h => by
    obtain ⟨h1, h2⟩ := HashInj.inj (a.pfx, a.rd) (b.pfx, b.rd) s t h
    refine ⟨?_, h2⟩
    obtain ⟨h1, h3⟩ := (then_eq_iff _ _).1 h1
    change (match ROrd.cmp a.pfx b.pfx with
      | .lt => .lt
      | .gt => .gt
      | .eq => ROrd.cmp a.rd b.rd) = Ordering.eq
    rw [h1]; exact h3⟩

instance {A : Type} [ROrd A] [HashInj A] : HashInj (WithPathId A) :=
  ⟨fun a b s t h => by
    obtain ⟨h1, h2⟩ := HashInj.inj (a.pathid, a.nlri) (b.pathid, b.nlri) s t h
    refine ⟨?_, h2⟩
    obtain ⟨h1, h3⟩ := (then_eq_iff _ _).1 h1
    change (match ROrd.cmp a.nlri b.nlri with
      | .lt => .lt
      | .gt => .gt
      | .eq => ROrd.cmp a.pathid b.pathid) = Ordering.eq
    rw [h3]; exact h1⟩

instance : HashInj BgpIPv4RD := .via (fun x : BgpIPv4RD => (x.rd, x.addr))

instance : HashInj BgpIPv6RD := .via (fun x : BgpIPv6RD => (x.rd, x.addr))

instance : HashInj MacAddress := .via (fun x : MacAddress => [x.m0, x.m1, x.m2, x.m3, x.m4, x.m5])

instance : HashInj BgpAddrMac := .via (fun x : BgpAddrMac => (x.addr, x.prefixlen))

instance : HashInj BgpNet := .via (BgpNet.variant)

instance : HashInj BgpMdtV4 := .via (fun x : BgpMdtV4 => (x.addr, x.group))

instance : HashInj BgpMdtV6 := .via (fun x : BgpMdtV6 => (x.addr, x.group))

instance : HashInj BgpL2 := .via (fun x : BgpL2 => (x.rd, x.site, x.offset, x.range))

instance : HashInj BgpMVPN1 := .via (fun x : BgpMVPN1 => (x.rd, x.originator))

instance : HashInj BgpMVPN2 := .via (fun x : BgpMVPN2 => (x.rd, x.asn))

instance : HashInj BgpMVPN3 := .via (fun x : BgpMVPN3 => (x.rd, x.source, x.group, x.originator))

instance : HashInj BgpMVPN4 := .via (fun x : BgpMVPN4 => (x.spmsi, x.originator))

instance : HashInj BgpMVPN5 := .via (fun x : BgpMVPN5 => (x.rd, x.source, x.group))

instance : HashInj BgpMVPN67 := .via (fun x : BgpMVPN67 => (x.rd, x.asn, x.rp, x.group))

instance : HashInj BgpMVPN := .via (BgpMVPN.variant)

instance : HashInj BgpAddr := .via (BgpAddr.variant)

instance : HashInj EVPNESI := .via (fun x : EVPNESI => x.v.toList)

instance : HashInj BgpEVPN1 := .via (fun x : BgpEVPN1 => (x.rd, x.esiType, x.esi, x.etherTag, x.labels))

instance : HashInj BgpEVPN2 := .via (fun x : BgpEVPN2 => (x.rd, x.esiType, x.esi, x.etherTag, x.mac, x.ip, x.labels))

instance : HashInj BgpEVPN3 := .via (fun x : BgpEVPN3 => (x.rd, x.etherTag, x.ip))

instance : HashInj BgpEVPN4 := .via (fun x : BgpEVPN4 => (x.rd, x.esiType, x.esi, x.ip))

instance : HashInj BgpEVPN5 := .via (fun x : BgpEVPN5 => (x.rd, x.esiType, x.esi, x.etherTag, x.len, x.pfx, x.gwIp, x.labels))

instance : HashInj BgpEVPN := .via (BgpEVPN.variant)

instance : HashInj FS6 := .via (fun x : FS6 => (x.ipv6, x.offset))

instance : HashInj FSV4U := .via (fun x : FSV4U => x.pfx)

instance : HashInj FSOperValItem := .via (fun x : FSOperValItem => (x.andBit, x.ltCmp, x.gtCmp, x.eqCmp, x.value))

instance : HashInj FSOperMaskItem := .via (fun x : FSOperMaskItem => (x.andBit, x.bitNot, x.bitMatch, x.value))

instance {T : Type} [ROrd T] [HashInj T] : HashInj (FSOperVec T) := ⟨fun a b => HashInj.inj ((fun x => x.items : FSOperVec T → _) a) ((fun x => x.items : FSOperVec T → _) b)⟩

instance {T : Type} [ROrd T] [HashInj T] : HashInj (BgpFlowSpec T) := ⟨fun a b => HashInj.inj ((BgpFlowSpec.variant : BgpFlowSpec T → _) a) ((BgpFlowSpec.variant : BgpFlowSpec T → _) b)⟩

set_option synthInstance.maxSize 1024 in
instance : HashInj BgpAddrs := .via (BgpAddrs.variant)

instance : HashInj BgpAttrParams := .via (fun x : BgpAttrParams => (x.typecode, x.flags))

instance : HashInj BgpAttrOrigin := .via (BgpAttrOrigin.variant)

instance : HashInj BgpOrigin := .via (fun x : BgpOrigin => x.value)

instance : HashInj BgpASpath := .via (fun x : BgpASpath => x.value)

instance : HashInj BgpNextHop := .via (fun x : BgpNextHop => x.value)

instance : HashInj BgpMED := .via (fun x : BgpMED => x.value)

instance : HashInj BgpLocalpref := .via (fun x : BgpLocalpref => x.value)

instance : HashInj BgpAtomicAggregate := .via (fun x : BgpAtomicAggregate => x.value)

instance : HashInj BgpAggregatorAS := .via (fun x : BgpAggregatorAS => (x.asn, x.addr))

instance : HashInj BgpOriginatorID := .via (fun x : BgpOriginatorID => x.value)

instance : HashInj BgpClusterList := .via (fun x : BgpClusterList => x.value)

instance : HashInj BgpConnector := .via (fun x : BgpConnector => (x.asn, x.addr, x.orig))

instance : HashInj BgpAttrUnknown := .via (fun x : BgpAttrUnknown => (x.params, x.value))

instance : HashInj BgpCommunity := .via (fun x : BgpCommunity => x.value)

instance : HashInj BgpCommunityList := .via (fun x : BgpCommunityList => x.value)

instance : HashInj BgpLargeCommunity := .via (fun x : BgpLargeCommunity => (x.ga, x.ldp1, x.ldp2))

instance : HashInj BgpLargeCommunityList := .via (fun x : BgpLargeCommunityList => x.value)

instance : HashInj BgpExtCommunity := .via (fun x : BgpExtCommunity => (x.ctype, x.subtype, x.a, x.b))

instance : HashInj BgpExtCommunityList := .via (fun x : BgpExtCommunityList => x.value)

instance : HashInj BgpMPUpdates := .via (fun x : BgpMPUpdates => (x.nexthop, x.addrs))

instance : HashInj BgpMPWithdraws := .via (fun x : BgpMPWithdraws => x.addrs)

instance : HashInj BgpPMSITunnelAttr := .via (BgpPMSITunnelAttr.variant)

instance : HashInj BgpPMSITunnel := .via (fun x : BgpPMSITunnel => (x.flags, x.tunnelType, x.label, x.tunnelAttribute))

instance : HashInj BgpCapGR := .via (fun x : BgpCapGR => (x.afi, x.safi, x.forwardingState))

instance : HashInj BgpCapLLGR := .via (fun x : BgpCapLLGR => (x.afi, x.safi, x.flags, x.staleTime))

instance : HashInj BgpCapAddPath := .via (fun x : BgpCapAddPath => (x.afi, x.safi, x.send, x.receive))

instance : HashInj BgpCapability := .via (BgpCapability.variant)

instance : HashInj BgpOpenMessage := .via (fun x : BgpOpenMessage => (x.asNum, x.holdTime, x.routerId, x.caps))

namespace BgpAttrItem

theorem hash_inj (N : Nat) : ∀ (a b : BgpAttrItem) (s t : List Nat), sizeOf a < N → hash a ++ s = hash b ++ t →
    ROrd.cmp a b = .eq ∧ s = t := by
  induction N with
  | zero => exact fun _ _ _ _ h => absurd h (by omega)
  | succ N ih =>
    intro a b s t ha he
    rcases isSet_cases a with h1 | ⟨n, l, rfl⟩
    · rcases isSet_cases b with h2 | ⟨m, k, rfl⟩
      · rw [hash_flat h1, hash_flat h2] at he
        change cmp a b = .eq ∧ s = t
        rw [cmp_flat (.inl h1)]
        exact HashInj.inj _ _ _ _ he
      · rw [hash_flat h1, hash_set, List.append_assoc] at he
        refine absurd (HashInj.inj _ _ _ _ he.symm).1 (cmp_set_ne rfl h1)
    · rcases isSet_cases b with h2 | ⟨m, k, rfl⟩
      · rw [hash_flat h2, hash_set, List.append_assoc] at he
        refine absurd (HashInj.inj _ _ _ _ he).1 (cmp_set_ne rfl h2)
      rw [hash_set, hash_set] at he
      simp only [List.append_assoc] at he
      have he := (HashInj.inj _ _ _ _ he).2
      obtain ⟨e1, he⟩ := HashInj.inj _ _ _ _ he
      obtain ⟨e2, he⟩ := List.cons.inj he
      obtain ⟨e3, he⟩ := flatMap_inj (cmp := cmp) l k (fun x hx y s t => ih x y s t (by
        have := size_mem (n := n) hx; omega)) s t e2 he
      change cmp _ _ = .eq ∧ _
      rw [cmp_set, cmps_eq]
      exact ⟨(then_eq_iff _ _).2 ⟨e1, e3⟩, he⟩

end BgpAttrItem

instance : HashInj BgpAttrItem := ⟨fun a b s t => BgpAttrItem.hash_inj (sizeOf a + 1) a b s t (by omega)⟩

end Zbgp
