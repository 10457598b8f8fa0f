import Verif.Lemmas.Derived

/-! # The derived comparisons of the types of `/repo` -/

namespace Zbgp

open Spec

instance : Der BgpAddrV4 := .ofLawful lawful_v4 fun a b => by cases a; cases b; simp [ROrd.eq]
instance : LabelFree BgpAddrV4 := ⟨fun _ => rfl, fun _ => rfl⟩
instance : PcmpSome BgpAddrV4 := ⟨lawful_v4.pcmp_eq⟩

instance : Der BgpAddrV6 := .ofLawful lawful_v6 fun a b => by cases a; cases b; simp [ROrd.eq]
instance : LabelFree BgpAddrV6 := ⟨fun _ => rfl, fun _ => rfl⟩
instance : PcmpSome BgpAddrV6 := ⟨lawful_v6.pcmp_eq⟩

instance : Der BgpRD := .ofLawful lawful_rd fun a b => by cases a; cases b; simp [ROrd.eq]
instance : LabelFree BgpRD := ⟨fun _ => rfl, fun _ => rfl⟩
instance : PcmpSome BgpRD := ⟨lawful_rd.pcmp_eq⟩

instance : Der BgpAddrL2 :=
  .via (fun x : BgpAddrL2 => (x.rd, x.site, x.offset, x.range, x.labels)) (fun (a, b, c, d, e) => ⟨a, b, c, d, e⟩) fun _ => rfl

/-- A type that is compared through a view `f` which is one-to-one and has no label stacks in it. -/
@[reducible] def Der.inj {A B : Type} [ROrd B] [Der B] [LabelFree B] (f : A → B) (hf : ∀ a b, f a = f b → a = b) :
    @Der A (ROrd.via f) :=
  letI := ROrd.via f
  { unl := fun a => a
    same := fun a => a
    oriented := fun a b => Der.oriented (f a) (f b)
    trans := fun a b c => Der.trans (f a) (f b) (f c)
    cmp_eq := fun a b => by
      refine Iff.trans (Der.cmp_eq (f a) (f b)) ?_
      rw [LabelFree.unl_id, LabelFree.unl_id]
      exact ⟨hf a b, fun h => congrArg f h⟩
    eq_same := fun a b => by
      refine Iff.trans (Der.eq_same (f a) (f b)) ?_
      rw [LabelFree.same_id, LabelFree.same_id]
      exact ⟨hf a b, fun h => congrArg f h⟩
    hash_unl := fun a b h => by subst h; rfl }

instance : Der MacAddress :=
  .inj (fun x : MacAddress => [x.m0, x.m1, x.m2, x.m3, x.m4, x.m5]) fun a b h => by
    cases a; cases b; simp at h; simp [h]
instance : LabelFree MacAddress := ⟨fun _ => rfl, fun _ => rfl⟩
instance : PcmpSome MacAddress := .via fun x : MacAddress => [x.m0, x.m1, x.m2, x.m3, x.m4, x.m5]

instance : Der EVPNESI :=
  .inj (fun x : EVPNESI => x.v.toList) fun a b h => by
    rcases a with ⟨⟨⟨a⟩, ha⟩⟩; rcases b with ⟨⟨⟨b⟩, hb⟩⟩; simp at h; simp [h]
instance : LabelFree EVPNESI := ⟨fun _ => rfl, fun _ => rfl⟩
instance : PcmpSome EVPNESI := .via fun x : EVPNESI => x.v.toList

instance : Der BgpIPv4RD :=
  .via (fun x : BgpIPv4RD => (x.rd, x.addr)) (fun (a, b) => ⟨a, b⟩) (fun _ => rfl)
instance : LabelFree BgpIPv4RD :=
  .via (fun x : BgpIPv4RD => (x.rd, x.addr)) (fun (a, b) => ⟨a, b⟩) (fun _ => rfl) (fun _ => rfl)
instance : PcmpSome BgpIPv4RD := .via (fun x : BgpIPv4RD => (x.rd, x.addr))

instance : Der BgpIPv6RD :=
  .via (fun x : BgpIPv6RD => (x.rd, x.addr)) (fun (a, b) => ⟨a, b⟩) (fun _ => rfl)
instance : LabelFree BgpIPv6RD :=
  .via (fun x : BgpIPv6RD => (x.rd, x.addr)) (fun (a, b) => ⟨a, b⟩) (fun _ => rfl) (fun _ => rfl)
instance : PcmpSome BgpIPv6RD := .via (fun x : BgpIPv6RD => (x.rd, x.addr))

instance : Der BgpAddrMac :=
  .via (fun x : BgpAddrMac => (x.addr, x.prefixlen)) (fun (a, b) => ⟨a, b⟩) (fun _ => rfl)
instance : LabelFree BgpAddrMac :=
  .via (fun x : BgpAddrMac => (x.addr, x.prefixlen)) (fun (a, b) => ⟨a, b⟩) (fun _ => rfl) (fun _ => rfl)
instance : PcmpSome BgpAddrMac := .via (fun x : BgpAddrMac => (x.addr, x.prefixlen))

/-- The value of a variant. -/
def BgpNet.ofVariant :
    (BgpAddrV4 ⊕ BgpAddrV6) ⊕ BgpAddrMac → BgpNet
  | .inl (.inl a) => .V4 a
  | .inl (.inr a) => .V6 a
  | .inr a => .MAC a

theorem BgpNet.of_variant (a : BgpNet) : BgpNet.ofVariant a.variant = a := by cases a <;> rfl

theorem BgpNet.variant_of : ∀ v, (BgpNet.ofVariant v : BgpNet).variant = v := by
  rintro ((_ | _) | _) <;> rfl

instance : Der BgpNet :=
  .via BgpNet.variant BgpNet.ofVariant BgpNet.variant_of
instance : LabelFree BgpNet :=
  .via BgpNet.variant BgpNet.ofVariant BgpNet.of_variant BgpNet.variant_of
instance : PcmpSome BgpNet := .via BgpNet.variant

instance : Der BgpMdtV4 :=
  .via (fun x : BgpMdtV4 => (x.addr, x.group)) (fun (a, b) => ⟨a, b⟩) (fun _ => rfl)
instance : LabelFree BgpMdtV4 :=
  .via (fun x : BgpMdtV4 => (x.addr, x.group)) (fun (a, b) => ⟨a, b⟩) (fun _ => rfl) (fun _ => rfl)
instance : PcmpSome BgpMdtV4 := .via (fun x : BgpMdtV4 => (x.addr, x.group))

instance : Der BgpMdtV6 :=
  .via (fun x : BgpMdtV6 => (x.addr, x.group)) (fun (a, b) => ⟨a, b⟩) (fun _ => rfl)
instance : LabelFree BgpMdtV6 :=
  .via (fun x : BgpMdtV6 => (x.addr, x.group)) (fun (a, b) => ⟨a, b⟩) (fun _ => rfl) (fun _ => rfl)
instance : PcmpSome BgpMdtV6 := .via (fun x : BgpMdtV6 => (x.addr, x.group))

instance : Der BgpL2 :=
  .via (fun x : BgpL2 => (x.rd, x.site, x.offset, x.range)) (fun (a, b, c, d) => ⟨a, b, c, d⟩) (fun _ => rfl)
instance : LabelFree BgpL2 :=
  .via (fun x : BgpL2 => (x.rd, x.site, x.offset, x.range)) (fun (a, b, c, d) => ⟨a, b, c, d⟩)
    (fun _ => rfl) (fun _ => rfl)
instance : PcmpSome BgpL2 := .via (fun x : BgpL2 => (x.rd, x.site, x.offset, x.range))

instance : Der BgpMVPN1 :=
  .via (fun x : BgpMVPN1 => (x.rd, x.originator)) (fun (a, b) => ⟨a, b⟩) (fun _ => rfl)
instance : LabelFree BgpMVPN1 :=
  .via (fun x : BgpMVPN1 => (x.rd, x.originator)) (fun (a, b) => ⟨a, b⟩) (fun _ => rfl) (fun _ => rfl)
instance : PcmpSome BgpMVPN1 := .via (fun x : BgpMVPN1 => (x.rd, x.originator))

instance : Der BgpMVPN2 :=
  .via (fun x : BgpMVPN2 => (x.rd, x.asn)) (fun (a, b) => ⟨a, b⟩) (fun _ => rfl)
instance : LabelFree BgpMVPN2 :=
  .via (fun x : BgpMVPN2 => (x.rd, x.asn)) (fun (a, b) => ⟨a, b⟩) (fun _ => rfl) (fun _ => rfl)
instance : PcmpSome BgpMVPN2 := .via (fun x : BgpMVPN2 => (x.rd, x.asn))

instance : Der BgpMVPN3 :=
  .via (fun x : BgpMVPN3 => (x.rd, x.source, x.group, x.originator)) (fun (a, b, c, d) => ⟨a, b, c, d⟩)
    (fun _ => rfl)
instance : LabelFree BgpMVPN3 :=
  .via (fun x : BgpMVPN3 => (x.rd, x.source, x.group, x.originator)) (fun (a, b, c, d) => ⟨a, b, c, d⟩)
    (fun _ => rfl) (fun _ => rfl)
instance : PcmpSome BgpMVPN3 := .via (fun x : BgpMVPN3 => (x.rd, x.source, x.group, x.originator))

instance : Der BgpMVPN4 :=
  .via (fun x : BgpMVPN4 => (x.spmsi, x.originator)) (fun (a, b) => ⟨a, b⟩) (fun _ => rfl)
instance : LabelFree BgpMVPN4 :=
  .via (fun x : BgpMVPN4 => (x.spmsi, x.originator)) (fun (a, b) => ⟨a, b⟩) (fun _ => rfl) (fun _ => rfl)
instance : PcmpSome BgpMVPN4 := .via (fun x : BgpMVPN4 => (x.spmsi, x.originator))

instance : Der BgpMVPN5 :=
  .via (fun x : BgpMVPN5 => (x.rd, x.source, x.group)) (fun (a, b, c) => ⟨a, b, c⟩) (fun _ => rfl)
instance : LabelFree BgpMVPN5 :=
  .via (fun x : BgpMVPN5 => (x.rd, x.source, x.group)) (fun (a, b, c) => ⟨a, b, c⟩) (fun _ => rfl) (fun _ => rfl)
instance : PcmpSome BgpMVPN5 := .via (fun x : BgpMVPN5 => (x.rd, x.source, x.group))

instance : Der BgpMVPN67 :=
  .via (fun x : BgpMVPN67 => (x.rd, x.asn, x.rp, x.group)) (fun (a, b, c, d) => ⟨a, b, c, d⟩) (fun _ => rfl)
instance : LabelFree BgpMVPN67 :=
  .via (fun x : BgpMVPN67 => (x.rd, x.asn, x.rp, x.group)) (fun (a, b, c, d) => ⟨a, b, c, d⟩)
    (fun _ => rfl) (fun _ => rfl)
instance : PcmpSome BgpMVPN67 := .via (fun x : BgpMVPN67 => (x.rd, x.asn, x.rp, x.group))

/-- The value of a variant. -/
def BgpMVPN.ofVariant :
    ((BgpMVPN1 ⊕ BgpMVPN2) ⊕ (BgpMVPN3 ⊕ BgpMVPN4)) ⊕ ((BgpMVPN5 ⊕ BgpMVPN67) ⊕ BgpMVPN67) → BgpMVPN
  | .inl (.inl (.inl r)) => .t1 r
  | .inl (.inl (.inr r)) => .t2 r
  | .inl (.inr (.inl r)) => .t3 r
  | .inl (.inr (.inr r)) => .t4 r
  | .inr (.inl (.inl r)) => .t5 r
  | .inr (.inl (.inr r)) => .t6 r
  | .inr (.inr r) => .t7 r

theorem BgpMVPN.of_variant (a : BgpMVPN) : BgpMVPN.ofVariant a.variant = a := by cases a <;> rfl

theorem BgpMVPN.variant_of : ∀ v, (BgpMVPN.ofVariant v : BgpMVPN).variant = v := by
  rintro (((_ | _) | (_ | _)) | ((_ | _) | _)) <;> rfl

instance : Der BgpMVPN :=
  .via BgpMVPN.variant BgpMVPN.ofVariant BgpMVPN.variant_of
instance : LabelFree BgpMVPN :=
  .via BgpMVPN.variant BgpMVPN.ofVariant BgpMVPN.of_variant BgpMVPN.variant_of
instance : PcmpSome BgpMVPN := .via BgpMVPN.variant

/-- The value of a variant. -/
def BgpAddr.ofVariant :
    ((Unit ⊕ IPv4) ⊕ (IPv6 ⊕ BgpIPv4RD)) ⊕ ((BgpIPv6RD ⊕ BgpL2) ⊕ BgpMVPN) → BgpAddr
  | .inl (.inl (.inl ())) => .None
  | .inl (.inl (.inr a)) => .V4 a
  | .inl (.inr (.inl a)) => .V6 a
  | .inl (.inr (.inr a)) => .V4RD a
  | .inr (.inl (.inl a)) => .V6RD a
  | .inr (.inl (.inr a)) => .L2 a
  | .inr (.inr a) => .MVPN a

theorem BgpAddr.of_variant (a : BgpAddr) : BgpAddr.ofVariant a.variant = a := by cases a <;> rfl

theorem BgpAddr.variant_of : ∀ v, (BgpAddr.ofVariant v : BgpAddr).variant = v := by
  rintro (((_ | _) | (_ | _)) | ((_ | _) | _)) <;> rfl

instance : Der BgpAddr :=
  .via BgpAddr.variant BgpAddr.ofVariant BgpAddr.variant_of
instance : LabelFree BgpAddr :=
  .via BgpAddr.variant BgpAddr.ofVariant BgpAddr.of_variant BgpAddr.variant_of
instance : PcmpSome BgpAddr := .via BgpAddr.variant

instance : Der BgpEVPN1 :=
  .via (fun x : BgpEVPN1 => (x.rd, x.esiType, x.esi, x.etherTag, x.labels)) (fun (a, b, c, d, e) => ⟨a, b, c, d, e⟩)
    (fun _ => rfl)

instance : Der BgpEVPN2 :=
  .via (fun x : BgpEVPN2 => (x.rd, x.esiType, x.esi, x.etherTag, x.mac, x.ip, x.labels)) (fun (a, b, c, d, e, f, g) => ⟨a, b, c, d, e, f, g⟩)
    (fun _ => rfl)

instance : Der BgpEVPN3 :=
  .via (fun x : BgpEVPN3 => (x.rd, x.etherTag, x.ip)) (fun (a, b, c) => ⟨a, b, c⟩) (fun _ => rfl)
instance : LabelFree BgpEVPN3 :=
  .via (fun x : BgpEVPN3 => (x.rd, x.etherTag, x.ip)) (fun (a, b, c) => ⟨a, b, c⟩) (fun _ => rfl) (fun _ => rfl)
instance : PcmpSome BgpEVPN3 := .via (fun x : BgpEVPN3 => (x.rd, x.etherTag, x.ip))

instance : Der BgpEVPN4 :=
  .via (fun x : BgpEVPN4 => (x.rd, x.esiType, x.esi, x.ip)) (fun (a, b, c, d) => ⟨a, b, c, d⟩) (fun _ => rfl)
instance : LabelFree BgpEVPN4 :=
  .via (fun x : BgpEVPN4 => (x.rd, x.esiType, x.esi, x.ip)) (fun (a, b, c, d) => ⟨a, b, c, d⟩)
    (fun _ => rfl) (fun _ => rfl)
instance : PcmpSome BgpEVPN4 := .via (fun x : BgpEVPN4 => (x.rd, x.esiType, x.esi, x.ip))

instance : Der BgpEVPN5 :=
  .via (fun x : BgpEVPN5 => (x.rd, x.esiType, x.esi, x.etherTag, x.len, x.pfx, x.gwIp, x.labels)) (fun (a, b, c, d, e, f, g, h) => ⟨a, b, c, d, e, f, g, h⟩)
    (fun _ => rfl)

/-- The value of a variant. -/
def BgpEVPN.ofVariant :
    ((BgpEVPN1 ⊕ BgpEVPN2) ⊕ BgpEVPN3) ⊕ (BgpEVPN4 ⊕ BgpEVPN5) → BgpEVPN
  | .inl (.inl (.inl r)) => .evpn1 r
  | .inl (.inl (.inr r)) => .evpn2 r
  | .inl (.inr r) => .evpn3 r
  | .inr (.inl r) => .evpn4 r
  | .inr (.inr r) => .evpn5 r

theorem BgpEVPN.of_variant (a : BgpEVPN) : BgpEVPN.ofVariant a.variant = a := by cases a <;> rfl

theorem BgpEVPN.variant_of : ∀ v, (BgpEVPN.ofVariant v : BgpEVPN).variant = v := by
  rintro (((_ | _) | _) | (_ | _)) <;> rfl

instance : Der BgpEVPN :=
  .via BgpEVPN.variant BgpEVPN.ofVariant BgpEVPN.variant_of

instance : Der FS6 :=
  .via (fun x : FS6 => (x.ipv6, x.offset)) (fun (a, b) => ⟨a, b⟩) (fun _ => rfl)
instance : LabelFree FS6 :=
  .via (fun x : FS6 => (x.ipv6, x.offset)) (fun (a, b) => ⟨a, b⟩) (fun _ => rfl) (fun _ => rfl)
instance : PcmpSome FS6 := .via (fun x : FS6 => (x.ipv6, x.offset))

instance : Der FSV4U :=
  .via (fun x : FSV4U => x.pfx) (fun a => ⟨a⟩) (fun _ => rfl)
instance : LabelFree FSV4U :=
  .via (fun x : FSV4U => x.pfx) (fun a => ⟨a⟩) (fun _ => rfl) (fun _ => rfl)
instance : PcmpSome FSV4U := .via (fun x : FSV4U => x.pfx)

instance : Der FSOperValItem :=
  .via (fun x : FSOperValItem => (x.andBit, x.ltCmp, x.gtCmp, x.eqCmp, x.value)) (fun (a, b, c, d, e) => ⟨a, b, c, d, e⟩)
    (fun _ => rfl)
instance : LabelFree FSOperValItem :=
  .via (fun x : FSOperValItem => (x.andBit, x.ltCmp, x.gtCmp, x.eqCmp, x.value)) (fun (a, b, c, d, e) => ⟨a, b, c, d, e⟩)
    (fun _ => rfl) (fun _ => rfl)
instance : PcmpSome FSOperValItem := .via (fun x : FSOperValItem => (x.andBit, x.ltCmp, x.gtCmp, x.eqCmp, x.value))

instance : Der FSOperMaskItem :=
  .via (fun x : FSOperMaskItem => (x.andBit, x.bitNot, x.bitMatch, x.value)) (fun (a, b, c, d) => ⟨a, b, c, d⟩)
    (fun _ => rfl)
instance : LabelFree FSOperMaskItem :=
  .via (fun x : FSOperMaskItem => (x.andBit, x.bitNot, x.bitMatch, x.value)) (fun (a, b, c, d) => ⟨a, b, c, d⟩)
    (fun _ => rfl) (fun _ => rfl)
instance : PcmpSome FSOperMaskItem := .via (fun x : FSOperMaskItem => (x.andBit, x.bitNot, x.bitMatch, x.value))

instance {T : Type} [ROrd T] [Der T] : Der (FSOperVec T) :=
  .via (fun x : FSOperVec T => x.items) (fun a => ⟨a⟩) (fun _ => rfl)
instance {T : Type} [ROrd T] [Der T] [LabelFree T] : LabelFree (FSOperVec T) :=
  .via (fun x : FSOperVec T => x.items) (fun a => ⟨a⟩) (fun _ => rfl) (fun _ => rfl)
instance {T : Type} [ROrd T] [PcmpSome T] : PcmpSome (FSOperVec T) := .via (fun x : FSOperVec T => x.items)

/-- The value of a variant. -/
def BgpFlowSpec.ofVariant {T : Type} :
    (((T ⊕ T) ⊕ (FSOperVec FSOperValItem ⊕ FSOperVec FSOperValItem)) ⊕ ((FSOperVec FSOperValItem ⊕ FSOperVec
    FSOperValItem) ⊕ FSOperVec FSOperValItem)) ⊕ (((FSOperVec FSOperValItem ⊕ FSOperVec FSOperMaskItem) ⊕ FSOperVec
    FSOperValItem) ⊕ ((FSOperVec FSOperValItem ⊕ FSOperVec FSOperMaskItem) ⊕ FSOperVec FSOperValItem)) → BgpFlowSpec T
  | .inl (.inl (.inl (.inl a))) => .prefixDst a
  | .inl (.inl (.inl (.inr a))) => .prefixSrc a
  | .inl (.inl (.inr (.inl v))) => .proto v
  | .inl (.inl (.inr (.inr v))) => .portAny v
  | .inl (.inr (.inl (.inl v))) => .portDst v
  | .inl (.inr (.inl (.inr v))) => .portSrc v
  | .inl (.inr (.inr v)) => .icmpType v
  | .inr (.inl (.inl (.inl v))) => .icmpCode v
  | .inr (.inl (.inl (.inr v))) => .tcpFlags v
  | .inr (.inl (.inr v)) => .packetLength v
  | .inr (.inr (.inl (.inl v))) => .dscp v
  | .inr (.inr (.inl (.inr v))) => .fragment v
  | .inr (.inr (.inr v)) => .flowLabel v

theorem BgpFlowSpec.of_variant {T : Type} (a : BgpFlowSpec T) : BgpFlowSpec.ofVariant a.variant = a := by cases a <;> rfl

theorem BgpFlowSpec.variant_of {T : Type} : ∀ v, (BgpFlowSpec.ofVariant v : BgpFlowSpec T).variant = v := by
  rintro ((((_ | _) | (_ | _)) | ((_ | _) | _)) | (((_ | _) | _) | ((_ | _) | _))) <;> rfl

instance {T : Type} [ROrd T] [Der T] : Der (BgpFlowSpec T) :=
  .via BgpFlowSpec.variant BgpFlowSpec.ofVariant BgpFlowSpec.variant_of
instance {T : Type} [ROrd T] [Der T] [LabelFree T] : LabelFree (BgpFlowSpec T) :=
  .via BgpFlowSpec.variant BgpFlowSpec.ofVariant BgpFlowSpec.of_variant BgpFlowSpec.variant_of
instance {T : Type} [ROrd T] [PcmpSome T] : PcmpSome (BgpFlowSpec T) := .via BgpFlowSpec.variant

/-- The value of a variant. -/
def BgpAddrs.ofVariant :
    ((((Unit ⊕ List BgpAddrV4) ⊕ (List BgpAddrV4 ⊕ List (Labeled BgpAddrV4))) ⊕ ((List (Labeled (WithRd BgpAddrV4))
    ⊕ List (Labeled (WithRd BgpAddrV4))) ⊕ (List (WithRd BgpMdtV4) ⊕ List (WithPathId (WithRd BgpMdtV4))))) ⊕
    (((List BgpAddrV6 ⊕ List BgpAddrV6) ⊕ (List (Labeled BgpAddrV6) ⊕ List (Labeled (WithRd BgpAddrV6)))) ⊕ ((List
    (Labeled (WithRd BgpAddrV6)) ⊕ List (WithRd BgpMdtV6)) ⊕ (List (WithPathId (WithRd BgpMdtV6)) ⊕ List
    BgpAddrL2)))) ⊕ ((((List BgpMVPN ⊕ List BgpEVPN) ⊕ (List (BgpFlowSpec BgpAddrV4) ⊕ List (BgpFlowSpec FS6))) ⊕
    ((List (BgpFlowSpec Zbgp.FSV4U) ⊕ List (WithPathId BgpAddrV4)) ⊕ (List (WithPathId BgpAddrV4) ⊕ List (WithPathId
    (Labeled BgpAddrV4))))) ⊕ (((List (WithPathId (Labeled (WithRd BgpAddrV4))) ⊕ List (WithPathId (Labeled (WithRd
    BgpAddrV4)))) ⊕ (List (WithPathId BgpAddrV6) ⊕ List (WithPathId BgpAddrV6))) ⊕ ((List (WithPathId (Labeled
    BgpAddrV6)) ⊕ List (WithPathId (Labeled (WithRd BgpAddrV6)))) ⊕ List (WithPathId (Labeled (WithRd
    BgpAddrV6)))))) → BgpAddrs
  | .inl (.inl (.inl (.inl (.inl ())))) => .None
  | .inl (.inl (.inl (.inl (.inr v)))) => .IPV4U v
  | .inl (.inl (.inl (.inr (.inl v)))) => .IPV4M v
  | .inl (.inl (.inl (.inr (.inr v)))) => .IPV4LU v
  | .inl (.inl (.inr (.inl (.inl v)))) => .VPNV4U v
  | .inl (.inl (.inr (.inl (.inr v)))) => .VPNV4M v
  | .inl (.inl (.inr (.inr (.inl v)))) => .IPV4MDT v
  | .inl (.inl (.inr (.inr (.inr v)))) => .IPV4MDTP v
  | .inl (.inr (.inl (.inl (.inl v)))) => .IPV6U v
  | .inl (.inr (.inl (.inl (.inr v)))) => .IPV6M v
  | .inl (.inr (.inl (.inr (.inl v)))) => .IPV6LU v
  | .inl (.inr (.inl (.inr (.inr v)))) => .VPNV6U v
  | .inl (.inr (.inr (.inl (.inl v)))) => .VPNV6M v
  | .inl (.inr (.inr (.inl (.inr v)))) => .IPV6MDT v
  | .inl (.inr (.inr (.inr (.inl v)))) => .IPV6MDTP v
  | .inl (.inr (.inr (.inr (.inr v)))) => .L2VPLS v
  | .inr (.inl (.inl (.inl (.inl v)))) => .MVPN v
  | .inr (.inl (.inl (.inl (.inr v)))) => .EVPN v
  | .inr (.inl (.inl (.inr (.inl v)))) => .FS4U v
  | .inr (.inl (.inl (.inr (.inr v)))) => .FS6U v
  | .inr (.inl (.inr (.inl (.inl v)))) => .FSV4U v
  | .inr (.inl (.inr (.inl (.inr v)))) => .IPV4UP v
  | .inr (.inl (.inr (.inr (.inl v)))) => .IPV4MP v
  | .inr (.inl (.inr (.inr (.inr v)))) => .IPV4LUP v
  | .inr (.inr (.inl (.inl (.inl v)))) => .VPNV4UP v
  | .inr (.inr (.inl (.inl (.inr v)))) => .VPNV4MP v
  | .inr (.inr (.inl (.inr (.inl v)))) => .IPV6UP v
  | .inr (.inr (.inl (.inr (.inr v)))) => .IPV6MP v
  | .inr (.inr (.inr (.inl (.inl v)))) => .IPV6LUP v
  | .inr (.inr (.inr (.inl (.inr v)))) => .VPNV6UP v
  | .inr (.inr (.inr (.inr v))) => .VPNV6MP v

theorem BgpAddrs.of_variant (a : BgpAddrs) : BgpAddrs.ofVariant a.variant = a := by cases a <;> rfl

theorem BgpAddrs.variant_of : ∀ v, (BgpAddrs.ofVariant v : BgpAddrs).variant = v := by
  rintro (((((_ | _) | (_ | _)) | ((_ | _) | (_ | _))) | (((_ | _) | (_ | _)) | ((_ | _) | (_ | _)))) | ((((_ | _) | (_ | _)) | ((_ | _) | (_ | _))) | (((_ | _) | (_ | _)) | ((_ | _) | _)))) <;> rfl

set_option synthInstance.maxSize 1024 in
instance : Der BgpAddrs :=
  .via BgpAddrs.variant BgpAddrs.ofVariant BgpAddrs.variant_of

instance : Der BgpAttrParams :=
  .via (fun x : BgpAttrParams => (x.typecode, x.flags)) (fun (a, b) => ⟨a, b⟩) (fun _ => rfl)
instance : LabelFree BgpAttrParams :=
  .via (fun x : BgpAttrParams => (x.typecode, x.flags)) (fun (a, b) => ⟨a, b⟩) (fun _ => rfl) (fun _ => rfl)
instance : PcmpSome BgpAttrParams := .via (fun x : BgpAttrParams => (x.typecode, x.flags))

/-- The value of a variant. -/
def BgpAttrOrigin.ofVariant :
    (Unit ⊕ Unit) ⊕ Unit → BgpAttrOrigin
  | .inl (.inl ()) => .Igp
  | .inl (.inr ()) => .Egp
  | .inr () => .Incomplete

theorem BgpAttrOrigin.of_variant (a : BgpAttrOrigin) : BgpAttrOrigin.ofVariant a.variant = a := by cases a <;> rfl

theorem BgpAttrOrigin.variant_of : ∀ v, (BgpAttrOrigin.ofVariant v : BgpAttrOrigin).variant = v := by
  rintro ((_ | _) | _) <;> rfl

instance : Der BgpAttrOrigin :=
  .via BgpAttrOrigin.variant BgpAttrOrigin.ofVariant BgpAttrOrigin.variant_of
instance : LabelFree BgpAttrOrigin :=
  .via BgpAttrOrigin.variant BgpAttrOrigin.ofVariant BgpAttrOrigin.of_variant BgpAttrOrigin.variant_of
instance : PcmpSome BgpAttrOrigin := .via BgpAttrOrigin.variant

instance : Der BgpOrigin :=
  .via (fun x : BgpOrigin => x.value) (fun a => ⟨a⟩) (fun _ => rfl)
instance : LabelFree BgpOrigin :=
  .via (fun x : BgpOrigin => x.value) (fun a => ⟨a⟩) (fun _ => rfl) (fun _ => rfl)
instance : PcmpSome BgpOrigin := .via (fun x : BgpOrigin => x.value)

instance : Der BgpASpath :=
  .via (fun x : BgpASpath => x.value) (fun a => ⟨a⟩) (fun _ => rfl)
instance : PcmpSome BgpASpath := .via (fun x : BgpASpath => x.value)

instance : Der BgpNextHop :=
  .via (fun x : BgpNextHop => x.value) (fun a => ⟨a⟩) (fun _ => rfl)
instance : LabelFree BgpNextHop :=
  .via (fun x : BgpNextHop => x.value) (fun a => ⟨a⟩) (fun _ => rfl) (fun _ => rfl)
instance : PcmpSome BgpNextHop := .via (fun x : BgpNextHop => x.value)

instance : Der BgpMED :=
  .via (fun x : BgpMED => x.value) (fun a => ⟨a⟩) (fun _ => rfl)
instance : LabelFree BgpMED :=
  .via (fun x : BgpMED => x.value) (fun a => ⟨a⟩) (fun _ => rfl) (fun _ => rfl)
instance : PcmpSome BgpMED := .via (fun x : BgpMED => x.value)

instance : Der BgpLocalpref :=
  .via (fun x : BgpLocalpref => x.value) (fun a => ⟨a⟩) (fun _ => rfl)
instance : LabelFree BgpLocalpref :=
  .via (fun x : BgpLocalpref => x.value) (fun a => ⟨a⟩) (fun _ => rfl) (fun _ => rfl)
instance : PcmpSome BgpLocalpref := .via (fun x : BgpLocalpref => x.value)

instance : Der BgpAtomicAggregate :=
  .via (fun x : BgpAtomicAggregate => x.value) (fun a => ⟨a⟩) (fun _ => rfl)
instance : LabelFree BgpAtomicAggregate :=
  .via (fun x : BgpAtomicAggregate => x.value) (fun a => ⟨a⟩) (fun _ => rfl) (fun _ => rfl)
instance : PcmpSome BgpAtomicAggregate := .via (fun x : BgpAtomicAggregate => x.value)

instance : Der BgpAggregatorAS :=
  .via (fun x : BgpAggregatorAS => (x.asn, x.addr)) (fun (a, b) => ⟨a, b⟩) (fun _ => rfl)
instance : LabelFree BgpAggregatorAS :=
  .via (fun x : BgpAggregatorAS => (x.asn, x.addr)) (fun (a, b) => ⟨a, b⟩) (fun _ => rfl) (fun _ => rfl)
instance : PcmpSome BgpAggregatorAS := .via (fun x : BgpAggregatorAS => (x.asn, x.addr))

instance : Der BgpOriginatorID :=
  .via (fun x : BgpOriginatorID => x.value) (fun a => ⟨a⟩) (fun _ => rfl)
instance : LabelFree BgpOriginatorID :=
  .via (fun x : BgpOriginatorID => x.value) (fun a => ⟨a⟩) (fun _ => rfl) (fun _ => rfl)
instance : PcmpSome BgpOriginatorID := .via (fun x : BgpOriginatorID => x.value)

instance : Der BgpClusterList :=
  .via (fun x : BgpClusterList => x.value) (fun a => ⟨a⟩) (fun _ => rfl)
instance : LabelFree BgpClusterList :=
  .via (fun x : BgpClusterList => x.value) (fun a => ⟨a⟩) (fun _ => rfl) (fun _ => rfl)
instance : PcmpSome BgpClusterList := .via (fun x : BgpClusterList => x.value)

instance : Der BgpConnector :=
  .via (fun x : BgpConnector => (x.asn, x.addr, x.orig)) (fun (a, b, c) => ⟨a, b, c⟩) (fun _ => rfl)
instance : LabelFree BgpConnector :=
  .via (fun x : BgpConnector => (x.asn, x.addr, x.orig)) (fun (a, b, c) => ⟨a, b, c⟩)
    (fun _ => rfl) (fun _ => rfl)
instance : PcmpSome BgpConnector := .via (fun x : BgpConnector => (x.asn, x.addr, x.orig))

instance : Der BgpAttrUnknown :=
  .via (fun x : BgpAttrUnknown => (x.params, x.value)) (fun (a, b) => ⟨a, b⟩) (fun _ => rfl)
instance : LabelFree BgpAttrUnknown :=
  .via (fun x : BgpAttrUnknown => (x.params, x.value)) (fun (a, b) => ⟨a, b⟩) (fun _ => rfl) (fun _ => rfl)
instance : PcmpSome BgpAttrUnknown := .via (fun x : BgpAttrUnknown => (x.params, x.value))

instance : Der BgpCommunity :=
  .via (fun x : BgpCommunity => x.value) (fun a => ⟨a⟩) (fun _ => rfl)
instance : LabelFree BgpCommunity :=
  .via (fun x : BgpCommunity => x.value) (fun a => ⟨a⟩) (fun _ => rfl) (fun _ => rfl)
instance : PcmpSome BgpCommunity := .via (fun x : BgpCommunity => x.value)

instance : Der BgpCommunityList :=
  .via (fun x : BgpCommunityList => x.value) (fun a => ⟨a⟩) (fun _ => rfl)
instance : LabelFree BgpCommunityList :=
  .via (fun x : BgpCommunityList => x.value) (fun a => ⟨a⟩) (fun _ => rfl) (fun _ => rfl)
instance : PcmpSome BgpCommunityList := .via (fun x : BgpCommunityList => x.value)

instance : Der BgpLargeCommunity :=
  .via (fun x : BgpLargeCommunity => (x.ga, x.ldp1, x.ldp2)) (fun (a, b, c) => ⟨a, b, c⟩) (fun _ => rfl)
instance : LabelFree BgpLargeCommunity :=
  .via (fun x : BgpLargeCommunity => (x.ga, x.ldp1, x.ldp2)) (fun (a, b, c) => ⟨a, b, c⟩)
    (fun _ => rfl) (fun _ => rfl)
instance : PcmpSome BgpLargeCommunity := .via (fun x : BgpLargeCommunity => (x.ga, x.ldp1, x.ldp2))

instance : Der BgpLargeCommunityList :=
  .via (fun x : BgpLargeCommunityList => x.value) (fun a => ⟨a⟩) (fun _ => rfl)
instance : LabelFree BgpLargeCommunityList :=
  .via (fun x : BgpLargeCommunityList => x.value) (fun a => ⟨a⟩) (fun _ => rfl) (fun _ => rfl)
instance : PcmpSome BgpLargeCommunityList := .via (fun x : BgpLargeCommunityList => x.value)

instance : Der BgpExtCommunity :=
  .via (fun x : BgpExtCommunity => (x.ctype, x.subtype, x.a, x.b)) (fun (a, b, c, d) => ⟨a, b, c, d⟩)
    (fun _ => rfl)
instance : LabelFree BgpExtCommunity :=
  .via (fun x : BgpExtCommunity => (x.ctype, x.subtype, x.a, x.b)) (fun (a, b, c, d) => ⟨a, b, c, d⟩)
    (fun _ => rfl) (fun _ => rfl)
instance : PcmpSome BgpExtCommunity := .via (fun x : BgpExtCommunity => (x.ctype, x.subtype, x.a, x.b))

instance : Der BgpExtCommunityList :=
  .via (fun x : BgpExtCommunityList => x.value) (fun a => ⟨a⟩) (fun _ => rfl)
instance : LabelFree BgpExtCommunityList :=
  .via (fun x : BgpExtCommunityList => x.value) (fun a => ⟨a⟩) (fun _ => rfl) (fun _ => rfl)
instance : PcmpSome BgpExtCommunityList := .via (fun x : BgpExtCommunityList => x.value)

instance : Der BgpMPUpdates :=
  .via (fun x : BgpMPUpdates => (x.nexthop, x.addrs)) (fun (a, b) => ⟨a, b⟩) (fun _ => rfl)

instance : Der BgpMPWithdraws :=
  .via (fun x : BgpMPWithdraws => x.addrs) (fun a => ⟨a⟩) (fun _ => rfl)

/-- The value of a variant. -/
def BgpPMSITunnelAttr.ofVariant :
    (Unit ⊕ (IPv4 × U16 × U16 × IPv4)) ⊕ (IPv4 ⊕ (IpAddr × Bytes)) → BgpPMSITunnelAttr
  | .inl (.inl ()) => .None
  | .inl (.inr (e, r, t, p)) => .RSVPTe e r t p
  | .inr (.inl e) => .IngressRepl e
  | .inr (.inr (r, o)) => .MLDP r o

theorem BgpPMSITunnelAttr.of_variant (a : BgpPMSITunnelAttr) : BgpPMSITunnelAttr.ofVariant a.variant = a := by cases a <;> rfl

theorem BgpPMSITunnelAttr.variant_of : ∀ v, (BgpPMSITunnelAttr.ofVariant v : BgpPMSITunnelAttr).variant = v := by
  rintro ((_ | _) | (_ | _)) <;> rfl

instance : Der BgpPMSITunnelAttr :=
  .via BgpPMSITunnelAttr.variant BgpPMSITunnelAttr.ofVariant BgpPMSITunnelAttr.variant_of
instance : LabelFree BgpPMSITunnelAttr :=
  .via BgpPMSITunnelAttr.variant BgpPMSITunnelAttr.ofVariant
    BgpPMSITunnelAttr.of_variant BgpPMSITunnelAttr.variant_of
instance : PcmpSome BgpPMSITunnelAttr := .via BgpPMSITunnelAttr.variant

instance : Der BgpPMSITunnel :=
  .via (fun x : BgpPMSITunnel => (x.flags, x.tunnelType, x.label, x.tunnelAttribute)) (fun (a, b, c, d) => ⟨a, b, c, d⟩)
    (fun _ => rfl)

instance : Der BgpCapGR :=
  .via (fun x : BgpCapGR => (x.afi, x.safi, x.forwardingState)) (fun (a, b, c) => ⟨a, b, c⟩) (fun _ => rfl)
instance : LabelFree BgpCapGR :=
  .via (fun x : BgpCapGR => (x.afi, x.safi, x.forwardingState)) (fun (a, b, c) => ⟨a, b, c⟩)
    (fun _ => rfl) (fun _ => rfl)
instance : PcmpSome BgpCapGR := .via (fun x : BgpCapGR => (x.afi, x.safi, x.forwardingState))

instance : Der BgpCapLLGR :=
  .via (fun x : BgpCapLLGR => (x.afi, x.safi, x.flags, x.staleTime)) (fun (a, b, c, d) => ⟨a, b, c, d⟩)
    (fun _ => rfl)
instance : LabelFree BgpCapLLGR :=
  .via (fun x : BgpCapLLGR => (x.afi, x.safi, x.flags, x.staleTime)) (fun (a, b, c, d) => ⟨a, b, c, d⟩)
    (fun _ => rfl) (fun _ => rfl)
instance : PcmpSome BgpCapLLGR := .via (fun x : BgpCapLLGR => (x.afi, x.safi, x.flags, x.staleTime))

instance : Der BgpCapAddPath :=
  .via (fun x : BgpCapAddPath => (x.afi, x.safi, x.send, x.receive)) (fun (a, b, c, d) => ⟨a, b, c, d⟩)
    (fun _ => rfl)
instance : LabelFree BgpCapAddPath :=
  .via (fun x : BgpCapAddPath => (x.afi, x.safi, x.send, x.receive)) (fun (a, b, c, d) => ⟨a, b, c, d⟩)
    (fun _ => rfl) (fun _ => rfl)
instance : PcmpSome BgpCapAddPath := .via (fun x : BgpCapAddPath => (x.afi, x.safi, x.send, x.receive))

/-- The value of a variant. -/
def BgpCapability.ofVariant :
    ((((Unit ⊕ Unit) ⊕ (Unit ⊕ Unit)) ⊕ ((Unit ⊕ Unit) ⊕ Unit)) ⊕ (((Unit ⊕ Unit) ⊕ Unit) ⊕ ((Unit ⊕ Unit) ⊕ Unit)))
    ⊕ ((((Unit ⊕ Unit) ⊕ Unit) ⊕ ((Unit ⊕ (U16 × Bool × List BgpCapGR)) ⊕ U32)) ⊕ (((Unit ⊕ List BgpCapAddPath) ⊕
    Unit) ⊕ ((List BgpCapLLGR ⊕ (Bytes × Bytes)) ⊕ Unit))) → BgpCapability
  | .inl (.inl (.inl (.inl (.inl ())))) => .SafiIPv4u
  | .inl (.inl (.inl (.inl (.inr ())))) => .SafiIPv4m
  | .inl (.inl (.inl (.inr (.inl ())))) => .SafiIPv4mvpn
  | .inl (.inl (.inl (.inr (.inr ())))) => .SafiIPv4fu
  | .inl (.inl (.inr (.inl (.inl ())))) => .SafiVPNv4u
  | .inl (.inl (.inr (.inl (.inr ())))) => .SafiVPNv4fu
  | .inl (.inl (.inr (.inr ()))) => .SafiVPNv4m
  | .inl (.inr (.inl (.inl (.inl ())))) => .SafiIPv4lu
  | .inl (.inr (.inl (.inl (.inr ())))) => .SafiIPv4mdt
  | .inl (.inr (.inl (.inr ()))) => .SafiIPv6u
  | .inl (.inr (.inr (.inl (.inl ())))) => .SafiIPv6lu
  | .inl (.inr (.inr (.inl (.inr ())))) => .SafiIPv6fu
  | .inl (.inr (.inr (.inr ()))) => .SafiVPNv6u
  | .inr (.inl (.inl (.inl (.inl ())))) => .SafiVPNv6m
  | .inr (.inl (.inl (.inl (.inr ())))) => .SafiIPv6mdt
  | .inr (.inl (.inl (.inr ()))) => .SafiVPLS
  | .inr (.inl (.inr (.inl (.inl ())))) => .SafiEVPN
  | .inr (.inl (.inr (.inl (.inr (restartTime, restartState, afis))))) => .CapGR restartTime restartState afis
  | .inr (.inl (.inr (.inr asNum))) => .CapASN32 asNum
  | .inr (.inr (.inl (.inl (.inl ())))) => .CapRR
  | .inr (.inr (.inl (.inl (.inr v)))) => .CapAddPath v
  | .inr (.inr (.inl (.inr ()))) => .CapEnhancedRR
  | .inr (.inr (.inr (.inl (.inl v)))) => .CapLLGR v
  | .inr (.inr (.inr (.inl (.inr (hostname, domainname))))) => .CapFQDN hostname domainname
  | .inr (.inr (.inr (.inr ()))) => .CapBFD

theorem BgpCapability.of_variant (a : BgpCapability) : BgpCapability.ofVariant a.variant = a := by cases a <;> rfl

theorem BgpCapability.variant_of : ∀ v, (BgpCapability.ofVariant v : BgpCapability).variant = v := by
  rintro (((((_ | _) | (_ | _)) | ((_ | _) | _)) | (((_ | _) | _) | ((_ | _) | _))) | ((((_ | _) | _) | ((_ | _) | _)) | (((_ | _) | _) | ((_ | _) | _)))) <;> rfl

instance : Der BgpCapability :=
  .via BgpCapability.variant BgpCapability.ofVariant BgpCapability.variant_of
instance : LabelFree BgpCapability :=
  .via BgpCapability.variant BgpCapability.ofVariant BgpCapability.of_variant BgpCapability.variant_of
instance : PcmpSome BgpCapability := .via BgpCapability.variant

instance : Der BgpOpenMessage :=
  .via (fun x : BgpOpenMessage => (x.asNum, x.holdTime, x.routerId, x.caps)) (fun (a, b, c, d) => ⟨a, b, c, d⟩)
    (fun _ => rfl)
instance : LabelFree BgpOpenMessage :=
  .via (fun x : BgpOpenMessage => (x.asNum, x.holdTime, x.routerId, x.caps)) (fun (a, b, c, d) => ⟨a, b, c, d⟩)
    (fun _ => rfl) (fun _ => rfl)
instance : PcmpSome BgpOpenMessage := .via (fun x : BgpOpenMessage => (x.asNum, x.holdTime, x.routerId, x.caps))

end Zbgp
