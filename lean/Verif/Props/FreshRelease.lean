import Verif.Lemmas.FreshRelease
import Verif.Props.Fresh

/-!
# What the buffer held before does not show without overflow checks either (C128)
-/

namespace Zbgp.Props

open Zbgp Zbgp.Spec

theorem sizeKept_of_fresh {f : Enc} (h : FreshE f) : SizeKept f := by
  intro b b' n hb
  have h1 := h.both (fun _ => False) b b ⟨rfl, fun _ hi => hi.elim⟩
  rw [hb] at h1
  exact h1.2.1

/-- **C128** for everything but AGGREGATOR, the FQDN capability and FlowSpec prefixes of 249 bits or more, for all values,
well-formed or not, and buffers of every size: what an encoder of a build without overflow checks reports, or the way it fails,
depends on the value, the session and the size of the buffer, not on what the buffer held. The encoders of OPEN, NOTIFICATION,
KEEPALIVE and BMP information TLVs have no arithmetic that could overflow, and are in C99. -/
theorem C128_ignores_old_partial :
    (∀ (x : BgpAddrs) p, NoLongFlowspec x → IgnoresOld (x.encodeToIn .release p)) ∧
    (∀ (x : BgpAttrItem) p, AttrFresh x → IgnoresOld (x.encodeToIn .release p)) ∧
    (∀ (x : BgpUpdateMessage) p, (∀ y ∈ x.attrs, AttrFresh y) → IgnoresOld (x.encodeToIn .release p)) ∧
    (∀ x : BmpMessage, BmpFreshRelease x → IgnoresOld (x.encodeToIn .release)) := by
  refine ⟨fun x p h => ignores_of_fresh (fresh_addrsR x p h), fun x p h => ignores_of_fresh (fresh_attrR x p h),
    fun x p h => ignores_of_fresh (fresh_updateR x p h), fun x h => ?_⟩
  have ht : ∀ code enc, FreshE enc → IgnoresOld fun b => if b.isEmpty then .err .insufficientBufferSize else BmpMessage.encodeTyped code enc b :=
    fun code enc hf => ignores_of_fresh ⟨fun S a b h => by
      rw [isEmpty_len a b h.1]
      exact both_ite Iff.rfl (fun _ => both_err _) fun _ => (fresh_typed code enc hf).both S a b h⟩
  have hp : IgnoresOld fun b => if b.isEmpty then .err .insufficientBufferSize else .panic :=
    ignores_of_fresh ⟨fun S a b h => by
      rw [isEmpty_len a b h.1]
      exact both_ite Iff.rfl (fun _ => both_err _) fun _ => both_panic⟩
  cases x
  case RouteMonitoring m => exact ht 0 _ (fresh_routeMonitoringR m h)
  case StatisticsReport => exact hp
  case PeerDownNotification m => exact ht 2 _ inferInstance
  case PeerUpNotification m => exact ht 3 _ (fresh_peerUpR m h.1 h.2)
  case Initiation m => exact ht 4 _ inferInstance
  case Termination m => exact ht 5 _ inferInstance
  case RouteMirroring => exact hp

-- an UPDATE message with a prefix of 250 bits, which only a build without overflow checks sends, and a FlowSpec prefix
example :
    (∀ y ∈ [BgpAttrItem.Origin ⟨.Igp⟩, .MPUpdates ⟨.None, .FS4U [.prefixDst ⟨0x0a000000, 8⟩]⟩], AttrFresh y) ∧
    SameOutcome
      (BgpUpdateMessage.encodeToIn .release ⟨.IPV4U [⟨0x0a000000, 250⟩], .None, [.Origin ⟨.Igp⟩, .MPUpdates ⟨.None, .FS4U [.prefixDst ⟨0x0a000000, 8⟩]⟩]⟩
        (.new 1 180 .IPv4 0 []) (List.replicate 24 7))
      (BgpUpdateMessage.encodeToIn .release ⟨.IPV4U [⟨0x0a000000, 250⟩], .None, [.Origin ⟨.Igp⟩, .MPUpdates ⟨.None, .FS4U [.prefixDst ⟨0x0a000000, 8⟩]⟩]⟩
        (.new 1 180 .IPv4 0 []) (List.replicate 24 0xaa)) := by
  refine ⟨?_, by refine ⟨rfl, ?_⟩; decide +kernel⟩
  intro y hy
  simp only [List.mem_cons, List.not_mem_nil, or_false] at hy
  rcases hy with rfl | rfl
  · trivial
  · intro z hz
    simp only [List.mem_cons, List.not_mem_nil, or_false] at hz
    subst hz
    show (8 : Nat) ≤ 248
    decide

/-- **C128**, on the wire: if the encoder of a message does not show what the buffer held, and keeps its size, then neither do the
octets `send_message_buf` hands to the socket, whatever the length of the message: also where the length in the header wraps. -/
theorem C128_sent (f : Enc) (h1 : SizeKept f) (h2 : IgnoresOld f) (ty : BgpMessageType) (a b : Bytes) (h : a.length = b.length) :
    sentRelease f ty a = sentRelease f ty b := by
  have key : Both Eq (sentRelease f ty a) (sentRelease f ty b) := by
    unfold sentRelease
    refine both_bind (both_behind h1 h2 h) ?_
    rintro ⟨x, n⟩ ⟨y, m⟩ ⟨hn, hl, hs⟩
    dsimp only at hn; subst hn; dsimp only at *; have he := hs.1
    unfold BgpSessionParams.sendMessageBufIn
    refine both_bind (R := fun x y => x.2 = y.2) ?_ fun x y h => (congrArg id h : x.2 = y.2)
    refine both_ite (by rw [he]) (fun _ => both_err _) fun _ => ?_
    fresh_step
    simp only [Build.add, Res.ok_bind]
    have hle : (BitVec.ofNat 16 n + (19 : U16)).toNat ≤ n + 19 := by
      have h19 : (19 : U16).toNat = 19 := rfl
      simp only [BitVec.toNat_add, BitVec.toNat_ofNat]
      omega
    generalize BitVec.ofNat 16 n + (19 : U16) = lng at hle ⊢
    fresh_step; fresh_step; fresh_step
    rename_i hs he
    unfold rslice
    rename_i x3 y3 _
    by_cases hr : 0 ≤ lng.toNat ∧ lng.toNat ≤ x3.length
    · rw [if_pos hr, if_pos (by rw [← he]; exact hr)]
      simp only [Res.ok_bind, Both, List.drop_zero]
      refine List.ext_getElem? fun i => ?_
      rw [List.getElem?_take, List.getElem?_take]
      split
      · exact hs.2 i (by simp only [span]; omega)
      · rfl
    · rw [if_neg hr, if_neg (by rw [← he]; exact hr)]
      trivial
  cases ha : sentRelease f ty a <;> cases hb : sentRelease f ty b <;> simp only [ha, hb, Both] at key <;> simp only [key]

/-- **C128**, on the wire, for UPDATE messages. -/
theorem C128_update_sent (x : BgpUpdateMessage) (p : BgpSessionParams) (hx : ∀ y ∈ x.attrs, AttrFresh y) (a b : Bytes)
    (h : a.length = b.length) :
    sentRelease (x.encodeToIn .release p) .Update a = sentRelease (x.encodeToIn .release p) .Update b :=
  C128_sent _ (sizeKept_of_fresh (fresh_updateR x p hx)) (C128_ignores_old_partial.2.2.1 x p hx) _ a b h

example : sentRelease (BgpUpdateMessage.encodeToIn .release ⟨.IPV4U [⟨0x0a000000, 250⟩], .None, [.Origin ⟨.Igp⟩]⟩ (.new 1 180 .IPv4 0 []))
    .Update (List.replicate 40 7) =
      .ok (List.replicate 16 255 ++ [0, 28, 2, 0, 0, 0, 4, 64, 1, 1, 0, 250]) := by decide +kernel

theorem long_cases (n : U8) (h : ¬ n.toNat ≤ 248) :
    n = 249 ∨ n = 250 ∨ n = 251 ∨ n = 252 ∨ n = 253 ∨ n = 254 ∨ n = 255 := by
  have := n.isLt
  have : n.toNat = 249 ∨ n.toNat = 250 ∨ n.toNat = 251 ∨ n.toNat = 252 ∨ n.toNat = 253 ∨ n.toNat = 254 ∨ n.toNat = 255 := by omega
  rcases this with h | h | h | h | h | h | h <;> simp [BitVec.toNat_eq, h]

theorem not_ignores {f : Enc} (room n : Nat) (r : U8 → Bytes) (h : ∀ o, f (List.replicate room o) = .ok (r o, n))
    (hr : (r 0).take n ≠ (r 1).take n) : ¬ IgnoresOld f := by
  intro hi
  have h1 := hi (List.replicate room 0) (List.replicate room 1) (by simp)
  rw [h, h] at h1
  exact hr h1.2

theorem add7_long (n : U8) (h : ¬ n.toNat ≤ 248) : (n.toNat + 7) % 256 / 8 = 0 := by
  have := n.isLt
  omega

theorem long_v4 (v : IPv4) (n : U8) (h : ¬ n.toNat ≤ 248) :
    BgpAddrV4.toBitsIn .release ⟨v, n⟩ = fun b => .ok (b, (n, 0)) := by
  funext b
  have h0 : ¬ n.toNat = 0 := by omega
  simp [BgpAddrV4.toBitsIn, h0, copyAll, ipv4Octets, Build.add, add7_long n h, rslice, copyAt]

theorem long_v6 (v : IPv6) (n : U8) (h : ¬ n.toNat ≤ 248) :
    BgpAddrV6.toBitsIn .release ⟨v, n⟩ = fun b => .ok (b, (n, 0)) := by
  funext b
  have h0 : ¬ n.toNat = 0 := by omega
  simp [BgpAddrV6.toBitsIn, h0, copyAll, ipv6Octets, Build.add, add7_long n h, rslice, copyAt]

/-- prefixes that are written by `g` into `k` octets -/
@[reducible] def plainFs {T : Type} (g : Bytes → Res Bytes) (k : Nat) : FSItem T where
  decodeFs _ := .panic
  encodeFs _ := g
  storeSize _ := k

/-- what is written of a FlowSpec prefix of 249 bits or more: the length only -/
def long4 (n : U8) (b : Bytes) : Res Bytes := do
  let buf ← setIdx b 0 n
  let (buf, _) ← onFrom buf 1 fun b => .ok (b, (n, 0))
  .ok buf

/-- the same for IPv6, with the offset -/
def long6 (n o : U8) (b : Bytes) : Res Bytes := do
  let buf ← setIdx b 0 n
  let buf ← setIdx buf 1 o
  let (buf, _) ← onFrom buf 2 fun b => .ok (b, (n, 0))
  .ok buf

/-- the same for VPNv4: two zero octets and the route distinguisher -/
def longVpn (m : U8) (rd : BgpRD) (b : Bytes) : Res Bytes := do
  let buf ← setIdx b 0 0
  let buf ← setIdx buf 1 0
  let (buf, _) ← onFrom buf 2 fun b => do
    let (buf, rdpos) ← rd.encodeTo b
    let (buf, pfxp) ← onFrom buf rdpos fun b => .ok (b, (m, 0))
    let bits ← Build.release.add (BitVec.ofNat 8 (rdpos * 8)) pfxp.1
    .ok (buf, (bits, rdpos + pfxp.2))
  .ok buf

theorem flow_congr {T : Type} (i : FSItem T) (x : T) (g : Bytes → Res Bytes) (k : Nat) (h1 : i.encodeFs x = g) (h2 : i.storeSize x = k)
    (mode : BgpTransportMode) (b : Bytes) :
    @encodeAddrItems _ (flowIn i) [.prefixDst x] mode b = @encodeAddrItems _ (flowIn (plainFs g k)) [.prefixDst x] mode b ∧
    @encodeAddrItems _ (flowIn i) [.prefixSrc x] mode b = @encodeAddrItems _ (flowIn (plainFs g k)) [.prefixSrc x] mode b := by
  have hn : @BgpFlowSpec.nlen T i (.prefixDst x) = @BgpFlowSpec.nlen T (plainFs g k) (.prefixDst x) := congrArg (1 + ·) h2
  have hm : @BgpFlowSpec.nlen T i (.prefixSrc x) = @BgpFlowSpec.nlen T (plainFs g k) (.prefixSrc x) := congrArg (1 + ·) h2
  have hb : ∀ c, @BgpFlowSpec.putPrefix T i c x = @BgpFlowSpec.putPrefix T (plainFs g k) c x := fun c => by
    funext b pos
    simp only [BgpFlowSpec.putPrefix, h1, h2]
    rfl
  have e1 : @BgpFlowSpec.encodeTo T i (.prefixDst x) = @BgpFlowSpec.encodeTo T (plainFs g k) (.prefixDst x) := by
    funext b
    simp only [BgpFlowSpec.encodeTo, BgpFlowSpec.putBody]
    rw [hn, hb]
  have e2 : @BgpFlowSpec.encodeTo T i (.prefixSrc x) = @BgpFlowSpec.encodeTo T (plainFs g k) (.prefixSrc x) := by
    funext b
    simp only [BgpFlowSpec.encodeTo, BgpFlowSpec.putBody]
    rw [hm, hb]
  constructor <;> simp only [encodeAddrItems, encLoop, BgpAddrItem.encodeTo, e1, e2]

/-- **C128**, exactly, for a FlowSpec destination or source: the old contents of the buffer do not show if and only if the prefix has
at most 248 bits. -/
theorem C128_flowspec4_iff (x : BgpAddrV4) (p : BgpSessionParams) :
    (IgnoresOld (BgpAddrs.encodeToIn .release (.FS4U [.prefixDst x]) p) ↔ x.prefixlen.toNat ≤ 248) ∧
    (IgnoresOld (BgpAddrs.encodeToIn .release (.FS4U [.prefixSrc x]) p) ↔ x.prefixlen.toNat ≤ 248) := by
  obtain ⟨v, n⟩ := x
  have h (c : BgpFlowSpec BgpAddrV4) (hc : FsShort (fun y : BgpAddrV4 => y.prefixlen) c) :
      IgnoresOld (BgpAddrs.encodeToIn .release (.FS4U [c]) p) := C128_ignores_old_partial.1 _ p fun y hy => by
    simp only [List.mem_cons, List.not_mem_nil, or_false] at hy; subst hy; exact hc
  refine ⟨⟨fun hi => ?_, fun hx => h _ hx⟩, ⟨fun hi => ?_, fun hx => h _ hx⟩⟩
  · by_contra hx
    have e (q : U8) := (flow_congr (fsV4In .release) ⟨v, n⟩ (long4 n) 33
      (by funext b; simp only [FSItem.encodeFs, long_v4 _ n hx]; rfl)
      (by have := n.isLt; simp only [] at hx; simp only [FSItem.storeSize]; omega) p.peerMode (List.replicate 36 q)).1
    refine not_ignores 36 35 (fun q => match @encodeAddrItems _ (flowIn (plainFs (long4 n) 33)) [.prefixDst (⟨v, n⟩ : BgpAddrV4)] p.peerMode (List.replicate 36 q) with
      | .ok (r, _) => r
      | _ => []) (fun q => (e q).trans rfl) (fun h => ?_) hi
    have h2 : some (0 : U8) = some 1 := congrArg (fun l : Bytes => l[3]?) h
    simp at h2
  · by_contra hx
    have e (q : U8) := (flow_congr (fsV4In .release) ⟨v, n⟩ (long4 n) 33
      (by funext b; simp only [FSItem.encodeFs, long_v4 _ n hx]; rfl)
      (by have := n.isLt; simp only [] at hx; simp only [FSItem.storeSize]; omega) p.peerMode (List.replicate 36 q)).2
    refine not_ignores 36 35 (fun q => match @encodeAddrItems _ (flowIn (plainFs (long4 n) 33)) [.prefixSrc (⟨v, n⟩ : BgpAddrV4)] p.peerMode (List.replicate 36 q) with
      | .ok (r, _) => r
      | _ => []) (fun q => (e q).trans rfl) (fun h => ?_) hi
    have h2 : some (0 : U8) = some 1 := congrArg (fun l : Bytes => l[3]?) h
    simp at h2

example : ¬ IgnoresOld (BgpAddrs.encodeToIn .release (.FS4U [.prefixDst ⟨0x0a000001, 250⟩]) (.new 1 180 .IPv4 0 [])) ∧
    IgnoresOld (BgpAddrs.encodeToIn .release (.FS4U [.prefixDst ⟨0x0a000001, 200⟩]) (.new 1 180 .IPv4 0 [])) :=
  ⟨fun h => absurd ((C128_flowspec4_iff _ _).1.1 h) (by decide), (C128_flowspec4_iff _ _).1.2 (by decide)⟩

set_option maxHeartbeats 1600000 in
/-- The same for IPv6 and VPNv4 FlowSpec. -/
theorem C128_flowspec_iff (x : FS6) (y : FSV4U) (p : BgpSessionParams) :
    (IgnoresOld (BgpAddrs.encodeToIn .release (.FS6U [.prefixDst x]) p) ↔ x.ipv6.prefixlen.toNat ≤ 248) ∧
    (IgnoresOld (BgpAddrs.encodeToIn .release (.FS6U [.prefixSrc x]) p) ↔ x.ipv6.prefixlen.toNat ≤ 248) ∧
    (IgnoresOld (BgpAddrs.encodeToIn .release (.FSV4U [.prefixDst y]) p) ↔ y.pfx.pfx.prefixlen.toNat ≤ 248) ∧
    (IgnoresOld (BgpAddrs.encodeToIn .release (.FSV4U [.prefixSrc y]) p) ↔ y.pfx.pfx.prefixlen.toNat ≤ 248) := by
  obtain ⟨⟨v, n⟩, o⟩ := x
  obtain ⟨⟨⟨w, m⟩, rd⟩⟩ := y
  have h6 (c : BgpFlowSpec FS6) (hc : FsShort (fun y : FS6 => y.ipv6.prefixlen) c) :
      IgnoresOld (BgpAddrs.encodeToIn .release (.FS6U [c]) p) := C128_ignores_old_partial.1 _ p fun y hy => by
    simp only [List.mem_cons, List.not_mem_nil, or_false] at hy; subst hy; exact hc
  have hv (c : BgpFlowSpec FSV4U) (hc : FsShort (fun y : FSV4U => y.pfx.pfx.prefixlen) c) :
      IgnoresOld (BgpAddrs.encodeToIn .release (.FSV4U [c]) p) := C128_ignores_old_partial.1 _ p fun y hy => by
    simp only [List.mem_cons, List.not_mem_nil, or_false] at hy; subst hy; exact hc
  refine ⟨⟨fun hi => ?_, fun hx => h6 _ hx⟩, ⟨fun hi => ?_, fun hx => h6 _ hx⟩, ⟨fun hi => ?_, fun hx => hv _ hx⟩,
    ⟨fun hi => ?_, fun hx => hv _ hx⟩⟩
  · by_contra hx
    have e (q : U8) := (flow_congr (fsV6In .release) ⟨⟨v, n⟩, o⟩ (long6 n o) 34
      (by funext b; simp only [FSItem.encodeFs, long_v6 _ n hx]; rfl)
      (by have := n.isLt; simp only [] at hx; simp only [FSItem.storeSize]; omega) p.peerMode (List.replicate 37 q)).1
    refine not_ignores 37 36 (fun q => match @encodeAddrItems _ (flowIn (plainFs (long6 n o) 34)) [.prefixDst (⟨⟨v, n⟩, o⟩ : FS6)] p.peerMode (List.replicate 37 q) with
      | .ok (r, _) => r
      | _ => []) (fun q => (e q).trans rfl) (fun h => ?_) hi
    have h2 : some (0 : U8) = some 1 := congrArg (fun l : Bytes => l[4]?) h
    simp at h2
  · by_contra hx
    have e (q : U8) := (flow_congr (fsV6In .release) ⟨⟨v, n⟩, o⟩ (long6 n o) 34
      (by funext b; simp only [FSItem.encodeFs, long_v6 _ n hx]; rfl)
      (by have := n.isLt; simp only [] at hx; simp only [FSItem.storeSize]; omega) p.peerMode (List.replicate 37 q)).2
    refine not_ignores 37 36 (fun q => match @encodeAddrItems _ (flowIn (plainFs (long6 n o) 34)) [.prefixSrc (⟨⟨v, n⟩, o⟩ : FS6)] p.peerMode (List.replicate 37 q) with
      | .ok (r, _) => r
      | _ => []) (fun q => (e q).trans rfl) (fun h => ?_) hi
    have h2 : some (0 : U8) = some 1 := congrArg (fun l : Bytes => l[4]?) h
    simp at h2
  · by_contra hx
    have e (q : U8) := (flow_congr (fsVpnIn .release) ⟨⟨⟨w, m⟩, rd⟩⟩ (longVpn m rd) 42
      (by funext b; simp only [FSItem.encodeFs, BgpItemIn.setBits, long_v4 _ m hx]; rfl)
      (by have := m.isLt; simp only [] at hx; simp only [FSItem.storeSize]; omega) p.peerMode (List.replicate 45 q)).1
    refine not_ignores 45 44 (fun q => match @encodeAddrItems _ (flowIn (plainFs (longVpn m rd) 42)) [.prefixDst (⟨⟨⟨w, m⟩, rd⟩⟩ : FSV4U)] p.peerMode (List.replicate 45 q) with
      | .ok (r, _) => r
      | _ => []) (fun q => (e q).trans rfl) (fun h => ?_) hi
    have h2 : some (0 : U8) = some 1 := congrArg (fun l : Bytes => l[20]?) h
    simp at h2
  · by_contra hx
    have e (q : U8) := (flow_congr (fsVpnIn .release) ⟨⟨⟨w, m⟩, rd⟩⟩ (longVpn m rd) 42
      (by funext b; simp only [FSItem.encodeFs, BgpItemIn.setBits, long_v4 _ m hx]; rfl)
      (by have := m.isLt; simp only [] at hx; simp only [FSItem.storeSize]; omega) p.peerMode (List.replicate 45 q)).2
    refine not_ignores 45 44 (fun q => match @encodeAddrItems _ (flowIn (plainFs (longVpn m rd) 42)) [.prefixSrc (⟨⟨⟨w, m⟩, rd⟩⟩ : FSV4U)] p.peerMode (List.replicate 45 q) with
      | .ok (r, _) => r
      | _ => []) (fun q => (e q).trans rfl) (fun h => ?_) hi
    have h2 : some (0 : U8) = some 1 := congrArg (fun l : Bytes => l[20]?) h
    simp at h2

example : ¬ (249 : U8).toNat ≤ 248 ∧ (128 : U8).toNat ≤ 248 := by decide

/-- **C128**, exactly, for attributes other than MP_REACH_NLRI and MP_UNREACH_NLRI: the old contents do not show if and only if it is
not an AGGREGATOR, as with overflow checks. -/
theorem C128_attribute_iff (x : BgpAttrItem) (p : BgpSessionParams) (h1 : ∀ u, x ≠ .MPUpdates u) (h2 : ∀ u, x ≠ .MPWithdraws u) :
    IgnoresOld (x.encodeToIn .release p) ↔ ∀ v, x ≠ .AggregatorAS v := by
  have e : x.encodeToIn .release p = x.encodeTo p := by
    unfold BgpAttrItem.encodeToIn BgpAttrItem.encodeTo
    have : x.encodeValueIn .release p = x.encodeValue p := by
      cases x
      case MPUpdates u => exact absurd rfl (h1 u)
      case MPWithdraws u => exact absurd rfl (h2 u)
      all_goals rfl
    rw [this]
  rw [e]
  exact C99_attribute_iff x p

example : (∀ u, BgpAttrItem.Origin ⟨.Igp⟩ ≠ .MPUpdates u) ∧ (∀ u, BgpAttrItem.Origin ⟨.Igp⟩ ≠ .MPWithdraws u) ∧
    ∀ v, BgpAttrItem.Origin ⟨.Igp⟩ ≠ .AggregatorAS v :=
  ⟨(fun _ h => by cases h), (fun _ h => by cases h), (fun _ h => by cases h)⟩

end Zbgp.Props
