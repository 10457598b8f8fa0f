import Verif.Lemmas.Local

/-!
# What decoders read

C64: the number of octets a decoder reports, and the octets its result depends on.
-/

namespace Zbgp.Props

open Spec

/-- **C64 (partial)**, single items. Whatever the bytes: prefix NLRI of every kind, with and without path identifiers, VPLS
NLRI, route distinguishers, capabilities, FlowSpec operators, the BMP headers and information elements and the BMP peer-up,
peer-down and route-monitoring messages. A decoder that succeeds reports no more octets than there are, and decodes
the same from those octets with anything else behind them. Left out: EVPN, MVPN and FlowSpec NLRI, see below, and the decoders
that report no number. -/
theorem C64_local_partial :
    (∀ {T : Type} [BgpItem T] [NlriKind T], PrefixKind T → Local (decodeItem (T := T)) ∧ Local (decodePathIdItem (T := T))) ∧
    Local (decodeLongItem (T := BgpAddrL2)) ∧ Local BgpRD.decodeFrom ∧ Local BgpCapability.fromBuffer ∧
    Local (FSOperItem.decodeFrom (T := FSOperValItem)) ∧ Local (FSOperItem.decodeFrom (T := FSOperMaskItem)) ∧
    Local BmpMessageHeader.decodeFrom ∧ Local BmpMessagePeerHeader.decodeFrom ∧ Local BmpInfoVal.decodeFrom ∧
    Local BmpMessagePeerUp.decodeFrom ∧ Local BmpMessagePeerDown.decodeFrom ∧ Local BmpMessageRouteMonitoring.decodeFrom := by
  have hv : ∀ {α : Type} (g : U8 × U32 × Nat → α), Local (fun b => do let r ← fsDecodeVal b; .ok (g r, r.2.2)) := by
    intro α g b x n h
    obtain ⟨r, h1, h⟩ := Res.bind_eq_ok.1 h
    cases h
    obtain ⟨h2, h3⟩ := local_fsVal b (r.1, r.2.1) r.2.2 (by simp only [h1, Res.ok_bind])
    refine ⟨h2, fun rest => ?_⟩
    obtain ⟨r', h4, h5⟩ := Res.bind_eq_ok.1 (h3 rest)
    have : r' = r := by
      simp only [Res.ok.injEq, Prod.mk.injEq] at h5
      exact Prod.ext h5.1.1 (Prod.ext h5.1.2 h5.2)
    simp only [h4, Res.ok_bind, this]
  exact ⟨fun {T} _ _ k => have := k.isLocal; ⟨decodeItem_local, decodePathIdItem_local⟩, local_longItem, rd_local, local_capability, hv _, hv _,
    local_commonHeader, local_peerHeader, local_info, local_peerUp, local_peerDown, local_routeMonitoring⟩

/-- decoders that succeed with octets left -/
example : decodeItem (T := BgpAddrV4) [24, 10, 0, 1, 77] = .ok (⟨0x0a000100, 24⟩, 4) ∧
    BgpCapability.fromBuffer [2, 0, 77] = .ok (.inl .CapRR, 2) ∧
    BmpInfoVal.decodeFrom [0, 1, 0, 2, 65, 66, 77] = .ok (⟨1, [65, 66]⟩, 6) := ⟨by decide, by decide, by decide⟩

/-- **C64 (partial)**, lists. A list of prefixes of any kind reports its whole input; with path identifiers, everything but up
to four octets at the end, which are not read. The Initiation message reports its whole input, the Termination message everything
but up to three octets at the end. -/
theorem C64_lists_partial {T : Type} [BgpItem T] [NlriKind T] (k : PrefixKind T) (b : Bytes) :
    (∀ (l : List T) n, decodeItems b = .ok (l, n) → n = b.length) ∧
    (∀ (l : List (WithPathId T)) n, decodePathIdItems b = .ok (l, n) → n ≤ b.length ∧ b.length ≤ n + 4) ∧
    (∀ (l : List BgpAddrL2) n, decodeLongItems b = .ok (l, n) → n = b.length) ∧
    (∀ x n, BmpMessageInitiation.decodeFrom b = .ok (x, n) → n = b.length) ∧
    (∀ x n, BmpMessageTermination.decodeFrom b = .ok (x, n) → n ≤ b.length ∧ b.length < n + 4) :=
  have := k.isLocal
  ⟨fun _ _ h => decList_take decodeItem_progress (fun b x n h => (decodeItem_local b x n h).1) b h,
   fun _ _ h => decList_consumed decodePathIdItem_progress (fun b x n h => (decodePathIdItem_local b x n h).1) b h,
   fun _ _ h => decList_take (progress_of_post fun b => by unfold decodeLongItem; counts)
     (fun b x n h => (local_longItem b x n h).1) b h,
   fun x n h => initLoop_consumes b _ 0 (Nat.zero_le _) _ x n h,
   fun x n h => termLoop_consumes b _ 0 (Nat.zero_le _) _ x n h⟩

example : decodePathIdItems (T := BgpAddrV4) [0, 0, 0, 7, 8, 10, 1, 2, 3, 4] = .ok ([⟨7, ⟨0x0a000000, 8⟩⟩], 6) ∧
    decodeItems (T := BgpAddrV4) [8, 10, 0, 16, 172, 16] = .ok ([⟨0x0a000000, 8⟩, ⟨0, 0⟩, ⟨0xac100000, 16⟩], 6) ∧
    BmpMessageTermination.decodeFrom [0, 1, 0, 2, 0, 3, 7, 7, 7] = .ok (⟨none, some 3⟩, 6) := ⟨by decide, by decide, by decide⟩

/-- **C64 (partial)**, EVPN and MVPN routes. Whatever the bytes, the decoders read the route alone, as long as its length octet
says, but may report less than the route. -/
theorem C64_routes_partial (mode : BgpTransportMode) :
    StaysInFrame (BgpEVPN.decodeFrom mode) ∧ StaysInFrame (BgpMVPN.decodeFrom mode) :=
  ⟨framedDec_evpn mode, framedDec_mvpn mode⟩

/-- an inclusive multicast route with its length, and a route of MVPN type 1 -/
example : (∃ x, BgpEVPN.decodeFrom .IPv4 ([3, 17] ++ List.replicate 12 0 ++ [32, 10, 0, 0, 1]) = .ok (x, 19)) ∧
    (∃ x, BgpMVPN.decodeFrom .IPv4 ([1, 12] ++ List.replicate 8 0 ++ [10, 0, 0, 1]) = .ok (x, 14)) := ⟨⟨_, rfl⟩, ⟨_, rfl⟩⟩

/-- **C64 fails** for EVPN and MVPN routes: a route with an octet too many behind its content is decoded and reported
without that octet. The result does not depend on what follows, but on the octet not reported: without it there is an error. In
a list, the octet not reported is taken for the start of the next route. -/
theorem C64_fails_routes :
    (let b : Bytes := [3, 18] ++ List.replicate 12 0 ++ [32, 10, 0, 0, 1, 77]
     (∃ x, BgpEVPN.decodeFrom .IPv4 b = .ok (x, 19)) ∧ b.length = 20 ∧ BgpEVPN.decodeFrom .IPv4 (b.take 19) = .err .dynStr) ∧
    ¬ Local (BgpEVPN.decodeFrom .IPv4) ∧
    (let b : Bytes := [2, 13] ++ List.replicate 12 0 ++ [77]
     (∃ x, BgpMVPN.decodeFrom .IPv4 b = .ok (x, 14)) ∧ b.length = 15 ∧ BgpMVPN.decodeFrom .IPv4 (b.take 14) = .panic) ∧
    ¬ Local (BgpMVPN.decodeFrom .IPv4) := by
  refine ⟨⟨⟨_, rfl⟩, rfl, rfl⟩, fun h => ?_, ⟨⟨_, rfl⟩, rfl, rfl⟩, fun h => ?_⟩
  · have := (h ([3, 18] ++ List.replicate 12 0 ++ [32, 10, 0, 0, 1, 77]) _ 19 rfl).2 []
    cases this
  · have := (h ([2, 13] ++ List.replicate 12 0 ++ [77]) _ 14 rfl).2 []
    cases this

/-- **C64 (partial)**, FlowSpec NLRI with operators: whatever the bytes, for each of the three kinds of addresses. -/
theorem C64_flowspec_partial {T : Type} [FSItem T] (b : Bytes) (x : BgpFlowSpec T) (n : Nat) (hx : FsIsOps x)
    (h : BgpFlowSpec.decodeFrom b = .ok (x, n)) :
    n ≤ b.length ∧ ∀ rest, BgpFlowSpec.decodeFrom (b.take n ++ rest) = .ok (x, n) := local_fs hx h

example : BgpFlowSpec.decodeFrom (T := BgpAddrV4) [3, 3, 0x81, 6, 77] = .ok (.proto ⟨[⟨false, false, false, true, 6⟩]⟩, 4) :=
  by decide

/-- **C64 fails** for FlowSpec NLRI with a prefix: every such NLRI, with its correct length and whatever follows, is reported with
one octet more than it has, which may lie outside the input. -/
theorem C64_fails_flowspec {T : Type} [FSItem T] [FsPrefix T] (k : FsPrefixKind T) (x : BgpFlowSpec T) (h : FsPrefixOk x)
    (hl : (fsComponent x).length ≤ 4094) (rest : Bytes) :
    BgpFlowSpec.decodeFrom (T := T) (fsWire x ++ rest) = .ok (fsReceived x, (fsWire x).length + 1) :=
  have := k.lawful
  fs_reads_prefix x h hl rest

example : FsPrefixOk (.prefixDst (⟨0x0a000000, 8⟩ : BgpAddrV4)) ∧ fsWire (.prefixDst (⟨0x0a000000, 8⟩ : BgpAddrV4)) = [3, 1, 8, 10] ∧
    BgpFlowSpec.decodeFrom (T := BgpAddrV4) [3, 1, 8, 10] = .ok (.prefixDst ⟨0x0a000000, 8⟩, 5) :=
  ⟨by simp [FsPrefixOk, FsPrefix.WF], by decide, by decide⟩

end Zbgp.Props
