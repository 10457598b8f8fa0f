import Verif.Lemmas.FrameRelease
import Verif.Props.Buffers

/-!
# Encoders and the size of the buffer, for a build without overflow checks (C62)
-/

namespace Zbgp.Props

open Zbgp Zbgp.Spec

/-- **C62**, sizes, for a build without overflow checks: no encoder changes the size of the buffer, whatever it encodes and also
where a length or a position wraps. The encoders not named here have no arithmetic that could overflow, and are in
`C62_buffer_size_kept`. -/
theorem C62_release_buffer_size_kept :
    (∀ (x : BgpAddrs) p, SizeKept (x.encodeToIn .release p)) ∧
    (∀ (x : BgpAttrItem) p, SizeKept (x.encodeToIn .release p)) ∧
    (∀ (x : BgpUpdateMessage) p, SizeKept (x.encodeToIn .release p)) ∧
    (∀ x : BmpMessage, SizeKept (x.encodeToIn .release)) := by
  have h : ∀ (f : Enc), KeepsSize f → SizeKept f := fun f hf buf buf' n he => hf.post buf _ he
  exact ⟨fun x p => h _ (size_addrsR x p), fun x p => h _ (size_attrR x p), fun x p => h _ (size_updateR x p),
    fun x => h _ (size_bmpR x)⟩

-- a prefix of 250 bits and a FlowSpec prefix of 249 bits: a build with overflow checks crashes, this one succeeds
example :
    (∃ r n, BgpAddrs.encodeToIn .release (.IPV4U [⟨0x0a000000, 250⟩]) (.new 1 180 .IPv4 0 []) [9, 9, 9] = .ok (r, n) ∧ r.length = 3) ∧
    (∃ r n, BgpAddrs.encodeToIn .release (.FS4U [.prefixDst ⟨0x0a000000, 249⟩]) (.new 1 180 .IPv4 0 []) (List.replicate 40 9) = .ok (r, n) ∧
      r.length = 40 ∧ 30 < n) ∧
    BgpAddrs.encodeTo (.IPV4U [⟨0x0a000000, 250⟩]) (.new 1 180 .IPv4 0 []) [9, 9, 9] = .panic :=
  ⟨⟨_, _, rfl, rfl⟩, ⟨_, _, rfl, rfl, by decide⟩, rfl⟩

/-- **C62 (partial)** for a build without overflow checks, for all values, well-formed or not: an encoder of NLRI, of a path
attribute or of an UPDATE message that succeeds reports a number of octets inside the buffer and changes nothing behind them, also
where a prefix length wraps. Left out are the same values as with overflow checks: VPLS NLRI, EVPN routes of type 5 with IPv6
addresses, and AGGREGATOR, see `C62_release_not_framed`. -/
theorem C62_release_frame_partial :
    (∀ (x : BgpAddrs) p, AddrsFramed x → Frame (x.encodeToIn .release p)) ∧
    (∀ (x : BgpAttrItem) p, AttrFramed x → Frame (x.encodeToIn .release p)) ∧
    (∀ (x : BgpUpdateMessage) p, (∀ a ∈ x.attrs, AttrFramed a) → Frame (x.encodeToIn .release p)) :=
  ⟨fun x p h => frame_iff.2 (framed_addrsR x p h), fun x p h => frame_iff.2 (framed_attrR x p h),
    fun x p h => frame_iff.2 (framed_updateR x p h)⟩

-- a FlowSpec prefix of 249 bits, of which no octet of the address is written: 35 octets are reported, those behind are kept
example : AddrsFramed (.FS4U [.prefixDst ⟨0x0a000000, 249⟩]) ∧
    ∃ r, BgpAddrs.encodeToIn .release (.FS4U [.prefixDst ⟨0x0a000000, 249⟩]) (.new 1 180 .IPv4 0 []) (List.replicate 40 9) = .ok (r, 35) ∧
      r.drop 35 = List.replicate 5 9 :=
  ⟨⟨(fun _ h => by cases h), (fun _ h => by cases h)⟩, _, rfl, rfl⟩

/-- **C62 fails** without overflow checks where it fails with them: for VPLS NLRI, EVPN routes of type 5 with IPv6 addresses, and
every AGGREGATOR. -/
theorem C62_release_not_framed :
    ¬ Frame (BgpAddrs.encodeToIn .release (.L2VPLS [⟨⟨0, 1⟩, 2, 3, 4, ⟨[16]⟩⟩]) (.new 1 180 .IPv4 0 [])) ∧
    ¬ Frame (BgpAddrs.encodeToIn .release (.EVPN [.evpn5 ⟨⟨0, 1⟩, 0, ⟨.replicate 9 0⟩, 0, 64, .v6 1, .v6 1, ⟨[16]⟩⟩])
      (.new 1 180 .IPv4 0 [])) ∧
    (∀ x p, ¬ Frame (BgpAttrItem.encodeToIn .release (.AggregatorAS x) p)) := by
  refine ⟨fun h => ?_, fun h => ?_, fun x p h => ?_⟩
  · exact absurd (h (List.replicate 19 9) _ _ rfl).2.2 (by decide)
  · exact absurd (h (List.replicate 70 9) _ _ rfl).2.2 (by decide)
  · have := (h _ _ _ (C32_aggregator_not_written x p 0 0 0 [])).1
    cases hp : p.hasAs32bit <;> simp [hp] at this

end Zbgp.Props
