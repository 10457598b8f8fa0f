import Verif.Lemmas.ExtendRelease
import Verif.Lemmas.Short

/-!
# Encoders in longer buffers, for a build without overflow checks (C67)
-/

namespace Zbgp.Props

open Zbgp Zbgp.Spec

/-- **C67 (partial)** for a build without overflow checks, for all values, well-formed or not: what an encoder does in a buffer it
does in every longer one, also where a length wraps. For the encoders whose arithmetic could overflow; the others are in
`C67_size_independent_partial`. Missing: BMP messages with IPv4 addresses, whose per-peer header has no arithmetic that could
overflow, see `C67_bmp_v4`. -/
theorem C67_release_size_independent_partial :
    (∀ (ty : BgpMessageType) n, SizeIndependent fun b => BgpSessionParams.prepareMessageBufIn .release b ty n) ∧
    (∀ (x : BgpAddrs) p, SizeIndependent (x.encodeToIn .release p)) ∧
    (∀ (x : BgpAttrItem) p, SizeIndependent (x.encodeToIn .release p)) ∧
    (∀ (x : BgpUpdateMessage) p, SizeIndependent (x.encodeToIn .release p)) ∧
    (∀ x, SizeIndependent (BmpMessage.encodeToIn .release (.Initiation x))) ∧
    (∀ x, SizeIndependent (BmpMessage.encodeToIn .release (.Termination x))) ∧
    (∀ x, isV4 x.peer.peeraddress = false → SizeIndependent (BmpMessage.encodeToIn .release (.RouteMonitoring x))) ∧
    (∀ x, isV4 x.peer.peeraddress = false → SizeIndependent (BmpMessage.encodeToIn .release (.PeerDownNotification x))) ∧
    (∀ x, isV4 x.peer.peeraddress = false → isV4 x.localaddress = false →
      SizeIndependent (BmpMessage.encodeToIn .release (.PeerUpNotification x))) := by
  have ht : ∀ (x : BmpMessage) (code : U8) (f : Enc) (_ : Ext f), BmpMessage.encodeToIn .release x = (fun buf =>
      if buf.isEmpty then .err .insufficientBufferSize else BmpMessage.encodeTyped code f buf) →
      SizeIndependent (x.encodeToIn .release) := by
    intro x code f hf hx buf buf' n ext he
    have hz := sizeIndependent_of _ (h := ext_typed code f)
    rw [hx] at he ⊢
    cases buf with
    | nil => cases he
    | cons a t => exact hz _ _ _ ext he
  exact ⟨fun _ _ => sizeIndependent_of _, fun x p => sizeIndependent_of _ (h := ext_addrsR x p), fun _ _ => sizeIndependent_of _,
    fun _ _ => sizeIndependent_of _, fun x => ht _ 4 x.encodeTo inferInstance rfl, fun x => ht _ 5 _ (ext_terminationR x) rfl,
    fun x h6 => ht _ 0 _ (ext_routeMonitoringR x h6) rfl, fun x h6 => ht _ 2 _ (ext_peerDownR x h6) rfl,
    fun x h6 l6 => ht _ 3 _ (ext_peerUpR x h6 l6) rfl⟩

-- a prefix of 250 bits, which only a build without overflow checks sends, in a buffer of just its size and in a longer one
example : ∃ r, BgpAddrs.encodeToIn .release (.IPV4U [⟨0x0a000000, 250⟩]) (.new 1 180 .IPv4 0 []) [9] = .ok (r, 1) ∧
    BgpAddrs.encodeToIn .release (.IPV4U [⟨0x0a000000, 250⟩]) (.new 1 180 .IPv4 0 []) [9, 8, 7] = .ok (r ++ [8, 7], 1) ∧
    BgpAddrs.encodeTo (.IPV4U [⟨0x0a000000, 250⟩]) (.new 1 180 .IPv4 0 []) [9, 8, 7] = .panic := ⟨_, rfl, rfl, rfl⟩

end Zbgp.Props
