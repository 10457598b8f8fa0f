import Verif.Lemmas.OutcomeUpdate
import Verif.Lemmas.ReleaseBmp
import Verif.Props.Update

/-!
# C116: the outcome of encoding, for every value
-/

namespace Zbgp.Props

open Spec

/-- **C116**, collections: every collection of NLRI, of whatever contents, has the outcome `nlriFate` says, in every buffer that
is large enough. -/
theorem C116_nlri (p : BgpSessionParams) (x : BgpAddrs) : Ends (x.encodeTo p) (nlriFate .checked x) := by
  rw [← addrsEncFn_checked]
  exact ends_nlri .checked x p

/-- an IPv4 prefix of 33 bits panics, one of 32 is sent -/
example : nlriFate .checked (.IPV4U [⟨0x0a000001, 32⟩, ⟨0x0a000001, 33⟩]) = .crash ∧
    nlriFate .checked (.IPV4U [⟨0x0a000001, 32⟩, ⟨0x0a800000, 9⟩]) = .octets [32, 10, 0, 0, 1, 9, 10, 128] := ⟨rfl, rfl⟩
/-- eleven labels are sent with the length octet 24 * 11 - 256 + 8 = 16 -/
example : nlriFate .checked (.IPV4LU [⟨⟨0x0a000000, 8⟩, ⟨List.replicate 11 5⟩⟩]) =
    .octets (16 :: List.flatten (List.replicate 10 [0, 0, 80]) ++ [0, 0, 81, 10]) := rfl
/-- a prefix route for IPv6 whose gateway is an IPv4 address is refused; behind a prefix that panics it is not reached -/
example : nlriFate .checked (.EVPN [.evpn5 ⟨⟨0, 1⟩, 0, ⟨Vector.replicate 9 0⟩, 5, 64, .v6 1, .v4 2, ⟨[7]⟩⟩]) = .refused := rfl

/-- **C116**, attributes: header and value, an error, or a panic, as `attrFate` says. -/
theorem C116_attribute (p : BgpSessionParams) (x : BgpAttrItem) : Ends (x.encodeTo p) (attrFate .checked p x) := by
  rw [← attrEnc_checked]
  exact ends_attr .checked p x

/-- the octets of AGGREGATOR are those the buffer happens to hold -/
example : attrFate .checked { BgpSessionParams.new 1 180 .IPv4 0 [] with hasAs32bit := false } (.AggregatorAS ⟨65001, 0x0a000001⟩) =
      .sent [some 0x40, some 7, some 2, none, none] ∧
    BgpAttrItem.encodeTo (.AggregatorAS ⟨65001, 0x0a000001⟩) (.new 1 180 .IPv4 0 []) (List.replicate 8 0xee) =
      .ok ([0x40, 7, 4, 0xee, 0xee, 0xee, 0xee, 0xee], 7) := ⟨rfl, rfl⟩
/-- an IPv6 next hop in an IPv4 session is refused -/
example : attrFate .checked (.new 1 180 .IPv4 0 []) (.NextHop ⟨.v6 1⟩) = .refused ∧
    attrFate .checked (.new 1 180 .IPv4 0 []) (.NextHop ⟨.v4 1⟩) = .octets [64, 3, 4, 0, 0, 0, 1] := ⟨rfl, rfl⟩
/-- a tunnel attribute panics -/
example : attrFate .checked (.new 1 180 .IPv4 0 []) (.PMSITunnel ⟨0, 0, ⟨[]⟩, .None⟩) = .crash := rfl

/-- **C116**, messages: every UPDATE, of whatever contents, in every session, has the outcome `updateFate` says. -/
theorem C116_update (p : BgpSessionParams) (x : BgpUpdateMessage) : Ends (x.encodeTo p) (updateFate .checked p x) := by
  rw [← updEnc_checked']
  exact ends_update .checked p x

/-- withdrawn IPv6 prefixes in an IPv4 session are left out; AGGREGATOR is counted -/
example : updateFate .checked (.new 1 180 .IPv4 0 [])
      ⟨.IPV4U [⟨0x0a000000, 8⟩], .IPV6U [⟨1, 128⟩], [.Origin ⟨.Igp⟩, .AggregatorAS ⟨65001, 0x0a000001⟩]⟩ =
    .sent ([0, 0, 0, 11, 64, 1, 1, 0, 64, 7, 4].map some ++ List.replicate 4 none ++ [8, 10].map some) := rfl
/-- the first attribute that is refused ends it, before the prefix that would panic is reached; without it there is a panic -/
example : updateFate .checked (.new 1 180 .IPv4 0 []) ⟨.IPV4U [⟨0, 40⟩], .None, [.NextHop ⟨.v6 1⟩]⟩ = .refused ∧
    updateFate .checked (.new 1 180 .IPv4 0 []) ⟨.IPV4U [⟨0, 40⟩], .None, [.NextHop ⟨.v4 1⟩]⟩ = .crash := ⟨rfl, rfl⟩

/-- **C116**: there is one outcome only. Success, error and panic exclude each other, and of two patterns for the same encoder
both have the same length and agree where both give an octet. -/
theorem C116_one_outcome (f : Enc) (a b : Fate) (ha : Ends f a) (hb : Ends f b) :
    a.Agree b := by
  obtain ⟨r1, h1⟩ := ends_case ha
  obtain ⟨r2, h2⟩ := ends_case hb
  have h1 := h1 (List.replicate (r1 + r2) 0) (by simp)
  have h2 := h2 (List.replicate (r1 + r2) 0) (by simp)
  cases a <;> cases b <;> simp only [EndCase, Fate.Agree] at h1 h2 ⊢
  · obtain ⟨w, r, f1, e1, -⟩ := h1
    obtain ⟨v, q, f2, e2, -⟩ := h2
    rw [e1] at e2
    simp only [List.nil_append, List.length_nil, Nat.zero_add, Res.ok.injEq, Prod.mk.injEq] at e2
    obtain ⟨rfl, -⟩ := List.append_inj e2.1 e2.2
    exact ⟨by rw [fits_length f1, fits_length f2], w, f1, f2⟩
  · obtain ⟨w, r, -, e1, -⟩ := h1
    rw [e1] at h2; exact h2
  · obtain ⟨w, r, -, e1, -⟩ := h1
    rw [e1] at h2; cases h2
  · obtain ⟨w, r, -, e1, -⟩ := h2
    rw [e1] at h1; exact h1
  · rw [h2] at h1; exact h1
  · obtain ⟨w, r, -, e1, -⟩ := h2
    rw [e1] at h1; cases h1
  · rw [h1] at h2; exact h2

/-- the encoder of nothing has the outcome of no octets, and no other -/
example : Ends (BgpAddrs.encodeTo .None (.new 1 180 .IPv4 0 [])) (.octets []) ∧
    ¬ Ends (BgpAddrs.encodeTo .None (.new 1 180 .IPv4 0 [])) .refused :=
  ⟨C116_nlri _ .None, fun h => C116_one_outcome _ _ _ (C116_nlri _ .None) h⟩

/-- **C116**: for messages that can be put on the wire the outcome is the wire form. -/
theorem C116_wire_form (p : BgpSessionParams) (x : BgpUpdateMessage) (h : PartsOk p x)
    (hw : (addrsWire x.withdraws).length ≤ 65535)
    (hfit : ∀ a b c, x.attrs = a ++ b :: c → (attrsWire p a).length ≤ 65533) :
    ∃ v, updateFate .checked p x = .sent v ∧ Fits v (updateWire p x) := by
  have h := C116_one_outcome _ _ _ (ends_writes (update_writes p x h hw hfit)) (C116_update p x)
  cases hf : updateFate .checked p x with
  | sent v =>
    rw [hf] at h
    obtain ⟨-, o, h1, h2⟩ := h
    obtain rfl : updateWire p x = o := fits_some_eq h1
    exact ⟨v, rfl, h2⟩
  | refused => rw [hf] at h; exact h.elim
  | crash => rw [hf] at h; exact h.elim

example : PartsOk session32 update4 ∧ (addrsWire update4.withdraws).length ≤ 65535 ∧
    (∀ a b c, update4.attrs = a ++ b :: c → (attrsWire session32 a).length ≤ 65533) ∧
    updateFate .checked session32 update4 = .octets (updateWire session32 update4) := by
  refine ⟨update4_parts, by decide, fun a b c h => ?_, rfl⟩
  have h2 : (attrsWire session32 update4.attrs).length ≤ 65533 := by decide
  rw [h] at h2
  simp only [attrsWire, List.flatMap_append, List.length_append] at h2 ⊢
  omega

/-! ## Where something else is sent than was given -/

/-- **C116**: prefixes of a family other than that of the session, announced or withdrawn in the message itself, vanish: the
outcome is that of the message without them. -/
theorem C116_other_families_vanish (p : BgpSessionParams) (x : BgpUpdateMessage) (v : BgpAddrs) (h : ¬ InSession p v) :
    Ends (BgpUpdateMessage.encodeTo { x with updates := v } p) (updateFate .checked p { x with updates := .None }) ∧
    Ends (BgpUpdateMessage.encodeTo { x with withdraws := v } p) (updateFate .checked p { x with withdraws := .None }) := by
  have hn : ¬ InSession p .None := by simp [InSession, kindOf]
  have e : sectionFate .checked p v = sectionFate .checked p .None := by unfold sectionFate; rw [if_neg h, if_neg hn]
  constructor
  · have := C116_update p { x with updates := v }
    unfold updateFate at this ⊢
    simp only [e] at this ⊢
    exact this
  · have := C116_update p { x with withdraws := v }
    unfold updateFate withdrawnFate at this ⊢
    simp only [e] at this ⊢
    exact this

example : ¬ InSession (.new 1 180 .IPv4 0 []) (.IPV6U [⟨1, 128⟩]) ∧
    BgpUpdateMessage.encodeTo ⟨.None, .IPV6U [⟨1, 128⟩], []⟩ (.new 1 180 .IPv4 0 []) (List.replicate 5 9) =
      .ok ([0, 0, 0, 0, 9], 4) := ⟨by decide, rfl⟩

/-- **C116**: whatever AGGREGATOR holds, the outcome is the same. -/
theorem C116_aggregator_lost (p : BgpSessionParams) (a b : BgpAggregatorAS) :
    Ends (BgpAttrItem.encodeTo (.AggregatorAS a) p) (attrFate .checked p (.AggregatorAS b)) := C116_attribute p (.AggregatorAS a)

/-- **C116**: whatever the gateway of an EVPN prefix route for IPv6, the outcome is the same. -/
theorem C116_gateway_lost (mode : BgpTransportMode) (r : BgpEVPN5) (q g g' : IPv6) (h : r.pfx = .v6 q) (hg : r.gwIp = .v6 g) :
    Ends (BgpAddrItem.encodeTo (BgpEVPN.evpn5 r) mode) (evpnFate (.evpn5 { r with gwIp := .v6 g' })) := by
  have := ends_evpn (.evpn5 r) mode
  unfold evpnFate evpnSentBody at this ⊢
  simp only [h, hg] at this ⊢
  exact this

example : evpnFate (.evpn5 ⟨⟨0, 1⟩, 0, ⟨Vector.replicate 9 0⟩, 5, 64, .v6 1, .v6 2, ⟨[7]⟩⟩) =
    .octets ([5, 42, 0, 0, 0, 0, 0, 0, 0, 1] ++ List.replicate 10 0 ++ [0, 0, 0, 5, 64] ++ List.replicate 15 0 ++
      [1, 0, 0, 113]) := rfl

/-- **C116**: a label of 2^20 or more is sent as another label: labels that agree in their last 20 bits give the same octets. -/
theorem C116_large_labels {T : Type} [BgpItem T] (x : T) (l l' : U32) (h : l.toNat % 2 ^ 20 = l'.toNat % 2 ^ 20) (buf : Bytes)
    (hb : 4 ≤ buf.length) :
    encodeItem (⟨x, ⟨[l]⟩⟩ : Labeled T) buf = encodeItem (⟨x, ⟨[l']⟩⟩ : Labeled T) buf := by
  have e : labelsBody [l] = labelsBody [l'] := by
    simp only [labelsBody]
    rw [← be_congr_mod 3 (l.toNat * 16 + 1), ← be_congr_mod 3 (l'.toNat * 16 + 1)]
    congr 1
    omega
  obtain ⟨a, t, rfl⟩ := List.exists_cons_of_length_pos (l := buf) (by omega)
  simp only [List.length_cons] at hb
  have hs : BgpItem.setBits (⟨x, ⟨[l]⟩⟩ : Labeled T) t = BgpItem.setBits (⟨x, ⟨[l']⟩⟩ : Labeled T) t := by
    simp only [BgpItem.setBits]
    have h1 := labels_writes ⟨[l]⟩ t (by simp only [labelsBody, be_length]; omega)
    have h2 := labels_writes ⟨[l']⟩ t (by simp only [labelsBody, be_length]; omega)
    simp only [BgpItem.setBits] at h1 h2
    rw [h1, h2]
    simp only [e]
    rfl
  unfold encodeItem
  rw [show a :: t = [a] ++ t from rfl, onFrom_append [a] t 1 _ rfl, onFrom_append [a] t 1 _ rfl, hs]

/-- label 2^20 + 16 goes out as label 16 -/
example : (1048592 : U32).toNat % 2 ^ 20 = (16 : U32).toNat % 2 ^ 20 ∧
    encodeItem (⟨⟨0x0a000000, 8⟩, ⟨[1048592]⟩⟩ : Labeled BgpAddrV4) (List.replicate 6 9) = .ok ([32, 0, 1, 1, 10, 9], 5) :=
  ⟨by decide, rfl⟩

/-- **C116**: every VPLS item is followed by the next one two octets too early: of an item, the last two octets are not counted,
and so sent only if nothing follows in the buffer. -/
theorem C116_vpls_cut (x : BgpAddrL2) : Ends (encodeLongItem x) (.octets ((vplsWire x).take ((vplsWire x).length - 2))) := by
  have e : (vplsWire x).length - 2 = (vplsBody x).length := by simp [vplsWire]
  rw [e]
  exact ends_vpls x

example : encodeLongItem (⟨⟨0, 1⟩, 2, 3, 4, ⟨[5]⟩⟩ : BgpAddrL2) (List.replicate 20 9) =
    .ok ([0, 17, 0, 0, 0, 0, 0, 0, 0, 1, 0, 2, 0, 3, 0, 4, 0, 0, 81, 9], 17) := rfl

end Zbgp.Props
