import Verif.Model.Construct
import Verif.Lemmas.Update
import Verif.Lemmas.Mdt
import Verif.Props.L2
import Verif.Props.Prefix
import Verif.Lemmas.Families
import Verif.Lemmas.Flowspec
import Verif.Spec.Small

/-!
# C107: values built with the constructors
-/

namespace Zbgp.Props

open Zbgp Zbgp.Spec

theorem short_header (p : BgpSessionParams) (x : BgpAttrItem) (c f : U8) (w : Bytes) (h1 : attrCode x = (c, f))
    (h2 : extended f = false) (h3 : valueWire p.hasAs32bit x = w) (h4 : AttrOk p x) (h5 : w.length ≤ 255) :
    Writes (x.encodeTo p) ([f, c, BitVec.ofNat 8 w.length] ++ w) := by
  have := attr_writes p x h4 (by rw [h1, h3]; simpa [maxValue, h2] using h5)
  simpa [attrWire, attrHeader, h1, h2, h3, be] using this

theorem long_header (p : BgpSessionParams) (x : BgpAttrItem) (c f : U8) (w : Bytes) (h1 : attrCode x = (c, f))
    (h2 : extended f = true) (h3 : valueWire p.hasAs32bit x = w) (h4 : AttrOk p x) (h5 : w.length ≤ 65535) :
    Writes (x.encodeTo p) ([f, c] ++ be 2 w.length ++ w) := by
  have := attr_writes p x h4 (by rw [h1, h3]; simpa [maxValue, h2] using h5)
  simpa [attrWire, attrHeader, h1, h2, h3] using this

/-- C107: an attribute built with its constructor is put on the wire as the arguments of the constructor: flags, type code,
length and the arguments in network byte order. -/
theorem C107_attributes (p : BgpSessionParams) :
    (∀ v, Writes ((BgpAttrItem.MED (.new v)).encodeTo p) ([0x80, 4, 4] ++ be 4 v.toNat)) ∧
    (∀ v, Writes ((BgpAttrItem.LocalPref (.new v)).encodeTo p) ([0x40, 5, 4] ++ be 4 v.toNat)) ∧
    Writes ((BgpAttrItem.Origin (.new .Igp)).encodeTo p) [0x40, 1, 1, 0] ∧
    Writes ((BgpAttrItem.Origin (.new .Egp)).encodeTo p) [0x40, 1, 1, 1] ∧
    Writes ((BgpAttrItem.Origin (.new .Incomplete)).encodeTo p) [0x40, 1, 1, 2] ∧
    (p.peerMode = .IPv4 → ∀ a, Writes ((BgpAttrItem.NextHop (.new (.v4 a))).encodeTo p) ([0x40, 3, 4] ++ be 4 a.toNat)) ∧
    (p.peerMode = .IPv6 → ∀ a, Writes ((BgpAttrItem.NextHop (.new (.v6 a))).encodeTo p) ([0x40, 3, 16] ++ be 16 a.toNat)) ∧
    (p.peerMode = .IPv4 → ∀ a,
      Writes ((BgpAttrItem.OriginatorID (.new (.v4 a))).encodeTo p) ([0x80, 9, 4] ++ be 4 a.toNat)) ∧
    (∀ n a o, Writes ((BgpAttrItem.Connector (.new n a o)).encodeTo p)
      ([0xc0, 20, 14, 0, 1] ++ be 4 n.toNat ++ be 4 a.toNat ++ be 4 o.toNat)) ∧
    (∀ c f : U8, c.toNat ∉ assignedCodes → extended f = false →
      Writes ((BgpAttrItem.Unknown (.new c f)).encodeTo p) [f, c, 0]) := by
  refine ⟨fun v => ?_, fun v => ?_, ?_, ?_, ?_, fun hp a => ?_, fun hp a => ?_, fun hp a => ?_, fun n a o => ?_,
    fun c f hc hf => ?_⟩
  · exact short_header p _ 4 0x80 (be 4 v.toNat) rfl rfl rfl trivial (by simp)
  · exact short_header p _ 5 0x40 (be 4 v.toNat) rfl rfl rfl trivial (by simp)
  · exact short_header p _ 1 0x40 [0] rfl rfl rfl trivial (by simp)
  · exact short_header p _ 1 0x40 [1] rfl rfl rfl trivial (by simp)
  · exact short_header p _ 1 0x40 [2] rfl rfl rfl trivial (by simp)
  · exact short_header p _ 3 0x40 (be 4 a.toNat) rfl rfl rfl hp.symm (by simp)
  · exact short_header p _ 3 0x40 (be 16 a.toNat) rfl rfl rfl hp.symm (by simp)
  · exact short_header p _ 9 0x80 (be 4 a.toNat) rfl rfl rfl hp.symm (by simp)
  · have := short_header p (.Connector (.new n a o)) 20 0xc0 (be 2 1 ++ be 4 n.toNat ++ be 4 a.toNat ++ be 4 o.toNat) rfl
      rfl rfl trivial (by simp)
    simpa [be] using this
  · have := attr_writes p (.Unknown (.new c f)) hc (by simp [BgpAttrUnknown.new, valueWire])
    simpa [attrWire, attrCode, attrHeader, hf, valueWire, BgpAttrUnknown.new, be] using this

example : Writes ((BgpAttrItem.MED (.new 0x10203)).encodeTo (.new 0 0 .IPv4 0 [])) [0x80, 4, 4, 0, 1, 2, 3] :=
  (C107_attributes _).1 _

/-- C107: an AS path built from a list of one to 255 AS numbers is one AS_SEQUENCE of these numbers in the order of the list,
in a session with 32-bit AS numbers; an empty path has no segment. -/
theorem C107_as_path (p : BgpSessionParams) (h : p.hasAs32bit = true) (l : List U32) (hn : l ≠ []) (hl : l.length ≤ 255) :
    Writes ((BgpAttrItem.ASPath (.from l)).encodeTo p)
      ([0x50, 2] ++ be 2 (2 + 4 * l.length) ++ [2, BitVec.ofNat 8 l.length] ++ l.flatMap fun a => be 4 a.toNat) ∧
    Writes ((BgpAttrItem.ASPath .new).encodeTo p) [0x50, 2, 0, 0] := by
  have hlen : ∀ l : List U32, ((l.map BgpAS.new).flatMap (asnWire true)).length = 4 * l.length := by
    intro l
    induction l with
    | nil => rfl
    | cons a t ih => simp [asnWire] at ih ⊢; omega
  have hmap : (l.map BgpAS.new).flatMap (asnWire true) = l.flatMap fun a => be 4 a.toNat := by
    rw [List.flatMap_map]; rfl
  have hv : valueWire p.hasAs32bit (.ASPath (.from l)) =
      [2, BitVec.ofNat 8 l.length] ++ l.flatMap fun a => be 4 a.toNat := by
    simp only [valueWire, h, asPathWire, BgpASpath.from]
    rw [if_neg (by simpa using hn), hmap]
    simp
  have hvl : ([2, BitVec.ofNat 8 l.length] ++ l.flatMap fun a => be 4 a.toNat).length = 2 + 4 * l.length := by
    rw [← hmap]; simp only [List.length_append, hlen l]; rfl
  constructor
  · have := long_header p (.ASPath (.from l)) 2 0x50 _ rfl rfl hv (.inr h) (by rw [hvl]; omega)
    rw [hvl] at this
    simpa using this
  · exact long_header p (.ASPath .new) 2 0x50 [] rfl rfl rfl (.inl rfl) (by simp)

example : Writes ((BgpAttrItem.ASPath (.from [1, 0x20003])).encodeTo { BgpSessionParams.new 0 0 .IPv4 0 [] with hasAs32bit := true })
    [0x50, 2, 0, 10, 2, 2, 0, 0, 0, 1, 0, 2, 0, 3] :=
  (C107_as_path _ rfl _ (by simp) (by simp)).1

/-- C107: a community list built from a vector has every community of the vector once, in ascending order, and these are the
octets of the attribute; likewise for extended communities. -/
theorem C107_community_lists (p : BgpSessionParams) :
    (∀ v : List U32, v.length ≤ 16383 → ∃ l : List U32, (∀ c, c ∈ l ↔ c ∈ v) ∧ l.Pairwise (fun a b => a.toNat < b.toNat) ∧
      Writes ((BgpAttrItem.CommunityList (.fromVec (v.map .new))).encodeTo p)
        ([0xd0, 8] ++ be 2 (4 * l.length) ++ l.flatMap fun c => be 4 c.toNat)) ∧
    (∀ v : List BgpExtCommunity, v.length ≤ 31 → ∃ l : List BgpExtCommunity, (∀ c, c ∈ l ↔ c ∈ v) ∧
      l.Pairwise (fun a b => extCommunityNumber a < extCommunityNumber b) ∧
      Writes ((BgpAttrItem.ExtCommunityList (.fromVec v)).encodeTo p)
        ([0xc0, 16] ++ [BitVec.ofNat 8 (8 * l.length)] ++ l.flatMap extCommunityWire)) ∧
    Writes ((BgpAttrItem.CommunityList .new).encodeTo p) [0xd0, 8, 0, 0] ∧
    Writes ((BgpAttrItem.ExtCommunityList .new).encodeTo p) [0xc0, 16, 0] ∧
    Writes ((BgpAttrItem.LargeCommunityList .new).encodeTo p) [0xf0, 32, 0, 0] := by
  refine ⟨fun v hv => ?_, fun v hv => ?_, ?_, ?_, ?_⟩
  · have ha := setOf_ascending community_order (v.map BgpCommunity.new)
    have hm := setOf_mem community_order (v.map BgpCommunity.new)
    have hp : ((setOf BgpCommunity.lt (v.map BgpCommunity.new)).map (·.value)).Pairwise fun a b => a.toNat < b.toNat := by
      rw [List.pairwise_map]; exact ha
    have hmem : ∀ c, c ∈ (setOf BgpCommunity.lt (v.map BgpCommunity.new)).map (·.value) ↔ c ∈ v := by
      intro c
      simp only [List.mem_map, hm, BgpCommunity.new]
      constructor
      · rintro ⟨_, ⟨d, hd, rfl⟩, rfl⟩; exact hd
      · exact fun h => ⟨_, ⟨c, h, rfl⟩, rfl⟩
    have hlen := List.Nodup.length_le_of_subset (hp.imp (S := (· ≠ ·)) (fun h e => by subst e; omega)) (l₂ := v) (fun c h => (hmem c).1 h)
    refine ⟨_, hmem, hp, ?_⟩
    have hw : ∀ l : List BgpCommunity, l.flatMap communityWire = (l.map (·.value)).flatMap fun c => be 4 c.toNat := by
      intro l; rw [List.flatMap_map]; rfl
    have hl : ∀ l : List BgpCommunity, (l.flatMap communityWire).length = 4 * (l.map (·.value)).length := by
      intro l
      induction l with
      | nil => rfl
      | cons a t ih => simp [communityWire] at ih ⊢; omega
    have := long_header p (.CommunityList (.fromVec (v.map .new))) 8 0xd0 _ rfl rfl rfl ha
      (by show (List.flatMap communityWire (setOf BgpCommunity.lt _)).length ≤ _; rw [hl]; omega)
    rw [show valueWire p.hasAs32bit (.CommunityList (.fromVec (v.map .new))) =
      (setOf BgpCommunity.lt (v.map .new)).flatMap communityWire from rfl, hl, hw] at this
    exact this
  · have ha := setOf_ascending extCommunity_order v
    have hm := setOf_mem extCommunity_order v
    have hlen := List.Nodup.length_le_of_subset (ha.imp (S := (· ≠ ·)) (fun h e => by subst e; omega)) (l₂ := v) (fun c h => (hm c).1 h)
    refine ⟨_, hm, ha, ?_⟩
    have hl : ∀ l : List BgpExtCommunity, (l.flatMap extCommunityWire).length = 8 * l.length := by
      intro l
      induction l with
      | nil => rfl
      | cons a t ih => simp [extCommunityWire] at ih ⊢; omega
    have := short_header p (.ExtCommunityList (.fromVec v)) 16 0xc0 _ rfl rfl rfl ha
      (by show (List.flatMap extCommunityWire (setOf BgpExtCommunity.lt _)).length ≤ _; rw [hl]; omega)
    rw [show valueWire p.hasAs32bit (.ExtCommunityList (.fromVec v)) =
      (setOf BgpExtCommunity.lt v).flatMap extCommunityWire from rfl, hl] at this
    exact this
  · exact long_header p (.CommunityList .new) 8 0xd0 [] rfl rfl rfl .nil (by simp)
  · exact short_header p (.ExtCommunityList .new) 16 0xc0 [] rfl rfl rfl .nil (by simp)
  · exact long_header p (.LargeCommunityList .new) 32 0xf0 [] rfl rfl rfl .nil (by simp)

example : Writes ((BgpAttrItem.CommunityList (.fromVec [.new 7, .new 3, .new 7])).encodeTo (.new 0 0 .IPv4 0 []))
    [0xd0, 8, 0, 8, 0, 0, 0, 3, 0, 0, 0, 7] := by
  obtain ⟨l, h1, h2, h3⟩ := (C107_community_lists (.new 0 0 .IPv4 0 [])).1 [7, 3, 7] (by simp)
  have : BgpCommunityList.fromVec [.new 7, .new 3, .new 7] = .fromVec [.new 3, .new 7] := by decide
  rw [this]
  exact long_header (.new 0 0 .IPv4 0 []) (.CommunityList (.fromVec [.new 3, .new 7])) 8 0xd0 [0, 0, 0, 3, 0, 0, 0, 7] rfl rfl
    (by decide) (setOf_ascending community_order _) (by simp)

/-- C107: a VPN route built with the constructors is put on the wire as their arguments: path identifier, length in bits,
labels, route distinguisher, the octets of the prefix. -/
theorem C107_vpn_route (id : U32) (ls : List U32) (h l : U32) (n : U8) (hl : LabelStackWF ls) :
    (∀ a : IPv4, n.toNat ≤ 32 → 24 * ls.length + (64 + n.toNat) < 256 →
      Writes (encodePathIdItem (.new id (Labeled.new (.fromvec ls) (WithRd.new (.new h l) (BgpAddrV4.new a n)))))
        (be 4 id.toNat ++ [BitVec.ofNat 8 (24 * ls.length + (64 + n.toNat))] ++ labelsBody ls ++ be 4 h.toNat ++ be 4 l.toNat ++
          (be 4 a.toNat).take ((n.toNat + 7) / 8))) ∧
    (∀ a : IPv6, n.toNat ≤ 128 → 24 * ls.length + (64 + n.toNat) < 256 →
      Writes (encodePathIdItem (.new id (Labeled.new (.fromvec ls) (WithRd.new (.new h l) (BgpAddrV6.new a n)))))
        (be 4 id.toNat ++ [BitVec.ofNat 8 (24 * ls.length + (64 + n.toNat))] ++ labelsBody ls ++ be 4 h.toNat ++ be 4 l.toNat ++
          (be 16 a.toNat).take ((n.toNat + 7) / 8))) := by
  constructor
  · intro a hn hb
    have := encodePathIdItem_writes (x := .new id (Labeled.new (.fromvec ls) (WithRd.new (.new h l) (BgpAddrV4.new a n))))
      (NlriLawful.writes (Labeled.new (.fromvec ls) (WithRd.new (.new h l) (BgpAddrV4.new a n))) ⟨.inl hl, ⟨hn, by show 64 + n.toNat < 256; omega⟩, hb⟩)
    simpa [NlriKind.bits, NlriKind.body, Labeled.new, WithRd.new, BgpAddrV4.new, MplsLabels.fromvec, BgpRD.new, rdBody,
      prefixBody, octets, WithPathId.new] using this
  · intro a hn hb
    have := encodePathIdItem_writes (x := .new id (Labeled.new (.fromvec ls) (WithRd.new (.new h l) (BgpAddrV6.new a n))))
      (NlriLawful.writes (Labeled.new (.fromvec ls) (WithRd.new (.new h l) (BgpAddrV6.new a n))) ⟨.inl hl, ⟨hn, by show 64 + n.toNat < 256; omega⟩, hb⟩)
    simpa [NlriKind.bits, NlriKind.body, Labeled.new, WithRd.new, BgpAddrV6.new, MplsLabels.fromvec, BgpRD.new, rdBody,
      prefixBody, octets, WithPathId.new] using this

example : Writes (encodePathIdItem (.new 9 (Labeled.new (.fromvec [100]) (WithRd.new (.new 1 2) (BgpAddrV4.new 0x0a010200 24)))))
    [0, 0, 0, 9, 112, 0, 6, 0x41, 0, 0, 0, 1, 0, 0, 0, 2, 10, 1, 2] :=
  (C107_vpn_route 9 [100] 1 2 24 ⟨by simp, by simp, by simp⟩).1 0x0a010200 (by decide) (by decide)

/-- C107: a route built as "labeled, without labels" is put on the wire as the route without labels: in every buffer, and of
every kind of prefix, the encoder does the same. -/
theorem C107_no_labels {T : Type} [BgpItem T] (x : T) (buf : Bytes) :
    encodeItem (Labeled.newNl x) buf = encodeItem x buf := by
  have h : BgpItem.setBits (Labeled.newNl x) = BgpItem.setBits x := by
    funext b
    simp only [BgpItem.setBits, MplsLabels.setBits, Labeled.newNl, MplsLabels.new, List.isEmpty_nil, if_true, Res.ok_bind,
      onFrom, Nat.zero_le, List.drop_zero, List.take_zero, List.nil_append]
    cases e : BgpItem.setBits x b with
    | ok y =>
      obtain ⟨t, n, m⟩ := y
      have := n.isLt
      simp only [Res.ok_bind, addC, BitVec.zero_add, BitVec.toNat_zero, Nat.zero_add]
      rw [if_pos (by simpa using this)]
      simp
    | err _ => rfl
    | panic => rfl
    | hang => rfl
  simp only [encodeItem, h]

example (a : IPv4) : encodeItem (Labeled.newNl (BgpAddrV4.new a 8)) [0, 0] = encodeItem (BgpAddrV4.new a 8) [0, 0] :=
  C107_no_labels _ _

/-- C107: MDT and VPLS routes built with the constructors are their arguments, in order. -/
theorem C107_mdt_l2 :
    (∀ (a g : IPv4) (n : U8), n.toNat ≤ 32 →
      Writes (encodeItem (BgpMdtV4.new (.new a n) g))
        ([BitVec.ofNat 8 (n.toNat + 32)] ++ (be 4 a.toNat).take ((n.toNat + 7) / 8) ++ be 4 g.toNat)) ∧
    (∀ (a g : IPv6) (n : U8), n.toNat ≤ 126 →
      Writes (encodeItem (BgpMdtV6.new (.new a n) g))
        ([BitVec.ofNat 8 (n.toNat + 128)] ++ (be 16 a.toNat).take ((n.toNat + 7) / 8) ++ be 16 g.toNat)) ∧
    (∀ (m : BgpTransportMode) (h l : U32) (s o r : U16),
      Writes (BgpAddrItem.encodeTo (BgpL2.new (.new h l) s o r) m)
        (be 4 h.toNat ++ be 4 l.toNat ++ be 2 s.toNat ++ be 2 o.toNat ++ be 2 r.toNat)) := by
  refine ⟨fun a g n hn => ?_, fun a g n hn => ?_, fun m h l s o r buf hb => ?_⟩
  · simpa [NlriKind.bits, NlriKind.body, BgpMdtV4.new, BgpAddrV4.new, prefixBody, octets] using
      encodeItem_writes (NlriLawful.writes (BgpMdtV4.new (.new a n) g) hn)
  · simpa [NlriKind.bits, NlriKind.body, BgpMdtV6.new, BgpAddrV6.new, prefixBody, octets] using
      encodeItem_writes (NlriLawful.writes (BgpMdtV6.new (.new a n) g) hn)
  · have := ((C51_l2_encode_exactly m (.new (.new h l) s o r) buf).1 (by simpa using hb)).1
    simpa [l2Body, BgpL2.new, BgpRD.new] using this

/-- C107: the default values. The prefix of a default MDT route is the host route of the loopback address. Its group is a
multicast address for IPv4 and, because the code has `fe00::` and not `ff00::`, none for IPv6. A list made with `new` is
empty. -/
theorem C107_defaults :
    Writes (encodeItem BgpMdtV4.default) [64, 127, 0, 0, 1, 224, 0, 0, 0] ∧ Multicast4 BgpMdtV4.default.group ∧
    BgpMdtV6.default.addr = .new 1 128 ∧ ¬ Multicast6 BgpMdtV6.default.group ∧
    BgpASpath.new.value = [] ∧ BgpCommunityList.new.value = [] ∧ BgpLargeCommunityList.new.value = [] ∧
    BgpExtCommunityList.new.value = [] ∧ MplsLabels.new.labels = [] ∧ BgpAddrs.new = .None := by
  refine ⟨?_, by unfold Multicast4; decide, by decide, by unfold Multicast6; decide, rfl, rfl, rfl, rfl, rfl, rfl⟩
  exact C107_mdt_l2.1 _ _ _ (by decide)

/-- C107: a FlowSpec operator built with its constructor is put on the wire as its arguments: in the operator octet 0x40 says
"and", then 0x04 "less than", 0x02 "greater than", 0x01 "equal" for a comparison, 0x02 "not" and 0x01 "match" for a mask; 0x10
or 0x20 says that the value takes two or four octets; the value follows. In a list, which is the same made at once or with
`push`, the last operator has 0x80 as well. -/
theorem C107_flowspec_operators (v : U32) (k : Nat) (hk : k = if v.toNat < 256 then 0 else if v.toNat < 65536 then 1 else 2) :
    (∀ a l g e : Bool,
      Writes (FSOperItem.encodeTo (FSOperValItem.new v a l g e))
        (BitVec.ofNat 8 (16 * k + (if a then 64 else 0) + (if l then 4 else 0) + (if g then 2 else 0) + (if e then 1 else 0)) ::
          be (2 ^ k) v.toNat) ∧
      Writes (FSOperVec.newEmpty.push (FSOperValItem.new v a l g e)).encodeTo
        (BitVec.ofNat 8 (128 + 16 * k + (if a then 64 else 0) + (if l then 4 else 0) + (if g then 2 else 0) +
          (if e then 1 else 0)) :: be (2 ^ k) v.toNat)) ∧
    (∀ a n m : Bool,
      Writes (FSOperItem.encodeTo (FSOperMaskItem.new v a n m))
        (BitVec.ofNat 8 (16 * k + (if a then 64 else 0) + (if n then 2 else 0) + (if m then 1 else 0)) ::
          be (2 ^ k) v.toNat) ∧
      Writes (FSOperVec.newEmpty.push (FSOperMaskItem.new v a n m)).encodeTo
        (BitVec.ofNat 8 (128 + 16 * k + (if a then 64 else 0) + (if n then 2 else 0) + (if m then 1 else 0)) ::
          be (2 ^ k) v.toNat)) := by
  have hk' : fsLenCode v.toNat = k := by rw [hk]; rfl
  refine ⟨fun a l g e => ⟨?_, ?_⟩, fun a n m => ⟨?_, ?_⟩⟩
  · have := FsLawful.writes (FSOperValItem.new v a l g e)
    simp only [fsOpWire, fsOpOctet, FsOperator.value, FsOperator.flags, FSOperValItem.new, hk'] at this
    cases a <;> cases l <;> cases g <;> cases e <;> simpa [FSOperValItem.new, Nat.add_assoc] using this
  · have : Writes (FSOperVec.newEmpty.push (FSOperValItem.new v a l g e)).encodeTo _ := fun buf hb => fsVec_writes _ buf hb
    simp only [fsOpsWire, FSOperVec.newEmpty, FSOperVec.push, List.nil_append, fsOpWire, fsOpOctet, FsOperator.value,
      FsOperator.flags, FSOperValItem.new, hk'] at this
    cases a <;> cases l <;> cases g <;> cases e <;>
      simpa [FSOperValItem.new, FSOperVec.newEmpty, FSOperVec.push, Nat.add_assoc] using this
  · have := FsLawful.writes (FSOperMaskItem.new v a n m)
    simp only [fsOpWire, fsOpOctet, FsOperator.value, FsOperator.flags, FSOperMaskItem.new, hk'] at this
    cases a <;> cases n <;> cases m <;> simpa [FSOperMaskItem.new, Nat.add_assoc] using this
  · have : Writes (FSOperVec.newEmpty.push (FSOperMaskItem.new v a n m)).encodeTo _ := fun buf hb => fsVec_writes _ buf hb
    simp only [fsOpsWire, FSOperVec.newEmpty, FSOperVec.push, List.nil_append, fsOpWire, fsOpOctet, FsOperator.value,
      FsOperator.flags, FSOperMaskItem.new, hk'] at this
    cases a <;> cases n <;> cases m <;>
      simpa [FSOperMaskItem.new, FSOperVec.newEmpty, FSOperVec.push, Nat.add_assoc] using this

theorem flowspec_lists {T : Type} [FSOperItem T] [FsOperator T] [FsLawful T] (l : List T) (x : T) :
    l.foldl FSOperVec.push .newEmpty = .new l ∧
    ∃ w, Writes (FSOperItem.encodeTo x) w ∧ w ≠ [] ∧
      Writes ((FSOperVec.new l).push x).encodeTo
        (l.flatMap (fsOpWire false) ++ (BitVec.ofNat 8 ((w.headD 0).toNat + 128) :: w.tail)) := by
  constructor
  · have : ∀ (l : List T) (v : FSOperVec T), l.foldl FSOperVec.push v = .new (v.items ++ l) := by
      intro l
      induction l with
      | nil => intro v; cases v; simp [FSOperVec.new]
      | cons a r ih => intro v; rw [List.foldl_cons, ih]; simp [FSOperVec.push]
    simpa [FSOperVec.newEmpty] using this l .newEmpty
  · refine ⟨fsOpWire false x, FsLawful.writes x, by simp [fsOpWire], ?_⟩
    have : Writes ((FSOperVec.new l).push x).encodeTo _ := fun buf hb => fsVec_writes _ buf hb
    have e : ∀ l : List T, fsOpsWire (l ++ [x]) = l.flatMap (fsOpWire false) ++ fsOpWire true x := by
      intro l
      induction l with
      | nil => rfl
      | cons a r ih =>
        cases r with
        | nil => simp [fsOpsWire]
        | cons b r => simp only [List.cons_append, fsOpsWire, List.flatMap_cons, List.append_assoc] at ih ⊢; rw [ih]
    have t : fsOpWire true x = BitVec.ofNat 8 (((fsOpWire false x).headD 0).toNat + 128) :: (fsOpWire false x).tail := by
      simp only [fsOpWire, fsOpOctet, List.headD_cons, List.tail_cons, Bool.toNat_true, Bool.toNat_false]
      congr 1
      apply BitVec.eq_of_toNat_eq
      simp only [BitVec.toNat_ofNat]
      omega
    rw [← t, ← e]
    exact this

/-- C107: a list of FlowSpec operators made with `push` is the list made at once, and is put on the wire operator by operator,
in order; the last one is written as it is written alone (`w`), with 0x80 added to its first octet. -/
theorem C107_flowspec_lists :
    (∀ (l : List FSOperValItem) (x : FSOperValItem), l.foldl FSOperVec.push .newEmpty = .new l ∧
      ∃ w, Writes (FSOperItem.encodeTo x) w ∧ w ≠ [] ∧
        Writes ((FSOperVec.new l).push x).encodeTo
          (l.flatMap (fsOpWire false) ++ (BitVec.ofNat 8 ((w.headD 0).toNat + 128) :: w.tail))) ∧
    (∀ (l : List FSOperMaskItem) (x : FSOperMaskItem), l.foldl FSOperVec.push .newEmpty = .new l ∧
      ∃ w, Writes (FSOperItem.encodeTo x) w ∧ w ≠ [] ∧
        Writes ((FSOperVec.new l).push x).encodeTo
          (l.flatMap (fsOpWire false) ++ (BitVec.ofNat 8 ((w.headD 0).toNat + 128) :: w.tail))) :=
  ⟨fun l x => flowspec_lists l x, fun l x => flowspec_lists l x⟩

example : Writes (((FSOperVec.newEmpty.push (FSOperValItem.new 1024 false false true true)).push
    (FSOperValItem.new 80 true true false false)).encodeTo) [0x13, 4, 0, 0xc4, 80] :=
  fun buf hb => fsVec_writes _ buf hb

/-- C107: an Ethernet segment identifier, a MAC address and a VPN next hop built with the constructors are their arguments. The
Ethernet segment identifier that `empty` makes is the zero one, the MAC address that `new` makes is the zero one. -/
theorem C107_evpn_mac_nexthop (m : BgpTransportMode) (h l : U32) :
    (∀ (t : U8) (v : Vector U8 9) (a : IPv4),
      Writes (BgpAddrItem.encodeTo (BgpEVPN4.mk (.new h l) t (.new v) (.v4 a)) m)
        (be 4 h.toNat ++ be 4 l.toNat ++ t :: v.toList ++ 32 :: be 4 a.toNat)) ∧
    (∀ v : Vector U8 9, (EVPNESI.new v).isZero = true ↔ EVPNESI.new v = .empty) ∧
    (∀ x : MacAddress, x = .new ↔ x.toU64 = 0) ∧
    (∀ a : IPv4, Writes (BgpAddrItem.encodeTo (BgpIPv4RD.new (.new h l) a) m) (be 4 h.toNat ++ be 4 l.toNat ++ be 4 a.toNat)) := by
  refine ⟨fun t v a => ?_, fun v => ?_, fun x => ?_, fun a => ?_⟩
  · have := evpn4_writes (BgpEVPN4.mk (.new h l) t (.new v) (.v4 a)) m
    simpa [evpnBody, rdBody, BgpRD.new, esiBody, EVPNESI.new, lenIpBody, ipBody] using this
  · constructor
    · intro hz
      simp only [EVPNESI.isZero, EVPNESI.new, Bool.not_eq_true', List.any_eq_false, bne_iff_ne, ne_eq, Decidable.not_not] at hz
      simp only [EVPNESI.new, EVPNESI.empty, EVPNESI.mk.injEq]
      refine Vector.ext fun i hi => ?_
      rw [Vector.getElem_replicate]
      exact hz _ (by simp)
    · intro hz; rw [hz]; decide
  · refine ⟨fun hz => by rw [hz]; decide, fun hz => ?_⟩
    rw [← (C55_mac_conversions x).1, hz]; decide
  · simpa [nexthopWire, rdBody, BgpRD.new, BgpIPv4RD.new] using v4rd_writes (BgpIPv4RD.new (.new h l) a) m

example : Writes (BgpAddrItem.encodeTo (BgpIPv4RD.new (.new 1 2) 0x0a000001) .IPv6) [0, 0, 0, 1, 0, 0, 0, 2, 10, 0, 0, 1] :=
  (C107_evpn_mac_nexthop .IPv6 1 2).2.2.2 _

end Zbgp.Props
