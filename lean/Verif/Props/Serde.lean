import Verif.Lemmas.Serde

/-!
# C85 – C87: serialisation
-/

namespace Zbgp.Props

open _root_.Zbgp.Std Spec Ser

/-! ## C85 -/

/-- **C85**, attributes, partial: an attribute that carries no FlowSpec rule comes back from the document it is written
to, however deep attribute sets are nested. (`SetsListed` is how a set is listed; every `BTreeSet` is.) Missing: FlowSpec
rules (`C85_flowspec_fails`). -/
theorem C85_attributes_partial (x : BgpAttrItem) (hs : SetsListed x) (hr : rulesIn x = 0) :
    BgpAttrItem.codec.de (BgpAttrItem.codec.ser x) = .ok x :=
  item_rt x _ (Nat.lt_succ_self _) hr hs

/-- **C85**, NLRI collections, partial: every collection of every family without FlowSpec rules comes back. -/
theorem C85_nlri_partial (x : BgpAddrs) (hr : flowRules x = 0) : BgpAddrs.codec.de (BgpAddrs.codec.ser x) = .ok x :=
  BgpAddrs.rt x hr

/-- **C85**, next hops and prefixes: every next hop, every prefix of any kind, and every prefix wrapped with a route
distinguisher, labels or a path identifier comes back. -/
theorem C85_values {T : Type} (c : Codec T) (hc : ∀ x, c.de (c.ser x) = .ok x) :
    (∀ x, BgpAddr.codec.de (BgpAddr.codec.ser x) = .ok x) ∧ (∀ x, BgpNet.codec.de (BgpNet.codec.ser x) = .ok x) ∧
    (∀ x, BgpAddrV4.codec.de (BgpAddrV4.codec.ser x) = .ok x) ∧ (∀ x, BgpAddrV6.codec.de (BgpAddrV6.codec.ser x) = .ok x) ∧
    (∀ x, (withRd c).de ((withRd c).ser x) = .ok x) ∧ (∀ x, (labeled c).de ((labeled c).ser x) = .ok x) ∧
    (∀ x, (withPathId c).de ((withPathId c).ser x) = .ok x) :=
  ⟨BgpAddr.rt, BgpNet.rt, BgpAddrV4.rt, BgpAddrV6.rt, withRd_rt hc, labeled_rt hc, withPathId_rt hc⟩

/-- non-vacuity: communities and a labeled VPN route behind a VPN next hop, inside a set inside a set -/
example :
    let x : BgpAttrItem := .AttrSet 65000 [.Origin ⟨.Igp⟩, .CommunityList ⟨[⟨1⟩, ⟨7⟩]⟩, .AttrSet 65001
      [.MPUpdates ⟨.V4RD ⟨⟨0, 0⟩, 0xc0000201⟩, .VPNV4U [⟨⟨⟨0x0a000000, 8⟩, ⟨1, 2⟩⟩, ⟨[1000]⟩⟩]⟩, .Unknown ⟨⟨99, 192⟩, [1, 2]⟩]]
    SetsListed x ∧ rulesIn x = 0 ∧
      BgpAttrItem.ser (.Unknown ⟨⟨99, 192⟩, [1, 2]⟩) =
        .map [("Unknown", .map [("params", .map [("typecode", .num 99), ("flags", .num 192)]), ("value", .seq [.num 1, .num 2])])] := by
  refine ⟨?_, rfl, rfl⟩
  simp [SetsListed, AllSetsListed, Ascending, communityNumber]

/-- **C85** fails for FlowSpec: no document is read as a FlowSpec rule, and an attribute that carries a rule, at any depth
of attribute sets, is written but never read back. -/
theorem C85_flowspec_fails {T : Type} (c : Codec T) (d : Doc) (x : BgpAttrItem) (hr : rulesIn x ≠ 0) :
    (∀ r, (flowSpec c).de d ≠ .ok r) ∧ ∀ y, BgpAttrItem.codec.de (BgpAttrItem.codec.ser x) ≠ .ok y := by
  obtain ⟨e, he⟩ := flowSpec_de c d
  obtain ⟨e', he'⟩ := item_flow x (x.ser.depth + 1) hr
  constructor
  · intro r h; rw [he] at h; cases h
  · intro y h
    have h : BgpAttrItem.deN (x.ser.depth + 1) x.ser = .ok y := h
    rw [he'] at h; cases h

/-- non-vacuity: an UPDATE with one rule -/
example : rulesIn (.MPUpdates ⟨.V4 1, .FS4U [.proto ⟨[⟨false, false, false, true, 6⟩]⟩]⟩) = 1 := rfl

/-- **C85**, in short: exactly the attributes without FlowSpec rules are read back. -/
theorem C85_iff_no_rule (x : BgpAttrItem) (hs : SetsListed x) :
    (∃ y, BgpAttrItem.codec.de (BgpAttrItem.codec.ser x) = .ok y) ↔ rulesIn x = 0 := by
  constructor
  · rintro ⟨y, hy⟩
    by_contra hr
    exact (C85_flowspec_fails u8 .null x hr).2 y hy
  · exact fun hr => ⟨x, C85_attributes_partial x hs hr⟩

/-! ## C86 -/

/-- what a hand-written reader of two fields accepts -/
private theorem pair_exact {α β γ : Type} {n1 n2 m1 m2 : String} (hn : n1 ≠ n2) (c1 : Codec α) (c2 : Codec β)
    (mk : α → β → γ) (d : Doc) (x : γ) :
    deserializeStruct (pairVisitor n1 n2 m1 m2 c1 c2 mk) d = .ok x ↔
      ∃ a b va vb, TwoFields d n1 n2 a b ∧ c1.de a = .ok va ∧ c2.de b = .ok vb ∧ mk va vb = x := by
  have hn' : n2 ≠ n1 := hn.symm
  -- the loop
  have full : ∀ (es : List (String × Doc)) (va : α) (vb : β), pairLoop n1 n2 c1 c2 es (some va) (some vb) =
      match es with
      | [] => .ok (some va, some vb)
      | (k, _) :: _ => if k = n1 then .error (.duplicateField n1) else if k = n2 then .error (.duplicateField n2)
        else .error (.unknownField k) := by
    intro es va vb
    cases es with
    | nil => rfl
    | cons e es => simp [pairLoop]
  constructor
  · intro h
    unfold deserializeStruct at h
    split at h
    · rename_i l
      simp only [pairVisitor] at h
      match l, h with
      | [], h => simp [bind, Except.bind] at h
      | [a], h => cases hx : c1.de a <;> simp [bind, Except.bind, hx] at h
      | a :: b :: rest, h =>
        cases hx : c1.de a <;> cases hy : c2.de b <;> simp [bind, Except.bind, hx, hy] at h
        cases rest with
        | nil =>
          simp at h
          exact ⟨a, b, _, _, .inr (.inr rfl), hx, hy, h⟩
        | cons r rest => simp at h
    · rename_i es
      simp only [pairVisitor] at h
      match es, h with
      | [], h => simp [bind, Except.bind, pairLoop] at h
      | (k, v) :: es, h =>
        by_cases hk : k = n1
        · subst hk
          cases hx : c1.de v <;> simp [bind, Except.bind, pairLoop, hx] at h
          rename_i va
          match es, h with
          | [], h => simp [pairLoop] at h
          | (k', w) :: es, h =>
            by_cases hk' : k' = k
            · subst hk'; simp [pairLoop] at h
            · by_cases hk2 : k' = n2
              · subst hk2
                cases hy : c2.de w <;> simp [bind, Except.bind, pairLoop, hy, hk'] at h
                rename_i vb
                rw [full] at h
                match es, h with
                | [], h => simp at h; exact ⟨v, w, va, vb, .inl rfl, hx, hy, h⟩
                | (k3, u) :: es, h =>
                  by_cases h1 : k3 = k <;> by_cases h2 : k3 = k' <;> simp [h1, h2, hn, hn'] at h
              · simp [pairLoop, hk', hk2, bind, Except.bind] at h
        · by_cases hk2 : k = n2
          · subst hk2
            cases hx : c2.de v <;> simp [bind, Except.bind, pairLoop, hx, hk] at h
            rename_i vb
            match es, h with
            | [], h => simp [pairLoop] at h
            | (k', w) :: es, h =>
              by_cases hk' : k' = k
              · subst hk'; simp [pairLoop, hk] at h
              · by_cases hk1 : k' = n1
                · subst hk1
                  cases hy : c1.de w <;> simp [bind, Except.bind, pairLoop, hy] at h
                  rename_i va
                  rw [full] at h
                  match es, h with
                  | [], h => simp at h; exact ⟨w, v, va, vb, .inr (.inl rfl), hy, hx, h⟩
                  | (k3, u) :: es, h =>
                    by_cases h1 : k3 = k' <;> by_cases h2 : k3 = k <;> simp [h1, h2, hn, hn'] at h
                · simp [pairLoop, hk', hk1, bind, Except.bind] at h
          · simp [pairLoop, hk, hk2, bind, Except.bind] at h
    · cases h
  · rintro ⟨a, b, va, vb, hd, ha, hb, rfl⟩
    rcases hd with rfl | rfl | rfl
    · simp [deserializeStruct, pairVisitor, pairLoop, ha, hb, hn', bind, Except.bind]
    · simp [deserializeStruct, pairVisitor, pairLoop, ha, hb, hn', bind, Except.bind]
    · simp [deserializeStruct, pairVisitor, ha, hb, bind, Except.bind]

/-- **C86**, prefixes with a route distinguisher: a document is read exactly if it has the fields `rd` and `prefix`, each
once and no other, in either order, or the two values in a row. -/
theorem C86_with_rd {T : Type} (c : Codec T) (d : Doc) (x : WithRd T) :
    (withRd c).de d = .ok x ↔
      ∃ a b, TwoFields d "rd" "prefix" a b ∧ BgpRD.codec.de a = .ok x.rd ∧ c.de b = .ok x.pfx := by
  rw [withRd, pair_exact (by decide)]
  constructor
  · rintro ⟨a, b, va, vb, hd, ha, hb, rfl⟩; exact ⟨a, b, hd, ha, hb⟩
  · rintro ⟨a, b, hd, ha, hb⟩; exact ⟨a, b, _, _, hd, ha, hb, rfl⟩

/-- **C86**, prefixes with labels: the same with the fields `labels` and `prefix`. -/
theorem C86_labeled {T : Type} (c : Codec T) (d : Doc) (x : Labeled T) :
    (labeled c).de d = .ok x ↔
      ∃ a b, TwoFields d "labels" "prefix" a b ∧ MplsLabels.codec.de a = .ok x.labels ∧ c.de b = .ok x.pfx := by
  rw [labeled, pair_exact (by decide)]
  constructor
  · rintro ⟨a, b, va, vb, hd, ha, hb, rfl⟩; exact ⟨a, b, hd, ha, hb⟩
  · rintro ⟨a, b, hd, ha, hb⟩; exact ⟨a, b, _, _, hd, ha, hb, rfl⟩

/-- **C86**, NLRI with a path identifier: the same with the fields `pathid` and `nlri`. -/
theorem C86_with_path_id {T : Type} (c : Codec T) (d : Doc) (x : WithPathId T) :
    (withPathId c).de d = .ok x ↔
      ∃ a b, TwoFields d "pathid" "nlri" a b ∧ a = .num x.pathid.toNat ∧ c.de b = .ok x.nlri := by
  have hu : ∀ (a : Doc) (v : U32), u32.de a = .ok v ↔ a = .num v.toNat := by
    intro a v
    constructor
    · intro h
      cases a with
      | num n =>
        simp only [uint] at h
        split_ifs at h with hn
        obtain rfl := Except.ok.inj h
        rw [BitVec.toNat_ofNat, Nat.mod_eq_of_lt hn]
      | _ => simp [uint] at h
    · rintro rfl; exact u32_rt v
  rw [withPathId, pair_exact (by decide)]
  constructor
  · rintro ⟨a, b, va, vb, hd, ha, hb, rfl⟩; exact ⟨a, b, hd, (hu _ _).mp ha, hb⟩
  · rintro ⟨a, b, hd, ha, hb⟩; exact ⟨a, b, _, _, hd, (hu _ _).mpr ha, hb, rfl⟩

/-- **C86**, prefixes of any kind: exactly the texts that parse are read, and what is written is the text of the
prefix. -/
theorem C86_net (d : Doc) (x : BgpNet) :
    (BgpNet.codec.de d = .ok x ↔ ∃ s, d = .str (String.ofList s) ∧ BgpNet.parse s = some x) ∧
    BgpNet.codec.ser x = .str (String.ofList x.display) := by
  refine ⟨?_, rfl⟩
  constructor
  · intro h
    cases d with
    | str s =>
      simp only [BgpNet.codec, deserializeString] at h
      refine ⟨s.toList, by simp, ?_⟩
      cases hp : BgpNet.parse s.toList with
      | none => rw [hp] at h; cases h
      | some y => rw [hp] at h; cases h; rfl
    | _ => simp [BgpNet.codec, deserializeString] at h
  · rintro ⟨s, rfl, h⟩
    simp [BgpNet.codec, deserializeString, h]

/-- **C86**, variants without content: an ORIGIN is read from its name, and from a map of one entry with its name and nothing,
and from no other document. -/
theorem C86_origin (d : Doc) (x : BgpAttrOrigin) :
    BgpAttrOrigin.codec.de d = .ok x ↔
      ∃ name, ((name = "Igp" ∧ x = .Igp) ∨ (name = "Egp" ∧ x = .Egp) ∨ (name = "Incomplete" ∧ x = .Incomplete)) ∧
        (d = .str name ∨ d = .map [(name, .null)]) := by
  constructor
  · intro h
    have key : ∀ k content, asVariant d = .ok (k, content) → (d = .str k ∧ content = none) ∨ ∃ e, d = .map [(k, e)] ∧ content = some e := by
      intro k content hk
      unfold asVariant at hk
      split at hk
      · cases hk; exact .inl ⟨rfl, rfl⟩
      · cases hk; exact .inr ⟨_, rfl, rfl⟩
      · cases hk
    simp only [BgpAttrOrigin.codec, enumOf, bind, Except.bind] at h
    cases hk : asVariant d with
    | error e => rw [hk] at h; cases h
    | ok r =>
      obtain ⟨k, content⟩ := r
      rw [hk] at h
      have hd := key k content hk
      have unit : ∀ y : BgpAttrOrigin, unitVariant y content = .ok x → x = y ∧ (d = .str k ∨ d = .map [(k, .null)]) := by
        intro y hy
        unfold unitVariant at hy
        split at hy
        · cases hy
          rcases hd with ⟨h, -⟩ | ⟨_, -, h⟩
          · exact ⟨rfl, .inl h⟩
          · cases h
        · cases hy
          rcases hd with ⟨-, h⟩ | ⟨_, h, h'⟩
          · cases h
          · cases h'; exact ⟨rfl, .inr h⟩
        · cases hy
      simp only [List.lookup] at h
      refine ⟨k, ?_⟩
      by_cases h1 : k = "Igp"
      · subst h1
        obtain ⟨e1, e2⟩ := unit _ h
        exact ⟨.inl ⟨rfl, e1⟩, e2⟩
      by_cases h2 : k = "Egp"
      · subst h2
        obtain ⟨e1, e2⟩ := unit _ h
        exact ⟨.inr (.inl ⟨rfl, e1⟩), e2⟩
      by_cases h3 : k = "Incomplete"
      · subst h3
        obtain ⟨e1, e2⟩ := unit _ h
        exact ⟨.inr (.inr ⟨rfl, e1⟩), e2⟩
      rw [beq_eq_false_iff_ne.2 h1, beq_eq_false_iff_ne.2 h2, beq_eq_false_iff_ne.2 h3] at h
      cases h
  · rintro ⟨name, ⟨rfl, rfl⟩ | ⟨rfl, rfl⟩ | ⟨rfl, rfl⟩, rfl | rfl⟩ <;> rfl

example : BgpAttrOrigin.codec.de (.map [("Egp", .null)]) = .ok .Egp ∧ BgpAttrOrigin.codec.de (.map [("Egp", .num 0)]) = .error .invalidType :=
  ⟨rfl, rfl⟩

/-- non-vacuity: `rd` last, and a field too many -/
example : (withRd BgpAddrV4.codec).de (.map [("prefix", .map [("addr", .str "10.0.0.0"), ("prefixlen", .num 8)]),
      ("rd", .seq [.num 1, .num 2])]) = .ok ⟨⟨0x0a000000, 8⟩, ⟨1, 2⟩⟩ ∧
    (withRd BgpAddrV4.codec).de (.map [("x", .null), ("prefix", .map [("addr", .str "10.0.0.0"), ("prefixlen", .num 8)]),
      ("rd", .seq [.num 1, .num 2])]) = .error (.unknownField "x") := by
  have h : ipv4.de (.str "10.0.0.0") = .ok 0x0a000000 := by
    have : ("10.0.0.0" : String) = String.ofList (showV4 0x0a000000) := by decide
    rw [this]; exact ipv4_rt _
  constructor
  · rw [C86_with_rd]
    refine ⟨_, _, .inr (.inl rfl), rfl, ?_⟩
    simp only [BgpAddrV4.codec]
    rw [entries_ok]
    rotate_left
    · rfl
    · decide
    simp [field, fieldWith, List.lookup, bind, Except.bind, h, uint]
  · rfl

/-- **C86**, which field is missing, partial: a missing route distinguisher, label stack or prefix is reported by its name.
Missing: the fields of NLRI with a path identifier (`C86_wrong_field_named`). -/
theorem C86_missing_partial {T : Type} (c : Codec T) (d : Doc) (v : T) (h : c.de d = .ok v) (rd : BgpRD) (labels : MplsLabels) :
    (withRd c).de (.map [("prefix", d)]) = .error (.missingField "rd") ∧
    (withRd c).de (.map [("rd", BgpRD.codec.ser rd)]) = .error (.missingField "prefix") ∧
    (labeled c).de (.map [("prefix", d)]) = .error (.missingField "labels") ∧
    (labeled c).de (.map [("labels", MplsLabels.codec.ser labels)]) = .error (.missingField "prefix") := by
  refine ⟨?_, ?_, ?_, ?_⟩ <;>
    simp [withRd, labeled, deserializeStruct, pairVisitor, pairLoop, h, bind, Except.bind]

/-- **C86** fails for the names: without a path identifier the reader complains about a missing `rd`, and without an NLRI
about a missing `prefix`; neither is a field of the value. -/
theorem C86_wrong_field_named {T : Type} (c : Codec T) (d : Doc) (v : T) (h : c.de d = .ok v) (id : U32) :
    (withPathId c).de (.map [("nlri", d)]) = .error (.missingField "rd") ∧
    (withPathId c).de (.map [("pathid", .num id.toNat)]) = .error (.missingField "prefix") := by
  have hu : u32.de (.num id.toNat) = .ok id := u32_rt id
  constructor <;> simp [withPathId, deserializeStruct, pairVisitor, pairLoop, h, hu, bind, Except.bind]

/-- **C86**, sequences that are too short: the number of values that were there is reported. -/
theorem C86_short_sequence {T : Type} (c : Codec T) (rd : BgpRD) (labels : MplsLabels) (id : U32) :
    (withRd c).de (.seq []) = .error (.invalidLength 0) ∧
    (withRd c).de (.seq [BgpRD.codec.ser rd]) = .error (.invalidLength 1) ∧
    (labeled c).de (.seq []) = .error (.invalidLength 0) ∧
    (labeled c).de (.seq [MplsLabels.codec.ser labels]) = .error (.invalidLength 1) ∧
    (withPathId c).de (.seq []) = .error (.invalidLength 0) ∧
    (withPathId c).de (.seq [.num id.toNat]) = .error (.invalidLength 1) := by
  have hu : u32.de (.num id.toNat) = .ok id := u32_rt id
  refine ⟨?_, ?_, ?_, ?_, ?_, ?_⟩ <;>
    simp [withRd, labeled, withPathId, deserializeStruct, pairVisitor, hu, bind, Except.bind]

/-- non-vacuity: a prefix that is read -/
example : BgpAddrV4.codec.de (BgpAddrV4.codec.ser ⟨0x0a000000, 8⟩) = .ok ⟨0x0a000000, 8⟩ := by simp

/-! ## C87 -/

/-- **C87**, attributes: each is a map of one entry, under the name of its kind. -/
theorem C87_attribute_names (x : BgpAttrItem) : ∃ content, BgpAttrItem.codec.ser x = .map [(attrName x, content)] := by
  cases x <;> exact ⟨_, rfl⟩

/-- **C87**, the parts of routes: numbers are numbers, addresses are their texts, labels are listed bottom last, and a
wrapped prefix has its two fields under these names. -/
theorem C87_parts {T : Type} (c : Codec T) (a : BgpAddrV4) (b : BgpAddrV6) (r : WithRd T) (l : Labeled T) (p : WithPathId T) :
    BgpAddrV4.codec.ser a = .map [("addr", .str (String.ofList (showV4 a.addr))), ("prefixlen", .num a.prefixlen.toNat)] ∧
    BgpAddrV6.codec.ser b = .map [("addr", .str (String.ofList (showV6 b.addr))), ("prefixlen", .num b.prefixlen.toNat)] ∧
    (withRd c).ser r = .map [("rd", .map [("rdh", .num r.rd.rdh.toNat), ("rdl", .num r.rd.rdl.toNat)]), ("prefix", c.ser r.pfx)] ∧
    (labeled c).ser l = .map [("labels", .seq (l.labels.labels.map fun v => .num v.toNat)), ("prefix", c.ser l.pfx)] ∧
    (withPathId c).ser p = .map [("pathid", .num p.pathid.toNat), ("nlri", c.ser p.nlri)] :=
  ⟨rfl, rfl, rfl, rfl, rfl⟩

/-- **C87**: different attributes, FlowSpec rules included, are never written to the same document. -/
theorem C87_injective (x y : BgpAttrItem) (hx : SetsListed x) (hy : SetsListed y)
    (h : BgpAttrItem.codec.ser x = BgpAttrItem.codec.ser y) : x = y := item_inj x y hx hy h

/-- non-vacuity: an attribute with a FlowSpec rule, and its document -/
example : SetsListed (.MPWithdraws ⟨.FS4U [.proto ⟨[⟨false, false, false, true, 6⟩]⟩]⟩) ∧
    BgpAttrItem.codec.ser (.MPWithdraws ⟨.FS4U [.proto ⟨[⟨false, false, false, true, 6⟩]⟩]⟩) =
      .map [("MPWithdraws", .map [("addrs", .map [("FS4U", .seq [.map [("Proto", .seq [.map [("and_bit", .bool false),
        ("lt_cmp", .bool false), ("gt_cmp", .bool false), ("eq_cmp", .bool true), ("value", .num 6)]])]])])])] :=
  ⟨trivial, rfl⟩

/-- **C87**, FlowSpec rules: what the method for maps would read from the document of a rule is the rule. The rule is lost
because no format calls that method for an `enum` (`C85_flowspec_fails`). -/
theorem C87_flowspec_map {T : Type} (c : Codec T) (hc : ∀ x, c.de (c.ser x) = .ok x) (x : BgpFlowSpec T) :
    ∃ k d, (flowSpec c).ser x = .map [(k, d)] ∧ (flowSpecVisitor c).visitMap [(k, d)] = .ok (x, []) := by
  have h1 := operVec_rt FSOperValItem.rt
  have h2 := operVec_rt FSOperMaskItem.rt
  cases x <;> exact ⟨_, _, rfl, by simp [flowSpecVisitor, flowSpecVariant, hc, h1, h2, bind, Except.bind]⟩

/-- non-vacuity: the hypothesis holds for IPv4 prefixes -/
example : ∀ x, BgpAddrV4.codec.de (BgpAddrV4.codec.ser x) = .ok x := BgpAddrV4.rt

end Zbgp.Props
