import Verif.Spec.AttrValues

/-! # What the decoders make of sections and values, as predicates

These are steps in the proofs: `Lemmas/ValueReads.lean` and `Lemmas/UpdateReads.lean` replace them by specifications that do
not refer to the model. -/

namespace Zbgp

open Spec

/-- The prefixes in a section (of the family of the session) are `x`. -/
def NlriDec (p : BgpSessionParams) (section_ : Bytes) (x : BgpAddrs) : Prop :=
  ∃ n, BgpAddrs.decodeFrom p (familyCode (sessionFamily p)).1 (familyCode (sessionFamily p)).2 section_ = .ok (x, n)

/-- The attributes `raws` are, one by one, `l`. -/
def AttrsDec (p : BgpSessionParams) (raws : List RawAttr) (l : List BgpAttrItem) : Prop :=
  raws.map (fun r => BgpAttrItem.decodeFrom p r.code r.flags r.value.length r.value) = l.map .ok

/-- Reading the sections one after the other, the first thing that is not accepted is: withdrawn or announced prefixes, or
an attribute value, at which the respective decoder does not return, or an attribute header cut off by the end of the
message. -/
def UpdatePanics (p : BgpSessionParams) (buf : Bytes) : Prop :=
  let nlri := BgpAddrs.decodeFrom p (familyCode (sessionFamily p)).1 (familyCode (sessionFamily p)).2
  ∃ w rest, buf = be 2 w.length ++ w ++ rest ∧ w.length ≤ 65535 ∧ rest ≠ [] ∧
    (¬ (nlri w).Returns ∨
      ∃ wd n rest', NlriDec p w wd ∧ rest = be 2 n ++ rest' ∧ n ≤ 65535 ∧ n ≤ rest'.length ∧
        ∃ raws l t, rest' = raws.flatMap rawWire ++ t ∧ (∀ r ∈ raws, RawWF r) ∧ AttrsDec p raws l ∧
          (((raws.flatMap rawWire).length = n ∧ ¬ (nlri t).Returns) ∨
           ((raws.flatMap rawWire).length < n ∧ CutHeader t) ∨
           ∃ r t', t = rawWire r ++ t' ∧ RawWF r ∧ (raws.flatMap rawWire).length + (rawWire r).length ≤ n ∧
            ¬ (BgpAttrItem.decodeFrom p r.code r.flags r.value.length r.value).Returns))

/-- What follows the next hop is not a list of SNPAs followed by NLRI of the family that can be decoded or refused. -/
def TailPanics (p : BgpSessionParams) (f : Family) (t : Bytes) : Prop :=
  ∀ snpas nlri, SnpasWF snpas → t = snpasWire snpas ++ nlri →
    BgpAddrs.decodeFrom p (familyCode f).1 (familyCode f).2 nlri = .panic

/-- The MP_REACH_NLRI values that crash the decoder: those without the four octets of the head; and, in a family of which
next hops can be read, a next hop that is cut off (for L2VPN and VPN families only behind the octets of the address,
because shorter ones are refused), and if the next hop is there, when the rest is as in `TailPanics`. For VPN families the
length octet does not matter. -/
def ReachPanics (p : BgpSessionParams) (v : Bytes) : Prop :=
  v.length < 4 ∨ ∃ (f : Family) (l : U8) (rest : Bytes), NexthopReadable f ∧ v = familyWire f ++ l :: rest ∧
    (if VpnFamily f then nexthopSize f ≤ rest.length ∧ TailPanics p f (rest.drop (nexthopSize f))
     else if f = .l2Vpls ∨ f = .l2Evpn then 4 ≤ rest.length ∧ TailPanics p f (rest.drop l.toNat)
     else rest.length < l.toNat ∨ (nexthopSize f ≤ l.toNat ∧ TailPanics p f (rest.drop l.toNat)))

/-- The attribute values that crash the decoder, by type code. An attribute set crashes it if, in a session with 32-bit AS
numbers, it holds well-formed attributes followed by a cut-off header or by an attribute that crashes the decoder. -/
inductive ValuePanics (p : BgpSessionParams) : U8 → Bytes → Prop
  | communities (v : Bytes) (h : ¬ 4 ∣ v.length) : ValuePanics p 8 v
  | originatorId (v : Bytes) (h : v.length < 4) : ValuePanics p 9 v
  | mpReach (v : Bytes) (h : ReachPanics p v) : ValuePanics p 14 v
  | mpUnreachHead (v : Bytes) (h : v.length < 3) : ValuePanics p 15 v
  | mpUnreachNlri (a b c : U8) (nlri : Bytes) (h : BgpAddrs.decodeFrom p (a ++ b) c nlri = .panic) :
      ValuePanics p 15 (a :: b :: c :: nlri)
  | pmsi (v : Bytes) (h : PmsiCrash v) : ValuePanics p 22 v
  | largeCommunities (v : Bytes) (h : ¬ 12 ∣ v.length) : ValuePanics p 32 v
  | setCut (origin : Bytes) (raws : List RawAttr) (l : List BgpAttrItem) (t : Bytes) (h32 : p.hasAs32bit = true)
      (ho : origin.length = 4) (hr : ∀ r ∈ raws, RawWF r) (ha : AttrsDec p raws l) (ht : CutAttr t) :
      ValuePanics p 128 (origin ++ raws.flatMap rawWire ++ t)
  | setInner (origin : Bytes) (raws : List RawAttr) (l : List BgpAttrItem) (r : RawAttr) (t : Bytes)
      (h32 : p.hasAs32bit = true) (ho : origin.length = 4) (hr : ∀ r ∈ raws, RawWF r) (ha : AttrsDec p raws l)
      (hw : RawWF r) (hc : ValuePanics p r.code r.value) :
      ValuePanics p 128 (origin ++ raws.flatMap rawWire ++ rawWire r ++ t)

end Zbgp
