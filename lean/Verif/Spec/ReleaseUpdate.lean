import Verif.Spec.ReleaseRoutes
import Verif.Spec.UpdateReads

/-!
# What a build without overflow checks reads: attribute values and UPDATE messages

As `ReachRead`, `ValueRead`, `UpdateRead` and the like, with the NLRI read as `WrapAddrs` and `WrapAddrsCrash` say. The
values of all attributes but MP_REACH_NLRI, MP_UNREACH_NLRI and ATTR_SET, which have no NLRI in them, are read as with the
checks.
-/

namespace Zbgp.Spec

open Zbgp

/-- As `ReachRead`. -/
def WrapReachRead (p : BgpSessionParams) (v : Bytes) (nh : BgpAddr) (addrs : BgpAddrs) : Prop :=
  ∃ (f : Family) (l : U8) (rest : Bytes) (snpas : List Bytes) (nlri : Bytes) (n : Nat), NexthopReadable f ∧
    v = familyWire f ++ l :: rest ∧ NexthopKind f nh ∧ nexthopWire nh <+: rest ∧
    (VpnFamily f ∨ f = .l2Vpls ∨ f = .l2Evpn ∨ nexthopSize f ≤ l.toNat) ∧
    rest.drop (if VpnFamily f then nexthopSize f else l.toNat) = snpasWire snpas ++ nlri ∧ SnpasWF snpas ∧
    WrapAddrs p f nlri addrs n

/-- As `TailCrash`. -/
def WrapTailCrash (p : BgpSessionParams) (f : Family) (t : Bytes) : Prop :=
  ∀ snpas nlri, SnpasWF snpas → t = snpasWire snpas ++ nlri → WrapAddrsCrash p f nlri

/-- As `ReachCrash`. -/
def WrapReachCrash (p : BgpSessionParams) (v : Bytes) : Prop :=
  v.length < 4 ∨ ∃ (f : Family) (l : U8) (rest : Bytes), NexthopReadable f ∧ v = familyWire f ++ l :: rest ∧
    (if VpnFamily f then nexthopSize f ≤ rest.length ∧ WrapTailCrash p f (rest.drop (nexthopSize f))
     else if f = .l2Vpls ∨ f = .l2Evpn then 4 ≤ rest.length ∧ WrapTailCrash p f (rest.drop l.toNat)
     else rest.length < l.toNat ∨ (nexthopSize f ≤ l.toNat ∧ WrapTailCrash p f (rest.drop l.toNat)))

/-- The attribute values that are read, and what they are read as. -/
inductive WrapValueRead (p : BgpSessionParams) : U8 → U8 → Bytes → BgpAttrItem → Prop
  | same (code flags : U8) (v : Bytes) (x : BgpAttrItem) (hc : code ≠ 14 ∧ code ≠ 15 ∧ code ≠ 128)
      (h : ValueRead p code flags v x) : WrapValueRead p code flags v x
  | mpReach (flags : U8) (v : Bytes) (nh : BgpAddr) (addrs : BgpAddrs) (h : WrapReachRead p v nh addrs) :
      WrapValueRead p 14 flags v (.MPUpdates ⟨nh, addrs⟩)
  | mpUnreach (flags : U8) (f : Family) (nlri : Bytes) (addrs : BgpAddrs) (n : Nat) (h : WrapAddrs p f nlri addrs n) :
      WrapValueRead p 15 flags (familyWire f ++ nlri) (.MPWithdraws ⟨addrs⟩)
  | attrSet (flags : U8) (asn : U32) (b : Bytes) (l : List BgpAttrItem) (h32 : p.hasAs32bit = true)
      (h : AttrsRead (WrapValueRead p) b l) : WrapValueRead p 128 flags (be 4 asn.toNat ++ b) (.AttrSet asn l)

/-- The attribute values that crash the decoder. -/
inductive WrapValueCrash (p : BgpSessionParams) : U8 → Bytes → Prop
  | same (code : U8) (v : Bytes) (hc : code ≠ 14 ∧ code ≠ 15 ∧ code ≠ 128) (h : ValueCrash p code v) :
      WrapValueCrash p code v
  | mpReach (v : Bytes) (h : WrapReachCrash p v) : WrapValueCrash p 14 v
  | mpUnreachHead (v : Bytes) (h : v.length < 3) : WrapValueCrash p 15 v
  | mpUnreachNlri (f : Family) (nlri : Bytes) (h : WrapAddrsCrash p f nlri) : WrapValueCrash p 15 (familyWire f ++ nlri)
  | setCut (origin b : Bytes) (l : List BgpAttrItem) (t : Bytes) (h32 : p.hasAs32bit = true)
      (ho : origin.length = 4) (ha : AttrsRead (WrapValueRead p) b l) (ht : CutAttr t) :
      WrapValueCrash p 128 (origin ++ b ++ t)
  | setInner (origin b : Bytes) (l : List BgpAttrItem) (r : RawAttr) (t : Bytes)
      (h32 : p.hasAs32bit = true) (ho : origin.length = 4) (ha : AttrsRead (WrapValueRead p) b l)
      (hw : RawWF r) (hc : WrapValueCrash p r.code r.value) :
      WrapValueCrash p 128 (origin ++ b ++ rawWire r ++ t)

/-- As `NlriIs`. -/
def WrapNlriIs (p : BgpSessionParams) (section_ : Bytes) (x : BgpAddrs) : Prop :=
  ∃ n, WrapAddrs p (sessionFamily p) section_ x n

/-- As `UpdateRead`. -/
def WrapUpdateRead (p : BgpSessionParams) (buf : Bytes) (withdraws : BgpAddrs) (attrs : List BgpAttrItem)
    (updates : BgpAddrs) : Prop :=
  ∃ w a u, buf = updateBytes w a u ∧ w.length ≤ 65535 ∧ a.length ≤ 65535 ∧ WrapNlriIs p w withdraws ∧
    AttrsRead (WrapValueRead p) a attrs ∧ WrapNlriIs p u updates

/-- As `UpdateCrash`. -/
def WrapUpdateCrash (p : BgpSessionParams) (buf : Bytes) : Prop :=
  ∃ w rest, buf = be 2 w.length ++ w ++ rest ∧ w.length ≤ 65535 ∧ rest ≠ [] ∧
    (WrapAddrsCrash p (sessionFamily p) w ∨
      ∃ wd n rest', WrapNlriIs p w wd ∧ rest = be 2 n ++ rest' ∧ n ≤ 65535 ∧ n ≤ rest'.length ∧
        ∃ a l t, rest' = a ++ t ∧ AttrsRead (WrapValueRead p) a l ∧
          ((a.length = n ∧ WrapAddrsCrash p (sessionFamily p) t) ∨
           (a.length < n ∧ CutHeader t) ∨
           ∃ r t', t = rawWire r ++ t' ∧ RawWF r ∧ a.length + (rawWire r).length ≤ n ∧ WrapValueCrash p r.code r.value))

end Zbgp.Spec
