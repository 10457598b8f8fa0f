import Verif.Spec.AttrValues

/-!
# Which UPDATE messages are read, as what, and which bring the program down

Only the data types of the model are used, none of its functions.
-/

namespace Zbgp.Spec

open Zbgp

/-- The prefixes in a section, of the family of the session, are `x`. -/
def NlriIs (p : BgpSessionParams) (section_ : Bytes) (x : BgpAddrs) : Prop :=
  ∃ n, AddrsRead p (sessionFamily p) section_ x n

/-- A message: a size and as many octets of withdrawn prefixes, a size and as many octets of attributes, and announced
prefixes up to its end. -/
def UpdateRead (p : BgpSessionParams) (buf : Bytes) (withdraws : BgpAddrs) (attrs : List BgpAttrItem)
    (updates : BgpAddrs) : Prop :=
  ∃ w a u, buf = updateBytes w a u ∧ w.length ≤ 65535 ∧ a.length ≤ 65535 ∧ NlriIs p w withdraws ∧
    AttrsRead (ValueRead p) a attrs ∧ NlriIs p u updates

/-- Reading the sections one after the other, the first thing that is not accepted is: withdrawn or announced prefixes, or
an attribute value, of those that crash the decoder, or an attribute header cut off by the end of the message. -/
def UpdateCrash (p : BgpSessionParams) (buf : Bytes) : Prop :=
  ∃ w rest, buf = be 2 w.length ++ w ++ rest ∧ w.length ≤ 65535 ∧ rest ≠ [] ∧
    (AddrsCrash p (sessionFamily p) w ∨
      ∃ wd n rest', NlriIs p w wd ∧ rest = be 2 n ++ rest' ∧ n ≤ 65535 ∧ n ≤ rest'.length ∧
        ∃ a l t, rest' = a ++ t ∧ AttrsRead (ValueRead p) a l ∧
          ((a.length = n ∧ AddrsCrash p (sessionFamily p) t) ∨
           (a.length < n ∧ CutHeader t) ∨
           ∃ r t', t = rawWire r ++ t' ∧ RawWF r ∧ a.length + (rawWire r).length ≤ n ∧ ValueCrash p r.code r.value))

end Zbgp.Spec
