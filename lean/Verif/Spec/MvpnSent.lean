import Verif.Spec.Families

/-!
# The octets sent for MVPN routes

What the library sends for each type of route. It departs from RFC 6514 (`mvpnBody`) for types 3 to 7: source, group and
rendezvous point are sent without their lengths, and a leaf route is sent without type and length of the route it answers.
-/

namespace Zbgp.Spec

open Zbgp

/-- Type 3 without the lengths of source and group. -/
def mvpn3Sent (r : BgpMVPN3) : Bytes := rdBody r.rd ++ ipBody r.source ++ ipBody r.group ++ ipBody r.originator

def mvpnSentBody : BgpMVPN → Bytes
  | .t1 r => rdBody r.rd ++ ipBody r.originator
  | .t2 r => rdBody r.rd ++ be 4 r.asn.toNat
  | .t3 r => mvpn3Sent r
  | .t4 r => mvpn3Sent r.spmsi ++ ipBody r.originator
  | .t5 r => rdBody r.rd ++ ipBody r.source ++ ipBody r.group
  | .t6 r => rdBody r.rd ++ be 4 r.asn.toNat ++ ipBody r.rp ++ ipBody r.group
  | .t7 r => rdBody r.rd ++ be 4 r.asn.toNat ++ ipBody r.rp ++ ipBody r.group

/-- Type, length in octets, body. -/
def mvpnSent (x : BgpMVPN) : Bytes := mvpnType x :: BitVec.ofNat 8 (mvpnSentBody x).length :: mvpnSentBody x

end Zbgp.Spec
