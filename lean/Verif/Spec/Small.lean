import Verif.Model.Small
import Verif.Spec.Wire
import Verif.Spec.Text
import Verif.Spec.Families

/-!
# Route distinguishers of RFC 4364, multicast addresses
-/

namespace Zbgp.Spec

/-- The three kinds of route distinguisher, RFC 4364 section 4.2: type 0 with a two-octet AS number, type 1 with an address,
type 2 with a four-octet AS number. -/
inductive RouteDist
  | as2 (asn : U16) (n : U32)
  | ip (addr : IPv4) (n : U16)
  | as4 (asn : U32) (n : U16)

/-- The eight octets on the wire. -/
def RouteDist.octets : RouteDist → Bytes
  | as2 asn n => be 2 0 ++ be 2 asn.toNat ++ be 4 n.toNat
  | ip addr n => be 2 1 ++ be 4 addr.toNat ++ be 2 n.toNat
  | as4 asn n => be 2 2 ++ be 4 asn.toNat ++ be 2 n.toNat

/-- The usual text: administrator and number with a colon between them. -/
def RouteDist.text : RouteDist → Txt
  | as2 asn n => s!"{asn.toNat}:{n.toNat}".toList
  | ip addr n => s!"{v4String addr}:{n.toNat}".toList
  | as4 asn n => s!"{asn.toNat}:{n.toNat}".toList

/-- 224.0.0.0/4, RFC 5771. -/
def Multicast4 (a : IPv4) : Prop := a.toNat / 2 ^ 28 = 14

/-- 240.0.0.0/4 is reserved, RFC 1112; its last address is the limited broadcast address. -/
def Reserved4 (a : IPv4) : Prop := a.toNat / 2 ^ 28 = 15 ∧ a.toNat ≠ 2 ^ 32 - 1

/-- ff00::/8, RFC 4291. -/
def Multicast6 (a : IPv6) : Prop := a.toNat / 2 ^ 120 = 255

end Zbgp.Spec
