import Verif.Model.Addrs
import Verif.Model.Open

/-!
# Model of small predicates
-/

namespace Zbgp

/-- `src/afi/ipv4.rs:128-130` `is_multicast`. -/
def BgpAddrV4.isMulticast (x : BgpAddrV4) : Bool :=
  ipv4Octets x.addr != [255, 255, 255, 255] && (ipv4Octets x.addr).headD 0 ≥ 224

/-- `src/afi/ipv6.rs:137-139` `is_multicast`. -/
def BgpAddrV6.isMulticast (x : BgpAddrV6) : Bool := (ipv6Octets x.addr).headD 0 == 255

end Zbgp
