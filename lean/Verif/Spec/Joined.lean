import Verif.Model.Addrs

/-!
# Two lists of routes, one behind the other
-/

namespace Zbgp.Spec

open Zbgp

/-- The three are lists of routes of the same kind, and the third one is the first one followed by the second one. -/
def Joined : BgpAddrs → BgpAddrs → BgpAddrs → Prop
  | .IPV4U a, .IPV4U b, .IPV4U c => c = a ++ b
  | .IPV4UP a, .IPV4UP b, .IPV4UP c => c = a ++ b
  | .IPV4M a, .IPV4M b, .IPV4M c => c = a ++ b
  | .IPV4MP a, .IPV4MP b, .IPV4MP c => c = a ++ b
  | .IPV4LU a, .IPV4LU b, .IPV4LU c => c = a ++ b
  | .IPV4LUP a, .IPV4LUP b, .IPV4LUP c => c = a ++ b
  | .VPNV4U a, .VPNV4U b, .VPNV4U c => c = a ++ b
  | .VPNV4UP a, .VPNV4UP b, .VPNV4UP c => c = a ++ b
  | .VPNV4M a, .VPNV4M b, .VPNV4M c => c = a ++ b
  | .VPNV4MP a, .VPNV4MP b, .VPNV4MP c => c = a ++ b
  | .IPV4MDT a, .IPV4MDT b, .IPV4MDT c => c = a ++ b
  | .IPV4MDTP a, .IPV4MDTP b, .IPV4MDTP c => c = a ++ b
  | .IPV6U a, .IPV6U b, .IPV6U c => c = a ++ b
  | .IPV6UP a, .IPV6UP b, .IPV6UP c => c = a ++ b
  | .IPV6M a, .IPV6M b, .IPV6M c => c = a ++ b
  | .IPV6MP a, .IPV6MP b, .IPV6MP c => c = a ++ b
  | .IPV6LU a, .IPV6LU b, .IPV6LU c => c = a ++ b
  | .IPV6LUP a, .IPV6LUP b, .IPV6LUP c => c = a ++ b
  | .VPNV6U a, .VPNV6U b, .VPNV6U c => c = a ++ b
  | .VPNV6UP a, .VPNV6UP b, .VPNV6UP c => c = a ++ b
  | .VPNV6M a, .VPNV6M b, .VPNV6M c => c = a ++ b
  | .VPNV6MP a, .VPNV6MP b, .VPNV6MP c => c = a ++ b
  | .IPV6MDT a, .IPV6MDT b, .IPV6MDT c => c = a ++ b
  | .IPV6MDTP a, .IPV6MDTP b, .IPV6MDTP c => c = a ++ b
  | .L2VPLS a, .L2VPLS b, .L2VPLS c => c = a ++ b
  | .MVPN a, .MVPN b, .MVPN c => c = a ++ b
  | .EVPN a, .EVPN b, .EVPN c => c = a ++ b
  | .FS4U a, .FS4U b, .FS4U c => c = a ++ b
  | .FSV4U a, .FSV4U b, .FSV4U c => c = a ++ b
  | .FS6U a, .FS6U b, .FS6U c => c = a ++ b
  | _, _, _ => False

end Zbgp.Spec
