import Verif.Spec.UpdateReads
import Verif.Spec.OpenReads

/-!
# What is read of a message that was cut off
-/

namespace Zbgp.Spec

open Zbgp

/-- Two lists of routes of the same kind, of which the second one begins with the first one. -/
def Begins : BgpAddrs → BgpAddrs → Prop
  | .None, .None => True
  | .IPV4U a, .IPV4U b => a <+: b
  | .IPV4UP a, .IPV4UP b => a <+: b
  | .IPV4M a, .IPV4M b => a <+: b
  | .IPV4MP a, .IPV4MP b => a <+: b
  | .IPV4LU a, .IPV4LU b => a <+: b
  | .IPV4LUP a, .IPV4LUP b => a <+: b
  | .VPNV4U a, .VPNV4U b => a <+: b
  | .VPNV4UP a, .VPNV4UP b => a <+: b
  | .VPNV4M a, .VPNV4M b => a <+: b
  | .VPNV4MP a, .VPNV4MP b => a <+: b
  | .IPV4MDT a, .IPV4MDT b => a <+: b
  | .IPV4MDTP a, .IPV4MDTP b => a <+: b
  | .IPV6U a, .IPV6U b => a <+: b
  | .IPV6UP a, .IPV6UP b => a <+: b
  | .IPV6M a, .IPV6M b => a <+: b
  | .IPV6MP a, .IPV6MP b => a <+: b
  | .IPV6LU a, .IPV6LU b => a <+: b
  | .IPV6LUP a, .IPV6LUP b => a <+: b
  | .VPNV6U a, .VPNV6U b => a <+: b
  | .VPNV6UP a, .VPNV6UP b => a <+: b
  | .VPNV6M a, .VPNV6M b => a <+: b
  | .VPNV6MP a, .VPNV6MP b => a <+: b
  | .IPV6MDT a, .IPV6MDT b => a <+: b
  | .IPV6MDTP a, .IPV6MDTP b => a <+: b
  | .L2VPLS a, .L2VPLS b => a <+: b
  | .MVPN a, .MVPN b => a <+: b
  | .EVPN a, .EVPN b => a <+: b
  | .FS4U a, .FS4U b => a <+: b
  | .FSV4U a, .FSV4U b => a <+: b
  | .FS6U a, .FS6U b => a <+: b
  | _, _ => False

end Zbgp.Spec
