import Verif.Spec.Fresh
import Verif.Model.ReleaseBmp

/-!
# What the buffer held before, for a build without overflow checks
-/

namespace Zbgp.Spec

open Zbgp

/-- the prefix of a FlowSpec component, if it is one, has at most 248 bits -/
def FsShort {T : Type} (len : T → U8) : BgpFlowSpec T → Prop
  | .prefixDst y => (len y).toNat ≤ 248
  | .prefixSrc y => (len y).toNat ≤ 248
  | _ => True

/-- no FlowSpec prefix of 249 bits or more. Every other route is allowed, well-formed or not. -/
def NoLongFlowspec : BgpAddrs → Prop
  | .FS4U v => ∀ x ∈ v, FsShort (fun y : BgpAddrV4 => y.prefixlen) x
  | .FS6U v => ∀ x ∈ v, FsShort (fun y : FS6 => y.ipv6.prefixlen) x
  | .FSV4U v => ∀ x ∈ v, FsShort (fun y : Zbgp.FSV4U => y.pfx.pfx.prefixlen) x
  | _ => True

/-- no AGGREGATOR, and no FlowSpec prefix of 249 bits or more in MP_REACH_NLRI or MP_UNREACH_NLRI -/
def AttrFresh : BgpAttrItem → Prop
  | .AggregatorAS _ => False
  | .MPUpdates u => NoLongFlowspec u.addrs
  | .MPWithdraws u => NoLongFlowspec u.addrs
  | _ => True

/-- the same of what a BMP message carries, and no FQDN capability -/
def BmpFreshRelease : BmpMessage → Prop
  | .RouteMonitoring m => ∀ x ∈ m.update.attrs, AttrFresh x
  | .PeerUpNotification m => NoFqdn m.msg1.caps ∧ NoFqdn m.msg2.caps
  | _ => True

/-- As `sent`: the message is encoded behind 19 octets of the buffer, and `send_message_buf`, without overflow checks, puts the
header into them. The octets handed to the socket. -/
def sentRelease (f : Enc) (ty : BgpMessageType) (buf : Bytes) : Res Bytes := do
  let (buf, n) ← onFrom buf 19 f
  let (_, out) ← BgpSessionParams.sendMessageBufIn .release buf ty n
  .ok out

end Zbgp.Spec
