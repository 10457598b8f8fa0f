import Verif.Model.Debug
import Verif.Model.Display

/-!
# What `{}` prints for attributes and next hops

`u` is only passed on to `{:?}` of values inside.
-/

namespace Zbgp

open Std

/-- `src/message/attributes/origin.rs:24-32`. -/
def BgpAttrOrigin.display : BgpAttrOrigin → Txt
  | .Igp => "Igp".toList
  | .Egp => "Egp".toList
  | .Incomplete => "Incomplete".toList

/-- `src/message/attributes/origin.rs:72-86`. -/
def BgpOrigin.display (x : BgpOrigin) : Txt := match x.value with
  | .Igp => "origin igp".toList
  | .Egp => "origin egp".toList
  | .Incomplete => "origin incomplete".toList

/-- `src/message/attributes/pmsitunnelattr.rs:25-33,41-45,53-57,68-77`. -/
def BgpPMSITunnelAttr.display : BgpPMSITunnelAttr → Txt
  | .None => []
  | .RSVPTe e r t p => "RSVP-TE P2MP LSP:".toList ++ (showV4 e ++ ':' :: (dec r.toNat ++ ':' :: (dec t.toNat ++ ':' :: showV4 p)))
  | .IngressRepl e => "Ingress replication:".toList ++ showV4 e
  | .MLDP r _ => "mLDP P2MP LSP:".toList ++ showIp r

/-- The `Display` of the types in `BgpAttrItem`, which itself has none:
`src/message/attributes/aspath.rs:125-129`,
`src/message/attributes/nexthop.rs:49-53`,
`src/message/attributes/med.rs:44-48`,
`src/message/attributes/localpref.rs:44-48`,
`src/message/attributes/atomicaggregate.rs:44-48`,
`src/message/attributes/aggregatoras.rs:50-54`,
`src/message/attributes/community.rs:119-123` and `src/message/attributes/community.rs:262-266`,
`src/message/attributes/originatorid.rs:50-54`,
`src/message/attributes/clusterlist.rs:45-49`,
`src/message/attributes/multiproto.rs:159-163` and `src/message/attributes/multiproto.rs:217-221`,
`src/message/attributes/extcommunity.rs:212-216`,
`src/message/attributes/pmsitunnelattr.rs:198-206`,
`src/message/attributes/attrset.rs:73-77`,
`src/message/attributes/connector.rs:53-61`,
`src/message/attributes/unknown.rs:56-64`. -/
def BgpAttrItem.display (u : UnicodeTables) : BgpAttrItem → Txt
  | .Origin x => x.display
  | .ASPath x => "ASPath ".toList ++ (Dbg.vec RDebug.dbg x.value).render u
  | .NextHop x => "NextHop ".toList ++ showIp x.value
  | .MED x => "BgpMED ".toList ++ dec x.value.toNat
  | .LocalPref x => "BgpLocalpref ".toList ++ dec x.value.toNat
  | .AtomicAggregate x => showIp x.value
  | .AggregatorAS x => "BgpAggregatorAS ".toList ++ (dec x.asn.toNat ++ ' ' :: showV4 x.addr)
  | .CommunityList x => "BgpCommunityList ".toList ++ (Dbg.bset RDebug.dbg x.value).render u
  | .OriginatorID x => "BgpOriginatorID ".toList ++ showIp x.value
  | .ClusterList x => "BgpClusterList ".toList ++ (Dbg.vec .ip x.value).render u
  | .MPUpdates x => "BgpMPUpdates (".toList ++ (debugText u x.nexthop ++ ' ' :: (debugText u x.addrs ++ [')']))
  | .MPWithdraws x => "BgpMPWithdraws (".toList ++ (debugText u x.addrs ++ [')'])
  | .ExtCommunityList x => "BgpExtCommunityList ".toList ++ (Dbg.bset RDebug.dbg x.value).render u
  | .LargeCommunityList x => "BgpLargeCommunityList ".toList ++ (Dbg.bset RDebug.dbg x.value).render u
  | .PMSITunnel x => "BgpPMSITunnel flags=".toList ++ (dec x.flags.toNat ++ (" type=".toList ++ (dec x.tunnelType.toNat ++
      (" label=".toList ++ (x.label.display ++ (" attribute=".toList ++ x.tunnelAttribute.display))))))
  | .AttrSet asn attrs => "BgpAttrSet AS".toList ++ (dec asn.toNat ++ ' ' :: (Dbg.list (BgpAttrItem.dbgs attrs)).render u)
  | .Connector x => "BgpConnector(".toList ++ (dec x.asn.toNat ++ ':' :: (showV4 x.addr ++ (" @".toList ++ (showV4 x.orig ++ [')']))))
  | .Unknown x => "PA unknown(tc=".toList ++ (dec x.params.typecode.toNat ++ (",flg=".toList ++ (dec x.params.flags.toNat ++ ' ' ::
      ((Dbg.vec .num x.value).render u ++ [')']))))

/-- `src/afi/mod.rs:1080-1084`. -/
def BgpAddrs.display (u : UnicodeTables) (x : BgpAddrs) : Txt := "BgpAddrs ".toList ++ debugText u x

/-- `src/afi/mod.rs:383-395`. -/
def BgpAddr.display : BgpAddr → Txt
  | .None => "<>".toList
  | .V4 a => showV4 a
  | .V6 a => showV6 a
  | .V4RD x => RDisplay.display x
  | .V6RD x => RDisplay.display x
  | .L2 x => RDisplay.display x
  | .MVPN x => RDisplay.display x

/-- `src/message/notification.rs:119-130`. `error_text()` is a `String`, printed with `{:?}`; the closing parenthesis is in the
code without an opening one. -/
def BgpNotificationMessage.display (u : UnicodeTables) (m : BgpNotificationMessage) : Txt :=
  "BgpNotificationMessage ".toList ++ (Dbg.render u (.str (m.errorText.map Char.toNat)) ++ (" code=".toList ++
    (dec m.errorCode.toNat ++ (" subcode=".toList ++ (dec m.errorSubcode.toNat ++ (" data=".toList ++
      (dec m.data.toNat ++ [')'])))))))

/-- `src/afi/flowspec.rs:421-425`. -/
def BgpFlowSpec.display {T : Type} [RDebug T] (u : UnicodeTables) (x : BgpFlowSpec T) : Txt := debugText u x

end Zbgp
