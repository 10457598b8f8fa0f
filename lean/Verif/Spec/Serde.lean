import Verif.Spec.Attrs
import Verif.Model.Serde

/-!
# What serialisation should do

Nothing here uses a serializer or a deserializer, except where a document is described by its parts.
-/

namespace Zbgp.Spec

open _root_.Zbgp.Std Ser

/-- The number of FlowSpec rules in an NLRI collection. -/
def flowRules : BgpAddrs → Nat
  | .FS4U l => l.length
  | .FS6U l => l.length
  | .FSV4U l => l.length
  | _ => 0

mutual
/-- The number of FlowSpec rules in an attribute and the attributes nested in it. -/
def rulesIn : BgpAttrItem → Nat
  | .MPUpdates x => flowRules x.addrs
  | .MPWithdraws x => flowRules x.addrs
  | .AttrSet _ l => rulesInAll l
  | _ => 0
/-- The number of FlowSpec rules in a list of attributes. -/
def rulesInAll : List BgpAttrItem → Nat
  | [] => 0
  | x :: l => rulesIn x + rulesInAll l
end

mutual
/-- The sets of communities in an attribute are listed as sets are: ascending, each member once. -/
def SetsListed : BgpAttrItem → Prop
  | .CommunityList x => Ascending communityNumber x.value
  | .LargeCommunityList x => Ascending largeCommunityNumber x.value
  | .ExtCommunityList x => Ascending extCommunityNumber x.value
  | .AttrSet _ l => AllSetsListed l
  | _ => True
/-- The same for every attribute of a list. -/
def AllSetsListed : List BgpAttrItem → Prop
  | [] => True
  | x :: l => SetsListed x ∧ AllSetsListed l
end

/-- The name under which each kind of attribute is written. -/
def attrName : BgpAttrItem → String
  | .Origin _ => "Origin"
  | .ASPath _ => "ASPath"
  | .NextHop _ => "NextHop"
  | .MED _ => "MED"
  | .LocalPref _ => "LocalPref"
  | .AtomicAggregate _ => "AtomicAggregate"
  | .AggregatorAS _ => "AggregatorAS"
  | .CommunityList _ => "CommunityList"
  | .OriginatorID _ => "OriginatorID"
  | .ClusterList _ => "ClusterList"
  | .MPUpdates _ => "MPUpdates"
  | .MPWithdraws _ => "MPWithdraws"
  | .ExtCommunityList _ => "ExtCommunityList"
  | .LargeCommunityList _ => "LargeCommunityList"
  | .PMSITunnel _ => "PMSITunnel"
  | .AttrSet _ _ => "AttrSet"
  | .Connector _ => "Connector"
  | .Unknown _ => "Unknown"

/-- The field of this name in a document. -/
def entry (name : String) : Doc → Option Doc
  | .map es => es.lookup name
  | _ => none

/-- The document is a map of exactly these two fields, in either order, or the two values in a row. -/
def TwoFields (d : Doc) (n1 n2 : String) (a b : Doc) : Prop :=
  d = .map [(n1, a), (n2, b)] ∨ d = .map [(n2, b), (n1, a)] ∨ d = .seq [a, b]

end Zbgp.Spec
