import Verif.Spec.Returns
import Verif.Spec.Relay

/-!
# Which collections of NLRI, attributes and messages come back from the wire without overflow checks
-/

namespace Zbgp.Spec

open Zbgp

/-- The labels of EVPN routes of types 1 and 2: none, or at most 31 that can be told apart from their end. The bits of 32 labels
are a multiple of 256, at which the reader takes the stack as ended. -/
def EvpnLabelsBack (ls : List U32) : Prop := ls = [] ∨ (LabelStackWF ls ∧ ls.length ≤ 31)

/-- EVPN routes: the others as with overflow checks. -/
def EvpnBack : BgpEVPN → Prop
  | .evpn1 r => EvpnLabelsBack r.labels.labels
  | .evpn2 r => EvpnLabelsBack r.labels.labels
  | .evpn3 _ => True
  | .evpn4 _ => True
  | .evpn5 r => EvpnWF (.evpn5 r) ∧ ¬ EvpnV6Prefix (.evpn5 r)

/-- The collections whose items come back: prefixes as C119 says, EVPN as above, MVPN and FlowSpec as with overflow checks, and of
the VPLS collections only the empty one. -/
def ItemsBack : BgpAddrs → Prop
  | .None => False
  | .IPV4U v => ∀ x ∈ v, ReturnsUnchecked.Back x
  | .IPV4UP v => ∀ x ∈ v, ReturnsUnchecked.Back x.nlri
  | .IPV4M v => ∀ x ∈ v, ReturnsUnchecked.Back x
  | .IPV4MP v => ∀ x ∈ v, ReturnsUnchecked.Back x.nlri
  | .IPV4LU v => ∀ x ∈ v, ReturnsUnchecked.Back x
  | .IPV4LUP v => ∀ x ∈ v, ReturnsUnchecked.Back x.nlri
  | .VPNV4U v => ∀ x ∈ v, ReturnsUnchecked.Back x
  | .VPNV4UP v => ∀ x ∈ v, ReturnsUnchecked.Back x.nlri
  | .VPNV4M v => ∀ x ∈ v, ReturnsUnchecked.Back x
  | .VPNV4MP v => ∀ x ∈ v, ReturnsUnchecked.Back x.nlri
  | .IPV4MDT v => ∀ x ∈ v, ReturnsUnchecked.Back x
  | .IPV4MDTP v => ∀ x ∈ v, ReturnsUnchecked.Back x.nlri
  | .IPV6U v => ∀ x ∈ v, ReturnsUnchecked.Back x
  | .IPV6UP v => ∀ x ∈ v, ReturnsUnchecked.Back x.nlri
  | .IPV6M v => ∀ x ∈ v, ReturnsUnchecked.Back x
  | .IPV6MP v => ∀ x ∈ v, ReturnsUnchecked.Back x.nlri
  | .IPV6LU v => ∀ x ∈ v, ReturnsUnchecked.Back x
  | .IPV6LUP v => ∀ x ∈ v, ReturnsUnchecked.Back x.nlri
  | .VPNV6U v => ∀ x ∈ v, ReturnsUnchecked.Back x
  | .VPNV6UP v => ∀ x ∈ v, ReturnsUnchecked.Back x.nlri
  | .VPNV6M v => ∀ x ∈ v, ReturnsUnchecked.Back x
  | .VPNV6MP v => ∀ x ∈ v, ReturnsUnchecked.Back x.nlri
  | .IPV6MDT v => ∀ x ∈ v, ReturnsUnchecked.Back x
  | .IPV6MDTP v => ∀ x ∈ v, ReturnsUnchecked.Back x.nlri
  | .L2VPLS v => v = []
  | .EVPN v => ∀ x ∈ v, EvpnBack x
  | .MVPN v => AddrsWF (.MVPN v)
  | .FS4U v => AddrsWF (.FS4U v) ∧ addrsReceived (.FS4U v) = .FS4U v
  | .FS6U v => AddrsWF (.FS6U v) ∧ addrsReceived (.FS6U v) = .FS6U v
  | .FSV4U v => AddrsWF (.FSV4U v)

/-- The collection is one of the family whose items come back, with path identifiers exactly if the session expects them in the
octets that are sent. -/
def CollectionBack (p : BgpSessionParams) (f : Family) (x : BgpAddrs) : Prop :=
  ∃ addpath, kindOf x = some (f, addpath) ∧ ItemsBack x ∧
    (hasAddPath f = true → ∀ w, nlriFate .release x = .octets w → AddPathExpected p (familyCode f) w = addpath)

/-- The attributes whose value comes back: those with NLRI if these do; the others as with overflow checks. -/
def ValueBack (p : BgpSessionParams) : BgpAttrItem → Prop
  | .MPUpdates u => ∃ f, CollectionBack p f u.addrs ∧ NexthopKind f u.nexthop ∧ NexthopReadable f
  | .MPWithdraws w => ∃ f, CollectionBack p f w.addrs
  | x => AttrOk p x

/-- The messages that come back: prefixes of the family of the session and attributes that do; the withdrawn prefixes fit the
length field, as do all attributes together and each of them. -/
def MessageBack (p : BgpSessionParams) (m : BgpUpdateMessage) : Prop :=
  CollectionBack p (sessionFamily p) m.withdraws ∧ CollectionBack p (sessionFamily p) m.updates ∧
  (∀ a ∈ m.attrs, ValueBack p a) ∧
  (∃ w, sectionFate .release p m.withdraws = .octets w ∧ w.length ≤ 65535) ∧
  ∃ a, attrsFate .release p 0 m.attrs = .octets a ∧ a.length ≤ 65535

end Zbgp.Spec
