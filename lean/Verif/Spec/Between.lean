import Verif.Spec.ReturnsMsg

/-!
# What comes back when the two ends of a session do not agree about its parameters

A message is sent by an end with the parameters `p` and read by an end with the parameters `q`.
-/

namespace Zbgp.Spec

open Zbgp

/-- AS paths: the empty one; every path if both ends use 32-bit AS numbers; and, because the segment header is not looked at,
paths of one number sent by an end with 16-bit numbers to one with 32-bit numbers, if the upper half of the number happens to
be the octets of the header (AS_SEQUENCE, one number). -/
def PathBetween (p q : BgpSessionParams) (l : List BgpAS) : Prop :=
  l = [] ∨ (q.hasAs32bit = true ∧ (p.hasAs32bit = true ∨ ∃ a, l = [a] ∧ a.value.toNat / 65536 = 0x0201))

/-- Attributes: NEXT_HOP has to be of the family both ends think the session is of; ORIGINATOR_ID of that of the sender, and an
IPv6 one is only read as such by an end with an IPv6 session. All others depend on the reader only. -/
def ValueBetween (p q : BgpSessionParams) : BgpAttrItem → Prop
  | .ASPath x => PathBetween p q x.value
  | .NextHop x => addrFamily x.value = p.peerMode ∧ addrFamily x.value = q.peerMode
  | .OriginatorID x => addrFamily x.value = p.peerMode ∧ (addrFamily x.value = .IPv4 ∨ q.peerMode = .IPv6)
  | x => ValueBack q x

/-- The collections of prefixes of the session that have no prefixes. -/
def NoPrefixes (x : BgpAddrs) : Prop := x = .IPV4U [] ∨ x = .IPV4UP [] ∨ x = .IPV6U [] ∨ x = .IPV6UP []

/-- Withdrawn and announced prefixes: those of the reader's session, and, if the sender thinks it is of the other family, none. -/
def SectionBetween (p q : BgpSessionParams) (x : BgpAddrs) : Prop :=
  CollectionBack q (sessionFamily q) x ∧ (p.peerMode = q.peerMode ∨ NoPrefixes x)

/-- Messages: sections and attributes as above; lengths as in `MessageBack`, for the octets the sender writes. -/
def MessageBetween (p q : BgpSessionParams) (m : BgpUpdateMessage) : Prop :=
  SectionBetween p q m.withdraws ∧ SectionBetween p q m.updates ∧ (∀ a ∈ m.attrs, ValueBetween p q a) ∧
  (∃ w, sectionFate .release p m.withdraws = .octets w ∧ w.length ≤ 65535) ∧
  ∃ a, attrsFate .release p 0 m.attrs = .octets a ∧ a.length ≤ 65535

/-- The prefixes and routes of an attribute, if it has any, are such that the overflow checks do not fire. -/
def AttrRoutesOk : BgpAttrItem → Prop
  | .MPUpdates u => AddrsWF u.addrs
  | .MPWithdraws w => AddrsWF w.addrs
  | _ => True

/-- The same for a message. -/
def RoutesOk (m : BgpUpdateMessage) : Prop :=
  AddrsWF m.withdraws ∧ AddrsWF m.updates ∧ ∀ a ∈ m.attrs, AttrRoutesOk a

end Zbgp.Spec
