import Verif.Spec.Update
import Verif.Spec.MvpnSent
import Verif.Model.Release

/-!
# What comes of encoding an UPDATE, for every value

The other specifications say what is sent for values that can be put on the wire.  Here every value has an outcome: the octets
that are sent (which need not be the wire form of the value), an error, or a panic.  The outcome depends on the build: `.checked` is
one with overflow checks, `.release` one without.  Only the data types of the model are used, none of its functions.
-/

namespace Zbgp.Spec

open Zbgp

/-- What comes of encoding a value into a buffer with enough room: octets are sent, where `none` is an octet that is counted but
not written, so that whatever the buffer held there is sent; an error is returned; or the encoder panics. -/
inductive Fate
  | sent (w : List (Option U8))
  | refused
  | crash
deriving DecidableEq, Repr

namespace Fate

/-- The octets are sent, all of them written. -/
def octets (w : Bytes) : Fate := .sent (w.map some)

/-- First the one, then the other. -/
def andThen : Fate → Fate → Fate
  | .sent w, .sent v => .sent (w ++ v)
  | .sent _, o => o
  | o, _ => o

/-- One after the other. -/
def all {α : Type} (fate : α → Fate) : List α → Fate
  | [] => .sent []
  | x :: l => (fate x).andThen (all fate l)

end Fate

/-- The octets are those of the pattern, where it gives any. -/
def Fits : List (Option U8) → Bytes → Prop
  | [], [] => True
  | o :: pattern, b :: w => (o = none ∨ o = some b) ∧ Fits pattern w
  | _, _ => False

/-- In buffers of at least `room` octets the encoder comes to this end: it succeeds, the reported octets at the start of the
buffer are those of the pattern, and the buffer keeps its size; or it returns an error; or it panics. -/
def EndsIn (f : Enc) (room : Nat) : Fate → Prop
  | .sent pattern => ∀ buf : Bytes, room ≤ buf.length →
      ∃ w rest, Fits pattern w ∧ f buf = .ok (w ++ rest, w.length) ∧ (w ++ rest).length = buf.length
  | .refused => ∀ buf : Bytes, room ≤ buf.length → (f buf).IsErr
  | .crash => ∀ buf : Bytes, room ≤ buf.length → f buf = .panic

/-- Two outcomes are the same kind of outcome, and if octets are sent, as many, and no octet is given two values. -/
def Fate.Agree : Fate → Fate → Prop
  | .sent v, .sent w => v.length = w.length ∧ ∃ o : Bytes, Fits v o ∧ Fits w o
  | .refused, .refused => True
  | .crash, .crash => True
  | _, _ => False

/-- The encoder comes to this end in all buffers that are large enough. -/
def Ends (f : Enc) (fate : Fate) : Prop := ∃ room, EndsIn f room fate

/-! ## Prefixes -/

/-- The length octet sent for a prefix of some kind; nothing if there is a panic. -/
class LengthOctet (T : Type) where
  octet : T → Option Nat

/-- At most 32 bits. -/
instance : LengthOctet BgpAddrV4 where
  octet x := if x.prefixlen.toNat ≤ 32 then some x.prefixlen.toNat else none

/-- At most 128 bits. -/
instance : LengthOctet BgpAddrV6 where
  octet x := if x.prefixlen.toNat ≤ 128 then some x.prefixlen.toNat else none

instance : LengthOctet BgpMdtV4 where
  octet x := if x.addr.prefixlen.toNat ≤ 32 then some (x.addr.prefixlen.toNat + 32) else none

/-- At most 127 bits: with 128 the length does not fit in an octet. -/
instance : LengthOctet BgpMdtV6 where
  octet x := if x.addr.prefixlen.toNat ≤ 127 then some (x.addr.prefixlen.toNat + 128) else none

/-- 24 for each label, reduced to an octet, and the length of the prefix: their sum has to be an octet. -/
instance {T : Type} [LengthOctet T] : LengthOctet (Labeled T) where
  octet x :=
    match LengthOctet.octet x.pfx with
    | some n => if 24 * x.labels.labels.length % 256 + n < 256 then some (24 * x.labels.labels.length % 256 + n) else none
    | none => none

/-- 64 for the route distinguisher and the length of the rest. -/
instance {T : Type} [LengthOctet T] : LengthOctet (WithRd T) where
  octet x :=
    match LengthOctet.octet x.pfx with
    | some n => if 64 + n < 256 then some (64 + n) else none
    | none => none

/-- The octets of an address of `n` octets with prefix length `p` without overflow checks: those of the prefix; none if `p` is 249
or more, where the number of octets comes out as zero; nothing for other lengths that are too large, where there is a panic. -/
def uncheckedOctets (n a p : Nat) : Option Bytes :=
  if p ≤ 8 * n then some (prefixBody n a p) else if 249 ≤ p then some [] else none

/-- The length octet and the octets behind it that are sent for a prefix of some kind without overflow checks; nothing if there is
a panic. -/
class UncheckedForm (T : Type) where
  form : T → Option (Nat × Bytes)

instance : UncheckedForm BgpAddrV4 where
  form x := (uncheckedOctets 4 x.addr.toNat x.prefixlen.toNat).map fun b => (x.prefixlen.toNat, b)

instance : UncheckedForm BgpAddrV6 where
  form x := (uncheckedOctets 16 x.addr.toNat x.prefixlen.toNat).map fun b => (x.prefixlen.toNat, b)

instance : UncheckedForm BgpMdtV4 where
  form x := (uncheckedOctets 4 x.addr.addr.toNat x.addr.prefixlen.toNat).map fun b =>
    ((x.addr.prefixlen.toNat + 32) % 256, b ++ be 4 x.group.toNat)

instance : UncheckedForm BgpMdtV6 where
  form x := (uncheckedOctets 16 x.addr.addr.toNat x.addr.prefixlen.toNat).map fun b =>
    ((x.addr.prefixlen.toNat + 128) % 256, b ++ be 16 x.group.toNat)

/-- All labels are sent; the sum of the bits is reduced to an octet. -/
instance {T : Type} [UncheckedForm T] : UncheckedForm (Labeled T) where
  form x := (UncheckedForm.form x.pfx).map fun f =>
    ((24 * x.labels.labels.length + f.1) % 256, labelsBody x.labels.labels ++ f.2)

instance {T : Type} [UncheckedForm T] : UncheckedForm (WithRd T) where
  form x := (UncheckedForm.form x.pfx).map fun f => ((64 + f.1) % 256, rdBody x.rd ++ f.2)

section prefixes
variable {T : Type} [NlriKind T] [LengthOctet T] [UncheckedForm T]

/-- The length octet and the octets behind it that are sent for a prefix in a build. With overflow checks these are all octets of
labels, route distinguisher and address. -/
def prefixForm (m : Build) (x : T) : Option (Nat × Bytes) :=
  match m with
  | .checked => (LengthOctet.octet x).map fun n => (n, NlriKind.body x)
  | .release => UncheckedForm.form x

/-- A prefix: its length octet, then its octets. -/
def prefixFate (m : Build) (x : T) : Fate :=
  match prefixForm m x with
  | some (n, b) => .octets (BitVec.ofNat 8 n :: b)
  | none => .crash

/-- A prefix with path identifier. -/
def pathIdFate (m : Build) (x : WithPathId T) : Fate :=
  match prefixForm m x.nlri with
  | some (n, b) => .octets (be 4 x.pathid.toNat ++ BitVec.ofNat 8 n :: b)
  | none => .crash

end prefixes

/-! ## VPLS, EVPN, FlowSpec -/

/-- A VPLS item: its wire form without the last two octets. -/
def vplsFate (x : BgpAddrL2) : Fate := .octets ((vplsWire x).take (vplsBody x).length)

/-- The body of an EVPN route as it is sent. A prefix route for IPv6 goes without its gateway; one whose prefix and gateway are
of different families is refused. -/
def evpnSentBody : BgpEVPN → Option Bytes
  | .evpn5 r =>
    match r.pfx, r.gwIp with
    | .v4 _, .v4 _ => some (evpnBody (.evpn5 r))
    | .v6 p, .v6 _ => some (rdBody r.rd ++ esiBody r.esiType r.esi ++ be 4 r.etherTag.toNat ++ r.len :: be 16 p.toNat ++
        labelsBody r.labels.labels)
    | _, _ => none
  | x => some (evpnBody x)

/-- Type, length, body; a body of more than 255 octets is refused. -/
def evpnFate (x : BgpEVPN) : Fate :=
  match evpnSentBody x with
  | some b => if b.length ≤ 255 then .octets (evpnType x :: BitVec.ofNat 8 b.length :: b) else .refused
  | none => .refused

/-- A prefix component of a flow specification that can be sent: at most 32 or 128 bits. -/
class FsSendable (T : Type) where
  sendable : T → Bool

instance : FsSendable BgpAddrV4 where
  sendable x := decide (x.prefixlen.toNat ≤ 32)
instance : FsSendable FS6 where
  sendable x := decide (x.ipv6.prefixlen.toNat ≤ 128)
instance : FsSendable FSV4U where
  sendable x := decide (x.pfx.pfx.prefixlen.toNat ≤ 32)

/-- What is written of a prefix component without overflow checks, and how many octets it is given; nothing if there is a panic. -/
class FsUnchecked (T : Type) where
  written : T → Option Bytes
  given : T → Nat

instance : FsUnchecked BgpAddrV4 where
  written x := (uncheckedOctets 4 x.addr.toNat x.prefixlen.toNat).map fun b => x.prefixlen :: b
  given x := 1 + octets x.prefixlen.toNat
instance : FsUnchecked FS6 where
  written x := (uncheckedOctets 16 x.ipv6.addr.toNat x.ipv6.prefixlen.toNat).map fun b => x.ipv6.prefixlen :: x.offset :: b
  given x := 2 + octets x.ipv6.prefixlen.toNat
instance : FsUnchecked FSV4U where
  written x := (uncheckedOctets 4 x.pfx.pfx.addr.toNat x.pfx.pfx.prefixlen.toNat).map fun b => [0, 0] ++ rdBody x.pfx.rd ++ b
  given x := 10 + octets x.pfx.pfx.prefixlen.toNat

/-- The length announced for a list of numeric operators: two octets more than one, three or five for each. -/
def valsAnnounced (v : FSOperVec FSOperValItem) : Nat :=
  2 + (v.items.map fun i => if i.value.toNat < 2 ^ 8 then 1 else if i.value.toNat < 2 ^ 16 then 3 else 5).sum

/-- The length announced for a list of bit mask operators: two octets more than one, two, three or five for each. -/
def masksAnnounced (v : FSOperVec FSOperMaskItem) : Nat :=
  2 + (v.items.map fun i => if i.value.toNat < 2 ^ 8 then 1 else if i.value.toNat < 2 ^ 16 then 2
    else if i.value.toNat < 2 ^ 24 then 3 else 5).sum

section fs
variable {T : Type} [FsPrefix T] [FsSendable T] [FsUnchecked T]

/-- A component behind the length announced for it; lengths over 4094 are refused. -/
def fsSent (announced : Nat) (component : Bytes) : Fate :=
  if announced ≤ 4094 then .octets (fsLen announced ++ component) else .refused

/-- A prefix component. Without overflow checks the octets of a prefix whose length is 249 or more are counted but not written. -/
def fsPrefixFate (m : Build) (code : U8) (a : T) : Fate :=
  match m with
  | .checked => if FsSendable.sendable a then fsSent (1 + (FsPrefix.body a).length) (code :: FsPrefix.body a) else .crash
  | .release =>
    match FsUnchecked.written a with
    | some w => .sent ((fsLen (1 + FsUnchecked.given a) ++ code :: w).map some ++ List.replicate (FsUnchecked.given a - w.length) none)
    | none => .crash

/-- A flow specification. -/
def fsFate (m : Build) (x : BgpFlowSpec T) : Fate :=
  match x with
  | .prefixDst a => fsPrefixFate m 1 a
  | .prefixSrc a => fsPrefixFate m 2 a
  | .tcpFlags v | .fragment v => fsSent (masksAnnounced v) (fsComponent x)
  | .proto v | .portAny v | .portDst v | .portSrc v | .icmpType v | .icmpCode v | .packetLength v | .dscp v | .flowLabel v =>
    fsSent (valsAnnounced v) (fsComponent x)

end fs

/-! ## Collections of NLRI -/

/-- One item after the other. -/
def nlriFate (m : Build) : BgpAddrs → Fate
  | .None => .octets []
  | .IPV4U v => .all (prefixFate m) v
  | .IPV4M v => .all (prefixFate m) v
  | .IPV4LU v => .all (prefixFate m) v
  | .MVPN v => .all (fun x => .octets (mvpnSent x)) v
  | .VPNV4U v => .all (prefixFate m) v
  | .VPNV4M v => .all (prefixFate m) v
  | .FS4U v => .all (fsFate m) v
  | .FSV4U v => .all (fsFate m) v
  | .FS6U v => .all (fsFate m) v
  | .IPV6U v => .all (prefixFate m) v
  | .IPV6M v => .all (prefixFate m) v
  | .IPV6LU v => .all (prefixFate m) v
  | .VPNV6U v => .all (prefixFate m) v
  | .VPNV6M v => .all (prefixFate m) v
  | .L2VPLS v => .all vplsFate v
  | .EVPN v => .all evpnFate v
  | .IPV4UP v => .all (pathIdFate m) v
  | .IPV4MP v => .all (pathIdFate m) v
  | .IPV4LUP v => .all (pathIdFate m) v
  | .VPNV4UP v => .all (pathIdFate m) v
  | .VPNV4MP v => .all (pathIdFate m) v
  | .IPV6UP v => .all (pathIdFate m) v
  | .IPV6MP v => .all (pathIdFate m) v
  | .IPV6LUP v => .all (pathIdFate m) v
  | .VPNV6UP v => .all (pathIdFate m) v
  | .VPNV6MP v => .all (pathIdFate m) v
  | .IPV4MDT v => .all (prefixFate m) v
  | .IPV4MDTP v => .all (pathIdFate m) v
  | .IPV6MDT v => .all (prefixFate m) v
  | .IPV6MDTP v => .all (pathIdFate m) v

/-- The codes of the address family; zeros for the collection of nothing. -/
def familyOctets (x : BgpAddrs) : Bytes :=
  match kindOf x with
  | some (f, _) => familyWire f
  | none => [0, 0, 0]

/-! ## Attributes -/

/-- The value of an attribute in a session. AGGREGATOR is counted but not written; PMSI_TUNNEL and ATTR_SET panic; addresses of
the wrong family and next hops without a wire form are refused; everything else is sent. -/
def valueFate (m : Build) (p : BgpSessionParams) : BgpAttrItem → Fate
  | .NextHop x => if addrFamily x.value = p.peerMode then .octets (ipBody x.value) else .refused
  | .OriginatorID x => if addrFamily x.value = p.peerMode then .octets (ipBody x.value) else .refused
  | .AggregatorAS _ => .sent (List.replicate (if p.hasAs32bit then 4 else 2) none)
  | .MPUpdates x =>
    match x.nexthop with
    | .L2 _ | .MVPN _ => .refused
    | nh => (Fate.octets (familyOctets x.addrs ++ [BitVec.ofNat 8 (nexthopWire nh).length] ++ nexthopWire nh ++ [0])).andThen
        (nlriFate m x.addrs)
  | .MPWithdraws x => (Fate.octets (familyOctets x.addrs)).andThen (nlriFate m x.addrs)
  | .PMSITunnel _ => .crash
  | .AttrSet _ _ => .crash
  | x => .octets (valueWire p.hasAs32bit x)

/-- An attribute: the header and the value; values that are too long for the header are refused. -/
def attrFate (m : Build) (p : BgpSessionParams) (x : BgpAttrItem) : Fate :=
  match valueFate m p x with
  | .sent w =>
    if w.length ≤ maxValue (attrCode x).2 then .sent ((attrHeader (attrCode x).1 (attrCode x).2 w.length).map some ++ w)
    else .refused
  | o => o

/-- The attributes behind `n` octets of attributes: an attribute that begins behind more than 65533 octets is refused. -/
def attrsFate (m : Build) (p : BgpSessionParams) : Nat → List BgpAttrItem → Fate
  | _, [] => .sent []
  | n, a :: l =>
    if n > 65533 then .refused
    else
      match attrFate m p a with
      | .sent w => (Fate.sent w).andThen (attrsFate m p (n + w.length) l)
      | o => o

/-! ## Messages -/

/-- A section of an UPDATE: prefixes of the family of the session; collections of other families are left out. -/
def sectionFate (m : Build) (p : BgpSessionParams) (x : BgpAddrs) : Fate := if InSession p x then nlriFate m x else .octets []

/-- Octets behind their length in two octets. -/
def counted (w : List (Option U8)) : List (Option U8) := (be 2 w.length).map some ++ w

/-- The withdrawn routes behind their length; more than 65535 octets are refused. -/
def withdrawnFate (m : Build) (p : BgpSessionParams) (x : BgpAddrs) : Fate :=
  match sectionFate m p x with
  | .sent w => if w.length ≤ 65535 then .sent (counted w) else .refused
  | o => o

/-- The attributes behind their length, which is reduced to two octets. -/
def attributesFate (m : Build) (p : BgpSessionParams) (l : List BgpAttrItem) : Fate :=
  match attrsFate m p 0 l with
  | .sent w => .sent (counted w)
  | o => o

/-- An UPDATE message: withdrawn routes, attributes, announced routes. -/
def updateFate (m : Build) (p : BgpSessionParams) (x : BgpUpdateMessage) : Fate :=
  (withdrawnFate m p x.withdraws).andThen ((attributesFate m p x.attrs).andThen (sectionFate m p x.updates))

end Zbgp.Spec
