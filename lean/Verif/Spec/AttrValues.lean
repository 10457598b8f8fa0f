import Verif.Spec.Reads
import Verif.Spec.Update

/-!
# Values of single attributes on the wire

AGGREGATOR (RFC 4271 4.3, RFC 6793), PMSI tunnel (RFC 6514 5, with the identifiers of RSVP-TE, mLDP and ingress
replication tunnels), ATTR_SET (RFC 6368 5), MP_REACH_NLRI with all its parts (RFC 4760 3; the octet after the next hop
and the SNPAs behind it are those of RFC 2858 2). For every attribute: which values are read, as what (`ValueRead`), and
which bring the program down (`ValueCrash`); all others are refused with an error. Where the library departs from the RFCs,
these definitions follow the library and the comment says so. Only the data types of the model are used, none of its
functions.
-/

namespace Zbgp.Spec

open Zbgp

/-- AGGREGATOR: the AS number in four octets or in two, and the address. -/
def aggregatorWire (width : Nat) (asn : Nat) (addr : IPv4) : Bytes := be width asn ++ be 4 addr.toNat

/-- The tunnel identifier of each tunnel type: the type octet and the identifier. RSVP-TE: extended tunnel ID, reserved,
tunnel ID, P2MP ID. mLDP: a P2MP FEC element (type 6, address family 1, address length 4, root address, opaque length,
opaque value). Ingress replication: the endpoint. -/
inductive TunnelId : U8 → BgpPMSITunnelAttr → Bytes → Prop
  | none (rest : Bytes) : TunnelId 0 .None rest
  | rsvpTe (ext : IPv4) (reserved tunnel : U16) (p2mp : IPv4) (rest : Bytes) :
      TunnelId 1 (.RSVPTe ext reserved tunnel p2mp)
        (be 4 ext.toNat ++ be 2 reserved.toNat ++ be 2 tunnel.toNat ++ be 4 p2mp.toNat ++ rest)
  | mldp (root : IPv4) (opaq rest : Bytes) (hl : opaq.length ≤ 65535) (h : opaq ++ rest ≠ []) :
      TunnelId 2 (.MLDP (.v4 root) opaq)
        ([6] ++ be 2 1 ++ [4] ++ be 4 root.toNat ++ be 2 opaq.length ++ opaq ++ rest)
  | ingress (endpoint : IPv4) (rest : Bytes) : TunnelId 6 (.IngressRepl endpoint) (be 4 endpoint.toNat ++ rest)

/-- The label in the 24-bit label field: its upper 20 bits. -/
def labelField (octets : Bytes) : Nat := unbe octets / 16

/-- The octets are an attribute header that is not complete. -/
def CutAttr (t : Bytes) : Prop :=
  (∃ flags, t = [flags]) ∨ (∃ flags code, t = [flags, code]) ∨
    (∃ flags code a, t = [flags, code, a] ∧ extended flags = true)

/-- A subnetwork point of attachment: its length and its octets. -/
def snpaWire (s : Bytes) : Bytes := BitVec.ofNat 8 s.length :: s

/-- The part of MP_REACH_NLRI between the next hop and the NLRI: the number of SNPAs, and the SNPAs. -/
def snpasWire (l : List Bytes) : Bytes := BitVec.ofNat 8 l.length :: l.flatMap snpaWire

/-- The SNPAs fit their length fields. -/
def SnpasWF (l : List Bytes) : Prop := l.length ≤ 255 ∧ ∀ s ∈ l, s.length ≤ 255

/-- The families with route distinguishers in their next hops. -/
def VpnFamily (f : Family) : Prop :=
  f = .ipv4Vpn ∨ f = .ipv4VpnMulticast ∨ f = .ipv4VpnFlowSpec ∨ f = .ipv6Vpn ∨ f = .ipv6VpnMulticast

instance (f : Family) : Decidable (VpnFamily f) :=
  inferInstanceAs (Decidable (_ = _ ∨ _ = _ ∨ _ = _ ∨ _ = _ ∨ _ = _))

/-- MP_REACH_NLRI with next hop octets `nh`, SNPAs and NLRI octets as given. -/
def reachBytes (f : Family) (nh : Bytes) (snpas : List Bytes) (nlri : Bytes) : Bytes :=
  familyWire f ++ [BitVec.ofNat 8 nh.length] ++ nh ++ snpasWire snpas ++ nlri

/-- The number of octets of the next hop of a family: of the address, with the route distinguisher for VPN families. -/
def nexthopSize (f : Family) : Nat :=
  match f with
  | .ipv4Vpn | .ipv4VpnMulticast | .ipv4VpnFlowSpec => 12
  | .ipv6Vpn | .ipv6VpnMulticast => 24
  | .ipv6Unicast | .ipv6Multicast | .ipv6Labeled | .ipv6Mdt | .ipv6FlowSpec => 16
  | _ => 4

/-- The PMSI tunnel values that crash the decoder: the identifier is shorter than its type needs, for mLDP missing. -/
def PmsiCrash (v : Bytes) : Prop :=
  ∃ flags kind a b c id, v = flags :: kind :: a :: b :: c :: id ∧
    ((kind = 1 ∧ id.length < 12) ∨ (kind = 2 ∧ id = []) ∨ (kind = 6 ∧ id.length < 4))

/-- The code of each origin (RFC 4271 4.3). -/
def originCode : BgpAttrOrigin → U8
  | .Igp => 0
  | .Egp => 1
  | .Incomplete => 2

/-- The attributes whose value has a fixed form: type code, value, and what it says. NEXT_HOP and ORIGINATOR_ID are
addresses of the family of the session. -/
inductive FixedValue (p : BgpSessionParams) : U8 → Bytes → BgpAttrItem → Prop
  | origin (o : BgpAttrOrigin) : FixedValue p 1 [originCode o] (.Origin ⟨o⟩)
  | nextHop (a : IpAddr) (h : addrFamily a = p.peerMode) : FixedValue p 3 (ipBody a) (.NextHop ⟨a⟩)
  | med (m : U32) : FixedValue p 4 (be 4 m.toNat) (.MED ⟨m⟩)
  | localPref (m : U32) : FixedValue p 5 (be 4 m.toNat) (.LocalPref ⟨m⟩)
  | aggregator4 (asn : U32) (a : IPv4) : FixedValue p 7 (aggregatorWire 4 asn.toNat a) (.AggregatorAS ⟨asn, a⟩)
  | aggregator2 (asn : U32) (a : IPv4) (h : asn.toNat < 65536) :
      FixedValue p 7 (aggregatorWire 2 asn.toNat a) (.AggregatorAS ⟨asn, a⟩)
  | connector (asn : U32) (a o : IPv4) :
      FixedValue p 20 (be 2 1 ++ be 4 asn.toNat ++ be 4 a.toNat ++ be 4 o.toNat) (.Connector ⟨asn, a, o⟩)

/-! ## Which values are read, and which crash the decoder -/

/-- AS_PATH as the library reads it: AS numbers up to the end of the value; what is left over, less than an AS number, is
left out at the start. The segment headers are not looked at. -/
def AsPathRead (as32 : Bool) (v : Bytes) (l : List BgpAS) : Prop :=
  ∃ pre, v = pre ++ l.flatMap (asnWire as32) ∧ pre.length < (if as32 then 4 else 2) ∧
    (as32 = false → ∀ a ∈ l, a.value.toNat < 65536)

/-- A list of communities, each of the octets `wire`, and at most `rest` octets behind that are ignored: the ascending list
of its members. -/
def MembersRead {α : Type} (wire : α → Bytes) (number : α → Nat) (rest : Nat) (v : Bytes) (s : List α) : Prop :=
  ∃ (l : List α) (t : Bytes), v = l.flatMap wire ++ t ∧ t.length ≤ rest ∧ Ascending number s ∧ ∀ c, c ∈ s ↔ c ∈ l

/-- MP_REACH_NLRI: the family, the length of the next hop, the next hop of the kind of the family, SNPAs and NLRI. The
length says where the SNPAs begin, but for VPN families, where they follow the next hop whatever it says; for IPv4 and
IPv6 families it must not be less than the size of the next hop, for L2VPN families it can be anything. -/
def ReachRead (p : BgpSessionParams) (v : Bytes) (nh : BgpAddr) (addrs : BgpAddrs) : Prop :=
  ∃ (f : Family) (l : U8) (rest : Bytes) (snpas : List Bytes) (nlri : Bytes) (n : Nat), NexthopReadable f ∧
    v = familyWire f ++ l :: rest ∧ NexthopKind f nh ∧ nexthopWire nh <+: rest ∧
    (VpnFamily f ∨ f = .l2Vpls ∨ f = .l2Evpn ∨ nexthopSize f ≤ l.toNat) ∧
    rest.drop (if VpnFamily f then nexthopSize f else l.toNat) = snpasWire snpas ++ nlri ∧ SnpasWF snpas ∧
    AddrsRead p f nlri addrs n

/-- What follows the next hop is not a list of SNPAs followed by NLRI of the family that can be read or refused. -/
def TailCrash (p : BgpSessionParams) (f : Family) (t : Bytes) : Prop :=
  ∀ snpas nlri, SnpasWF snpas → t = snpasWire snpas ++ nlri → AddrsCrash p f nlri

/-- The MP_REACH_NLRI values that crash the decoder: those without the four octets of the head; and, in a family of which
next hops can be read, a next hop that is cut off (for L2VPN and VPN families only behind the octets of the address,
because shorter ones are refused), and if the next hop is there, when the rest is as in `TailCrash`. For VPN families the
length octet does not matter. -/
def ReachCrash (p : BgpSessionParams) (v : Bytes) : Prop :=
  v.length < 4 ∨ ∃ (f : Family) (l : U8) (rest : Bytes), NexthopReadable f ∧ v = familyWire f ++ l :: rest ∧
    (if VpnFamily f then nexthopSize f ≤ rest.length ∧ TailCrash p f (rest.drop (nexthopSize f))
     else if f = .l2Vpls ∨ f = .l2Evpn then 4 ≤ rest.length ∧ TailCrash p f (rest.drop l.toNat)
     else rest.length < l.toNat ∨ (nexthopSize f ≤ l.toNat ∧ TailCrash p f (rest.drop l.toNat)))

/-- Whole attributes one behind the other, whose values are read as `V` says. -/
inductive AttrsRead (V : U8 → U8 → Bytes → BgpAttrItem → Prop) : Bytes → List BgpAttrItem → Prop
  | nil : AttrsRead V [] []
  | cons (r : RawAttr) (x : BgpAttrItem) (t : Bytes) (l : List BgpAttrItem) (hr : RawWF r)
      (hx : V r.code r.flags r.value x) (hl : AttrsRead V t l) : AttrsRead V (rawWire r ++ t) (x :: l)

/-- The attribute values that are read, by type code and flags, and what they are read as. -/
inductive ValueRead (p : BgpSessionParams) : U8 → U8 → Bytes → BgpAttrItem → Prop
  /-- what follows a value of a fixed form is ignored, but for AGGREGATOR -/
  | fixed (code flags : U8) (w t : Bytes) (x : BgpAttrItem) (h : FixedValue p code w x) (ht : code = 7 → t = []) :
      ValueRead p code flags (w ++ t) x
  | asPath (flags : U8) (v : Bytes) (l : List BgpAS) (h : AsPathRead p.hasAs32bit v l) :
      ValueRead p 2 flags v (.ASPath ⟨l⟩)
  | atomicAggregate (flags : U8) : ValueRead p 6 flags [] (.AtomicAggregate ⟨.v4 0⟩)
  /-- beyond RFC 4271, an address -/
  | atomicAggregateAddr (flags : U8) (a : IpAddr) : ValueRead p 6 flags (ipBody a) (.AtomicAggregate ⟨a⟩)
  | communities (flags : U8) (v : Bytes) (s : List BgpCommunity)
      (h : MembersRead communityWire communityNumber 0 v s) : ValueRead p 8 flags v (.CommunityList ⟨s⟩)
  /-- in a session over IPv6 sixteen octets, if there are so many, are taken as an IPv6 address -/
  | originatorId (flags : U8) (a : IpAddr) (t : Bytes)
      (h : addrFamily a = .IPv6 ↔ p.peerMode = .IPv6 ∧ 16 ≤ (ipBody a ++ t).length) :
      ValueRead p 9 flags (ipBody a ++ t) (.OriginatorID ⟨a⟩)
  /-- addresses of the family of the session; a rest shorter than an address is ignored -/
  | clusterList (flags : U8) (l : List IpAddr) (t : Bytes) (hl : ∀ a ∈ l, addrFamily a = p.peerMode)
      (ht : t.length < (match p.peerMode with | .IPv4 => 4 | .IPv6 => 16)) :
      ValueRead p 10 flags (l.flatMap ipBody ++ t) (.ClusterList ⟨l⟩)
  | mpReach (flags : U8) (v : Bytes) (nh : BgpAddr) (addrs : BgpAddrs) (h : ReachRead p v nh addrs) :
      ValueRead p 14 flags v (.MPUpdates ⟨nh, addrs⟩)
  | mpUnreach (flags : U8) (f : Family) (nlri : Bytes) (addrs : BgpAddrs) (n : Nat) (h : AddrsRead p f nlri addrs n) :
      ValueRead p 15 flags (familyWire f ++ nlri) (.MPWithdraws ⟨addrs⟩)
  | extCommunities (flags : U8) (v : Bytes) (s : List BgpExtCommunity)
      (h : MembersRead extCommunityWire extCommunityNumber 7 v s) : ValueRead p 16 flags v (.ExtCommunityList ⟨s⟩)
  | pmsi (flags : U8) (fl kind a b c : U8) (id : Bytes) (t : BgpPMSITunnelAttr) (h : TunnelId kind t id) :
      ValueRead p 22 flags ([fl, kind] ++ [a, b, c] ++ id)
        (.PMSITunnel ⟨fl, kind, ⟨[BitVec.ofNat 32 (labelField [a, b, c])]⟩, t⟩)
  | largeCommunities (flags : U8) (v : Bytes) (s : List BgpLargeCommunity)
      (h : MembersRead largeCommunityWire largeCommunityNumber 0 v s) :
      ValueRead p 32 flags v (.LargeCommunityList ⟨s⟩)
  /-- only in sessions with 32-bit AS numbers -/
  | attrSet (flags : U8) (asn : U32) (b : Bytes) (l : List BgpAttrItem) (h32 : p.hasAs32bit = true)
      (h : AttrsRead (ValueRead p) b l) : ValueRead p 128 flags (be 4 asn.toNat ++ b) (.AttrSet asn l)
  | unknown (code flags : U8) (v : Bytes) (h : code.toNat ∉ assignedCodes) :
      ValueRead p code flags v (.Unknown ⟨⟨code, flags⟩, v⟩)

/-- The attribute values that crash the decoder, by type code. An attribute set crashes it if, in a session with 32-bit AS
numbers, it holds attributes that are read followed by a cut-off header or by an attribute that crashes the decoder. -/
inductive ValueCrash (p : BgpSessionParams) : U8 → Bytes → Prop
  | communities (v : Bytes) (h : ¬ 4 ∣ v.length) : ValueCrash p 8 v
  | originatorId (v : Bytes) (h : v.length < 4) : ValueCrash p 9 v
  | mpReach (v : Bytes) (h : ReachCrash p v) : ValueCrash p 14 v
  | mpUnreachHead (v : Bytes) (h : v.length < 3) : ValueCrash p 15 v
  | mpUnreachNlri (f : Family) (nlri : Bytes) (h : AddrsCrash p f nlri) : ValueCrash p 15 (familyWire f ++ nlri)
  | pmsi (v : Bytes) (h : PmsiCrash v) : ValueCrash p 22 v
  | largeCommunities (v : Bytes) (h : ¬ 12 ∣ v.length) : ValueCrash p 32 v
  | setCut (origin b : Bytes) (l : List BgpAttrItem) (t : Bytes) (h32 : p.hasAs32bit = true)
      (ho : origin.length = 4) (ha : AttrsRead (ValueRead p) b l) (ht : CutAttr t) :
      ValueCrash p 128 (origin ++ b ++ t)
  | setInner (origin b : Bytes) (l : List BgpAttrItem) (r : RawAttr) (t : Bytes)
      (h32 : p.hasAs32bit = true) (ho : origin.length = 4) (ha : AttrsRead (ValueRead p) b l)
      (hw : RawWF r) (hc : ValueCrash p r.code r.value) :
      ValueCrash p 128 (origin ++ b ++ rawWire r ++ t)

end Zbgp.Spec
