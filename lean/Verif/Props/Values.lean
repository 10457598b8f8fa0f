import Verif.Lemmas.UpdateReads
import Verif.Props.Attrs

/-! # C36 exactly, C72, C73, C81: values of attributes, and messages -/

namespace Zbgp.Props

open Zbgp Spec

attribute [-simp] List.length_flatMap List.length_flatten

/-! ## C36, exactly -/

/-- **C36** exactly: decoding a value crashes if and only if the value is one of those in `ValueCrash`, for every session,
type code, flags and value; it never loops for ever; hence it returns for all others. -/
theorem C36_crash_iff (p : BgpSessionParams) (code flags : U8) (v : Bytes) :
    (BgpAttrItem.decodeFrom p code flags v.length v = .panic ↔ ValueCrash p code v) ∧
    BgpAttrItem.decodeFrom p code flags v.length v ≠ .hang ∧
    ((BgpAttrItem.decodeFrom p code flags v.length v).Returns ↔ ¬ ValueCrash p code v) := by
  have h := value_exactly p code flags v
  refine ⟨h.crash, h.noHang, ?_⟩
  rw [← h.not_returns, Classical.not_not]

/-- non-vacuity: values of both kinds, one a set with a set inside that holds a cut-off header behind an attribute -/
example : ValueCrash session32 128 ([0, 0, 0, 1] ++ [] ++
      rawWire ⟨128, 0xc0, [0, 0, 0, 2] ++ ([0x40, 1, 1, 2] ++ []) ++ [0x40]⟩ ++ []) ∧
    ValueCrash session32 14 [0, 1, 1] ∧ ¬ ValueCrash session32 8 [1, 2, 3, 4] := by
  refine ⟨.setInner [0, 0, 0, 1] [] [] _ [] rfl rfl .nil (show _ ≤ _ by decide) ?_, .mpReach _ (.inl (by decide)), ?_⟩
  · exact .setCut [0, 0, 0, 2] _ _ [0x40] rfl rfl (.cons ⟨1, 0x40, [2]⟩ _ [] [] (show _ ≤ _ by decide)
      (.fixed 1 0x40 [2] [] _ (.origin .Incomplete) (by decide)) .nil) (.inl ⟨_, rfl⟩)
  · intro h
    cases h with
    | communities _ h => exact h (by decide)

/-! ## C72 -/

/-- **C72**, values of a fixed form (ORIGIN, NEXT_HOP, MULTI_EXIT_DISC, LOCAL_PREF, AGGREGATOR, CONNECTOR), partial: for
every session, flags and value, decoding succeeds with `x` if and only if the value is the one that says `x`, followed (but
for AGGREGATOR) by any octets. Missing: that such octets are an error, `C72_trailing_octets` shows they are not. -/
theorem C72_fixed_values_partial (p : BgpSessionParams) (code flags : U8) (n : Nat) (v : Bytes) (x : BgpAttrItem)
    (hc : code ∈ [1, 3, 4, 5, 7, 20]) :
    BgpAttrItem.decodeFrom p code flags n v = .ok x ↔
      ∃ w t, v = w ++ t ∧ FixedValue p code w x ∧ (code = 7 → t = []) :=
  fixed_iff p code flags n v x hc

/-- non-vacuity: a value of each form -/
example : FixedValue session32 1 [2] (.Origin ⟨.Incomplete⟩) ∧ FixedValue session32 3 [10, 0, 0, 1] (.NextHop ⟨.v4 0x0a000001⟩) ∧
    FixedValue session32 4 [0, 0, 1, 0] (.MED ⟨256⟩) ∧ FixedValue session32 5 [0, 0, 0, 100] (.LocalPref ⟨100⟩) ∧
    FixedValue session32 7 [0, 1, 0, 0, 10, 0, 0, 1] (.AggregatorAS ⟨65536, 0x0a000001⟩) ∧
    FixedValue session32 7 [0xfd, 0xe8, 10, 0, 0, 1] (.AggregatorAS ⟨65000, 0x0a000001⟩) ∧
    FixedValue session32 20 [0, 1, 0, 0, 0, 7, 10, 0, 0, 1, 10, 0, 0, 2] (.Connector ⟨7, 0x0a000001, 0x0a000002⟩) :=
  ⟨.origin .Incomplete, .nextHop (.v4 0x0a000001) rfl, .med 256, .localPref 100, .aggregator4 65536 0x0a000001,
    .aggregator2 65000 0x0a000001 (by decide), .connector 7 0x0a000001 0x0a000002⟩

/-- **C72** fails for values that are too long: whatever follows the value of ORIGIN, NEXT_HOP, MULTI_EXIT_DISC, LOCAL_PREF
or CONNECTOR is ignored. -/
theorem C72_trailing_octets (p : BgpSessionParams) (code flags : U8) (w t : Bytes) (x : BgpAttrItem)
    (hc : code ∈ [1, 3, 4, 5, 20]) (h : FixedValue p code w x) :
    BgpAttrItem.decodeFrom p code flags (w ++ t).length (w ++ t) = .ok x := by
  refine (C72_fixed_values_partial p code flags _ _ x ?_).2 ⟨w, t, rfl, h, ?_⟩
  · simp only [List.mem_cons, List.not_mem_nil, or_false] at hc ⊢
    tauto
  · rintro rfl
    simp at hc

/-- **C72**, ATOMIC_AGGREGATE: decoding succeeds for no octets and, beyond RFC 4271, for the octets of an address. -/
theorem C72_atomic_aggregate (p : BgpSessionParams) (flags : U8) (n : Nat) (v : Bytes) (x : BgpAttrItem) :
    BgpAttrItem.decodeFrom p 6 flags n v = .ok x ↔
      (v = [] ∧ x = .AtomicAggregate ⟨.v4 0⟩) ∨ ∃ a, v = ipBody a ∧ x = .AtomicAggregate ⟨a⟩ :=
  atomicAggregate_iff p flags n v x

/-- **C72**, ORIGINATOR_ID: a four-octet identifier; in a session over IPv6 sixteen octets, if there are so many, are taken
as an IPv6 address. -/
theorem C72_originator_id (p : BgpSessionParams) (flags : U8) (n : Nat) (v : Bytes) (x : BgpAttrItem) :
    BgpAttrItem.decodeFrom p 9 flags n v = .ok x ↔ ∃ a t, v = ipBody a ++ t ∧ x = .OriginatorID ⟨a⟩ ∧
      (addrFamily a = .IPv6 ↔ p.peerMode = .IPv6 ∧ 16 ≤ v.length) :=
  originatorId_iff p flags n v x

/-- **C72**, CLUSTER_LIST, partial: the list of the addresses of the family of the session that the value is made of; up to
an address less an octet of rest is ignored (missing: that it is an error). -/
theorem C72_cluster_list_partial (p : BgpSessionParams) (flags : U8) (n : Nat) (v : Bytes) (x : BgpAttrItem) :
    BgpAttrItem.decodeFrom p 10 flags n v = .ok x ↔ ∃ (l : List IpAddr) (t : Bytes), v = l.flatMap ipBody ++ t ∧
      (∀ a ∈ l, addrFamily a = p.peerMode) ∧ t.length < (match p.peerMode with | .IPv4 => 4 | .IPv6 => 16) ∧
      x = .ClusterList ⟨l⟩ :=
  clusterList_iff p flags n v x

/-- non-vacuity -/
example : BgpAttrItem.decodeFrom session32 6 0x40 0 [] = .ok (.AtomicAggregate ⟨.v4 0⟩) ∧
    BgpAttrItem.decodeFrom session32 9 0x80 4 [10, 0, 0, 1] = .ok (.OriginatorID ⟨.v4 0x0a000001⟩) ∧
    BgpAttrItem.decodeFrom session32 10 0x80 8 [10, 0, 0, 1, 10, 0, 0, 2] =
      .ok (.ClusterList ⟨[.v4 0x0a000001, .v4 0x0a000002]⟩) := ⟨rfl, rfl, rfl⟩

/-- **C72**, PMSI tunnel: decoding succeeds with `x` if and only if the value is: flags, tunnel type, a label field with the
label in its upper 20 bits, and the identifier of a tunnel of that type. -/
theorem C72_pmsi_tunnel (p : BgpSessionParams) (flags : U8) (n : Nat) (v : Bytes) (x : BgpAttrItem) :
    BgpAttrItem.decodeFrom p 22 flags n v = .ok x ↔ ∃ (fl kind a b c : U8) (id : Bytes) (t : BgpPMSITunnelAttr),
      v = [fl, kind] ++ [a, b, c] ++ id ∧ TunnelId kind t id ∧
      x = .PMSITunnel ⟨fl, kind, ⟨[BitVec.ofNat 32 (labelField [a, b, c])]⟩, t⟩ :=
  pmsiTunnel_iff p flags n v x

/-- non-vacuity: an mLDP tunnel -/
example : TunnelId 2 (.MLDP (.v4 0x0a000001) [7, 8, 9]) [6, 0, 1, 4, 10, 0, 0, 1, 0, 3, 7, 8, 9] ∧
    labelField [0, 0x01, 0x01] = 16 ∧
    BgpAttrItem.decodeFrom session32 22 0xc0 18 [0, 2, 0, 0x01, 0x01, 6, 0, 1, 4, 10, 0, 0, 1, 0, 3, 7, 8, 9] =
      .ok (.PMSITunnel ⟨0, 2, ⟨[16]⟩, .MLDP (.v4 0x0a000001) [7, 8, 9]⟩) :=
  ⟨.mldp 0x0a000001 [7, 8, 9] [] (by decide) (by decide), by decide, by rfl⟩

/-- **C72**, ATTR_SET: in a session with 32-bit AS numbers decoding succeeds if and only if the value is an AS number and
well-formed attributes each of which can be decoded, and returns that number and the decoded attributes in order; in other
sessions it does not succeed. -/
theorem C72_attr_set (p : BgpSessionParams) (flags : U8) (v : Bytes) (x : BgpAttrItem) :
    BgpAttrItem.decodeFrom p 128 flags v.length v = .ok x ↔ p.hasAs32bit = true ∧ ∃ (asn : U32) (b : Bytes)
      (l : List BgpAttrItem), v = be 4 asn.toNat ++ b ∧ AttrsRead (ValueRead p) b l ∧ x = .AttrSet asn l := by
  rw [attrSet_ok_iff]
  constructor
  · rintro ⟨h32, asn, raws, l, rfl, hr, ha, rfl⟩
    exact ⟨h32, asn, _, l, rfl, (attrs_read_iff p _ l).1 ⟨raws, rfl, hr, ha⟩, rfl⟩
  · rintro ⟨h32, asn, b, l, rfl, h, rfl⟩
    obtain ⟨raws, rfl, hr, ha⟩ := (attrs_read_iff p b l).2 h
    exact ⟨h32, asn, raws, l, rfl, hr, ha, rfl⟩

/-- non-vacuity: a set of two attributes -/
example : BgpAttrItem.decodeFrom session32 128 0xc0 15 [0, 1, 0, 0, 0x40, 1, 1, 2, 0x80, 4, 4, 0, 0, 0, 9] =
    .ok (.AttrSet 65536 [.Origin ⟨.Incomplete⟩, .MED ⟨9⟩]) ∧
    AttrsRead (ValueRead session32) ([0x40, 1, 1, 2] ++ ([0x80, 4, 4, 0, 0, 0, 9] ++ [])) [.Origin ⟨.Incomplete⟩, .MED ⟨9⟩] :=
  ⟨by rfl, .cons ⟨1, 0x40, [2]⟩ _ _ _ (show _ ≤ _ by decide) (.fixed 1 0x40 [2] [] _ (.origin .Incomplete) (by decide))
    (.cons ⟨4, 0x80, [0, 0, 0, 9]⟩ _ _ _ (show _ ≤ _ by decide) (.fixed 4 0x80 [0, 0, 0, 9] [] _ (.med 9) (by decide)) .nil)⟩

/-- **C72**, MP_REACH_NLRI with SNPAs: for every family of which next hops can be read, every next hop of its kind, every
list of SNPAs that fits its length fields and every NLRI octets, decoding returns the next hop and the NLRI, and fails just
as decoding the NLRI does. -/
theorem C72_mp_reach (p : BgpSessionParams) (flags : U8) (n : Nat) (f : Family) (hr : NexthopReadable f) (nh : BgpAddr)
    (hk : NexthopKind f nh) (snpas : List Bytes) (hs : SnpasWF snpas) (nlri : Bytes) :
    BgpAttrItem.decodeFrom p 14 flags n (reachBytes f (nexthopWire nh) snpas nlri) =
      (do let (addrs, _) ← BgpAddrs.decodeFrom p (familyCode f).1 (familyCode f).2 nlri
          .ok (.MPUpdates ⟨nh, addrs⟩)) := by
  have h := reach_wire p f hr nh hk [] (fun _ => rfl) (by
    cases nh <;> simp [nexthopWire]) snpas hs nlri
  rw [List.append_nil] at h
  change (BgpMPUpdates.decodeFrom p _ >>= fun x => .ok (BgpAttrItem.MPUpdates x)) = _
  rw [h]
  cases BgpAddrs.decodeFrom p (familyCode f).1 (familyCode f).2 nlri <;> rfl

/-- non-vacuity: an IPv6 prefix behind two SNPAs -/
example : SnpasWF [[1, 2, 3], []] ∧ NexthopReadable .ipv6Unicast ∧ NexthopKind .ipv6Unicast (.V6 1) ∧
    BgpMPUpdates.decodeFrom session32 (reachBytes .ipv6Unicast (nexthopWire (.V6 1)) [[1, 2, 3], []] [16, 0x20, 1]) =
      .ok ⟨.V6 1, .IPV6U [⟨0x2001 <<< 112, 16⟩]⟩ :=
  ⟨⟨by decide, by decide⟩, (by decide : Family.ipv6Unicast ≠ .ipv6FlowSpec), trivial, by rfl⟩

/-! ## C73 -/

/-- **C73**, partial: for the families without route distinguishers in the next hop, decoding MP_REACH_NLRI reads the address
from the start of the next hop field, skips what else the field holds (a link-local address, say), however long, and finds
the NLRI behind the field. Missing: the VPN families (`C73_vpn_length_ignored`). -/
theorem C73_next_hop_field_partial (p : BgpSessionParams) (f : Family) (hr : NexthopReadable f) (hv : ¬ VpnFamily f)
    (nh : BgpAddr) (hk : NexthopKind f nh) (extra : Bytes) (hl : (nexthopWire nh ++ extra).length ≤ 255)
    (snpas : List Bytes) (hs : SnpasWF snpas) (nlri : Bytes) :
    BgpMPUpdates.decodeFrom p (reachBytes f (nexthopWire nh ++ extra) snpas nlri) =
      (do let (addrs, _) ← BgpAddrs.decodeFrom p (familyCode f).1 (familyCode f).2 nlri
          .ok ⟨nh, addrs⟩) :=
  reach_wire p f hr nh hk extra (fun h => absurd h hv) hl snpas hs nlri

/-- non-vacuity: a global and a link-local next hop (RFC 2545) -/
example : ¬ VpnFamily .ipv6Unicast ∧ NexthopKind .ipv6Unicast (.V6 1) ∧
    (nexthopWire (.V6 1) ++ be 16 0xfe800000000000000000000000000001).length = 32 ∧
    BgpMPUpdates.decodeFrom session32 (reachBytes .ipv6Unicast
      (nexthopWire (.V6 1) ++ be 16 0xfe800000000000000000000000000001) [] [16, 0x20, 1]) =
      .ok ⟨.V6 1, .IPV6U [⟨0x2001 <<< 112, 16⟩]⟩ :=
  ⟨by decide, trivial, by decide, by rfl⟩

/-- **C73** fails for the VPN families: the length octet is ignored, any other gives the same result. -/
theorem C73_vpn_length_ignored (p : BgpSessionParams) (f : Family) (hf : VpnFamily f) (len len' : U8) (rest : Bytes) :
    BgpMPUpdates.decodeFrom p (familyWire f ++ [len] ++ rest) = BgpMPUpdates.decodeFrom p (familyWire f ++ [len'] ++ rest) := by
  simp only [List.append_assoc, List.singleton_append]
  exact reach_vpn_length p f hf len len' rest

/-- **C73** fails: the 48-octet next hop of RFC 4659 (two IPv6 addresses, each with a route distinguisher) crashes the
decoder, though the NLRI behind it are in order: it takes the second half of the field for SNPAs. -/
theorem C73_fails :
    BgpAddrs.decodeFrom session32 2 128 [0x58, 0, 0, 0x11, 0, 0, 0, 1, 0, 0, 0, 2] =
      .ok (.VPNV6U [⟨⟨⟨0, 0⟩, ⟨1, 2⟩⟩, ⟨[1]⟩⟩], 12) ∧
    BgpMPUpdates.decodeFrom session32 (reachBytes .ipv6Vpn
      (nexthopWire (.V6RD ⟨⟨0, 0⟩, 1⟩) ++ nexthopWire (.V6RD ⟨⟨0, 0⟩, 0xfe800000000000000000000000000001⟩)) []
      [0x58, 0, 0, 0x11, 0, 0, 0, 1, 0, 0, 0, 2]) = .panic := ⟨by rfl, by rfl⟩

/-! ## C81 -/

/-- **C81**, values: for every session, type code, flags and value: decoding succeeds with `x` if and only if `ValueRead`
says that the value is `x`, brings the program down if and only if `ValueCrash` says so, returns an error for all others,
and never loops. -/
theorem C81_values_read_exactly (p : BgpSessionParams) (code flags : U8) (v : Bytes) :
    Exactly (BgpAttrItem.decodeFrom p code flags v.length v) (ValueRead p code flags v) (ValueCrash p code v) :=
  value_exactly p code flags v

/-- non-vacuity: an AS path, of which the two octets of the segment header are left out; communities in ascending order,
without the double one; announced and withdrawn prefixes -/
example : ValueRead session32 2 0x40 [2, 1, 0, 1, 0, 0] (.ASPath ⟨[⟨65536⟩]⟩) ∧
    ValueRead session32 8 0xc0 ([⟨2⟩, ⟨1⟩, ⟨2⟩].flatMap communityWire ++ []) (.CommunityList ⟨[⟨1⟩, ⟨2⟩]⟩) ∧
    ValueRead session32 14 0x80 (reachBytes .ipv6Unicast (nexthopWire (.V6 1)) [[1, 2, 3]] [16, 0x20, 1])
      (.MPUpdates ⟨.V6 1, .IPV6U [⟨0x2001 <<< 112, 16⟩]⟩) ∧
    ValueRead session32 15 0x80 (familyWire .ipv6Unicast ++ [16, 0x20, 1])
      (.MPWithdraws ⟨.IPV6U [⟨0x2001 <<< 112, 16⟩]⟩) := by
  refine ⟨.asPath _ _ _ ⟨[2, 1], by decide, by decide, by decide⟩,
    .communities _ _ _ ⟨[⟨2⟩, ⟨1⟩, ⟨2⟩], [], by decide, by decide, by simp [Ascending, communityNumber], ?_⟩, ?_, ?_⟩
  · intro c
    simp
    tauto
  · exact (value_ok_iff session32 14 0x80 _ _).1 (by rfl)
  · exact .mpUnreach _ .ipv6Unicast _ _ 3 (((addrs_exactly session32 .ipv6Unicast _).ok (_, 3)).1 (by rfl))

/-- **C81**, messages: for every session and every octets, decoding an UPDATE succeeds, with these prefixes and with these
attributes behind those that the message had, if and only if `UpdateRead` says so, brings the program down if and only if
`UpdateCrash` says so, returns an error for all others, and never loops. -/
theorem C81_updates_read_exactly (self : BgpUpdateMessage) (p : BgpSessionParams) (buf : Bytes) :
    Exactly (self.decodeFrom p buf)
      (fun m => ∃ l, UpdateRead p buf m.withdraws l m.updates ∧ m.attrs = self.attrs ++ l) (UpdateCrash p buf) :=
  update_exactly self p buf

/-- non-vacuity: messages of all three kinds -/
example : UpdateRead session32 (updateBytes [8, 10] ([0x40, 1, 1, 2] ++ []) [16, 1, 2]) (.IPV4U [⟨0x0a000000, 8⟩])
      [.Origin ⟨.Incomplete⟩] (.IPV4U [⟨0x01020000, 16⟩]) ∧
    UpdateCrash session32 [0, 0, 0, 3, 0x80, 9, 0] ∧
    BgpUpdateMessage.new.decodeFrom session32 [0, 9, 1, 2] = .err .insufficientBufferSize := by
  refine ⟨⟨_, _, _, rfl, by decide, by decide, ⟨2, ((addrs_exactly session32 .ipv4Unicast _).ok (_, 2)).1 (by rfl)⟩,
    .cons ⟨1, 0x40, [2]⟩ _ [] [] (show _ ≤ _ by decide) (.fixed 1 0x40 [2] [] _ (.origin .Incomplete) (by decide)) .nil,
    ⟨3, ((addrs_exactly session32 .ipv4Unicast _).ok (_, 3)).1 (by rfl)⟩⟩, ?_, by rfl⟩
  refine ⟨[], [0, 3, 0x80, 9, 0], by decide, by decide, by decide, .inr ⟨.IPV4U [], 3, [0x80, 9, 0],
    ⟨0, ((addrs_exactly session32 .ipv4Unicast _).ok (_, 0)).1 (by rfl)⟩, by decide, by decide, by decide, [], [], _, rfl, .nil,
    .inr (.inr ⟨⟨9, 0x80, []⟩, [], by decide, show _ ≤ _ by decide, by decide, .originatorId _ (by decide)⟩)⟩⟩

/-- **C81**, no two readings: what a value, a section of attributes or a message says is unique, and none that can be read
crashes the decoder. -/
theorem C81_reading_is_unambiguous (p : BgpSessionParams) :
    (∀ code flags v x y, ValueRead p code flags v x → ValueRead p code flags v y → x = y) ∧
    (∀ code flags v x, ValueRead p code flags v x → ¬ ValueCrash p code v) ∧
    (∀ b l l', AttrsRead (ValueRead p) b l → AttrsRead (ValueRead p) b l' → l = l') ∧
    (∀ buf wd l up wd' l' up', UpdateRead p buf wd l up → UpdateRead p buf wd' l' up' → wd = wd' ∧ l = l' ∧ up = up') ∧
    (∀ buf wd l up, UpdateRead p buf wd l up → ¬ UpdateCrash p buf) := by
  refine ⟨fun _ _ _ _ _ => valueRead_inj, fun code flags v x h hc => ?_, fun _ _ _ => attrsRead_inj, ?_, ?_⟩
  · have h1 := ((value_exactly p code flags v).ok x).2 h
    rw [(value_exactly p code flags v).crash.2 hc] at h1
    cases h1
  · intro buf wd l up wd' l' up' h h'
    have h1 := ((update_exactly .new p buf).ok ⟨up, wd, l⟩).2 ⟨l, h, rfl⟩
    have h2 := ((update_exactly .new p buf).ok ⟨up', wd', l'⟩).2 ⟨l', h', rfl⟩
    rw [h1] at h2
    simp only [Res.ok.injEq, BgpUpdateMessage.mk.injEq] at h2
    exact ⟨h2.2.1, h2.2.2, h2.1⟩
  · intro buf wd l up h hc
    have h1 := ((update_exactly .new p buf).ok ⟨up, wd, l⟩).2 ⟨l, h, rfl⟩
    rw [(update_exactly .new p buf).crash.2 hc] at h1
    cases h1

/-! ## C45 in messages -/

/-- The routes `x` read from the octets `b` are of the family `f`, with path identifiers exactly if the family has such a
form and the session receives AddPath for it, or has the fuzzy option on and the octets look like it. -/
def ReadInForm (p : BgpSessionParams) (f : Family) (b : Bytes) (x : BgpAddrs) : Prop :=
  ∃ addpath, kindOf x = some (f, addpath) ∧
    (addpath = true ↔ hasAddPath f = true ∧
      (ReceivesAddPath p.caps (familyCode f) = true ∨ (p.fuzzyPathid = true ∧ 5 ≤ b.length ∧ b.take 2 = [0, 0])))

private theorem readInForm {p : BgpSessionParams} {f : Family} {b : Bytes} {x : BgpAddrs} {n : Nat}
    (h : AddrsRead p f b x n) : ReadInForm p f b x := by
  obtain ⟨g, ap, h1, h2, h3⟩ := addrs_decode_ok (((addrs_exactly p f b).ok (x, n)).2 h)
  obtain rfl : g = f := by cases g <;> cases f <;> first | rfl | exact absurd h3 (by decide)
  refine ⟨ap, h1, ?_⟩
  rw [h2]
  simp [AddPathExpected, LooksAddPath]

/-- **C45** in messages: the withdrawn and announced routes of an UPDATE, and those of MP_REACH_NLRI and MP_UNREACH_NLRI of
every family, are read with path identifiers exactly if the session receives AddPath for the family (or guesses). -/
theorem C45_messages (p : BgpSessionParams) :
    (∀ (self m : BgpUpdateMessage) (buf : Bytes), self.decodeFrom p buf = .ok m →
      ∃ w a u, buf = updateBytes w a u ∧ w.length ≤ 65535 ∧ a.length ≤ 65535 ∧
        ReadInForm p (sessionFamily p) w m.withdraws ∧ ReadInForm p (sessionFamily p) u m.updates) ∧
    (∀ (flags : U8) (v : Bytes) (nh : BgpAddr) (x : BgpAddrs),
      BgpAttrItem.decodeFrom p 14 flags v.length v = .ok (.MPUpdates ⟨nh, x⟩) →
        ∃ f rest nlri, v = familyWire f ++ rest ∧ nlri <:+ rest ∧ ReadInForm p f nlri x) ∧
    (∀ (flags : U8) (v : Bytes) (x : BgpAddrs),
      BgpAttrItem.decodeFrom p 15 flags v.length v = .ok (.MPWithdraws ⟨x⟩) →
        ∃ f nlri, v = familyWire f ++ nlri ∧ ReadInForm p f nlri x) := by
  refine ⟨fun self m buf h => ?_, fun flags v nh x h => ?_, fun flags v x h => ?_⟩
  · obtain ⟨l, ⟨w, a, u, e, h1, h2, ⟨n, h3⟩, -, k, h4⟩, -⟩ := ((update_exactly self p buf).ok m).1 h
    exact ⟨w, a, u, e, h1, h2, readInForm h3, readInForm h4⟩
  · have hv := ((value_exactly p 14 flags v).ok _).1 h
    cases hv with
    | fixed _ _ _ _ _ h => cases h
    | mpReach _ _ _ _ h =>
      obtain ⟨f, l, rest, snpas, nlri, n, -, rfl, -, -, -, e, -, h⟩ := h
      refine ⟨f, l :: rest, nlri, rfl, ?_, readInForm h⟩
      have h1 : nlri <:+ snpasWire snpas ++ nlri := List.suffix_append _ _
      rw [← e] at h1
      exact (h1.trans (List.drop_suffix _ _)).trans (List.suffix_cons _ _)
  · have hv := ((value_exactly p 15 flags v).ok _).1 h
    cases hv with
    | fixed _ _ _ _ _ h => cases h
    | mpUnreach _ f nlri _ n h => exact ⟨f, nlri, rfl, readInForm h⟩

/-- non-vacuity: withdrawn routes of a message and of MP_UNREACH_NLRI, in sessions with and without AddPath -/
example :
    let ap : BgpSessionParams := { session32 with caps := [.CapAddPath [⟨1, 1, false, true⟩]] }
    (BgpUpdateMessage.new.decodeFrom ap [0, 6, 0, 0, 0, 7, 8, 10, 0, 0] =
      .ok ⟨.IPV4UP [], .IPV4UP [⟨7, ⟨0x0a000000, 8⟩⟩], []⟩) ∧
    (BgpUpdateMessage.new.decodeFrom session32 [0, 2, 8, 10, 0, 0] = .ok ⟨.IPV4U [], .IPV4U [⟨0x0a000000, 8⟩], []⟩) ∧
    BgpAttrItem.decodeFrom ap 15 0x80 9 [0, 1, 1, 0, 0, 0, 7, 8, 10] = .ok (.MPWithdraws ⟨.IPV4UP [⟨7, ⟨0x0a000000, 8⟩⟩]⟩) := by
  refine ⟨by rfl, by rfl, by rfl⟩

end Zbgp.Props
