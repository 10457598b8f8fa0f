import Verif.Spec.Release

/-!
# What a build without overflow checks reads: VPLS, EVPN, FlowSpec, and the NLRI of all families

The label stacks of VPLS and of EVPN routes of types 1 and 2 are read by a reader that takes 24 bits for each entry off
the announced bits modulo 256 (`WrapLabels`). In FlowSpec of VPN families the route distinguisher is taken off the length
of a prefix modulo 256. All the rest is read as with the checks.
-/

namespace Zbgp.Spec

/-- As `VplsRead`, with the labels as read without overflow checks. -/
def WrapVpls (b : Bytes) (x : BgpAddrL2) (n : Nat) : Prop :=
  ∃ body lab t k, b = be 2 body.length ++ body ++ t ∧ body.length < 65536 ∧ 17 ≤ body.length ∧
    body = rdBody x.rd ++ be 2 x.site.toNat ++ be 2 x.offset.toNat ++ be 2 x.range.toNat ++ lab ∧
    WrapLabels (leftBits lab) lab x.labels.labels k ∧ n = body.length + 2

/-- The length or the item is cut off, or the labels are. -/
def WrapVplsCrash (b : Bytes) : Prop :=
  b.length < 2 ∨ ∃ l t, l < 65536 ∧ b = be 2 l ++ t ∧
    (t.length < l ∨ (17 ≤ l ∧ WrapLabelsCrash (leftBits ((t.take l).drop 14)) ((t.take l).drop 14)))

/-- As `EvpnRead`, with the labels of types 1 and 2 as read without overflow checks; types 3, 4 and 5, which has a single
label, as with them. -/
inductive WrapEvpn : Bytes → BgpEVPN → Nat → Prop
  | t1 (rd : BgpRD) (et : U8) (esi : EVPNESI) (tag : U32) (ls : List U32) (lab : Bytes) (k : Nat)
      (h : WrapLabels (leftBits lab) lab ls k) :
      WrapEvpn (rdBody rd ++ esiBody et esi ++ be 4 tag.toNat ++ lab) (.evpn1 ⟨rd, et, esi, tag, ⟨ls⟩⟩) (22 + k)
  | t2 (rd : BgpRD) (et : U8) (esi : EVPNESI) (tag : U32) (mac : MacAddress) (ip : Option IpAddr) (ls : List U32)
      (lab : Bytes) (k : Nat) (h : WrapLabels (leftBits lab) lab ls k) :
      WrapEvpn (rdBody rd ++ esiBody et esi ++ be 4 tag.toNat ++ [48] ++ macBody mac ++
          (match ip with | none => [0] | some a => lenIpBody a) ++ lab)
        (.evpn2 ⟨rd, et, esi, tag, mac, ip, ⟨ls⟩⟩)
        (29 + (match ip with | none => [0] | some a => lenIpBody a).length + k)
  | other (b : Bytes) (x : BgpEVPN) (k : Nat) (h : evpnType x = 3 ∨ evpnType x = 4 ∨ evpnType x = 5)
      (hr : EvpnRead b x k) : WrapEvpn b x k

/-- As `EvpnCrash`, but labels only crash the decoder if they are cut off. -/
inductive WrapEvpnCrash : U8 → Bytes → Prop
  | t1 (b : Bytes) (h8 : 8 ≤ b.length) (h : b.length < 22) : WrapEvpnCrash 1 b
  | t1labels (b : Bytes) (h : 22 ≤ b.length) (hl : WrapLabelsCrash (leftBits (b.drop 22)) (b.drop 22)) : WrapEvpnCrash 1 b
  | t2 (b : Bytes) (h8 : 8 ≤ b.length) (h : b.length < 23) : WrapEvpnCrash 2 b
  | t2mac (b : Bytes) (h : b.length < 30) (h48 : b[22]? = some 48) : WrapEvpnCrash 2 b
  | t2labels (b : Bytes) (l : U8) (k : Nat) (h48 : b[22]? = some 48) (hl : b[29]? = some l)
      (hk : (l = 0 ∧ k = 0) ∨ (l = 32 ∧ k = 4) ∨ (l = 128 ∧ k = 16)) (h : 30 + k ≤ b.length)
      (hc : WrapLabelsCrash (leftBits (b.drop (30 + k))) (b.drop (30 + k))) : WrapEvpnCrash 2 b
  | other (ty : U8) (b : Bytes) (h : ty = 3 ∨ ty = 4 ∨ ty = 5) (hc : EvpnCrash ty b) : WrapEvpnCrash ty b

/-- Type, length in octets, and a body of that length. -/
def WrapEvpnItem (b : Bytes) (x : BgpEVPN) (n : Nat) : Prop :=
  ∃ l body t k, b = evpnType x :: l :: body ++ t ∧ body.length = l.toNat ∧ WrapEvpn body x k ∧ n = k + 2

/-- The two octets in front are not there, or the body crashes the decoder. -/
def WrapEvpnItemCrash (b : Bytes) : Prop :=
  b.length < 2 ∨ ∃ ty l body t, b = ty :: l :: body ++ t ∧ body.length = l.toNat ∧ WrapEvpnCrash ty body

/-- The IPv4 prefix of a FlowSpec component: only one that is not there at all crashes the decoder. -/
@[reducible] def wrapFsV4 : FsPrefixReads BgpAddrV4 where
  Read b x n := NlriRead b x n
  Crash b := b = []

/-- The IPv6 prefix of a FlowSpec component: only one whose length or offset is not there crashes the decoder. -/
@[reducible] def wrapFsV6 : FsPrefixReads FS6 where
  Read b x n := ∃ bits t m, b = bits :: x.offset :: t ∧ PrefixReads.Read bits.toNat t x.ipv6 m ∧ n = m + 2
  Crash b := b.length < 2

/-- The prefix of a VPN FlowSpec component: the 64 bits of the route distinguisher are taken off its length modulo 256. -/
@[reducible] def wrapFsVpn : FsPrefixReads FSV4U where
  Read b x n := @NlriRead (WithRd BgpAddrV4) (wrapReads _) b x.pfx n
  Crash b := b = []

/-- The NLRI field of a family of prefixes: with path identifiers or without, depending on the session. -/
def WrapField (T : Type) [WrapReads T] (p : BgpSessionParams) (f : Family) (plain : List T → BgpAddrs)
    (withId : List (WithPathId T) → BgpAddrs) (b : Bytes) (x : BgpAddrs) (n : Nat) : Prop :=
  if AddPathExpected p (familyCode f) b = true then ∃ v, x = withId v ∧ ItemsRead 4 (@PathIdRead T (wrapReads T)) b v n
  else ∃ v, x = plain v ∧ ItemsRead 0 (@NlriRead T (wrapReads T)) b v n

/-- How the NLRI field of each family is read in a session without overflow checks. -/
def WrapAddrs (p : BgpSessionParams) (f : Family) (b : Bytes) (x : BgpAddrs) (n : Nat) : Prop :=
  match f with
  | .ipv4Unicast => WrapField BgpAddrV4 p f .IPV4U .IPV4UP b x n
  | .ipv4Multicast => WrapField BgpAddrV4 p f .IPV4M .IPV4MP b x n
  | .ipv4Labeled => WrapField (Labeled BgpAddrV4) p f .IPV4LU .IPV4LUP b x n
  | .ipv4Mvpn => ∃ v, x = .MVPN v ∧ ItemsRead 0 (MvpnItemRead .IPv4) b v n
  | .ipv4Mdt => WrapField (WithRd BgpMdtV4) p f .IPV4MDT .IPV4MDTP b x n
  | .ipv4Vpn => WrapField (Labeled (WithRd BgpAddrV4)) p f .VPNV4U .VPNV4UP b x n
  | .ipv4VpnMulticast => WrapField (Labeled (WithRd BgpAddrV4)) p f .VPNV4M .VPNV4MP b x n
  | .ipv4FlowSpec => ∃ v, x = .FS4U v ∧ ItemsRead 0 (@FsItemRead _ wrapFsV4) b v n
  | .ipv4VpnFlowSpec => ∃ v, x = .FSV4U v ∧ ItemsRead 0 (@FsItemRead _ wrapFsVpn) b v n
  | .ipv6Unicast => WrapField BgpAddrV6 p f .IPV6U .IPV6UP b x n
  | .ipv6Multicast => WrapField BgpAddrV6 p f .IPV6M .IPV6MP b x n
  | .ipv6Labeled => WrapField (Labeled BgpAddrV6) p f .IPV6LU .IPV6LUP b x n
  | .ipv6Mdt => WrapField (WithRd BgpMdtV6) p f .IPV6MDT .IPV6MDTP b x n
  | .ipv6Vpn => WrapField (Labeled (WithRd BgpAddrV6)) p f .VPNV6U .VPNV6UP b x n
  | .ipv6VpnMulticast => WrapField (Labeled (WithRd BgpAddrV6)) p f .VPNV6M .VPNV6MP b x n
  | .ipv6FlowSpec => ∃ v, x = .FS6U v ∧ ItemsRead 0 (@FsItemRead _ wrapFsV6) b v n
  | .l2Vpls => ∃ v, x = .L2VPLS v ∧ ItemsRead 0 WrapVpls b v n
  | .l2Evpn => ∃ v, x = .EVPN v ∧ ItemsRead 0 WrapEvpnItem b v n

/-- The NLRI field of prefixes of one kind crashes the decoder. -/
def WrapFieldCrash (T : Type) [WrapReads T] (p : BgpSessionParams) (f : Family) (b : Bytes) : Prop :=
  @PrefixFieldCrash T (wrapReads T) p f b

/-- The NLRI fields that crash the decoder of a build without overflow checks, by family. -/
def WrapAddrsCrash (p : BgpSessionParams) (f : Family) (b : Bytes) : Prop :=
  match f with
  | .ipv4Unicast | .ipv4Multicast => WrapFieldCrash BgpAddrV4 p f b
  | .ipv4Labeled => WrapFieldCrash (Labeled BgpAddrV4) p f b
  | .ipv4Mvpn => ItemsCrash 0 (MvpnItemRead .IPv4) MvpnItemCrash b
  | .ipv4Mdt => WrapFieldCrash (WithRd BgpMdtV4) p f b
  | .ipv4Vpn | .ipv4VpnMulticast => WrapFieldCrash (Labeled (WithRd BgpAddrV4)) p f b
  | .ipv4FlowSpec => ItemsCrash 0 (@FsItemRead _ wrapFsV4) (@FsItemCrash _ wrapFsV4) b
  | .ipv4VpnFlowSpec => ItemsCrash 0 (@FsItemRead _ wrapFsVpn) (@FsItemCrash _ wrapFsVpn) b
  | .ipv6Unicast | .ipv6Multicast => WrapFieldCrash BgpAddrV6 p f b
  | .ipv6Labeled => WrapFieldCrash (Labeled BgpAddrV6) p f b
  | .ipv6Mdt => WrapFieldCrash (WithRd BgpMdtV6) p f b
  | .ipv6Vpn | .ipv6VpnMulticast => WrapFieldCrash (Labeled (WithRd BgpAddrV6)) p f b
  | .ipv6FlowSpec => ItemsCrash 0 (@FsItemRead _ wrapFsV6) (@FsItemCrash _ wrapFsV6) b
  | .l2Vpls => ItemsCrash 0 WrapVpls WrapVplsCrash b
  | .l2Evpn => ItemsCrash 0 WrapEvpnItem WrapEvpnItemCrash b

end Zbgp.Spec
