import Verif.Model.Ip
import Verif.Model.Mdt
import Verif.Model.Vpls
import Verif.Model.Evpn
import Verif.Model.Mvpn
import Verif.Model.Flowspec

/-!
# Model of `BgpAddrs` (`src/afi/mod.rs:160-194`, `720-1080`): the NLRI collections and the AFI/SAFI dispatch
-/

namespace Zbgp

/-- `src/afi/mod.rs:162-194` enum `BgpAddrs`. -/
inductive BgpAddrs
  | None
  | IPV4U (v : List BgpAddrV4)
  | IPV4M (v : List BgpAddrV4)
  | IPV4LU (v : List (Labeled BgpAddrV4))
  | VPNV4U (v : List (Labeled (WithRd BgpAddrV4)))
  | VPNV4M (v : List (Labeled (WithRd BgpAddrV4)))
  | IPV4MDT (v : List (WithRd BgpMdtV4))
  | IPV4MDTP (v : List (WithPathId (WithRd BgpMdtV4)))
  | IPV6U (v : List BgpAddrV6)
  | IPV6M (v : List BgpAddrV6)
  | IPV6LU (v : List (Labeled BgpAddrV6))
  | VPNV6U (v : List (Labeled (WithRd BgpAddrV6)))
  | VPNV6M (v : List (Labeled (WithRd BgpAddrV6)))
  | IPV6MDT (v : List (WithRd BgpMdtV6))
  | IPV6MDTP (v : List (WithPathId (WithRd BgpMdtV6)))
  | L2VPLS (v : List BgpAddrL2)
  | MVPN (v : List BgpMVPN)
  | EVPN (v : List BgpEVPN)
  | FS4U (v : List (BgpFlowSpec BgpAddrV4))
  | FS6U (v : List (BgpFlowSpec FS6))
  | FSV4U (v : List (BgpFlowSpec FSV4U))
  | IPV4UP (v : List (WithPathId BgpAddrV4))
  | IPV4MP (v : List (WithPathId BgpAddrV4))
  | IPV4LUP (v : List (WithPathId (Labeled BgpAddrV4)))
  | VPNV4UP (v : List (WithPathId (Labeled (WithRd BgpAddrV4))))
  | VPNV4MP (v : List (WithPathId (Labeled (WithRd BgpAddrV4))))
  | IPV6UP (v : List (WithPathId BgpAddrV6))
  | IPV6MP (v : List (WithPathId BgpAddrV6))
  | IPV6LUP (v : List (WithPathId (Labeled BgpAddrV6)))
  | VPNV6UP (v : List (WithPathId (Labeled (WithRd BgpAddrV6))))
  | VPNV6MP (v : List (WithPathId (Labeled (WithRd BgpAddrV6))))
deriving DecidableEq, Repr

namespace BgpAddrs

/-- `src/afi/mod.rs:757-791` `len`. -/
def len : BgpAddrs → Nat
  | None => 0
  | IPV4U v => v.length
  | IPV4M v => v.length
  | IPV4LU v => v.length
  | VPNV4U v => v.length
  | VPNV4M v => v.length
  | IPV4MDT v => v.length
  | IPV4MDTP v => v.length
  | IPV6U v => v.length
  | IPV6M v => v.length
  | IPV6LU v => v.length
  | VPNV6U v => v.length
  | VPNV6M v => v.length
  | IPV6MDT v => v.length
  | IPV6MDTP v => v.length
  | L2VPLS v => v.length
  | MVPN v => v.length
  | EVPN v => v.length
  | FS4U v => v.length
  | FS6U v => v.length
  | FSV4U v => v.length
  | IPV4UP v => v.length
  | IPV4MP v => v.length
  | IPV4LUP v => v.length
  | VPNV4UP v => v.length
  | VPNV4MP v => v.length
  | IPV6UP v => v.length
  | IPV6MP v => v.length
  | IPV6LUP v => v.length
  | VPNV6UP v => v.length
  | VPNV6MP v => v.length

/-- `src/afi/mod.rs:721-755` `is_empty`. -/
def isEmpty : BgpAddrs → Bool
  | None => true
  | IPV4U v => v.isEmpty
  | IPV4M v => v.isEmpty
  | IPV4LU v => v.isEmpty
  | VPNV4U v => v.isEmpty
  | VPNV4M v => v.isEmpty
  | IPV4MDT v => v.isEmpty
  | IPV4MDTP v => v.isEmpty
  | IPV6U v => v.isEmpty
  | IPV6M v => v.isEmpty
  | IPV6LU v => v.isEmpty
  | VPNV6U v => v.isEmpty
  | VPNV6M v => v.isEmpty
  | IPV6MDT v => v.isEmpty
  | IPV6MDTP v => v.isEmpty
  | L2VPLS v => v.isEmpty
  | MVPN v => v.isEmpty
  | EVPN v => v.isEmpty
  | FS4U v => v.isEmpty
  | FS6U v => v.isEmpty
  | FSV4U v => v.isEmpty
  | IPV4UP v => v.isEmpty
  | IPV4MP v => v.isEmpty
  | IPV4LUP v => v.isEmpty
  | VPNV4UP v => v.isEmpty
  | VPNV4MP v => v.isEmpty
  | IPV6UP v => v.isEmpty
  | IPV6MP v => v.isEmpty
  | IPV6LUP v => v.isEmpty
  | VPNV6UP v => v.isEmpty
  | VPNV6MP v => v.isEmpty

/-- `src/afi/mod.rs:793-827` `get_afi_safi`. -/
def getAfiSafi : BgpAddrs → U16 × U8
  | None => (0, 0)
  | IPV4U _ => (1, 1)
  | IPV4M _ => (1, 2)
  | IPV4LU _ => (1, 4)
  | MVPN _ => (1, 5)
  | IPV4MDT _ => (1, 66)
  | IPV4MDTP _ => (1, 66)
  | VPNV4U _ => (1, 128)
  | VPNV4M _ => (1, 129)
  | FS4U _ => (1, 133)
  | FSV4U _ => (1, 134)
  | IPV6U _ => (2, 1)
  | IPV6M _ => (2, 2)
  | IPV6LU _ => (2, 4)
  | IPV6MDT _ => (2, 66)
  | IPV6MDTP _ => (2, 66)
  | VPNV6U _ => (2, 128)
  | VPNV6M _ => (2, 129)
  | FS6U _ => (2, 133)
  | L2VPLS _ => (25, 65)
  | EVPN _ => (25, 70)
  | IPV4UP _ => (1, 1)
  | IPV4MP _ => (1, 2)
  | IPV4LUP _ => (1, 4)
  | VPNV4UP _ => (1, 128)
  | VPNV4MP _ => (1, 129)
  | IPV6UP _ => (2, 1)
  | IPV6MP _ => (2, 2)
  | IPV6LUP _ => (2, 4)
  | VPNV6UP _ => (2, 128)
  | VPNV6MP _ => (2, 129)

/-- The branch `src/afi/mod.rs:839-848` and its ten copies in `decode_from` (`IPV4M` 850-860, `IPV4LU` 862-872,
`IPV4MDT` 884-894, …): path-id decoder when AddPath reception was negotiated for the family, or when the fuzzy option is
on and the bytes look like it; the plain decoder otherwise. -/
def decodeAddpath {T : Type} [BgpItem T] (peer : BgpSessionParams) (afi : U16) (safi : U8)
    (withId : List (WithPathId T) → BgpAddrs) (plain : List T → BgpAddrs) (buf : Bytes) : Res (BgpAddrs × Nat) :=
  if peer.checkAddpathReceive afi safi || (peer.fuzzyPathid && isAddpathNlri buf) then do
    let (v, n) ← decodePathIdItems buf
    .ok (withId v, n)
  else do
    let (v, n) ← decodeItems buf
    .ok (plain v, n)

/-- `src/afi/mod.rs:828-1043` `decode_from`. The two nested `match`es on AFI and SAFI are one match on the pair; all the
errors are the same `BgpError::from_string` value here. The trace log of the MVPN branch is left out. -/
def decodeFrom (peer : BgpSessionParams) (afi : U16) (safi : U8) (buf : Bytes) : Res (BgpAddrs × Nat) :=
  match afi.toNat, safi.toNat with
  | 1, 1 => decodeAddpath peer afi safi IPV4UP IPV4U buf
  | 1, 2 => decodeAddpath peer afi safi IPV4MP IPV4M buf
  | 1, 4 => decodeAddpath peer afi safi IPV4LUP IPV4LU buf
  | 1, 5 => do
    let (v, n) ← decodeAddrItems .IPv4 buf
    .ok (MVPN v, n)
  | 1, 66 => decodeAddpath peer afi safi IPV4MDTP IPV4MDT buf
  | 1, 128 => decodeAddpath peer afi safi VPNV4UP VPNV4U buf
  | 1, 129 => decodeAddpath peer afi safi VPNV4MP VPNV4M buf
  | 1, 133 => do
    let (v, n) ← decodeAddrItems peer.peerMode buf
    .ok (FS4U v, n)
  | 1, 134 => do
    let (v, n) ← decodeAddrItems peer.peerMode buf
    .ok (FSV4U v, n)
  | 2, 1 => decodeAddpath peer afi safi IPV6UP IPV6U buf
  | 2, 2 => decodeAddpath peer afi safi IPV6MP IPV6M buf
  | 2, 4 => decodeAddpath peer afi safi IPV6LUP IPV6LU buf
  | 2, 66 => decodeAddpath peer afi safi IPV6MDTP IPV6MDT buf
  | 2, 128 => decodeAddpath peer afi safi VPNV6UP VPNV6U buf
  | 2, 129 => decodeAddpath peer afi safi VPNV6MP VPNV6M buf
  | 2, 133 => do
    let (v, n) ← decodeAddrItems peer.peerMode buf
    .ok (FS6U v, n)
  | 25, 65 => do
    let (v, n) ← decodeLongItems buf
    .ok (L2VPLS v, n)
  | 25, 70 => do
    let (v, n) ← decodeAddrItems peer.peerMode buf
    .ok (EVPN v, n)
  | _, _ => .err .dynStr

/-- `src/afi/mod.rs:1044-1078` `encode_to`. -/
def encodeTo (x : BgpAddrs) (peer : BgpSessionParams) (buf : Bytes) : Res (Bytes × Nat) :=
  match x with
  | None => .ok (buf, 0)
  | IPV4U v => encodeItems v buf
  | IPV4M v => encodeItems v buf
  | IPV4LU v => encodeItems v buf
  | MVPN v => encodeAddrItems v peer.peerMode buf
  | VPNV4U v => encodeItems v buf
  | VPNV4M v => encodeItems v buf
  | FS4U v => encodeAddrItems v peer.peerMode buf
  | FSV4U v => encodeAddrItems v peer.peerMode buf
  | FS6U v => encodeAddrItems v peer.peerMode buf
  | IPV6U v => encodeItems v buf
  | IPV6M v => encodeItems v buf
  | IPV6LU v => encodeItems v buf
  | VPNV6U v => encodeItems v buf
  | VPNV6M v => encodeItems v buf
  | L2VPLS v => encodeLongItems v buf
  | EVPN v => encodeAddrItems v peer.peerMode buf
  | IPV4UP v => encodePathIdItems v buf
  | IPV4MP v => encodePathIdItems v buf
  | IPV4LUP v => encodePathIdItems v buf
  | VPNV4UP v => encodePathIdItems v buf
  | VPNV4MP v => encodePathIdItems v buf
  | IPV6UP v => encodePathIdItems v buf
  | IPV6MP v => encodePathIdItems v buf
  | IPV6LUP v => encodePathIdItems v buf
  | VPNV6UP v => encodePathIdItems v buf
  | VPNV6MP v => encodePathIdItems v buf
  | IPV4MDT v => encodeItems v buf
  | IPV4MDTP v => encodePathIdItems v buf
  | IPV6MDT v => encodeItems v buf
  | IPV6MDTP v => encodePathIdItems v buf

end BgpAddrs

end Zbgp
