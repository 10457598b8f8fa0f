import Verif.Model.Addrs
import Verif.Model.Order

/-!
# Path attributes

Models `src/message/attributes/*.rs`. `Debug`, `Display` and `serde` are in `Model/Debug.lean`, `Model/Text.lean`,
`Model/Display.lean` and `Model/Serde.lean`. A one-field `struct` keeps its wrapper. `BTreeSet<T>` is a list kept strictly
ascending by `setInsert`, which is what iterating over the set gives.
-/

namespace Zbgp

/-! ## `BTreeSet` -/

/-- `BTreeSet::insert` for the order `lt`: the set as the ascending list of its members. -/
def setInsert {α : Type} (lt : α → α → Bool) (x : α) : List α → List α
  | [] => [x]
  | y :: ys => if lt x y then x :: y :: ys else if lt y x then y :: setInsert lt x ys else y :: ys

/-- A set filled by inserting the members of a list one after the other. -/
def setOf {α : Type} (lt : α → α → Bool) (l : List α) : List α := l.foldl (fun s x => setInsert lt x s) []

/-! ## Simple attributes -/

/-- `src/message/attributes/mod.rs:51-54`. -/
structure BgpAttrParams where
  typecode : U8
  flags : U8
deriving DecidableEq, Repr

/-- `src/message/attributes/origin.rs:19-23`. -/
inductive BgpAttrOrigin
  | Igp
  | Egp
  | Incomplete
deriving DecidableEq, Repr

/-- `src/message/attributes/origin.rs:39-41`. -/
structure BgpOrigin where
  value : BgpAttrOrigin
deriving DecidableEq, Repr

namespace BgpOrigin

/-- `src/message/attributes/origin.rs:46-63` `decode_from`. -/
def decodeFrom (buf : Bytes) : Res BgpOrigin :=
  if buf.isEmpty then .err .insufficientBufferSize
  else do
    match (← idx buf 0).toNat with
    | 0 => .ok ⟨.Igp⟩
    | 1 => .ok ⟨.Egp⟩
    | 2 => .ok ⟨.Incomplete⟩
    | _ => .err .static

/-- `src/message/attributes/origin.rs:89-94` `attr`. -/
def attr (_ : BgpOrigin) : BgpAttrParams := ⟨1, 64⟩

/-- `src/message/attributes/origin.rs:95-114` `encode_to`. -/
def encodeTo (x : BgpOrigin) (buf : Bytes) : Res (Bytes × Nat) :=
  if buf.isEmpty then .err .insufficientBufferSize
  else match x.value with
    | .Igp => do .ok (← setIdx buf 0 0, 1)
    | .Egp => do .ok (← setIdx buf 0 1, 1)
    | .Incomplete => do .ok (← setIdx buf 0 2, 1)

end BgpOrigin

/-- `src/message/attributes/aspath.rs:30-32`. -/
structure BgpASpath where
  value : List BgpAS
deriving DecidableEq, Repr

namespace BgpASpath

/-- The body of the loop, `src/message/attributes/aspath.rs:102-108`. -/
def decodeAsn (as32 : Bool) (buf : Bytes) : Res (BgpAS × Nat) :=
  if as32 then do .ok (⟨← getn32 (← rslice buf 0 4)⟩, 4)
  else do .ok (⟨(← getn16 (← rslice buf 0 2)).setWidth 32⟩, 2)

/-- `src/message/attributes/aspath.rs:90-111` `decode_from`. The loop over positions is a loop over the tails. -/
def decodeFrom (peer : BgpSessionParams) (buf : Bytes) : Res BgpASpath :=
  if buf.length < 2 then .ok ⟨[]⟩
  else do
    let pos := if peer.hasAs32bit then buf.length % 4 else buf.length % 2
    let (v, _) ← decList 0 (decodeAsn peer.hasAs32bit) (buf.drop pos)
    .ok ⟨v⟩

/-- `src/message/attributes/aspath.rs:131-136` `attr`. -/
def attr (_ : BgpASpath) : BgpAttrParams := ⟨2, 0x50⟩

/-- The loop `src/message/attributes/aspath.rs:157-165`. -/
def encodeAsns (as32 : Bool) : List BgpAS → Bytes → Nat → Res (Bytes × Nat)
  | [], buf, pos => .ok (buf, pos)
  | i :: r, buf, pos =>
    if as32 then do
      let buf ← modRange buf pos (pos + 4) (setn32 i.value)
      encodeAsns as32 r buf (pos + 4)
    else do
      let buf ← modRange buf pos (pos + 2) (setn16 (i.value.setWidth 16))
      encodeAsns as32 r buf (pos + 2)

/-- `src/message/attributes/aspath.rs:137-167` `encode_to`. -/
def encodeTo (x : BgpASpath) (peer : BgpSessionParams) (buf : Bytes) : Res (Bytes × Nat) :=
  if x.value.isEmpty then .ok (buf, 0)
  else if peer.hasAs32bit then
    if buf.length < 2 + x.value.length * 4 then .err .insufficientBufferSize
    else do
      let buf ← setIdx buf 0 2
      let buf ← setIdx buf 1 (BitVec.ofNat 8 x.value.length)
      encodeAsns true x.value buf 2
  else
    if buf.length < 2 + x.value.length * 2 then .err .insufficientBufferSize
    else do
      let buf ← setIdx buf 0 2
      let buf ← setIdx buf 1 (BitVec.ofNat 8 x.value.length)
      encodeAsns false x.value buf 2

end BgpASpath

/-- `src/message/attributes/nexthop.rs:20-23`. -/
structure BgpNextHop where
  value : IpAddr
deriving DecidableEq, Repr

namespace BgpNextHop

/-- `src/message/attributes/nexthop.rs:28-40` `decode_from`. -/
def decodeFrom (peer : BgpSessionParams) (buf : Bytes) : Res BgpNextHop :=
  if peer.peerMode = .IPv6 ∧ buf.length ≥ 16 then do .ok ⟨.v6 (← decodeAddrV6 buf)⟩
  else if peer.peerMode = .IPv4 ∧ buf.length ≥ 4 then do .ok ⟨.v4 (← decodeAddrV4 buf)⟩
  else .err .static

/-- `src/message/attributes/nexthop.rs:55-60` `attr`. -/
def attr (_ : BgpNextHop) : BgpAttrParams := ⟨3, 64⟩

/-- `src/message/attributes/nexthop.rs:61-73` `encode_to`. -/
def encodeTo (x : BgpNextHop) (peer : BgpSessionParams) (buf : Bytes) : Res (Bytes × Nat) :=
  match x.value with
  | .v6 v => if peer.peerMode = .IPv6 ∧ buf.length ≥ 16 then encodeAddrV6 v buf else .err .static
  | .v4 v => if peer.peerMode = .IPv4 ∧ buf.length ≥ 4 then encodeAddrV4 v buf else .err .static

end BgpNextHop

/-- `src/message/attributes/med.rs:20-22`. -/
structure BgpMED where
  value : U32
deriving DecidableEq, Repr

namespace BgpMED

/-- `src/message/attributes/med.rs:27-35` `decode_from`. -/
def decodeFrom (buf : Bytes) : Res BgpMED :=
  if buf.length ≥ 4 then do .ok ⟨← getn32 buf⟩ else .err .static

/-- `src/message/attributes/med.rs:50-55` `attr`. -/
def attr (_ : BgpMED) : BgpAttrParams := ⟨4, 128⟩

/-- `src/message/attributes/med.rs:56-63` `encode_to`. -/
def encodeTo (x : BgpMED) (buf : Bytes) : Res (Bytes × Nat) :=
  if buf.length ≥ 4 then do .ok (← setn32 x.value buf, 4) else .err .static

end BgpMED

/-- `src/message/attributes/localpref.rs:20-22`. -/
structure BgpLocalpref where
  value : U32
deriving DecidableEq, Repr

namespace BgpLocalpref

/-- `src/message/attributes/localpref.rs:27-35` `decode_from`. -/
def decodeFrom (buf : Bytes) : Res BgpLocalpref :=
  if buf.length ≥ 4 then do .ok ⟨← getn32 buf⟩ else .err .static

/-- `src/message/attributes/localpref.rs:50-55` `attr`. -/
def attr (_ : BgpLocalpref) : BgpAttrParams := ⟨5, 64⟩

/-- `src/message/attributes/localpref.rs:56-63` `encode_to`. -/
def encodeTo (x : BgpLocalpref) (buf : Bytes) : Res (Bytes × Nat) :=
  if buf.length ≥ 4 then do .ok (← setn32 x.value buf, 4) else .err .static

end BgpLocalpref

/-- `src/message/attributes/atomicaggregate.rs:20-22`. -/
structure BgpAtomicAggregate where
  value : IpAddr
deriving DecidableEq, Repr

namespace BgpAtomicAggregate

/-- `src/message/attributes/atomicaggregate.rs:24-35` `decode_from`. -/
def decodeFrom (buf : Bytes) : Res BgpAtomicAggregate :=
  if buf.isEmpty then .ok ⟨.v4 0⟩ else do .ok ⟨← decodeAddr buf⟩

/-- `src/message/attributes/atomicaggregate.rs:50-55` `attr`. -/
def attr (_ : BgpAtomicAggregate) : BgpAttrParams := ⟨6, 64⟩

/-- `src/message/attributes/atomicaggregate.rs:56-58` `encode_to`. -/
def encodeTo (x : BgpAtomicAggregate) (buf : Bytes) : Res (Bytes × Nat) := encodeAddr x.value buf

end BgpAtomicAggregate

/-- `src/message/attributes/aggregatoras.rs:19-24`. -/
structure BgpAggregatorAS where
  asn : U32
  addr : IPv4
deriving DecidableEq, Repr

namespace BgpAggregatorAS

/-- `src/message/attributes/aggregatoras.rs:26-40` `decode_from`. -/
def decodeFrom (buf : Bytes) : Res BgpAggregatorAS :=
  if buf.length = 8 then do .ok ⟨← getn32 buf, ← decodeAddrV4 (← rslice buf 4 8)⟩
  else if buf.length = 6 then do .ok ⟨(← getn16 buf).setWidth 32, ← decodeAddrV4 (← rslice buf 2 6)⟩
  else .err .static

/-- `src/message/attributes/aggregatoras.rs:56-61` `attr`. -/
def attr (_ : BgpAggregatorAS) : BgpAttrParams := ⟨7, 64⟩

/-- `src/message/attributes/aggregatoras.rs:62-64` `encode_to`: nothing is written. -/
def encodeTo (_ : BgpAggregatorAS) (peer : BgpSessionParams) (buf : Bytes) : Res (Bytes × Nat) :=
  .ok (buf, if peer.hasAs32bit then 4 else 2)

end BgpAggregatorAS

/-- `src/message/attributes/originatorid.rs:21-23`. -/
structure BgpOriginatorID where
  value : IpAddr
deriving DecidableEq, Repr

namespace BgpOriginatorID

/-- `src/message/attributes/originatorid.rs:28-41` `decode_from`. -/
def decodeFrom (peer : BgpSessionParams) (buf : Bytes) : Res BgpOriginatorID :=
  match peer.peerMode with
  | .IPv4 => do .ok ⟨← decodeAddr (← rslice buf 0 4)⟩
  | .IPv6 =>
    if buf.length < 16 then do .ok ⟨← decodeAddr (← rslice buf 0 4)⟩
    else do .ok ⟨← decodeAddr (← rslice buf 0 16)⟩

/-- `src/message/attributes/originatorid.rs:56-61` `attr`. -/
def attr (_ : BgpOriginatorID) : BgpAttrParams := ⟨9, 0x80⟩

/-- `src/message/attributes/originatorid.rs:62-79` `encode_to`. -/
def encodeTo (x : BgpOriginatorID) (peer : BgpSessionParams) (buf : Bytes) : Res (Bytes × Nat) :=
  match peer.peerMode, x.value with
  | .IPv4, .v4 a => encodeAddrV4 a buf
  | .IPv6, .v6 a => encodeAddrV6 a buf
  | _, _ => .err .static

end BgpOriginatorID

/-- `src/message/attributes/clusterlist.rs:20-22`. -/
structure BgpClusterList where
  value : List IpAddr
deriving DecidableEq, Repr

namespace BgpClusterList

/-- `src/message/attributes/clusterlist.rs:24-36` `decode_from`. The loop over positions is a loop over the tails. -/
def decodeFrom (peer : BgpSessionParams) (buf : Bytes) : Res BgpClusterList := do
  let itemsize := match peer.peerMode with
    | .IPv4 => 4
    | .IPv6 => 16
  let (v, _) ← decList (itemsize - 1) (fun b => do .ok (← decodeAddr (← rslice b 0 itemsize), itemsize)) buf
  .ok ⟨v⟩

/-- `src/message/attributes/clusterlist.rs:51-56` `attr`. -/
def attr (_ : BgpClusterList) : BgpAttrParams := ⟨10, 0x80⟩

/-- `src/message/attributes/clusterlist.rs:57-63` `encode_to`. -/
def encodeTo (x : BgpClusterList) (buf : Bytes) : Res (Bytes × Nat) := encLoop encodeAddr x.value buf 0

end BgpClusterList

/-- `src/message/attributes/connector.rs:20-24`. -/
structure BgpConnector where
  asn : U32
  addr : IPv4
  orig : IPv4
deriving DecidableEq, Repr

namespace BgpConnector

/-- `src/message/attributes/connector.rs:29-42` `decode_from`. -/
def decodeFrom (buf : Bytes) : Res BgpConnector :=
  if buf.length ≥ 14 then do
    if (← getn16 buf) ≠ 1 then .err .static
    else .ok ⟨← getn32 (← rslice buf 2 6), ← decodeAddrV4 (← rslice buf 6 10), ← decodeAddrV4 (← rslice buf 10 14)⟩
  else .err .static

/-- `src/message/attributes/connector.rs:63-68` `attr`. -/
def attr (_ : BgpConnector) : BgpAttrParams := ⟨20, 192⟩

/-- `src/message/attributes/connector.rs:69-79` `encode_to`. -/
def encodeTo (x : BgpConnector) (buf : Bytes) : Res (Bytes × Nat) :=
  if buf.length ≥ 14 then do
    let buf ← setn16 1 buf
    let buf ← modRange buf 2 6 (setn32 x.asn)
    let (buf, _) ← onRange buf 6 10 (encodeAddrV4 x.addr)
    let (buf, _) ← onRange buf 10 14 (encodeAddrV4 x.orig)
    .ok (buf, 14)
  else .err .static

end BgpConnector

/-- `src/message/attributes/unknown.rs:19-24`. -/
structure BgpAttrUnknown where
  params : BgpAttrParams
  value : Bytes
deriving DecidableEq, Repr

namespace BgpAttrUnknown

/-- `src/message/attributes/unknown.rs:35-46` `decode_from`. -/
def decodeFrom (tc flg : U8) (buf : Bytes) : Res BgpAttrUnknown := do
  .ok ⟨⟨tc, flg⟩, ← copyAll (List.replicate buf.length 0) buf⟩

/-- `src/message/attributes/unknown.rs:66-71` `attr`. -/
def attr (x : BgpAttrUnknown) : BgpAttrParams := ⟨x.params.typecode, x.params.flags⟩

/-- `src/message/attributes/unknown.rs:72-75` `encode_to`. -/
def encodeTo (x : BgpAttrUnknown) (buf : Bytes) : Res (Bytes × Nat) := do
  .ok (← copyAt buf 0 x.value.length x.value, x.value.length)

end BgpAttrUnknown

/-! ## Communities -/

/-- `src/message/attributes/community.rs:30-32`. -/
structure BgpCommunity where
  value : U32
deriving DecidableEq, Repr

namespace BgpCommunity

/-- The derived `Ord`, `src/message/attributes/community.rs:26`. -/
def lt (a b : BgpCommunity) : Bool := a.value.toNat < b.value.toNat

/-- `src/message/attributes/community.rs:156-160` `from`. -/
def ofParts (h l : U16) : BgpCommunity := ⟨(h.setWidth 32 <<< 16) ||| l.setWidth 32⟩

/-- `src/message/attributes/community.rs:161-168` `decode_from`. -/
def decodeFrom (buf : Bytes) : Res BgpCommunity :=
  if buf.length = 4 then do .ok ⟨← getn32 buf⟩ else .err .static

/-- `src/message/attributes/community.rs:169-175` `encode_to`. -/
def encodeTo (x : BgpCommunity) (buf : Bytes) : Res (Bytes × Nat) :=
  if buf.length < 4 then .err .insufficientBufferSize
  else do .ok (← setn32 x.value buf, 4)

end BgpCommunity

/-- `src/message/attributes/community.rs:38-40`; the set is its ascending list of members. -/
structure BgpCommunityList where
  value : List BgpCommunity
deriving DecidableEq, Repr

namespace BgpCommunityList

/-- `src/message/attributes/community.rs:233-237` `from_vec`. -/
def fromVec (v : List BgpCommunity) : BgpCommunityList := ⟨setOf BgpCommunity.lt v⟩

/-- `src/message/attributes/community.rs:245-253` `decode_from`. The members are collected first and inserted in the
order read. -/
def decodeFrom (buf : Bytes) : Res BgpCommunityList := do
  let (v, _) ← decList 0 (fun b => do .ok (← BgpCommunity.decodeFrom (← rslice b 0 4), 4)) buf
  .ok ⟨setOf BgpCommunity.lt v⟩

/-- `src/message/attributes/community.rs:282-287` `attr`. -/
def attr (_ : BgpCommunityList) : BgpAttrParams := ⟨8, 128 ||| 64 ||| 16⟩

/-- `src/message/attributes/community.rs:288-298` `encode_to`. -/
def encodeTo (x : BgpCommunityList) (buf : Bytes) : Res (Bytes × Nat) :=
  if buf.length < x.value.length * 4 then .err .insufficientBufferSize
  else encLoop BgpCommunity.encodeTo x.value buf 0

end BgpCommunityList

/-- `src/message/attributes/community.rs:46-50`. -/
structure BgpLargeCommunity where
  ga : U32
  ldp1 : U32
  ldp2 : U32
deriving DecidableEq, Repr

namespace BgpLargeCommunity

/-- The derived `Ord`, `src/message/attributes/community.rs:43`: the fields in order. -/
def lt (a b : BgpLargeCommunity) : Bool :=
  a.ga.toNat < b.ga.toNat || (a.ga == b.ga && (a.ldp1.toNat < b.ldp1.toNat
    || (a.ldp1 == b.ldp1 && a.ldp2.toNat < b.ldp2.toNat)))

/-- `src/message/attributes/community.rs:60-71` `decode_from`. -/
def decodeFrom (buf : Bytes) : Res BgpLargeCommunity :=
  if buf.length = 12 then do
    .ok ⟨← getn32 (← rslice buf 0 4), ← getn32 (← rslice buf 4 8), ← getn32 (← rslice buf 8 12)⟩
  else .err .static

/-- `src/message/attributes/community.rs:72-80` `encode_to`. -/
def encodeTo (x : BgpLargeCommunity) (buf : Bytes) : Res (Bytes × Nat) :=
  if buf.length < 12 then .err .insufficientBufferSize
  else do
    let buf ← setn32 x.ga buf
    let buf ← modRange buf 4 8 (setn32 x.ldp1)
    let buf ← modRange buf 8 12 (setn32 x.ldp2)
    .ok (buf, 12)

end BgpLargeCommunity

/-- `src/message/attributes/community.rs:56-58`; the set is its ascending list of members. -/
structure BgpLargeCommunityList where
  value : List BgpLargeCommunity
deriving DecidableEq, Repr

namespace BgpLargeCommunityList

/-- `src/message/attributes/community.rs:102-110` `decode_from`, as `BgpCommunityList.decodeFrom`. -/
def decodeFrom (buf : Bytes) : Res BgpLargeCommunityList := do
  let (v, _) ← decList 0 (fun b => do .ok (← BgpLargeCommunity.decodeFrom (← rslice b 0 12), 12)) buf
  .ok ⟨setOf BgpLargeCommunity.lt v⟩

/-- `src/message/attributes/community.rs:125-130` `attr`. -/
def attr (_ : BgpLargeCommunityList) : BgpAttrParams := ⟨32, 128 ||| 64 ||| 32 ||| 16⟩

/-- `src/message/attributes/community.rs:131-137` `encode_to`. -/
def encodeTo (x : BgpLargeCommunityList) (buf : Bytes) : Res (Bytes × Nat) :=
  encLoop BgpLargeCommunity.encodeTo x.value buf 0

end BgpLargeCommunityList

/-- `src/message/attributes/extcommunity.rs:19-24`. -/
structure BgpExtCommunity where
  ctype : U8
  subtype : U8
  a : U16
  b : U32
deriving DecidableEq, Repr

namespace BgpExtCommunity

/-- The derived `Ord`, `src/message/attributes/extcommunity.rs:16`: the fields in order. -/
def lt (x y : BgpExtCommunity) : Bool :=
  x.ctype.toNat < y.ctype.toNat || (x.ctype == y.ctype && (x.subtype.toNat < y.subtype.toNat
    || (x.subtype == y.subtype && (x.a.toNat < y.a.toNat || (x.a == y.a && x.b.toNat < y.b.toNat)))))

/-- `src/message/attributes/extcommunity.rs:27-34` `rt_asn`. -/
def rtAsn (asn : U16) (val : U32) : BgpExtCommunity := ⟨0, 2, asn, val⟩

/-- `src/message/attributes/extcommunity.rs:36-44` `rt_ipn`. `ipa.octets()[i]` is the shift of the address value. -/
def rtIpn (ipa : IPv4) (val : U16) : BgpExtCommunity :=
  let o0 : U8 := (ipa >>> 24).setWidth 8
  let o1 : U8 := (ipa >>> 16).setWidth 8
  let o2 : U8 := (ipa >>> 8).setWidth 8
  let o3 : U8 := ipa.setWidth 8
  ⟨1, 2, (o0.setWidth 16 <<< 8) ||| o1.setWidth 16,
    (o2.setWidth 32 <<< 24) ||| (o3.setWidth 32 <<< 16) ||| val.setWidth 32⟩

/-- `src/message/attributes/extcommunity.rs:45-55` `decode_from`. -/
def decodeFrom (buf : Bytes) : Res BgpExtCommunity :=
  if buf.length = 8 then do
    .ok ⟨← idx buf 0, ← idx buf 1, ← getn16 (← rslice buf 2 4), ← getn32 (← rslice buf 4 8)⟩
  else .err .static

/-- `src/message/attributes/extcommunity.rs:56-65` `encode_to`. -/
def encodeTo (x : BgpExtCommunity) (buf : Bytes) : Res (Bytes × Nat) :=
  if buf.length < 8 then .err .insufficientBufferSize
  else do
    let buf ← setIdx buf 0 x.ctype
    let buf ← setIdx buf 1 x.subtype
    let buf ← modRange buf 2 4 (setn16 x.a)
    let buf ← modRange buf 4 8 (setn32 x.b)
    .ok (buf, 8)

/-- `src/message/attributes/extcommunity.rs:67-74` `get_ipv4`; `Ipv4Addr::new(a, b, c, d)` is `a ++ b ++ c ++ d`. -/
def getIpv4 (x : BgpExtCommunity) : IPv4 :=
  ((x.a >>> 8) &&& 0xff).setWidth 8 ++ (x.a &&& 0xff).setWidth 8 ++ ((x.b >>> 24) &&& 0xff).setWidth 8
    ++ ((x.b >>> 16) &&& 0xff).setWidth 8

/-- `src/message/attributes/extcommunity.rs:76-78` `get_num`. -/
def getNum (x : BgpExtCommunity) : U16 := (x.b &&& 0xffff).setWidth 16

/-- `src/message/attributes/extcommunity.rs:157-167` `From<u64>`. -/
def ofU64 (value : U64) : Res BgpExtCommunity := do
  let buf := Spec.be 8 value.toNat
  .ok ⟨← idx buf 0, ← idx buf 1, ← getn16 (← rslice buf 2 4), ← getn32 (← rslice buf 4 8)⟩

end BgpExtCommunity

/-- `src/message/attributes/extcommunity.rs:174-176`; the set is its ascending list of members. -/
structure BgpExtCommunityList where
  value : List BgpExtCommunity
deriving DecidableEq, Repr

namespace BgpExtCommunityList

/-- `src/message/attributes/extcommunity.rs:183-189` `from_vec`. -/
def fromVec (v : List BgpExtCommunity) : BgpExtCommunityList := ⟨setOf BgpExtCommunity.lt v⟩

/-- `src/message/attributes/extcommunity.rs:190-198` `decode_from`, as `BgpCommunityList.decodeFrom`. -/
def decodeFrom (buf : Bytes) : Res BgpExtCommunityList := do
  let (v, _) ← decList 7 (fun b => do .ok (← BgpExtCommunity.decodeFrom (← rslice b 0 8), 8)) buf
  .ok ⟨setOf BgpExtCommunity.lt v⟩

/-- `src/message/attributes/extcommunity.rs:218-223` `attr`. -/
def attr (_ : BgpExtCommunityList) : BgpAttrParams := ⟨16, 192⟩

/-- `src/message/attributes/extcommunity.rs:224-231` `encode_to`. -/
def encodeTo (x : BgpExtCommunityList) (buf : Bytes) : Res (Bytes × Nat) :=
  encLoop BgpExtCommunity.encodeTo x.value buf 0

end BgpExtCommunityList

/-! ## Multiprotocol attributes -/

/-- `src/afi/mod.rs:53-61`. -/
inductive BgpAddr
  | None
  | V4 (a : IPv4)
  | V6 (a : IPv6)
  | V4RD (a : BgpIPv4RD)
  | V6RD (a : BgpIPv6RD)
  | L2 (a : BgpL2)
  | MVPN (a : BgpMVPN)
deriving DecidableEq, Repr

/-- `src/message/attributes/multiproto.rs:18-23`. -/
structure BgpMPUpdates where
  nexthop : BgpAddr
  addrs : BgpAddrs
deriving DecidableEq, Repr

namespace BgpMPUpdates

/-- `src/message/attributes/multiproto.rs:26-31`. -/
def s4vpnv4u (nhop : BgpIPv4RD) (nlri : List (Labeled (WithRd BgpAddrV4))) : BgpMPUpdates := ⟨.V4RD nhop, .VPNV4U nlri⟩
/-- `src/message/attributes/multiproto.rs:33-38`. -/
def s4vpnv4m (nhop : BgpIPv4RD) (nlri : List (Labeled (WithRd BgpAddrV4))) : BgpMPUpdates := ⟨.V4RD nhop, .VPNV4M nlri⟩
/-- `src/message/attributes/multiproto.rs:40-45`. -/
def s4ip4lu (nhop : IPv4) (nlri : List (Labeled BgpAddrV4)) : BgpMPUpdates := ⟨.V4 nhop, .IPV4LU nlri⟩
/-- `src/message/attributes/multiproto.rs:47-52`. -/
def s4ip6lu (nhop : IPv4) (nlri : List (Labeled BgpAddrV6)) : BgpMPUpdates := ⟨.V4 nhop, .IPV6LU nlri⟩
/-- `src/message/attributes/multiproto.rs:54-59`. -/
def s4vpnv6u (nhop : BgpIPv4RD) (nlri : List (Labeled (WithRd BgpAddrV6))) : BgpMPUpdates := ⟨.V4RD nhop, .VPNV6U nlri⟩
/-- `src/message/attributes/multiproto.rs:61-66`. -/
def s4vpnv6m (nhop : BgpIPv4RD) (nlri : List (Labeled (WithRd BgpAddrV6))) : BgpMPUpdates := ⟨.V4RD nhop, .VPNV6M nlri⟩

/-- The next hop read by `src/message/attributes/multiproto.rs:70-136`: the address and the new `curpos`. -/
def decodeNexthop (peer : BgpSessionParams) (afi : U16) (safi : U8) (nhlen : Nat) (buf : Bytes) :
    Res (BgpAddr × Nat) :=
  match afi.toNat with
  | 1 =>
    match safi.toNat with
    | 1 | 2 | 4 | 5 | 66 | 133 => do .ok (.V4 (← decodeAddrV4 (← rslice buf 4 (4 + nhlen))), 4 + nhlen)
    | 128 | 129 | 134 => do
      let (r, n) ← BgpAddrItem.decodeFrom (T := BgpIPv4RD) peer.peerMode (← rfrom buf 4)
      .ok (.V4RD r, 4 + n)
    | _ => .err .dynStr
  | 2 =>
    match safi.toNat with
    | 1 | 2 | 4 | 66 => do .ok (.V6 (← decodeAddrV6 (← rslice buf 4 (4 + nhlen))), 4 + nhlen)
    | 128 | 129 => do
      let (r, n) ← BgpAddrItem.decodeFrom (T := BgpIPv6RD) peer.peerMode (← rfrom buf 4)
      .ok (.V6RD r, 4 + n)
    | _ => .err .dynStr
  | 25 =>
    match safi.toNat with
    | 65 | 70 => do .ok (.V4 (← decodeAddrV4 (← rfrom buf 4)), 4 + nhlen)
    | _ => .err .dynStr
  | _ => .err .dynStr

/-- The loop `src/message/attributes/multiproto.rs:139-142` over the SNPAs. -/
def skipSnpa (buf : Bytes) : Nat → Nat → Res Nat
  | 0, curpos => .ok curpos
  | n + 1, curpos => do
    let l := (← idx buf curpos).toNat
    skipSnpa buf n (curpos + (1 + l))

/-- `src/message/attributes/multiproto.rs:67-148` `decode_from`. The trace log is left out: the slice it prints starts at
`curpos ≤ buf.len()`. -/
def decodeFrom (peer : BgpSessionParams) (buf : Bytes) : Res BgpMPUpdates := do
  let afi ← getn16 buf
  let safi ← idx buf 2
  let nhlen := (← idx buf 3).toNat
  let (nh, curpos) ← decodeNexthop peer afi safi nhlen buf
  let snpaCount := (← idx buf curpos).toNat
  let curpos ← skipSnpa buf snpaCount (curpos + 1)
  let (ap, _) ← BgpAddrs.decodeFrom peer afi safi (← rfrom buf curpos)
  .ok ⟨nh, ap⟩

/-- `src/message/attributes/multiproto.rs:165-170` `attr`. -/
def attr (_ : BgpMPUpdates) : BgpAttrParams := ⟨14, 144⟩

/-- The next hop written by `src/message/attributes/multiproto.rs:176-183`. -/
def encodeNexthop (nh : BgpAddr) (peer : BgpSessionParams) (buf : Bytes) : Res (Bytes × Nat) :=
  match nh with
  | .None => .ok (buf, 0)
  | .V4 a => onFrom buf 4 (encodeAddrV4 a)
  | .V6 a => onFrom buf 4 (encodeAddrV6 a)
  | .V4RD a => onFrom buf 4 (BgpAddrItem.encodeTo a peer.peerMode)
  | .V6RD a => onFrom buf 4 (BgpAddrItem.encodeTo a peer.peerMode)
  | .L2 _ | .MVPN _ => .err .static

/-- `src/message/attributes/multiproto.rs:171-191` `encode_to`. -/
def encodeTo (x : BgpMPUpdates) (peer : BgpSessionParams) (buf : Bytes) : Res (Bytes × Nat) := do
  let buf ← modRange buf 0 2 (setn16 x.addrs.getAfiSafi.1)
  let buf ← setIdx buf 2 x.addrs.getAfiSafi.2
  let (buf, nhl) ← encodeNexthop x.nexthop peer buf
  let buf ← setIdx buf 3 (BitVec.ofNat 8 nhl)
  let buf ← setIdx buf (4 + nhl) 0
  let (buf, ps) ← onFrom buf (4 + nhl + 1) (x.addrs.encodeTo peer)
  .ok (buf, 4 + nhl + 1 + ps)

end BgpMPUpdates

/-- `src/message/attributes/multiproto.rs:198-201`. -/
structure BgpMPWithdraws where
  addrs : BgpAddrs
deriving DecidableEq, Repr

namespace BgpMPWithdraws

/-- `src/message/attributes/multiproto.rs:203-208` `decode_from`. -/
def decodeFrom (peer : BgpSessionParams) (buf : Bytes) : Res BgpMPWithdraws := do
  let afi ← getn16 buf
  let safi ← idx buf 2
  let (a, _) ← BgpAddrs.decodeFrom peer afi safi (← rfrom buf 3)
  .ok ⟨a⟩

/-- `src/message/attributes/multiproto.rs:223-228` `attr`. -/
def attr (_ : BgpMPWithdraws) : BgpAttrParams := ⟨15, 144⟩

/-- `src/message/attributes/multiproto.rs:229-237` `encode_to`. -/
def encodeTo (x : BgpMPWithdraws) (peer : BgpSessionParams) (buf : Bytes) : Res (Bytes × Nat) := do
  let buf ← modRange buf 0 2 (setn16 x.addrs.getAfiSafi.1)
  let buf ← setIdx buf 2 x.addrs.getAfiSafi.2
  let (buf, ps) ← onFrom buf 3 (x.addrs.encodeTo peer)
  .ok (buf, 3 + ps)

end BgpMPWithdraws

/-! ## PMSI tunnel -/

/-- `src/message/attributes/pmsitunnelattr.rs:19-24`, `38-40`, `49-52`, `62-67`. -/
inductive BgpPMSITunnelAttr
  | None
  | RSVPTe (extTunnelId : IPv4) (reserved tunnelId : U16) (p2mpId : IPv4)
  | IngressRepl (endpoint : IPv4)
  | MLDP (rootnode : IpAddr) (opaq : Bytes)
deriving DecidableEq, Repr

/-- `src/message/attributes/pmsitunnelattr.rs:83-88`. -/
structure BgpPMSITunnel where
  flags : U8
  tunnelType : U8
  label : MplsLabels
  tunnelAttribute : BgpPMSITunnelAttr
deriving DecidableEq, Repr

namespace BgpPMSITunnel

/-- `Ipv4Addr::new(buf[p], buf[p+1], buf[p+2], buf[p+3])`. -/
def addrAt (buf : Bytes) (p : Nat) : Res IPv4 := do
  let a ← idx buf p
  let b ← idx buf (p + 1)
  let c ← idx buf (p + 2)
  let d ← idx buf (p + 3)
  .ok (a ++ b ++ c ++ d)

/-- `src/message/attributes/pmsitunnelattr.rs:101-186` `decode_from`. -/
def decodeFrom (buf : Bytes) : Res BgpPMSITunnel :=
  if buf.length < 5 then .err .static
  else do
    let (lbls, n) ← MplsLabels.extractBits 24 (← rfrom buf 2)
    let curpos := 2 + n
    let flags ← idx buf 0
    let ty ← idx buf 1
    let ta ← (match ty.toNat with
      | 0 => .ok .None
      | 1 => do
        let e ← addrAt buf curpos
        let r ← getn16 (← rfrom buf (curpos + 4))
        let t ← getn16 (← rfrom buf (curpos + 6))
        let p ← addrAt buf (curpos + 8)
        .ok (.RSVPTe e r t p)
      | 2 => do
        if (← idx buf 5) ≠ 6 then .err .dynStr
        else if buf.length < 16 then .err .dynStr
        else if (← getn16 (← rslice buf 6 8)) ≠ 1 then .err .static
        else if (← idx buf 8) ≠ 4 then .err .static
        else
          let rootnode ← decodeAddr (← rslice buf 9 13)
          let opaquelen := (← getn16 (← rslice buf 13 15)).toNat
          if buf.length < 15 + opaquelen then .err .dynStr
          else .ok (.MLDP rootnode (← rslice buf 15 (15 + opaquelen)))
      | 6 => do .ok (.IngressRepl (← addrAt buf curpos))
      | _ => .err .dynStr : Res BgpPMSITunnelAttr)
    .ok ⟨flags, ty, lbls, ta⟩

/-- `src/message/attributes/pmsitunnelattr.rs:208-213` `attr`. -/
def attr (_ : BgpPMSITunnel) : BgpAttrParams := ⟨22, 192⟩

/-- `src/message/attributes/pmsitunnelattr.rs:214-216` `encode_to` is `unimplemented!()`. -/
def encodeTo (_ : BgpPMSITunnel) (_ : Bytes) : Res (Bytes × Nat) := .panic

end BgpPMSITunnel

/-! ## The attribute enumeration -/

/-- `src/message/attributes/mod.rs:65-84`. `AttrSet` holds the fields of `BgpAttrSet`
(`src/message/attributes/attrset.rs:19-24`). -/
inductive BgpAttrItem
  | Origin (x : BgpOrigin)
  | ASPath (x : BgpASpath)
  | NextHop (x : BgpNextHop)
  | MED (x : BgpMED)
  | LocalPref (x : BgpLocalpref)
  | AtomicAggregate (x : BgpAtomicAggregate)
  | AggregatorAS (x : BgpAggregatorAS)
  | CommunityList (x : BgpCommunityList)
  | OriginatorID (x : BgpOriginatorID)
  | ClusterList (x : BgpClusterList)
  | MPUpdates (x : BgpMPUpdates)
  | MPWithdraws (x : BgpMPWithdraws)
  | ExtCommunityList (x : BgpExtCommunityList)
  | LargeCommunityList (x : BgpLargeCommunityList)
  | PMSITunnel (x : BgpPMSITunnel)
  | AttrSet (asn : U32) (attrs : List BgpAttrItem)
  | Connector (x : BgpConnector)
  | Unknown (x : BgpAttrUnknown)

/-- A decoder of one attribute value: type code, flags, declared length, value bytes. -/
abbrev AttrDec := U8 → U8 → Nat → Bytes → Res BgpAttrItem

namespace BgpAttrSet

/-- The loop `src/message/attributes/attrset.rs:37-58`, for a decoder `dec` of the attributes inside. The fuel is the
number of rounds allowed. -/
def loop (dec : AttrDec) (buf : Bytes) : Nat → Nat → Res (List BgpAttrItem)
  | fuel, curpos =>
    if curpos < buf.length then
      match fuel with
      | 0 => .hang
      | fuel + 1 => do
        let flags ← idx buf curpos
        let tc ← idx buf (curpos + 1)
        let (curpos, attrlen) ← (if flags &&& 16 > 0 then do
            .ok (curpos + 4, (← getn16 (← rslice buf (curpos + 4 - 2) (curpos + 4))).toNat)
          else do
            .ok (curpos + 3, (← idx buf (curpos + 3 - 1)).toNat) : Res (Nat × Nat))
        if curpos + attrlen > buf.length then .err .static
        else
          let x ← dec tc flags attrlen (← rslice buf curpos (curpos + attrlen))
          let r ← loop dec buf fuel (curpos + attrlen)
          .ok (x :: r)
    else .ok []

/-- `src/message/attributes/attrset.rs:26-63` `decode_from`. -/
def decodeFrom (dec : AttrDec) (peer : BgpSessionParams) (buf : Bytes) : Res BgpAttrItem :=
  if !peer.hasAs32bit then .err .static
  else if buf.length < 4 then .err .static
  else do
    let attrs ← loop dec buf buf.length 4
    .ok (.AttrSet (← getn32 buf) attrs)

end BgpAttrSet

namespace BgpAttrItem

/-- `src/message/attributes/mod.rs:87-156` `decode_from`, with the number of nested attribute sets allowed as fuel. The
trace log of the last branch prints the slice that is decoded right after it. -/
def decodeN (peer : BgpSessionParams) : Nat → AttrDec
  | fuel, typecode, flags, attrlen, buf =>
    match typecode.toNat with
    | 1 => do .ok (.Origin (← BgpOrigin.decodeFrom buf))
    | 2 => do .ok (.ASPath (← BgpASpath.decodeFrom peer buf))
    | 3 => do .ok (.NextHop (← BgpNextHop.decodeFrom peer buf))
    | 4 => do .ok (.MED (← BgpMED.decodeFrom buf))
    | 5 => do .ok (.LocalPref (← BgpLocalpref.decodeFrom buf))
    | 6 => do .ok (.AtomicAggregate (← BgpAtomicAggregate.decodeFrom buf))
    | 7 => do .ok (.AggregatorAS (← BgpAggregatorAS.decodeFrom buf))
    | 8 => do .ok (.CommunityList (← BgpCommunityList.decodeFrom buf))
    | 9 => do .ok (.OriginatorID (← BgpOriginatorID.decodeFrom peer buf))
    | 10 => do .ok (.ClusterList (← BgpClusterList.decodeFrom peer buf))
    | 14 => do .ok (.MPUpdates (← BgpMPUpdates.decodeFrom peer buf))
    | 15 => do .ok (.MPWithdraws (← BgpMPWithdraws.decodeFrom peer buf))
    | 16 => do .ok (.ExtCommunityList (← BgpExtCommunityList.decodeFrom buf))
    | 22 => do .ok (.PMSITunnel (← BgpPMSITunnel.decodeFrom buf))
    | 20 => do .ok (.Connector (← BgpConnector.decodeFrom buf))
    | 32 => do .ok (.LargeCommunityList (← BgpLargeCommunityList.decodeFrom buf))
    | 128 =>
      match fuel with
      | 0 => .hang
      | fuel + 1 => BgpAttrSet.decodeFrom (decodeN peer fuel) peer buf
    | _ => do .ok (.Unknown (← BgpAttrUnknown.decodeFrom typecode flags (← rslice buf 0 attrlen)))

/-- `src/message/attributes/mod.rs:87-156` `decode_from`. Each nested attribute set is at least seven bytes shorter than
the one around it, so the length bounds the nesting. -/
def decodeFrom (peer : BgpSessionParams) : AttrDec := fun typecode flags attrlen buf =>
  decodeN peer (buf.length + 1) typecode flags attrlen buf

/-- `src/message/attributes/mod.rs:157-184` `encode_bgpattr`, for an attribute with parameters `p` and value encoder
`enc`. -/
def encodeBgpattr (p : BgpAttrParams) (enc : Enc) (buf : Bytes) : Res (Bytes × Nat) := do
  let buf ← setIdx buf 0 p.flags
  let buf ← setIdx buf 1 p.typecode
  let curpos := 2 + (if p.flags &&& 16 > 0 then 2 else 1)
  let (buf, attrlen) ← onFrom buf curpos enc
  if p.flags &&& 16 > 0 then
    if attrlen > 65535 then .err .static
    else do
      let buf ← modRange buf 2 4 (setn16 (BitVec.ofNat 16 attrlen))
      .ok (buf, curpos + attrlen)
  else
    if attrlen > 255 then .err .static
    else do
      let buf ← setIdx buf 2 (BitVec.ofNat 8 attrlen)
      .ok (buf, curpos + attrlen)

/-- The `attr` method of the attribute held, `src/message/attributes/*.rs`. For `AttrSet` it is
`src/message/attributes/attrset.rs:79-84`. -/
def attr : BgpAttrItem → BgpAttrParams
  | Origin x => x.attr
  | ASPath x => x.attr
  | NextHop x => x.attr
  | MED x => x.attr
  | LocalPref x => x.attr
  | AtomicAggregate x => x.attr
  | AggregatorAS x => x.attr
  | CommunityList x => x.attr
  | OriginatorID x => x.attr
  | ClusterList x => x.attr
  | MPUpdates x => x.attr
  | MPWithdraws x => x.attr
  | ExtCommunityList x => x.attr
  | LargeCommunityList x => x.attr
  | PMSITunnel x => x.attr
  | AttrSet _ _ => ⟨128, 224⟩
  | Connector x => x.attr
  | Unknown x => x.attr

/-- The `encode_to` method (value only) of the attribute held. For `AttrSet` it is `unimplemented!()`,
`src/message/attributes/attrset.rs:85-87`. -/
def encodeValue (x : BgpAttrItem) (peer : BgpSessionParams) (buf : Bytes) : Res (Bytes × Nat) :=
  match x with
  | Origin x => x.encodeTo buf
  | ASPath x => x.encodeTo peer buf
  | NextHop x => x.encodeTo peer buf
  | MED x => x.encodeTo buf
  | LocalPref x => x.encodeTo buf
  | AtomicAggregate x => x.encodeTo buf
  | AggregatorAS x => x.encodeTo peer buf
  | CommunityList x => x.encodeTo buf
  | OriginatorID x => x.encodeTo peer buf
  | ClusterList x => x.encodeTo buf
  | MPUpdates x => x.encodeTo peer buf
  | MPWithdraws x => x.encodeTo peer buf
  | ExtCommunityList x => x.encodeTo buf
  | LargeCommunityList x => x.encodeTo buf
  | PMSITunnel x => x.encodeTo buf
  | AttrSet _ _ => .panic
  | Connector x => x.encodeTo buf
  | Unknown x => x.encodeTo buf

/-- `src/message/attributes/mod.rs:185-206` `encode_to`. -/
def encodeTo (x : BgpAttrItem) (peer : BgpSessionParams) (buf : Bytes) : Res (Bytes × Nat) :=
  encodeBgpattr x.attr (x.encodeValue peer) buf

end BgpAttrItem

end Zbgp
