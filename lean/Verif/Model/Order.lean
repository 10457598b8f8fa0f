import Verif.Model.Mac

/-!
# Comparison and hashing

`ROrd T` collects what `PartialEq`, `PartialOrd`, `Ord` and `Hash` do for a Rust type.  `hash` is the sequence of
words a value feeds to the hasher.  Derived implementations compare the fields in the order of declaration.
-/

namespace Zbgp

/-- The comparison traits of a Rust type. -/
class ROrd (T : Type) where
  /-- `PartialEq::eq` -/
  eq : T → T → Bool
  /-- `PartialOrd::partial_cmp` -/
  pcmp : T → T → Option Ordering
  /-- `Ord::cmp` -/
  cmp : T → T → Ordering
  /-- what `Hash::hash` feeds to the hasher -/
  hash : T → List Nat

/-- The next step of a derived `partial_cmp` (`#[derive(PartialOrd)]`). -/
def lexP : Option Ordering → Option Ordering → Option Ordering
  | some .eq, o => o
  | o, _ => o

/-- Integers, `Ipv4Addr` and `Ipv6Addr` (which `std` orders by their octets, that is as big-endian numbers). -/
instance {n : Nat} : ROrd (BitVec n) where
  eq a b := a == b
  pcmp a b := some (compare a.toNat b.toNat)
  cmp a b := compare a.toNat b.toNat
  hash a := [a.toNat]

/-- Derived, `src/afi/ipv4.rs:18-26`. -/
instance : ROrd BgpAddrV4 where
  eq a b := ROrd.eq a.addr b.addr && ROrd.eq a.prefixlen b.prefixlen
  pcmp a b := lexP (ROrd.pcmp a.addr b.addr) (ROrd.pcmp a.prefixlen b.prefixlen)
  cmp a b := (ROrd.cmp a.addr b.addr).then (ROrd.cmp a.prefixlen b.prefixlen)
  hash a := ROrd.hash a.addr ++ ROrd.hash a.prefixlen

/-- Derived, `src/afi/ipv6.rs:18-26`. -/
instance : ROrd BgpAddrV6 where
  eq a b := ROrd.eq a.addr b.addr && ROrd.eq a.prefixlen b.prefixlen
  pcmp a b := lexP (ROrd.pcmp a.addr b.addr) (ROrd.pcmp a.prefixlen b.prefixlen)
  cmp a b := (ROrd.cmp a.addr b.addr).then (ROrd.cmp a.prefixlen b.prefixlen)
  hash a := ROrd.hash a.addr ++ ROrd.hash a.prefixlen

/-- Derived, `src/afi/mod.rs:300-308`. -/
instance : ROrd BgpRD where
  eq a b := ROrd.eq a.rdh b.rdh && ROrd.eq a.rdl b.rdl
  pcmp a b := lexP (ROrd.pcmp a.rdh b.rdh) (ROrd.pcmp a.rdl b.rdl)
  cmp a b := (ROrd.cmp a.rdh b.rdh).then (ROrd.cmp a.rdl b.rdl)
  hash a := ROrd.hash a.rdh ++ ROrd.hash a.rdl

/-- `src/afi/mod.rs:419-439`. -/
instance : ROrd MplsLabels where
  eq _ _ := true
  pcmp _ _ := none
  cmp _ _ := .eq
  hash _ := []

/-- `src/afi/mod.rs:523-543`. -/
instance {T : Type} [ROrd T] : ROrd (Labeled T) where
  eq a b := ROrd.eq a.pfx b.pfx
  pcmp a b := ROrd.pcmp a.pfx b.pfx
  cmp a b := ROrd.cmp a.pfx b.pfx
  hash a := ROrd.hash a.pfx

/-- `src/afi/mod.rs:575-605`; `PartialEq` and `Hash` are derived. -/
instance {T : Type} [ROrd T] : ROrd (WithRd T) where
  eq a b := ROrd.eq a.pfx b.pfx && ROrd.eq a.rd b.rd
  pcmp a b := match ROrd.pcmp a.pfx b.pfx with
    | none => ROrd.pcmp a.rd b.rd
    | some .lt => some .lt
    | some .gt => some .gt
    | some .eq => ROrd.pcmp a.rd b.rd
  cmp a b := match ROrd.cmp a.pfx b.pfx with
    | .lt => .lt
    | .gt => .gt
    | .eq => ROrd.cmp a.rd b.rd
  hash a := ROrd.hash a.pfx ++ ROrd.hash a.rd

/-- `src/afi/mod.rs:654-691`. -/
instance {T : Type} [ROrd T] : ROrd (WithPathId T) where
  eq a b := ROrd.eq a.pathid b.pathid && ROrd.eq a.nlri b.nlri
  pcmp a b := match ROrd.pcmp a.nlri b.nlri with
    | none => ROrd.pcmp a.pathid b.pathid
    | some .lt => some .lt
    | some .gt => some .gt
    | some .eq => ROrd.pcmp a.pathid b.pathid
  cmp a b := match ROrd.cmp a.nlri b.nlri with
    | .lt => .lt
    | .gt => .gt
    | .eq => ROrd.cmp a.pathid b.pathid
  hash a := ROrd.hash a.pathid ++ ROrd.hash a.nlri

/-- `src/message/attributes/aspath.rs:17-24`. -/
structure BgpAS where
  value : U32
deriving DecidableEq, Repr

/-- `src/message/attributes/aspath.rs:38-44` `tonumb`. -/
def BgpAS.tonumb (a : BgpAS) : U32 :=
  if a.value &&& 0xffff = 0 then a.value >>> 16 else a.value

/-- `src/message/attributes/aspath.rs:51-71`. -/
instance : ROrd BgpAS where
  eq a b := a.tonumb == b.tonumb
  pcmp a b := ROrd.pcmp a.value b.value
  cmp a b := ROrd.cmp a.value b.value
  hash a := ROrd.hash a.value

/-- `src/afi/vpls.rs:16-25`. -/
structure BgpAddrL2 where
  rd : BgpRD
  site : U16
  offset : U16
  range : U16
  labels : MplsLabels
deriving DecidableEq, Repr

/-- Derived, `src/afi/vpls.rs:16-25`. -/
instance : ROrd BgpAddrL2 where
  eq a b := ROrd.eq a.rd b.rd && (ROrd.eq a.site b.site && (ROrd.eq a.offset b.offset &&
    (ROrd.eq a.range b.range && ROrd.eq a.labels b.labels)))
  pcmp a b := lexP (ROrd.pcmp a.rd b.rd) <| lexP (ROrd.pcmp a.site b.site) <|
    lexP (ROrd.pcmp a.offset b.offset) <| lexP (ROrd.pcmp a.range b.range) (ROrd.pcmp a.labels b.labels)
  cmp a b := (ROrd.cmp a.rd b.rd).then <| (ROrd.cmp a.site b.site).then <|
    (ROrd.cmp a.offset b.offset).then <| (ROrd.cmp a.range b.range).then (ROrd.cmp a.labels b.labels)
  hash a := ROrd.hash a.rd ++ (ROrd.hash a.site ++ (ROrd.hash a.offset ++
    (ROrd.hash a.range ++ ROrd.hash a.labels)))

/-- `std::net::IpAddr`: a derived order of an enum, V4 before V6. -/
instance : ROrd IpAddr where
  eq a b := match a, b with
    | .v4 x, .v4 y => ROrd.eq x y
    | .v6 x, .v6 y => ROrd.eq x y
    | _, _ => false
  pcmp a b := match a, b with
    | .v4 x, .v4 y => ROrd.pcmp x y
    | .v6 x, .v6 y => ROrd.pcmp x y
    | .v4 _, .v6 _ => some .lt
    | .v6 _, .v4 _ => some .gt
  cmp a b := match a, b with
    | .v4 x, .v4 y => ROrd.cmp x y
    | .v6 x, .v6 y => ROrd.cmp x y
    | .v4 _, .v6 _ => .lt
    | .v6 _, .v4 _ => .gt
  hash a := match a with
    | .v4 x => 0 :: ROrd.hash x
    | .v6 x => 1 :: ROrd.hash x

/-- `src/bmp/bmputl.rs:55-72`. -/
structure BmpMessagePeerHeader where
  peertype : U8
  flags : U8
  peerdistinguisher : BgpRD
  peeraddress : IpAddr
  asnum : U32
  routerid : IPv4
  timestamp : U64
deriving DecidableEq, Repr

/-- One of the steps of `src/bmp/bmputl.rs:109-143`. -/
def stepP (o rest : Option Ordering) : Option Ordering :=
  match o with
  | some .lt => some .lt
  | some .gt => some .gt
  | some .eq => rest
  | none => rest

/-- `src/bmp/bmputl.rs:107-183`. There is no `Hash`; `hash` is what would be consistent with `eq`. -/
instance : ROrd BmpMessagePeerHeader where
  eq a b := ROrd.eq a.peertype b.peertype && (ROrd.eq a.flags b.flags &&
    (ROrd.eq a.peerdistinguisher b.peerdistinguisher && (ROrd.eq a.peeraddress b.peeraddress &&
    (ROrd.eq a.asnum b.asnum && ROrd.eq a.routerid b.routerid))))
  pcmp a b :=
    stepP (ROrd.pcmp a.peertype b.peertype) <| stepP (ROrd.pcmp a.flags b.flags) <|
    stepP (ROrd.pcmp a.peerdistinguisher b.peerdistinguisher) <|
    stepP (ROrd.pcmp a.peeraddress b.peeraddress) <| stepP (ROrd.pcmp a.asnum b.asnum) <|
    ROrd.pcmp a.routerid b.routerid
  cmp a b := (ROrd.cmp a.peertype b.peertype).then <| (ROrd.cmp a.flags b.flags).then <|
    (ROrd.cmp a.peerdistinguisher b.peerdistinguisher).then <|
    (ROrd.cmp a.peeraddress b.peeraddress).then <| (ROrd.cmp a.asnum b.asnum).then <|
    ROrd.cmp a.routerid b.routerid
  hash a := ROrd.hash a.peertype ++ (ROrd.hash a.flags ++ (ROrd.hash a.peerdistinguisher ++
    (ROrd.hash a.peeraddress ++ (ROrd.hash a.asnum ++ ROrd.hash a.routerid))))

end Zbgp
