import Verif.Model.Ip

/-!
# Model of `src/afi/mac.rs` and of `BgpNet` (`src/afi/mod.rs:64-99`)

Text parsing and display of MAC addresses is in `Model/Text.lean`.
-/

namespace Zbgp

/-- `src/afi/mac.rs:20-22`: `m0` .. `m5` are `mac_address[0]` .. `mac_address[5]`. -/
structure MacAddress where
  m0 : U8
  m1 : U8
  m2 : U8
  m3 : U8
  m4 : U8
  m5 : U8
deriving DecidableEq, Repr

namespace MacAddress

/-- `src/afi/mac.rs:31-35` `from_network_bytes`. -/
def fromNetworkBytes (b : Bytes) : Res MacAddress := do
  let b5 ← idx b 5
  let b4 ← idx b 4
  let b3 ← idx b 3
  let b2 ← idx b 2
  let b1 ← idx b 1
  let b0 ← idx b 0
  .ok ⟨b5, b4, b3, b2, b1, b0⟩

/-- `src/afi/mac.rs:37-40` `write_to_network_bytes`. -/
def writeToNetworkBytes (m : MacAddress) (b : Bytes) : Res Bytes :=
  copyAll b [m.m5, m.m4, m.m3, m.m2, m.m1, m.m0]

/-- `src/afi/mac.rs:42-51` `from_u64`. -/
def fromU64 (s : U64) : MacAddress :=
  ⟨(s &&& 0xff).setWidth 8, ((s >>> 8) &&& 0xff).setWidth 8, ((s >>> 16) &&& 0xff).setWidth 8,
    ((s >>> 24) &&& 0xff).setWidth 8, ((s >>> 32) &&& 0xff).setWidth 8, ((s >>> 40) &&& 0xff).setWidth 8⟩

/-- `src/afi/mac.rs:53-60` `to_u64`. -/
def toU64 (m : MacAddress) : U64 :=
  (m.m5.setWidth 64 <<< 40) ||| (m.m4.setWidth 64 <<< 32) ||| (m.m3.setWidth 64 <<< 24) |||
  (m.m2.setWidth 64 <<< 16) ||| (m.m1.setWidth 64 <<< 8) ||| m.m0.setWidth 64

/-- Derived `Ord` (`src/afi/mac.rs:16`): lexicographic over the array. -/
def cmp (a b : MacAddress) : Ordering :=
  (compare a.m0.toNat b.m0.toNat).then <| (compare a.m1.toNat b.m1.toNat).then <|
  (compare a.m2.toNat b.m2.toNat).then <| (compare a.m3.toNat b.m3.toNat).then <|
  (compare a.m4.toNat b.m4.toNat).then (compare a.m5.toNat b.m5.toNat)

end MacAddress

/-- `src/afi/mac.rs:114-119`. -/
structure BgpAddrMac where
  addr : MacAddress
  prefixlen : U8
deriving DecidableEq, Repr

namespace BgpAddrMac

/-- `(1 << (48 - self.prefixlen)) - 1` at type `u64`, `src/afi/mac.rs:135,151,179`. -/
def hostMask (a : BgpAddrMac) : Res U64 := do
  let sh ← subC (48 : U8) a.prefixlen
  let m ← shlC (1 : U64) sh.toNat
  subC m 1

/-- `src/afi/mac.rs:134-136` `norm_subnet_u48`. -/
def normSubnet (a : BgpAddrMac) : Res U64 := do
  let m ← a.hostMask
  .ok (a.addr.toU64 &&& (m ^^^ 0xffffffffffff))

/-- `src/afi/mac.rs:144-155` `in_subnet`. -/
def inSubnet (s : BgpAddrMac) (a : MacAddress) : Res Bool :=
  if s.prefixlen.toNat = 0 then .ok true
  else if s.prefixlen.toNat > 47 then .ok (s.addr.toU64 == a.toU64)
  else do
    let lv ← s.normSubnet
    let lh ← addC lv (← s.hostMask)
    let va := a.toU64
    .ok (decide (lv.toNat ≤ va.toNat) && decide (va.toNat ≤ lh.toNat))

/-- `src/afi/mac.rs:163-165` `range_first`. -/
def rangeFirst (s : BgpAddrMac) : Res MacAddress := do .ok (.fromU64 (← s.normSubnet))

/-- `src/afi/mac.rs:173-182` `range_last`. -/
def rangeLast (s : BgpAddrMac) : Res MacAddress :=
  if s.prefixlen.toNat < 1 then .ok (.fromU64 0xffffffffffff)
  else if s.prefixlen.toNat > 47 then s.rangeFirst
  else do
    let lv ← addC (← s.normSubnet) (← s.hostMask)
    .ok (.fromU64 lv)

/-- `src/afi/mac.rs:190-200` `contains`. -/
def contains (s a : BgpAddrMac) : Res Bool :=
  if s.prefixlen.toNat < 1 then .ok true
  else if s.prefixlen.toNat > a.prefixlen.toNat then .ok false
  else if s.prefixlen.toNat = a.prefixlen.toNat then .ok (s.addr == a.addr)
  else do
    if ← s.inSubnet (← a.rangeFirst) then s.inSubnet (← a.rangeLast) else .ok false

end BgpAddrMac

/-- `src/afi/mod.rs:65-72`. -/
inductive BgpNet
  | V4 (a : BgpAddrV4)
  | V6 (a : BgpAddrV6)
  | MAC (a : BgpAddrMac)
deriving DecidableEq, Repr

/-- `src/afi/mod.rs:76-81` `BgpNet::new`. -/
def BgpNet.new (addr : IpAddr) (prefixlen : U8) : BgpNet :=
  match addr with
  | .v4 a => .V4 ⟨a, prefixlen⟩
  | .v6 a => .V6 ⟨a, prefixlen⟩

/-- `src/afi/mod.rs:83-98` `BgpNet::contains`. -/
def BgpNet.contains (s a : BgpNet) : Res Bool :=
  match s with
  | .V4 s4 => match a with
    | .V4 a4 => s4.contains a4
    | _ => .ok false
  | .V6 s6 => match a with
    | .V6 a6 => s6.contains a6
    | _ => .ok false
  | .MAC sm => match a with
    | .MAC am => sm.contains am
    | _ => .ok false

end Zbgp
