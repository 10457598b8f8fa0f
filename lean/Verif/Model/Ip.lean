import Verif.Model.Nlri

/-!
# Model of `src/afi/ipv4.rs` and `src/afi/ipv6.rs`
-/

namespace Zbgp

/-- `src/afi/ipv4.rs:21-26`. -/
structure BgpAddrV4 where
  addr : IPv4
  prefixlen : U8
deriving DecidableEq, Repr

namespace BgpAddrV4

/-- `(1 << (32 - self.prefixlen)) - 1` at type `u32`, `src/afi/ipv4.rs:50,66,100`. -/
def hostMask (a : BgpAddrV4) : Res U32 := do
  let sh ← subC (32 : U8) a.prefixlen
  let m ← shlC (1 : U32) sh.toNat
  subC m 1

/-- `src/afi/ipv4.rs:49-51` `norm_subnet_u32`. -/
def normSubnet (a : BgpAddrV4) : Res U32 := do
  let v ← getn32 (ipv4Octets a.addr)
  let m ← a.hostMask
  .ok (v &&& (m ^^^ 0xffffffff))

/-- `src/afi/ipv4.rs:59-70` `in_subnet`. -/
def inSubnet (s : BgpAddrV4) (a : IPv4) : Res Bool :=
  if s.prefixlen.toNat = 0 then .ok true
  else if s.prefixlen.toNat > 31 then do
    .ok ((← getn32 (ipv4Octets s.addr)) == (← getn32 (ipv4Octets a)))
  else do
    let lv ← s.normSubnet
    let lh ← addC lv (← s.hostMask)
    let va ← getn32 (ipv4Octets a)
    .ok (decide (lv.toNat ≤ va.toNat) && decide (va.toNat ≤ lh.toNat))

/-- `Ipv4Addr::new((lv >> 24) as u8, (lv >> 16) as u8, (lv >> 8) as u8, (lv & 0xff) as u8)`,
`src/afi/ipv4.rs:80-85,101-106`. -/
def ofU32 (lv : U32) : IPv4 :=
  BitVec.ofNat 32 (Spec.unbe [(lv >>> 24).setWidth 8, (lv >>> 16).setWidth 8, (lv >>> 8).setWidth 8,
    (lv &&& 0xff).setWidth 8])

/-- `src/afi/ipv4.rs:78-86` `range_first`. -/
def rangeFirst (s : BgpAddrV4) : Res IPv4 := do .ok (ofU32 (← s.normSubnet))

/-- `src/afi/ipv4.rs:94-108` `range_last`. -/
def rangeLast (s : BgpAddrV4) : Res IPv4 :=
  if s.prefixlen.toNat < 1 then .ok 0xffffffff
  else if s.prefixlen.toNat > 31 then s.rangeFirst
  else do
    let lv ← addC (← s.normSubnet) (← s.hostMask)
    .ok (ofU32 lv)

/-- `src/afi/ipv4.rs:116-126` `contains`. -/
def contains (s a : BgpAddrV4) : Res Bool :=
  if s.prefixlen.toNat < 1 then .ok true
  else if s.prefixlen.toNat > a.prefixlen.toNat then .ok false
  else if s.prefixlen.toNat = a.prefixlen.toNat then .ok (s.addr == a.addr)
  else do
    if ← s.inSubnet (← a.rangeFirst) then s.inSubnet (← a.rangeLast) else .ok false

/-- `src/afi/ipv4.rs:131-157` `from_bits`. -/
def fromBits (bits : U8) (buf : Bytes) : Res (BgpAddrV4 × Nat) := do
  let bytes := (← addC bits 7).toNat / 8
  if bits.toNat > 32 ∨ buf.length < bytes then .err .dynStr else do
    let bf : Bytes := List.replicate 4 0
    if bits.toNat = 0 then do
      .ok (⟨← decodeAddrV4 bf, 0⟩, 0)
    else do
      let bf ← copyAt bf 0 bytes (← rslice buf 0 bytes)
      .ok (⟨← decodeAddrV4 bf, bits⟩, bytes)

/-- `src/afi/ipv4.rs:158-167` `to_bits`. -/
def toBits (a : BgpAddrV4) (buf : Bytes) : Res (Bytes × (U8 × Nat)) :=
  if a.prefixlen.toNat = 0 then .ok (buf, (0, 0)) else do
    let bf ← copyAll (List.replicate 4 0) (ipv4Octets a.addr)
    let bytes := (← addC a.prefixlen 7).toNat / 8
    let buf ← copyAt buf 0 bytes (← rslice bf 0 bytes)
    .ok (buf, (a.prefixlen, bytes))

end BgpAddrV4

/-- `src/afi/ipv4.rs:187-197`. -/
instance : BgpItem BgpAddrV4 where
  extractBits := BgpAddrV4.fromBits
  setBits := BgpAddrV4.toBits

/-- `src/afi/ipv4.rs:206-209`. -/
structure BgpIPv4RD where
  rd : BgpRD
  addr : IPv4
deriving DecidableEq, Repr

/-- `src/afi/ipv4.rs:224-247`. -/
instance : BgpAddrItem BgpIPv4RD where
  decodeFrom _ buf :=
    if buf.length ≥ 12 then do
      let (rd, n) ← BgpRD.decodeFrom (← rslice buf 0 8)
      match ← decodeAddr (← rslice buf n (n + 4)) with
      | .v4 a => .ok (⟨rd, a⟩, n + 4)
      | _ => .err .static
    else .err .static
  encodeTo x _ buf := do
    let (buf, pos) ← x.rd.encodeTo buf
    let (buf, p2) ← onFrom buf pos (encodeAddrV4 x.addr)
    .ok (buf, pos + p2)

/-- `src/afi/ipv6.rs:20-25`. -/
structure BgpAddrV6 where
  addr : IPv6
  prefixlen : U8
deriving DecidableEq, Repr

namespace BgpAddrV6

/-- `(1 << (128 - self.prefixlen)) - 1` at type `u128`, `src/afi/ipv6.rs:63-69,83,123`. -/
def hostMask (a : BgpAddrV6) : Res U128 := do
  let sh ← subC (128 : U8) a.prefixlen
  let m ← shlC (1 : U128) sh.toNat
  subC m 1

/-- `src/afi/ipv6.rs:55-66` `contains`. -/
def contains (s a : BgpAddrV6) : Res Bool :=
  if s.prefixlen.toNat < 1 then .ok true
  else if s.prefixlen.toNat > a.prefixlen.toNat then .ok false
  else if s.prefixlen.toNat = a.prefixlen.toNat then .ok (s.addr == a.addr)
  else do
    let x ← getn128 (ipv6Octets s.addr)
    let m ← s.hostMask
    let y ← getn128 (ipv6Octets a.addr)
    .ok ((x &&& ~~~m) == (y &&& ~~~m))

/-- `src/afi/ipv6.rs:67-70` `norm_subnet_u128`. -/
def normSubnet (a : BgpAddrV6) : Res U128 := do
  let v ← getn128 (ipv6Octets a.addr)
  let m ← a.hostMask
  .ok (v &&& (m ^^^ 0xffffffffffffffffffffffffffffffff))

/-- `src/afi/ipv6.rs:78-87` `in_subnet`. -/
def inSubnet (s : BgpAddrV6) (a : IPv6) : Res Bool :=
  if s.prefixlen.toNat > 127 then do
    .ok ((← getn128 (ipv6Octets s.addr)) == (← getn128 (ipv6Octets a)))
  else do
    let lv ← s.normSubnet
    let lh ← addC lv (← s.hostMask)
    let va ← getn128 (ipv6Octets a)
    .ok (decide (lv.toNat ≤ va.toNat) && decide (va.toNat < lh.toNat))

/-- `Ipv6Addr::new((lv >> 112) as u16, ..., (lv & 0xffff) as u16)`, `src/afi/ipv6.rs:97-106,124-133`. -/
def ofU128 (lv : U128) : IPv6 :=
  (lv >>> 112).setWidth 16 ++ (lv >>> 96).setWidth 16 ++ (lv >>> 80).setWidth 16 ++
  (lv >>> 64).setWidth 16 ++ (lv >>> 48).setWidth 16 ++ (lv >>> 32).setWidth 16 ++
  (lv >>> 16).setWidth 16 ++ (lv &&& 0xffff).setWidth 16

/-- `src/afi/ipv6.rs:95-107` `range_first`. -/
def rangeFirst (s : BgpAddrV6) : Res IPv6 := do .ok (ofU128 (← s.normSubnet))

/-- `src/afi/ipv6.rs:115-135` `range_last`. -/
def rangeLast (s : BgpAddrV6) : Res IPv6 :=
  if s.prefixlen.toNat < 1 then .ok 0xffffffffffffffffffffffffffffffff
  else if s.prefixlen.toNat > 127 then s.rangeFirst
  else do
    let lv ← addC (← s.normSubnet) (← s.hostMask)
    .ok (ofU128 lv)

/-- `src/afi/ipv6.rs:140-166` `from_bits`. -/
def fromBits (bits : U8) (buf : Bytes) : Res (BgpAddrV6 × Nat) := do
  let bytes := (← addC bits 7).toNat / 8
  if bits.toNat > 128 ∨ buf.length < bytes then .err .dynStr else do
    let bf : Bytes := List.replicate 16 0
    if bits.toNat = 0 then do
      .ok (⟨← decodeAddrV6 bf, 0⟩, 0)
    else do
      let bf ← copyAt bf 0 bytes (← rslice buf 0 bytes)
      .ok (⟨← decodeAddrV6 bf, bits⟩, bytes)

/-- `src/afi/ipv6.rs:167-176` `to_bits`. -/
def toBits (a : BgpAddrV6) (buf : Bytes) : Res (Bytes × (U8 × Nat)) :=
  if a.prefixlen.toNat = 0 then .ok (buf, (0, 0)) else do
    let bf ← copyAll (List.replicate 16 0) (ipv6Octets a.addr)
    let bytes := (← addC a.prefixlen 7).toNat / 8
    let buf ← copyAt buf 0 bytes (← rslice bf 0 bytes)
    .ok (buf, (a.prefixlen, bytes))

end BgpAddrV6

/-- `src/afi/ipv6.rs:196-206`. -/
instance : BgpItem BgpAddrV6 where
  extractBits := BgpAddrV6.fromBits
  setBits := BgpAddrV6.toBits

/-- `src/afi/ipv6.rs:216-219`. -/
structure BgpIPv6RD where
  rd : BgpRD
  addr : IPv6
deriving DecidableEq, Repr

/-- `src/afi/ipv6.rs:229-252`. -/
instance : BgpAddrItem BgpIPv6RD where
  decodeFrom _ buf :=
    if buf.length ≥ 24 then do
      let (rd, n) ← BgpRD.decodeFrom (← rslice buf 0 8)
      match ← decodeAddr (← rslice buf n (n + 16)) with
      | .v6 a => .ok (⟨rd, a⟩, n + 16)
      | _ => .err .static
    else .err .static
  encodeTo x _ buf := do
    let (buf, pos) ← x.rd.encodeTo buf
    let (buf, p2) ← onFrom buf pos (encodeAddrV6 x.addr)
    .ok (buf, pos + p2)

end Zbgp
