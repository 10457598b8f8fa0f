import Verif.Model.Ip

/-!
# Model of `src/afi/mdt.rs`
-/

namespace Zbgp

/-- `src/afi/mdt.rs:21-26`. -/
structure BgpMdtV4 where
  addr : BgpAddrV4
  group : IPv4
deriving DecidableEq, Repr

/-- `src/afi/mdt.rs:61-111`. -/
instance : BgpItem BgpMdtV4 where
  extractBits bits buf :=
    if ¬ (32 ≤ bits.toNat ∧ bits.toNat ≤ 128) then .err .dynStr else do
      let bf : Bytes := List.replicate 4 0
      if bits.toNat = 32 then do
        .ok (⟨⟨← decodeAddrV4 bf, 0⟩, ← decodeAddrV4 buf⟩, 4)
      else do
        let plen ← subC bits 32
        let bytes := (← addC plen 7).toNat / 8
        let bf ← copyAt bf 0 bytes (← rslice buf 0 bytes)
        .ok (⟨⟨← decodeAddrV4 bf, plen⟩, ← decodeAddrV4 (← rfrom buf bytes)⟩, bytes + 4)
  setBits x buf := do
    let (buf, bytes) ← (if x.addr.prefixlen.toNat > 0 then do
        let bf ← copyAll (List.replicate 4 0) (ipv4Octets x.addr.addr)
        let bytes := (← addC x.addr.prefixlen 7).toNat / 8
        let buf ← copyAt buf 0 bytes (← rslice bf 0 bytes)
        .ok (buf, bytes)
      else .ok (buf, 0) : Res (Bytes × Nat))
    let buf ← copyAt buf bytes (bytes + 4) (ipv4Octets x.group)
    .ok (buf, (← addC x.addr.prefixlen 32, bytes + 4))

/-- `src/afi/mdt.rs:122-127`. -/
structure BgpMdtV6 where
  addr : BgpAddrV6
  group : IPv6
deriving DecidableEq, Repr

/-- `src/afi/mdt.rs:162-212`. -/
instance : BgpItem BgpMdtV6 where
  extractBits bits buf :=
    if ¬ (128 ≤ bits.toNat ∧ bits.toNat ≤ 254) then .err .dynStr else do
      let bf : Bytes := List.replicate 16 0
      if bits.toNat = 128 then do
        .ok (⟨⟨← decodeAddrV6 bf, 0⟩, ← decodeAddrV6 buf⟩, 16)
      else do
        let plen ← subC bits 128
        let bytes := (← addC plen 7).toNat / 8
        let bf ← copyAt bf 0 bytes (← rslice buf 0 bytes)
        .ok (⟨⟨← decodeAddrV6 bf, plen⟩, ← decodeAddrV6 (← rfrom buf bytes)⟩, bytes + 16)
  setBits x buf := do
    let (buf, bytes) ← (if x.addr.prefixlen.toNat > 0 then do
        let bf ← copyAll (List.replicate 16 0) (ipv6Octets x.addr.addr)
        let bytes := (← addC x.addr.prefixlen 7).toNat / 8
        let buf ← copyAt buf 0 bytes (← rslice bf 0 bytes)
        .ok (buf, bytes)
      else .ok (buf, 0) : Res (Bytes × Nat))
    let buf ← copyAt buf bytes (bytes + 16) (ipv6Octets x.group)
    .ok (buf, (← addC x.addr.prefixlen 128, bytes + 16))

end Zbgp
