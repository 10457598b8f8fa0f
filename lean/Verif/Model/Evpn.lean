import Verif.Model.Mac

/-!
# Model of `src/afi/evpn.rs`
-/

namespace Zbgp

/-- `src/afi/evpn.rs:22-24`. -/
structure EVPNESI where
  v : Vector U8 9
deriving DecidableEq, Repr

namespace EVPNESI

/-- `src/afi/evpn.rs:32-34` `is_zero`. -/
def isZero (e : EVPNESI) : Bool := !(e.v.toList.any (· != 0))

/-- `buf[1..10].try_into().unwrap()`, `src/afi/evpn.rs:36`. -/
def ofSlice (l : Bytes) : Res EVPNESI :=
  if h : l.length = 9 then .ok ⟨⟨l.toArray, by simpa using h⟩⟩ else .panic

/-- `src/afi/evpn.rs:35-37` `read`. -/
def read (buf : Bytes) : Res (U8 × EVPNESI) := do
  let t ← idx buf 0
  let e ← ofSlice (← rslice buf 1 10)
  .ok (t, e)

/-- The ESI part of the encoders, `src/afi/evpn.rs:84-90,173-179,335-341,421-427`. The test `self.esi.v.len() == 9`
is always true for `[u8; 9]` and is left out. -/
def write (esiType : U8) (e : EVPNESI) (buf : Bytes) (pos : Nat) : Res Bytes := do
  let buf ← setIdx buf pos esiType
  copyAt buf (pos + 1) (pos + 10) e.v.toList

end EVPNESI

/-- `src/afi/evpn.rs:55-61`. -/
structure BgpEVPN1 where
  rd : BgpRD
  esiType : U8
  esi : EVPNESI
  etherTag : U32
  labels : MplsLabels
deriving DecidableEq, Repr

/-- `src/afi/evpn.rs:62-96`. -/
instance : BgpAddrItem BgpEVPN1 where
  decodeFrom _ buf := do
    let rdp ← BgpRD.decodeFrom buf
    let (t, esi) ← EVPNESI.read (← rfrom buf rdp.2)
    let etag ← getn32 (← rslice buf (rdp.2 + 10) (rdp.2 + 14))
    let left ← subN (← subN buf.length rdp.2) 14
    let lbls ← MplsLabels.extractBits (BitVec.ofNat 8 (8 * left)) (← rfrom buf (rdp.2 + 14))
    .ok (⟨rdp.1, t, esi, etag, lbls.1⟩, rdp.2 + 14 + lbls.2)
  encodeTo x _ buf := do
    let (buf, pos) ← x.rd.encodeTo buf
    let buf ← EVPNESI.write x.esiType x.esi buf pos
    let pos := pos + 10
    let buf ← modRange buf pos (pos + 4) (setn32 x.etherTag)
    let pos := pos + 4
    let (buf, lbls) ← onFrom buf pos (MplsLabels.setBits x.labels)
    .ok (buf, pos + lbls.2)

/-- `src/afi/evpn.rs:111-119`. -/
structure BgpEVPN2 where
  rd : BgpRD
  esiType : U8
  esi : EVPNESI
  etherTag : U32
  mac : MacAddress
  ip : Option IpAddr
  labels : MplsLabels
deriving DecidableEq, Repr

/-- `src/afi/evpn.rs:120-209`. -/
instance : BgpAddrItem BgpEVPN2 where
  decodeFrom _ buf := do
    let rdp ← BgpRD.decodeFrom buf
    let sz := rdp.2
    let (t, esi) ← EVPNESI.read (← rfrom buf sz)
    let sz := sz + 10
    let etag ← getn32 (← rslice buf sz (sz + 4))
    let sz := sz + 4
    if (← idx buf sz) ≠ 48 then .err .dynStr else do
      let sz := sz + 1
      let mc ← MacAddress.fromNetworkBytes (← rslice buf sz (sz + 6))
      let sz := sz + 6
      let addrtype ← idx buf sz
      let sz := sz + 1
      let (tip, sz) ← (if addrtype = 0 then .ok (none, sz)
        else if addrtype = 32 then do .ok (some (.v4 (← decodeAddrV4 (← rfrom buf sz))), sz + 4)
        else if addrtype = 128 then do .ok (some (.v6 (← decodeAddrV6 (← rfrom buf sz))), sz + 16)
        else .err .dynStr : Res (Option IpAddr × Nat))
      let left ← subN buf.length sz
      let lbls ← MplsLabels.extractBits (BitVec.ofNat 8 (8 * left)) (← rfrom buf sz)
      .ok (⟨rdp.1, t, esi, etag, mc, tip, lbls.1⟩, sz + lbls.2)
  encodeTo x _ buf := do
    let (buf, pos) ← x.rd.encodeTo buf
    let buf ← EVPNESI.write x.esiType x.esi buf pos
    let pos := pos + 10
    let buf ← modRange buf pos (pos + 4) (setn32 x.etherTag)
    let pos := pos + 4
    let buf ← setIdx buf pos 48
    let pos := pos + 1
    let buf ← modRange buf pos (pos + 6) x.mac.writeToNetworkBytes
    let pos := pos + 6
    let (buf, pos) ← (match x.ip with
      | none => do .ok (← setIdx buf pos 0, pos + 1)
      | some (.v4 a) => do
        let buf ← setIdx buf pos 32
        let pos := pos + 1
        let (buf, _) ← onRange buf pos (pos + 4) (encodeAddrV4 a)
        .ok (buf, pos + 4)
      | some (.v6 a) => do
        let buf ← setIdx buf pos 128
        let pos := pos + 1
        let (buf, _) ← onRange buf pos (pos + 16) (encodeAddrV6 a)
        .ok (buf, pos + 16) : Res (Bytes × Nat))
    let (buf, lbls) ← onFrom buf pos (MplsLabels.setBits x.labels)
    .ok (buf, pos + lbls.2)

/-- The address part of `src/afi/evpn.rs:267-280,342-355`: length octet and address at `pos`. -/
def evpnWriteIp (ip : IpAddr) (buf : Bytes) (pos : Nat) : Res (Bytes × Nat) :=
  match ip with
  | .v4 a => do
    let buf ← setIdx buf pos 32
    let pos := pos + 1
    let (buf, _) ← onFrom buf pos (encodeAddrV4 a)
    .ok (buf, pos + 4)
  | .v6 a => do
    let buf ← setIdx buf pos 128
    let pos := pos + 1
    let (buf, _) ← onFrom buf pos (encodeAddrV6 a)
    .ok (buf, pos + 16)

/-- The address part of `src/afi/evpn.rs:237-253,305-322`: length octet at `pos`, the address behind it. -/
def evpnReadIp (buf : Bytes) (pos : Nat) : Res (IpAddr × Nat) := do
  let l ← idx buf pos
  if l = 32 then do .ok (.v4 (← decodeAddrV4 (← rfrom buf (pos + 1))), pos + 1 + 4)
  else if l = 128 then do .ok (.v6 (← decodeAddrV6 (← rfrom buf (pos + 1))), pos + 1 + 16)
  else .err .dynStr

/-- `src/afi/evpn.rs:228-232`. -/
structure BgpEVPN3 where
  rd : BgpRD
  etherTag : U32
  ip : IpAddr
deriving DecidableEq, Repr

/-- `src/afi/evpn.rs:233-283`. -/
instance : BgpAddrItem BgpEVPN3 where
  decodeFrom _ buf := do
    let rdp ← BgpRD.decodeFrom buf
    let etag ← getn32 (← rslice buf rdp.2 (rdp.2 + 4))
    let (ip, sz) ← evpnReadIp buf (rdp.2 + 4)
    .ok (⟨rdp.1, etag, ip⟩, sz)
  encodeTo x _ buf := do
    let (buf, pos) ← x.rd.encodeTo buf
    let buf ← modRange buf pos (pos + 4) (setn32 x.etherTag)
    let pos := pos + 4
    evpnWriteIp x.ip buf pos

/-- `src/afi/evpn.rs:294-299`. -/
structure BgpEVPN4 where
  rd : BgpRD
  esiType : U8
  esi : EVPNESI
  ip : IpAddr
deriving DecidableEq, Repr

/-- `src/afi/evpn.rs:300-358`. -/
instance : BgpAddrItem BgpEVPN4 where
  decodeFrom _ buf := do
    let rdp ← BgpRD.decodeFrom buf
    let (t, esi) ← EVPNESI.read (← rfrom buf rdp.2)
    let (ip, sz) ← evpnReadIp buf (rdp.2 + 10)
    .ok (⟨rdp.1, t, esi, ip⟩, sz)
  encodeTo x _ buf := do
    let (buf, pos) ← x.rd.encodeTo buf
    let buf ← EVPNESI.write x.esiType x.esi buf pos
    let pos := pos + 10
    evpnWriteIp x.ip buf pos

/-- `src/afi/evpn.rs:369-378`. -/
structure BgpEVPN5 where
  rd : BgpRD
  esiType : U8
  esi : EVPNESI
  etherTag : U32
  len : U8
  pfx : IpAddr
  gwIp : IpAddr
  labels : MplsLabels
deriving DecidableEq, Repr

/-- `src/afi/evpn.rs:379-452`. The branch for 58 octets reads IPv4 addresses, and the encoder moves on by 16 octets
behind two IPv6 addresses, as in the code. -/
instance : BgpAddrItem BgpEVPN5 where
  decodeFrom _ buf := do
    let (rd, pos) ← BgpRD.decodeFrom buf
    let (t, esi) ← EVPNESI.read (← rfrom buf pos)
    let pos := pos + 10
    let etag ← getn32 (← rfrom buf pos)
    let pos := pos + 4
    let len ← idx buf pos
    let pos := pos + 1
    let (pfx, gw, pos) ← (if buf.length = 34 then do
        let p ← decodeAddrV4 (← rfrom buf pos)
        let g ← decodeAddrV4 (← rfrom buf (pos + 4))
        .ok (.v4 p, .v4 g, pos + 8)
      else if buf.length = 58 then do
        let p ← decodeAddrV4 (← rfrom buf pos)
        let g ← decodeAddrV4 (← rfrom buf (pos + 16))
        .ok (.v4 p, .v4 g, pos + 32)
      else .err .dynStr : Res (IpAddr × IpAddr × Nat))
    let left ← subN buf.length pos
    let lbls ← MplsLabels.extractBits (BitVec.ofNat 8 (8 * left)) (← rfrom buf pos)
    .ok (⟨rd, t, esi, etag, len, pfx, gw, lbls.1⟩, pos + lbls.2)
  encodeTo x _ buf := do
    let (buf, pos) ← x.rd.encodeTo buf
    let buf ← EVPNESI.write x.esiType x.esi buf pos
    let pos := pos + 10
    let buf ← modRange buf pos (pos + 4) (setn32 x.etherTag)
    let pos := pos + 4
    let buf ← setIdx buf pos x.len
    let pos := pos + 1
    let (buf, pos) ← (match x.pfx, x.gwIp with
      | .v4 p, .v4 g => do
        let (buf, _) ← onFrom buf pos (encodeAddrV4 p)
        let (buf, _) ← onFrom buf (pos + 4) (encodeAddrV4 g)
        .ok (buf, pos + 8)
      | .v6 p, .v6 g => do
        let (buf, _) ← onFrom buf pos (encodeAddrV6 p)
        let (buf, _) ← onFrom buf (pos + 16) (encodeAddrV6 g)
        .ok (buf, pos + 16)
      | _, _ => .err .static : Res (Bytes × Nat))
    let (buf, lbls) ← onFrom buf pos (MplsLabels.setBits x.labels)
    .ok (buf, pos + lbls.2)

/-- `src/afi/evpn.rs:471-477`. -/
inductive BgpEVPN
  | evpn1 (r : BgpEVPN1)
  | evpn2 (r : BgpEVPN2)
  | evpn3 (r : BgpEVPN3)
  | evpn4 (r : BgpEVPN4)
  | evpn5 (r : BgpEVPN5)
deriving DecidableEq, Repr

/-- `src/afi/evpn.rs:489-557`, `decode_from`. -/
def BgpEVPN.decodeFrom (mode : BgpTransportMode) (buf : Bytes) : Res (BgpEVPN × Nat) := do
  let evpntype ← idx buf 0
  let routelen := (← idx buf 1).toNat
  if buf.length < routelen + 2 then .err .dynStr
  else if evpntype = 1 then do
    let r ← BgpAddrItem.decodeFrom mode (← rslice buf 2 (2 + routelen))
    .ok (.evpn1 r.1, r.2 + 2)
  else if evpntype = 2 then do
    let r ← BgpAddrItem.decodeFrom mode (← rslice buf 2 (2 + routelen))
    .ok (.evpn2 r.1, r.2 + 2)
  else if evpntype = 3 then do
    let r ← BgpAddrItem.decodeFrom mode (← rslice buf 2 (2 + routelen))
    .ok (.evpn3 r.1, r.2 + 2)
  else if evpntype = 4 then do
    let r ← BgpAddrItem.decodeFrom mode (← rslice buf 2 (2 + routelen))
    .ok (.evpn4 r.1, r.2 + 2)
  else if evpntype = 5 then do
    let r ← BgpAddrItem.decodeFrom mode (← rslice buf 2 (2 + routelen))
    .ok (.evpn5 r.1, r.2 + 2)
  else .err .dynStr

/-- `src/afi/evpn.rs:489-557`, `encode_to`. -/
def BgpEVPN.encodeTo (x : BgpEVPN) (mode : BgpTransportMode) (buf : Bytes) : Res (Bytes × Nat) := do
  let (buf, pos) ← (match x with
    | .evpn1 r => do onFrom (← setIdx buf 0 1) 2 (BgpAddrItem.encodeTo r mode)
    | .evpn2 r => do onFrom (← setIdx buf 0 2) 2 (BgpAddrItem.encodeTo r mode)
    | .evpn3 r => do onFrom (← setIdx buf 0 3) 2 (BgpAddrItem.encodeTo r mode)
    | .evpn4 r => do onFrom (← setIdx buf 0 4) 2 (BgpAddrItem.encodeTo r mode)
    | .evpn5 r => do onFrom (← setIdx buf 0 5) 2 (BgpAddrItem.encodeTo r mode) : Res (Bytes × Nat))
  if pos ≤ 0xff then do
    let buf ← setIdx buf 1 (BitVec.ofNat 8 pos)
    .ok (buf, pos + 2)
  else .err .tooManyData

/-- `src/afi/evpn.rs:489-557`. -/
instance : BgpAddrItem BgpEVPN where
  decodeFrom := BgpEVPN.decodeFrom
  encodeTo := BgpEVPN.encodeTo

end Zbgp
