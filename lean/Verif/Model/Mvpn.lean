import Verif.Model.Nlri

/-!
# Model of `src/afi/mvpn.rs`
-/

namespace Zbgp

/-- `src/afi/mvpn.rs:20-23`. -/
structure BgpMVPN1 where
  rd : BgpRD
  originator : IpAddr
deriving DecidableEq, Repr

/-- `src/afi/mvpn.rs:29-57`. -/
instance : BgpAddrItem BgpMVPN1 where
  decodeFrom mode buf := do
    let rdp ← BgpRD.decodeFrom buf
    if mode = .IPv4 ∧ buf.length ≥ 12 then do
      .ok (⟨rdp.1, ← decodeAddr (← rslice buf rdp.2 (rdp.2 + 4))⟩, rdp.2 + 4)
    else if mode = .IPv6 ∧ buf.length ≥ 24 then do
      .ok (⟨rdp.1, ← decodeAddr (← rslice buf rdp.2 (rdp.2 + 16))⟩, rdp.2 + 16)
    else .err .static
  encodeTo x _ buf := do
    let (buf, p1) ← x.rd.encodeTo buf
    let (buf, p2) ← onFrom buf p1 (encodeAddr x.originator)
    .ok (buf, p1 + p2)

/-- `src/afi/mvpn.rs:63-66`. -/
structure BgpMVPN2 where
  rd : BgpRD
  asn : U32
deriving DecidableEq, Repr

/-- `src/afi/mvpn.rs:72-91`. -/
instance : BgpAddrItem BgpMVPN2 where
  decodeFrom _ buf :=
    if buf.length ≥ 12 then do
      let rdp ← BgpRD.decodeFrom buf
      .ok (⟨rdp.1, ← getn32 (← rslice buf 8 12)⟩, rdp.2 + 4)
    else .err .static
  encodeTo x _ buf := do
    let (buf, p1) ← x.rd.encodeTo buf
    let buf ← modFrom buf p1 (setn32 x.asn)
    .ok (buf, p1 + 4)

/-- `src/afi/mvpn.rs:97-102`. -/
structure BgpMVPN3 where
  rd : BgpRD
  source : IpAddr
  group : IpAddr
  originator : IpAddr
deriving DecidableEq, Repr

/-- `src/afi/mvpn.rs:112-155`. -/
instance : BgpAddrItem BgpMVPN3 where
  decodeFrom mode buf := do
    let rdp ← BgpRD.decodeFrom buf
    if mode = .IPv4 ∧ buf.length ≥ 22 then do
      if (← idx buf 8) ≠ 32 ∨ (← idx buf 13) ≠ 32 then .err .dynStr else do
        .ok (⟨rdp.1, ← decodeAddr (← rslice buf 9 13), ← decodeAddr (← rslice buf 14 18),
          ← decodeAddr (← rslice buf 18 22)⟩, 22)
    else if mode = .IPv6 ∧ buf.length ≥ 58 then do
      if (← idx buf 8) ≠ 128 ∨ (← idx buf 25) ≠ 128 then .err .static else do
        .ok (⟨rdp.1, ← decodeAddr (← rslice buf 9 25), ← decodeAddr (← rslice buf 26 42),
          ← decodeAddr (← rslice buf 42 58)⟩, 58)
    else .err .static
  encodeTo x _ buf := do
    let (buf, p1) ← x.rd.encodeTo buf
    let (buf, n) ← onFrom buf p1 (encodeAddr x.source)
    let p1 := p1 + n
    let (buf, n) ← onFrom buf p1 (encodeAddr x.group)
    let p1 := p1 + n
    let (buf, n) ← onFrom buf p1 (encodeAddr x.originator)
    .ok (buf, p1 + n)

/-- `src/afi/mvpn.rs:161-164`. -/
structure BgpMVPN4 where
  spmsi : BgpMVPN3
  originator : IpAddr
deriving DecidableEq, Repr

/-- `src/afi/mvpn.rs:170-197`. -/
instance : BgpAddrItem BgpMVPN4 where
  decodeFrom mode buf := do
    let t ← idx buf 0
    let bad ← (if t ≠ 3 then .ok true else do .ok (decide ((← idx buf 1) ≠ 22)) : Res Bool)
    if bad then .err .dynStr else do
      match BgpAddrItem.decodeFrom (T := BgpMVPN3) mode (← rfrom buf 2) with
      | .err _ => .err .dynStr
      | .panic => .panic
      | .hang => .hang
      | .ok s => do .ok (⟨s.1, ← decodeAddr (← rfrom buf (2 + s.2))⟩, s.2 + 6)
  encodeTo x mode buf := do
    let (buf, p1) ← BgpAddrItem.encodeTo x.spmsi mode buf
    let (buf, n) ← onFrom buf p1 (encodeAddr x.originator)
    .ok (buf, p1 + n)

/-- `src/afi/mvpn.rs:203-207`. -/
structure BgpMVPN5 where
  rd : BgpRD
  source : IpAddr
  group : IpAddr
deriving DecidableEq, Repr

/-- `src/afi/mvpn.rs:213-250`. -/
instance : BgpAddrItem BgpMVPN5 where
  decodeFrom mode buf := do
    let rdp ← BgpRD.decodeFrom buf
    if mode = .IPv4 ∧ buf.length ≥ 18 then do
      if (← idx buf 8) ≠ 32 ∨ (← idx buf 13) ≠ 32 then .err .static else do
        .ok (⟨rdp.1, ← decodeAddr (← rslice buf 9 13), ← decodeAddr (← rslice buf 14 18)⟩, 18)
    else if mode = .IPv6 ∧ buf.length ≥ 42 then do
      if (← idx buf 8) ≠ 128 ∨ (← idx buf 25) ≠ 128 then .err .static else do
        .ok (⟨rdp.1, ← decodeAddr (← rslice buf 9 15), ← decodeAddr (← rslice buf 26 42)⟩, 42)
    else .err .static
  encodeTo x _ buf := do
    let (buf, p1) ← x.rd.encodeTo buf
    let (buf, n) ← onFrom buf p1 (encodeAddr x.source)
    let p1 := p1 + n
    let (buf, n) ← onFrom buf p1 (encodeAddr x.group)
    .ok (buf, p1 + n)

/-- `src/afi/mvpn.rs:257-262`. -/
structure BgpMVPN67 where
  rd : BgpRD
  asn : U32
  rp : IpAddr
  group : IpAddr
deriving DecidableEq, Repr

/-- `src/afi/mvpn.rs:268-309`. -/
instance : BgpAddrItem BgpMVPN67 where
  decodeFrom mode buf := do
    let rdp ← BgpRD.decodeFrom buf
    if mode = .IPv4 ∧ buf.length ≥ 22 then do
      if (← idx buf 12) ≠ 32 ∨ (← idx buf 17) ≠ 32 then .err .static else do
        .ok (⟨rdp.1, ← getn32 (← rslice buf 8 12), ← decodeAddr (← rslice buf 13 17),
          ← decodeAddr (← rslice buf 18 22)⟩, 22)
    else if mode = .IPv6 ∧ buf.length ≥ 46 then do
      if (← idx buf 12) ≠ 128 ∨ (← idx buf 29) ≠ 128 then .err .static else do
        .ok (⟨rdp.1, ← getn32 (← rslice buf 8 12), ← decodeAddr (← rslice buf 13 29),
          ← decodeAddr (← rslice buf 30 46)⟩, 46)
    else .err .static
  encodeTo x _ buf := do
    let (buf, p1) ← x.rd.encodeTo buf
    let buf ← modFrom buf p1 (setn32 x.asn)
    let p1 := p1 + 4
    let (buf, n) ← onFrom buf p1 (encodeAddr x.rp)
    let p1 := p1 + n
    let (buf, n) ← onFrom buf p1 (encodeAddr x.group)
    .ok (buf, p1 + n)

/-- `src/afi/mvpn.rs:314-322`. -/
inductive BgpMVPN
  | t1 (r : BgpMVPN1)
  | t2 (r : BgpMVPN2)
  | t3 (r : BgpMVPN3)
  | t4 (r : BgpMVPN4)
  | t5 (r : BgpMVPN5)
  | t6 (r : BgpMVPN67)
  | t7 (r : BgpMVPN67)
deriving DecidableEq, Repr

/-- `src/afi/mvpn.rs:336-409`, `decode_from`. -/
def BgpMVPN.decodeFrom (mode : BgpTransportMode) (buf : Bytes) : Res (BgpMVPN × Nat) := do
  let mvpntype ← idx buf 0
  let routelen := (← idx buf 1).toNat
  if mvpntype = 1 then do
    let r ← BgpAddrItem.decodeFrom mode (← rslice buf 2 (2 + routelen))
    .ok (.t1 r.1, r.2 + 2)
  else if mvpntype = 2 then do
    let r ← BgpAddrItem.decodeFrom mode (← rslice buf 2 (2 + routelen))
    .ok (.t2 r.1, r.2 + 2)
  else if mvpntype = 3 then do
    let r ← BgpAddrItem.decodeFrom mode (← rslice buf 2 (2 + routelen))
    .ok (.t3 r.1, r.2 + 2)
  else if mvpntype = 4 then do
    let r ← BgpAddrItem.decodeFrom mode (← rslice buf 2 (2 + routelen))
    .ok (.t4 r.1, r.2 + 2)
  else if mvpntype = 5 then do
    let r ← BgpAddrItem.decodeFrom mode (← rslice buf 2 (2 + routelen))
    .ok (.t5 r.1, r.2 + 2)
  else if mvpntype = 6 then do
    let r ← BgpAddrItem.decodeFrom mode (← rslice buf 2 (2 + routelen))
    .ok (.t6 r.1, r.2 + 2)
  else if mvpntype = 7 then do
    let r ← BgpAddrItem.decodeFrom mode (← rslice buf 2 (2 + routelen))
    .ok (.t7 r.1, r.2 + 2)
  else .err .dynStr

/-- `src/afi/mvpn.rs:336-409`, `encode_to`. -/
def BgpMVPN.encodeTo (x : BgpMVPN) (mode : BgpTransportMode) (buf : Bytes) : Res (Bytes × Nat) := do
  let (buf, sz) ← (match x with
    | .t1 r => do onFrom (← setIdx buf 0 1) 2 (BgpAddrItem.encodeTo r mode)
    | .t2 r => do onFrom (← setIdx buf 0 2) 2 (BgpAddrItem.encodeTo r mode)
    | .t3 r => do onFrom (← setIdx buf 0 3) 2 (BgpAddrItem.encodeTo r mode)
    | .t4 r => do onFrom (← setIdx buf 0 4) 2 (BgpAddrItem.encodeTo r mode)
    | .t5 r => do onFrom (← setIdx buf 0 5) 2 (BgpAddrItem.encodeTo r mode)
    | .t6 r => do onFrom (← setIdx buf 0 6) 2 (BgpAddrItem.encodeTo r mode)
    | .t7 r => do onFrom (← setIdx buf 0 7) 2 (BgpAddrItem.encodeTo r mode) : Res (Bytes × Nat))
  let buf ← setIdx buf 1 (BitVec.ofNat 8 sz)
  .ok (buf, sz + 2)

/-- `src/afi/mvpn.rs:336-409`. -/
instance : BgpAddrItem BgpMVPN where
  decodeFrom := BgpMVPN.decodeFrom
  encodeTo := BgpMVPN.encodeTo

end Zbgp
