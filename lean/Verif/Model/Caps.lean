import Verif.Model.Util

/-!
# Model of the capability code in `src/lib.rs:100-667`
-/

namespace Zbgp

/-- `src/lib.rs:102-105`. -/
inductive BgpTransportMode
  | IPv4
  | IPv6
deriving DecidableEq, Repr

/-- `src/lib.rs:107-115` `From<IpAddr> for BgpTransportMode`. -/
def BgpTransportMode.ofAddr : IpAddr → BgpTransportMode
  | .v4 _ => .IPv4
  | .v6 _ => .IPv6

/-- `src/lib.rs:134-139`. -/
structure BgpCapGR where
  afi : U16
  safi : U8
  forwardingState : Bool
deriving DecidableEq, Repr

/-- `src/lib.rs:199-204`. -/
structure BgpCapLLGR where
  afi : U16
  safi : U8
  flags : U8
  staleTime : U32
deriving DecidableEq, Repr

/-- `src/lib.rs:250-255`. -/
structure BgpCapAddPath where
  afi : U16
  safi : U8
  send : Bool
  receive : Bool
deriving DecidableEq, Repr

/-- `src/lib.rs:302-357`. `String` is modelled by its UTF-8 bytes. -/
inductive BgpCapability
  | SafiIPv4u
  | SafiIPv4m
  | SafiIPv4mvpn
  | SafiIPv4fu
  | SafiVPNv4u
  | SafiVPNv4fu
  | SafiVPNv4m
  | SafiIPv4lu
  | SafiIPv4mdt
  | SafiIPv6u
  | SafiIPv6lu
  | SafiIPv6fu
  | SafiVPNv6u
  | SafiVPNv6m
  | SafiIPv6mdt
  | SafiVPLS
  | SafiEVPN
  | CapGR (restartTime : U16) (restartState : Bool) (afis : List BgpCapGR)
  | CapASN32 (asNum : U32)
  | CapRR
  | CapAddPath (v : List BgpCapAddPath)
  | CapEnhancedRR
  | CapLLGR (v : List BgpCapLLGR)
  | CapFQDN (hostname domainname : Bytes)
  | CapBFD
deriving DecidableEq, Repr

/-- `src/lib.rs:141-160` `afisafi_from_cap`. -/
def afisafiFromCap : BgpCapability → Res (U16 × U8)
  | .SafiIPv4u => .ok (1, 1)
  | .SafiIPv4m => .ok (1, 4)
  | .SafiIPv4mvpn => .ok (1, 5)
  | .SafiIPv4mdt => .ok (1, 66)
  | .SafiVPNv4u => .ok (1, 128)
  | .SafiVPNv4m => .ok (1, 129)
  | .SafiIPv4lu => .ok (1, 2)
  | .SafiIPv6u => .ok (2, 1)
  | .SafiIPv6lu => .ok (2, 4)
  | .SafiIPv6mdt => .ok (2, 66)
  | .SafiVPNv6u => .ok (2, 128)
  | .SafiVPNv6m => .ok (2, 129)
  | .SafiVPLS => .ok (25, 65)
  | .SafiEVPN => .ok (25, 70)
  | _ => .err .static

/-- `src/lib.rs:163-173` `BgpCapGR::new_from_cap`. -/
def BgpCapGR.newFromCap (c : BgpCapability) (forwardingState : Bool) : Res BgpCapGR := do
  let (afi, safi) ← afisafiFromCap c
  .ok { afi, safi, forwardingState }

/-- `src/lib.rs:174-185` `BgpCapGR::encode_to`. -/
def BgpCapGR.encodeTo (c : BgpCapGR) (buf : Bytes) : Res Bytes :=
  if buf.length < 4 then .err .insufficientBufferSize else do
    let buf ← modRange buf 0 2 (setn16 c.afi)
    let buf ← setIdx buf 2 c.safi
    let buf ← setIdx buf 3 0
    if c.forwardingState then do
      let x ← idx buf 3
      setIdx buf 3 (x ||| 128)
    else .ok buf

/-- `src/lib.rs:186-195` `BgpCapGR::decode_from`. -/
def BgpCapGR.decodeFrom (buf : Bytes) : Res BgpCapGR :=
  if buf.length < 4 then .err .insufficientBufferSize else do
    let afi ← getn16 (← rslice buf 0 2)
    let safi ← idx buf 2
    let f ← idx buf 3
    .ok { afi, safi, forwardingState := f &&& 128 != 0 }

/-- `src/lib.rs:207-222` `BgpCapLLGR::new_from_cap`. `stale_time.leading_zeros() < 8` on a `u32` is
`stale_time >= 2^24`. -/
def BgpCapLLGR.newFromCap (c : BgpCapability) (flags : U8) (staleTime : U32) : Res BgpCapLLGR := do
  let (afi, safi) ← afisafiFromCap c
  if staleTime.toNat ≥ 2 ^ 24 then .err .static else
    .ok { afi, safi, flags, staleTime }

/-- `src/lib.rs:223-235` `BgpCapLLGR::encode_to`. `leading_zeros() < 8` as above;
`to_be_bytes()[1..]` are the last three octets of the big-endian form. -/
def BgpCapLLGR.encodeTo (c : BgpCapLLGR) (buf : Bytes) : Res Bytes :=
  if buf.length < 7 then .err .insufficientBufferSize
  else if c.staleTime.toNat ≥ 2 ^ 24 then .err .static
  else do
    let buf ← modRange buf 0 2 (setn16 c.afi)
    let buf ← setIdx buf 2 c.safi
    let buf ← setIdx buf 3 c.flags
    copyAt buf 4 7 ((Spec.be 4 c.staleTime.toNat).drop 1)

/-- `src/lib.rs:236-246` `BgpCapLLGR::decode_from`. -/
def BgpCapLLGR.decodeFrom (buf : Bytes) : Res BgpCapLLGR :=
  if buf.length < 7 then .err .insufficientBufferSize else do
    let afi ← getn16 (← rslice buf 0 2)
    let safi ← idx buf 2
    let flags ← idx buf 3
    let hi ← idx buf 4
    let lo ← getn16 (← rslice buf 5 7)
    let staleTime ← addC (hi.setWidth 32 <<< 16) (lo.setWidth 32)
    .ok { afi, safi, flags, staleTime }

/-- `src/lib.rs:257-264` `BgpCapAddPath::response`. -/
def BgpCapAddPath.response (src : BgpCapAddPath) : BgpCapAddPath :=
  { afi := src.afi, safi := src.safi, send := src.receive, receive := src.send }

/-- `src/lib.rs:265-277` `BgpCapAddPath::new_from_cap`. -/
def BgpCapAddPath.newFromCap (c : BgpCapability) (send receive : Bool) : Res BgpCapAddPath := do
  let (afi, safi) ← afisafiFromCap c
  .ok { afi, safi, send, receive }

/-- `u8::from(bool)`. -/
def u8OfBool (b : Bool) : U8 := if b then 1 else 0

/-- `src/lib.rs:278-286` `BgpCapAddPath::encode_to`. -/
def BgpCapAddPath.encodeTo (c : BgpCapAddPath) (buf : Bytes) : Res Bytes :=
  if buf.length < 4 then .err .insufficientBufferSize else do
    let buf ← modRange buf 0 2 (setn16 c.afi)
    let buf ← setIdx buf 2 c.safi
    setIdx buf 3 (u8OfBool c.receive ||| (u8OfBool c.send <<< 1))

/-- `src/lib.rs:287-297` `BgpCapAddPath::decode_from`. -/
def BgpCapAddPath.decodeFrom (buf : Bytes) : Res BgpCapAddPath :=
  if buf.length < 4 then .err .insufficientBufferSize else do
    let afi ← getn16 (← rslice buf 0 2)
    let safi ← idx buf 2
    let f ← idx buf 3
    .ok { afi, safi, send := decide ((f &&& 2).toNat > 0), receive := decide ((f &&& 1).toNat > 0) }

namespace BgpCapability

/-- `src/lib.rs:361-391` `bytes_len`. -/
def bytesLen : BgpCapability → Nat
  | SafiIPv4u => 6
  | SafiIPv4fu => 6
  | SafiIPv4m => 6
  | SafiIPv4mvpn => 6
  | SafiVPNv4u => 6
  | SafiVPNv4fu => 6
  | SafiVPNv4m => 6
  | SafiIPv4lu => 6
  | SafiIPv4mdt => 6
  | SafiIPv6u => 6
  | SafiIPv6lu => 6
  | SafiIPv6fu => 6
  | SafiIPv6mdt => 6
  | SafiVPNv6u => 6
  | SafiVPNv6m => 6
  | SafiVPLS => 6
  | SafiEVPN => 6
  | CapGR _ _ afis => 4 + afis.length * 4
  | CapASN32 _ => 6
  | CapRR => 2
  | CapAddPath v => 2 + v.length * 4
  | CapEnhancedRR => 2
  | CapLLGR v => 2 + v.length * 7
  | CapFQDN h d => 4 + h.length + d.length
  | CapBFD => 2

/-- The loops `for cap in v { cap.encode_to(&mut buf[cp..cp + k])?; cp += k; }` of
`src/lib.rs:464-467`, `486-489` and `498-501`. The position `cp` is represented by the split of the
buffer; the argument is `buf[cp..]`. -/
def fillChunks {α : Type} (k : Nat) (enc : α → Bytes → Res Bytes) : List α → Bytes → Res Bytes
  | [], t => .ok t
  | x :: xs, t =>
    if k ≤ t.length then do
      let h ← enc x (t.take k)
      let r ← fillChunks k enc xs (t.drop k)
      .ok (h ++ r)
    else .panic

/-- `src/lib.rs:393-518` `fill_buffer`. `restart_time.leading_zeros() < 4` on a `u16` is
`restart_time >= 2^12`. -/
def fillBuffer (c : BgpCapability) (buf : Bytes) : Res Bytes :=
  if buf.length < c.bytesLen then .err .insufficientBufferSize else
  match c with
  | SafiIPv4u => copyAll buf [1, 4, 0, 1, 0, 1]
  | SafiIPv4fu => copyAll buf [1, 4, 0, 1, 0, 133]
  | SafiIPv4m => copyAll buf [1, 4, 0, 1, 0, 4]
  | SafiIPv4mvpn => copyAll buf [1, 4, 0, 1, 0, 5]
  | SafiVPNv4u => copyAll buf [1, 4, 0, 1, 0, 128]
  | SafiVPNv4fu => copyAll buf [1, 4, 0, 1, 0, 134]
  | SafiVPNv4m => copyAll buf [1, 4, 0, 1, 0, 129]
  | SafiIPv4lu => copyAll buf [1, 4, 0, 1, 0, 2]
  | SafiIPv4mdt => copyAll buf [1, 4, 0, 1, 0, 66]
  | SafiIPv6u => copyAll buf [1, 4, 0, 2, 0, 1]
  | SafiIPv6fu => copyAll buf [1, 4, 0, 2, 0, 133]
  | SafiIPv6lu => copyAll buf [1, 4, 0, 2, 0, 4]
  | SafiIPv6mdt => copyAll buf [1, 4, 0, 2, 0, 66]
  | SafiVPNv6u => copyAll buf [1, 4, 0, 2, 0, 128]
  | SafiVPNv6m => copyAll buf [1, 4, 0, 2, 0, 129]
  | SafiVPLS => copyAll buf [1, 4, 0, 25, 0, 65]
  | SafiEVPN => copyAll buf [1, 4, 0, 25, 0, 70]
  | CapGR restartTime restartState afis => do
    let buf ← setIdx buf 0 64
    let buf ← setIdx buf 1 (BitVec.ofNat 8 (2 + 4 * afis.length))
    if restartTime.toNat ≥ 2 ^ 12 then .err .static else do
      let buf ← modRange buf 2 4 (setn16 restartTime)
      let buf ← if restartState then do
          let x ← idx buf 2
          setIdx buf 2 (x ||| 128)
        else .ok buf
      modFrom buf 4 (fillChunks 4 BgpCapGR.encodeTo afis)
  | CapASN32 n =>
    copyAll buf [65, 4, (n >>> 24).setWidth 8, ((n >>> 16) &&& 0xff).setWidth 8,
      ((n >>> 8) &&& 0xff).setWidth 8, (n &&& 0xff).setWidth 8]
  | CapRR => copyAll buf [2, 0]
  | CapAddPath v => do
    let buf ← setIdx buf 0 69
    let buf ← setIdx buf 1 (BitVec.ofNat 8 (4 * v.length))
    modFrom buf 2 (fillChunks 4 BgpCapAddPath.encodeTo v)
  | CapEnhancedRR => copyAll buf [70, 0]
  | CapLLGR v => do
    let buf ← setIdx buf 0 71
    let buf ← setIdx buf 1 (BitVec.ofNat 8 (7 * v.length))
    modFrom buf 2 (fillChunks 7 BgpCapLLGR.encodeTo v)
  | CapFQDN h d => do
    let buf ← setIdx buf 0 73
    let buf ← setIdx buf 1 (BitVec.ofNat 8 h.length)
    let buf ← copyAt buf 1 (1 + h.length) h
    let buf ← setIdx buf (1 + h.length) (BitVec.ofNat 8 d.length)
    copyAt buf (2 + h.length) (2 + h.length + d.length) d
  | CapBFD => copyAll buf [74, 0]

/-- `std::str::from_utf8` (std, RFC 3629): is the byte string valid UTF-8? -/
def utf8Valid : Bytes → Bool
  | [] => true
  | a :: rest =>
    if a.toNat < 0x80 then utf8Valid rest
    else match rest with
    | [] => false
    | b :: rest =>
      let cont (x : U8) : Bool := 0x80 ≤ x.toNat && x.toNat ≤ 0xBF
      if 0xC2 ≤ a.toNat && a.toNat ≤ 0xDF then cont b && utf8Valid rest
      else match rest with
      | [] => false
      | c :: rest =>
        if (a == 0xE0 && 0xA0 ≤ b.toNat && b.toNat ≤ 0xBF) ||
           (0xE1 ≤ a.toNat && a.toNat ≤ 0xEC && cont b) ||
           (a == 0xED && 0x80 ≤ b.toNat && b.toNat ≤ 0x9F) ||
           (0xEE ≤ a.toNat && a.toNat ≤ 0xEF && cont b)
        then cont c && utf8Valid rest
        else match rest with
        | [] => false
        | d :: rest =>
          ((a == 0xF0 && 0x90 ≤ b.toNat && b.toNat ≤ 0xBF) ||
           (0xF1 ≤ a.toNat && a.toNat ≤ 0xF3 && cont b) ||
           (a == 0xF4 && 0x80 ≤ b.toNat && b.toNat ≤ 0x8F))
          && cont c && cont d && utf8Valid rest

/-- `std::str::from_utf8(b)?.to_string()`; the error is wrapped by
`From<Utf8Error> for BgpError` (`src/error.rs:87-92`). -/
def fromUtf8 (b : Bytes) : Res Bytes := if utf8Valid b then .ok b else .err .other

/-- The loops `while cp < data.len() { v.push(T::decode_from(&data[cp..cp + k])?); cp += k; }` of
`src/lib.rs:562-565`, `584-587` and `602-605`. The argument is `data[cp..]`. `fuel` bounds the number of
iterations. -/
def decodeChunks {α : Type} (k : Nat) (dec : Bytes → Res α) : Nat → Bytes → Res (List α)
  | 0, _ => .hang
  | fuel + 1, data =>
    if data.isEmpty then .ok [] else do
      let c ← rslice data 0 k
      let x ← dec c
      let rest ← decodeChunks k dec fuel (data.drop k)
      .ok (x :: rest)

/-- The multiprotocol table, `src/lib.rs:527-546`. -/
def mpTable : List (Bytes × BgpCapability) :=
  [([0, 1, 0, 1], SafiIPv4u), ([0, 1, 0, 133], SafiIPv4fu), ([0, 1, 0, 4], SafiIPv4m),
   ([0, 1, 0, 5], SafiIPv4mvpn), ([0, 1, 0, 128], SafiVPNv4u), ([0, 1, 0, 134], SafiVPNv4fu),
   ([0, 1, 0, 129], SafiVPNv4m), ([0, 1, 0, 2], SafiIPv4lu), ([0, 1, 0, 66], SafiIPv4mdt),
   ([0, 2, 0, 1], SafiIPv6u), ([0, 2, 0, 133], SafiIPv6fu), ([0, 2, 0, 4], SafiIPv6lu),
   ([0, 2, 0, 66], SafiIPv6mdt), ([0, 2, 0, 128], SafiVPNv6u), ([0, 2, 0, 129], SafiVPNv6m),
   ([0, 25, 0, 65], SafiVPLS), ([0, 25, 0, 70], SafiEVPN)]

/-- `src/lib.rs:520-644` `from_type_and_data`. -/
def fromTypeAndData (captype : U8) (data : Bytes) : Res (Option BgpCapability) :=
  match captype.toNat with
  | 1 =>
    if data.length ≠ 4 then .err .static
    else .ok (mpTable.lookup data)
  | 2 => if data.isEmpty then .ok (some CapRR) else .err .static
  | 64 =>
    if data.length < 2 ∨ (data.length - 2) % 4 ≠ 0 then .err .static else do
      let b0 ← idx data 0
      let restartState := b0 &&& 128 != 0
      let restartTime := (← getn16 (← rslice data 0 2)) &&& 0x0fff
      let afis ← decodeChunks 4 BgpCapGR.decodeFrom (data.length + 1) (data.drop 2)
      .ok (some (CapGR restartTime restartState afis))
  | 65 => if data.length ≠ 4 then .err .static else do .ok (some (CapASN32 (← getn32 data)))
  | 69 =>
    if data.length &&& 3 ≠ 0 then .err .static else do
      let v ← decodeChunks 4 BgpCapAddPath.decodeFrom (data.length + 1) data
      .ok (some (CapAddPath v))
  | 70 => if data.isEmpty then .ok (some CapEnhancedRR) else .err .static
  | 71 =>
    if data.length % 7 ≠ 0 then .err .static else do
      let v ← decodeChunks 7 BgpCapLLGR.decodeFrom (data.length + 1) data
      .ok (some (CapLLGR v))
  | 73 =>
    if data.isEmpty then .err .static else do
      let hostnameLen := (← idx data 0).toNat
      let rest ← rfrom data 1
      if rest.length < hostnameLen then .err .static else do
        let hostname ← fromUtf8 (← rslice data 1 (1 + hostnameLen))
        let rest ← rfrom data (1 + hostnameLen)
        if rest.isEmpty then .err .static else do
          let domainnameLen := (← idx data (1 + hostnameLen)).toNat
          let rest ← rfrom data (2 + hostnameLen)
          if rest.length < domainnameLen then .err .static else do
            let domainname ← fromUtf8 (← rslice data (2 + hostnameLen)
              (2 + hostnameLen + domainnameLen))
            -- `pos` is not advanced past the domain name here, `src/lib.rs:628-631`
            let rest ← rfrom data (2 + hostnameLen)
            if rest.isEmpty then .ok (some (CapFQDN hostname domainname)) else .err .static
  | 74 => if data.isEmpty then .ok (some CapBFD) else .err .static
  | _ => .ok none

/-- `src/lib.rs:648-666` `from_buffer`. The inner `Result<BgpCapability, (u8, Vec<u8>)>` is a `Sum`. -/
def fromBuffer (buf : Bytes) : Res ((BgpCapability ⊕ (U8 × Bytes)) × Nat) :=
  if buf.length < 2 then .err .insufficientBufferSize else do
    let captype ← idx buf 0
    let datalength := (← idx buf 1).toNat
    if buf.length < datalength + 2 then .err .insufficientBufferSize else do
      let data ← rslice buf 2 (2 + datalength)
      match ← fromTypeAndData captype data with
      | some cap => .ok (.inl cap, 2 + datalength)
      | none => .ok (.inr (captype, data), 2 + datalength)

end BgpCapability

end Zbgp
