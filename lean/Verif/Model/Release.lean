import Verif.Model.Update

/-!
# The code as built without overflow checks

Cargo's release profile leaves `overflow-checks` off (`/repo/Cargo.toml` has no `[profile]` section), its development
profile has them on. Everywhere else the model is that of a build with the checks. Here the functions with an arithmetic
operation that can overflow, and those that call them, are written once for both builds: each takes the build as an
argument. The index and slice checks are the same in both.

The functions that take a build are copies of those of the other model files, with the same line citations; that the
copies for `checked` are the functions of those files is proved in `Lemmas/Release.lean`.
-/

namespace Zbgp

/-- The two ways to build: with and without overflow checks. -/
inductive Build
  | checked
  | release
deriving DecidableEq, Repr

namespace Build

/-- `a + b`: the result of a build without checks is the sum modulo the width. -/
def add {w : Nat} : Build → BitVec w → BitVec w → Res (BitVec w)
  | checked, a, b => addC a b
  | release, a, b => .ok (a + b)

/-- `a - b`: the result of a build without checks is the difference modulo the width. -/
def sub {w : Nat} : Build → BitVec w → BitVec w → Res (BitVec w)
  | checked, a, b => subC a b
  | release, a, b => .ok (a - b)

/-- `a - b` on `usize` (64 bits). -/
def subN : Build → Nat → Nat → Res Nat
  | checked, a, b => Zbgp.subN a b
  | release, a, b => .ok (if b ≤ a then a - b else a + 2 ^ 64 - b)

/-- `a << n`: a build without checks shifts by the amount modulo the width. -/
def shl {w : Nat} : Build → BitVec w → Nat → Res (BitVec w)
  | checked, a, n => shlC a n
  | release, a, n => .ok (a <<< (n % w))

end Build

/-- `BgpItem` (`src/afi/mod.rs:37-41`) for both builds. -/
class BgpItemIn (T : Type) where
  extractBits : Build → U8 → Bytes → Res (T × Nat)
  setBits : Build → T → Bytes → Res (Bytes × (U8 × Nat))

/-- The item functions of one build. -/
@[reducible] def itemIn (T : Type) [BgpItemIn T] (m : Build) : BgpItem T where
  extractBits := BgpItemIn.extractBits m
  setBits := BgpItemIn.setBits m

/-! ## IPv4, `src/afi/ipv4.rs` -/

namespace BgpAddrV4

/-- `(1 << (32 - self.prefixlen)) - 1` at type `u32`, `src/afi/ipv4.rs:50,66,100`. -/
def hostMaskIn (m : Build) (a : BgpAddrV4) : Res U32 := do
  let sh ← m.sub (32 : U8) a.prefixlen
  let r ← m.shl (1 : U32) sh.toNat
  m.sub r 1

/-- `src/afi/ipv4.rs:49-51` `norm_subnet_u32`. -/
def normSubnetIn (m : Build) (a : BgpAddrV4) : Res U32 := do
  let v ← getn32 (ipv4Octets a.addr)
  let h ← a.hostMaskIn m
  .ok (v &&& (h ^^^ 0xffffffff))

/-- `src/afi/ipv4.rs:59-70` `in_subnet`. -/
def inSubnetIn (m : Build) (s : BgpAddrV4) (a : IPv4) : Res Bool :=
  if s.prefixlen.toNat = 0 then .ok true
  else if s.prefixlen.toNat > 31 then do
    .ok ((← getn32 (ipv4Octets s.addr)) == (← getn32 (ipv4Octets a)))
  else do
    let lv ← s.normSubnetIn m
    let lh ← m.add lv (← s.hostMaskIn m)
    let va ← getn32 (ipv4Octets a)
    .ok (decide (lv.toNat ≤ va.toNat) && decide (va.toNat ≤ lh.toNat))

/-- `src/afi/ipv4.rs:78-86` `range_first`. -/
def rangeFirstIn (m : Build) (s : BgpAddrV4) : Res IPv4 := do .ok (ofU32 (← s.normSubnetIn m))

/-- `src/afi/ipv4.rs:94-108` `range_last`. -/
def rangeLastIn (m : Build) (s : BgpAddrV4) : Res IPv4 :=
  if s.prefixlen.toNat < 1 then .ok 0xffffffff
  else if s.prefixlen.toNat > 31 then s.rangeFirstIn m
  else do
    let lv ← m.add (← s.normSubnetIn m) (← s.hostMaskIn m)
    .ok (ofU32 lv)

/-- `src/afi/ipv4.rs:116-126` `contains`. -/
def containsIn (m : Build) (s a : BgpAddrV4) : Res Bool :=
  if s.prefixlen.toNat < 1 then .ok true
  else if s.prefixlen.toNat > a.prefixlen.toNat then .ok false
  else if s.prefixlen.toNat = a.prefixlen.toNat then .ok (s.addr == a.addr)
  else do
    if ← s.inSubnetIn m (← a.rangeFirstIn m) then s.inSubnetIn m (← a.rangeLastIn m) else .ok false

/-- `src/afi/ipv4.rs:131-157` `from_bits`. -/
def fromBitsIn (m : Build) (bits : U8) (buf : Bytes) : Res (BgpAddrV4 × Nat) := do
  let bytes := (← m.add bits 7).toNat / 8
  if bits.toNat > 32 ∨ buf.length < bytes then .err .dynStr else do
    let bf : Bytes := List.replicate 4 0
    if bits.toNat = 0 then do
      .ok (⟨← decodeAddrV4 bf, 0⟩, 0)
    else do
      let bf ← copyAt bf 0 bytes (← rslice buf 0 bytes)
      .ok (⟨← decodeAddrV4 bf, bits⟩, bytes)

/-- `src/afi/ipv4.rs:158-167` `to_bits`. -/
def toBitsIn (m : Build) (a : BgpAddrV4) (buf : Bytes) : Res (Bytes × (U8 × Nat)) :=
  if a.prefixlen.toNat = 0 then .ok (buf, (0, 0)) else do
    let bf ← copyAll (List.replicate 4 0) (ipv4Octets a.addr)
    let bytes := (← m.add a.prefixlen 7).toNat / 8
    let buf ← copyAt buf 0 bytes (← rslice bf 0 bytes)
    .ok (buf, (a.prefixlen, bytes))

end BgpAddrV4

/-- `src/afi/ipv4.rs:187-197`. -/
instance : BgpItemIn BgpAddrV4 where
  extractBits := BgpAddrV4.fromBitsIn
  setBits := BgpAddrV4.toBitsIn

/-! ## IPv6, `src/afi/ipv6.rs` -/

namespace BgpAddrV6

/-- `(1 << (128 - self.prefixlen)) - 1` at type `u128`, `src/afi/ipv6.rs:63-69,83,123`. -/
def hostMaskIn (m : Build) (a : BgpAddrV6) : Res U128 := do
  let sh ← m.sub (128 : U8) a.prefixlen
  let r ← m.shl (1 : U128) sh.toNat
  m.sub r 1

/-- `src/afi/ipv6.rs:55-66` `contains`. -/
def containsIn (m : Build) (s a : BgpAddrV6) : Res Bool :=
  if s.prefixlen.toNat < 1 then .ok true
  else if s.prefixlen.toNat > a.prefixlen.toNat then .ok false
  else if s.prefixlen.toNat = a.prefixlen.toNat then .ok (s.addr == a.addr)
  else do
    let x ← getn128 (ipv6Octets s.addr)
    let h ← s.hostMaskIn m
    let y ← getn128 (ipv6Octets a.addr)
    .ok ((x &&& ~~~h) == (y &&& ~~~h))

/-- `src/afi/ipv6.rs:67-70` `norm_subnet_u128`. -/
def normSubnetIn (m : Build) (a : BgpAddrV6) : Res U128 := do
  let v ← getn128 (ipv6Octets a.addr)
  let h ← a.hostMaskIn m
  .ok (v &&& (h ^^^ 0xffffffffffffffffffffffffffffffff))

/-- `src/afi/ipv6.rs:78-87` `in_subnet`. -/
def inSubnetIn (m : Build) (s : BgpAddrV6) (a : IPv6) : Res Bool :=
  if s.prefixlen.toNat > 127 then do
    .ok ((← getn128 (ipv6Octets s.addr)) == (← getn128 (ipv6Octets a)))
  else do
    let lv ← s.normSubnetIn m
    let lh ← m.add lv (← s.hostMaskIn m)
    let va ← getn128 (ipv6Octets a)
    .ok (decide (lv.toNat ≤ va.toNat) && decide (va.toNat < lh.toNat))

/-- `src/afi/ipv6.rs:95-107` `range_first`. -/
def rangeFirstIn (m : Build) (s : BgpAddrV6) : Res IPv6 := do .ok (ofU128 (← s.normSubnetIn m))

/-- `src/afi/ipv6.rs:115-135` `range_last`. -/
def rangeLastIn (m : Build) (s : BgpAddrV6) : Res IPv6 :=
  if s.prefixlen.toNat < 1 then .ok 0xffffffffffffffffffffffffffffffff
  else if s.prefixlen.toNat > 127 then s.rangeFirstIn m
  else do
    let lv ← m.add (← s.normSubnetIn m) (← s.hostMaskIn m)
    .ok (ofU128 lv)

/-- `src/afi/ipv6.rs:140-166` `from_bits`. -/
def fromBitsIn (m : Build) (bits : U8) (buf : Bytes) : Res (BgpAddrV6 × Nat) := do
  let bytes := (← m.add bits 7).toNat / 8
  if bits.toNat > 128 ∨ buf.length < bytes then .err .dynStr else do
    let bf : Bytes := List.replicate 16 0
    if bits.toNat = 0 then do
      .ok (⟨← decodeAddrV6 bf, 0⟩, 0)
    else do
      let bf ← copyAt bf 0 bytes (← rslice buf 0 bytes)
      .ok (⟨← decodeAddrV6 bf, bits⟩, bytes)

/-- `src/afi/ipv6.rs:167-176` `to_bits`. -/
def toBitsIn (m : Build) (a : BgpAddrV6) (buf : Bytes) : Res (Bytes × (U8 × Nat)) :=
  if a.prefixlen.toNat = 0 then .ok (buf, (0, 0)) else do
    let bf ← copyAll (List.replicate 16 0) (ipv6Octets a.addr)
    let bytes := (← m.add a.prefixlen 7).toNat / 8
    let buf ← copyAt buf 0 bytes (← rslice bf 0 bytes)
    .ok (buf, (a.prefixlen, bytes))

end BgpAddrV6

/-- `src/afi/ipv6.rs:196-206`. -/
instance : BgpItemIn BgpAddrV6 where
  extractBits := BgpAddrV6.fromBitsIn
  setBits := BgpAddrV6.toBitsIn

/-! ## MAC, `src/afi/mac.rs` -/

namespace BgpAddrMac

/-- `(1 << (48 - self.prefixlen)) - 1` at type `u64`, `src/afi/mac.rs:135,151,179`. -/
def hostMaskIn (m : Build) (a : BgpAddrMac) : Res U64 := do
  let sh ← m.sub (48 : U8) a.prefixlen
  let r ← m.shl (1 : U64) sh.toNat
  m.sub r 1

/-- `src/afi/mac.rs:134-136` `norm_subnet_u48`. -/
def normSubnetIn (m : Build) (a : BgpAddrMac) : Res U64 := do
  let h ← a.hostMaskIn m
  .ok (a.addr.toU64 &&& (h ^^^ 0xffffffffffff))

/-- `src/afi/mac.rs:144-155` `in_subnet`. -/
def inSubnetIn (m : Build) (s : BgpAddrMac) (a : MacAddress) : Res Bool :=
  if s.prefixlen.toNat = 0 then .ok true
  else if s.prefixlen.toNat > 47 then .ok (s.addr.toU64 == a.toU64)
  else do
    let lv ← s.normSubnetIn m
    let lh ← m.add lv (← s.hostMaskIn m)
    let va := a.toU64
    .ok (decide (lv.toNat ≤ va.toNat) && decide (va.toNat ≤ lh.toNat))

/-- `src/afi/mac.rs:163-165` `range_first`. -/
def rangeFirstIn (m : Build) (s : BgpAddrMac) : Res MacAddress := do .ok (.fromU64 (← s.normSubnetIn m))

/-- `src/afi/mac.rs:173-182` `range_last`. -/
def rangeLastIn (m : Build) (s : BgpAddrMac) : Res MacAddress :=
  if s.prefixlen.toNat < 1 then .ok (.fromU64 0xffffffffffff)
  else if s.prefixlen.toNat > 47 then s.rangeFirstIn m
  else do
    let lv ← m.add (← s.normSubnetIn m) (← s.hostMaskIn m)
    .ok (.fromU64 lv)

/-- `src/afi/mac.rs:190-200` `contains`. -/
def containsIn (m : Build) (s a : BgpAddrMac) : Res Bool :=
  if s.prefixlen.toNat < 1 then .ok true
  else if s.prefixlen.toNat > a.prefixlen.toNat then .ok false
  else if s.prefixlen.toNat = a.prefixlen.toNat then .ok (s.addr == a.addr)
  else do
    if ← s.inSubnetIn m (← a.rangeFirstIn m) then s.inSubnetIn m (← a.rangeLastIn m) else .ok false

end BgpAddrMac

/-! ## MDT, `src/afi/mdt.rs` -/

/-- `src/afi/mdt.rs:61-111`. -/
instance : BgpItemIn BgpMdtV4 where
  extractBits m bits buf :=
    if ¬ (32 ≤ bits.toNat ∧ bits.toNat ≤ 128) then .err .dynStr else do
      let bf : Bytes := List.replicate 4 0
      if bits.toNat = 32 then do
        .ok (⟨⟨← decodeAddrV4 bf, 0⟩, ← decodeAddrV4 buf⟩, 4)
      else do
        let plen ← m.sub bits 32
        let bytes := (← m.add plen 7).toNat / 8
        let bf ← copyAt bf 0 bytes (← rslice buf 0 bytes)
        .ok (⟨⟨← decodeAddrV4 bf, plen⟩, ← decodeAddrV4 (← rfrom buf bytes)⟩, bytes + 4)
  setBits m x buf := do
    let (buf, bytes) ← (if x.addr.prefixlen.toNat > 0 then do
        let bf ← copyAll (List.replicate 4 0) (ipv4Octets x.addr.addr)
        let bytes := (← m.add x.addr.prefixlen 7).toNat / 8
        let buf ← copyAt buf 0 bytes (← rslice bf 0 bytes)
        .ok (buf, bytes)
      else .ok (buf, 0) : Res (Bytes × Nat))
    let buf ← copyAt buf bytes (bytes + 4) (ipv4Octets x.group)
    .ok (buf, (← m.add x.addr.prefixlen 32, bytes + 4))

/-- `src/afi/mdt.rs:162-212`. -/
instance : BgpItemIn BgpMdtV6 where
  extractBits m bits buf :=
    if ¬ (128 ≤ bits.toNat ∧ bits.toNat ≤ 254) then .err .dynStr else do
      let bf : Bytes := List.replicate 16 0
      if bits.toNat = 128 then do
        .ok (⟨⟨← decodeAddrV6 bf, 0⟩, ← decodeAddrV6 buf⟩, 16)
      else do
        let plen ← m.sub bits 128
        let bytes := (← m.add plen 7).toNat / 8
        let bf ← copyAt bf 0 bytes (← rslice buf 0 bytes)
        .ok (⟨⟨← decodeAddrV6 bf, plen⟩, ← decodeAddrV6 (← rfrom buf bytes)⟩, bytes + 16)
  setBits m x buf := do
    let (buf, bytes) ← (if x.addr.prefixlen.toNat > 0 then do
        let bf ← copyAll (List.replicate 16 0) (ipv6Octets x.addr.addr)
        let bytes := (← m.add x.addr.prefixlen 7).toNat / 8
        let buf ← copyAt buf 0 bytes (← rslice bf 0 bytes)
        .ok (buf, bytes)
      else .ok (buf, 0) : Res (Bytes × Nat))
    let buf ← copyAt buf bytes (bytes + 16) (ipv6Octets x.group)
    .ok (buf, (← m.add x.addr.prefixlen 128, bytes + 16))

/-! ## Labels, `Labeled` and `WithRd`, `src/afi/mod.rs` -/

namespace MplsLabels

/-- The loop of `extract_bits_from`, `src/afi/mod.rs:460-478`; the argument is `buf[curpos..]`. -/
def extractLoopIn (m : Build) : Nat → U8 → Bytes → Res (List U32 × Nat)
  | 0, _, _ => .hang
  | fuel + 1, leftbits, b =>
    if leftbits.toNat > 0 then do
      let b0 ← idx b 0
      let b1 ← idx b 1
      let b2 ← idx b 2
      let labelval := labelVal b0 b1 b2
      let leftbits ← m.sub leftbits 24
      if labelval = 524288 ∨ labelval = 0 ∨ labelval = 2 ∨ labelval = 3 then .ok ([labelval], 3)
      else if b2 &&& 1 != 0 then .ok ([labelval], 3)
      else do
        let (ls, n) ← extractLoopIn m fuel leftbits (b.drop 3)
        .ok (labelval :: ls, 3 + n)
    else .ok ([], 0)

/-- `src/afi/mod.rs:456-480` `extract_bits_from`. Every round that goes on takes three octets, so a run that needs more
rounds than there are octets is endless, in both builds. -/
def extractBitsIn (m : Build) (bits : U8) (buf : Bytes) : Res (MplsLabels × Nat) := do
  let (ls, n) ← extractLoopIn m (buf.length + 1) bits buf
  .ok (⟨ls⟩, n)

/-- `src/afi/mod.rs:481-494` `set_bits_to`. -/
def setBitsIn (m : Build) (x : MplsLabels) (buf : Bytes) : Res (Bytes × (U8 × Nat)) :=
  if x.labels.isEmpty then .ok (buf, (0, 0)) else do
    let (buf, curpos) ← setLoop x.labels buf 0
    let last ← m.subN curpos 1
    let v ← idx buf last
    let buf ← setIdx buf last (v ||| 1)
    .ok (buf, (BitVec.ofNat 8 (curpos * 8), curpos))

end MplsLabels

/-- `src/afi/mod.rs:544-564`. -/
instance {T : Type} [BgpItemIn T] : BgpItemIn (Labeled T) where
  extractBits m bits buf := do
    let (l, n) ← MplsLabels.extractBitsIn m bits buf
    let left ← m.sub bits (BitVec.ofNat 8 (n * 8))
    let (p, k) ← BgpItemIn.extractBits m left (← rfrom buf n)
    .ok (⟨p, l⟩, n + k)
  setBits m x buf := do
    let (buf, lblp) ← x.labels.setBitsIn m buf
    let (buf, pfxp) ← onFrom buf lblp.2 (BgpItemIn.setBits m x.pfx)
    let bits ← m.add lblp.1 pfxp.1
    .ok (buf, (bits, lblp.2 + pfxp.2))

/-- `src/afi/mod.rs:606-629`. -/
instance {T : Type} [BgpItemIn T] : BgpItemIn (WithRd T) where
  extractBits m bits buf :=
    if buf.length < 8 then .err .insufficientBufferSize else do
      let (rd, n) ← BgpRD.decodeFrom (← rslice buf 0 8)
      let left ← m.sub bits (BitVec.ofNat 8 (n * 8))
      let (p, k) ← BgpItemIn.extractBits m left (← rfrom buf n)
      .ok (⟨p, rd⟩, n + k)
  setBits m x buf := do
    let (buf, rdpos) ← x.rd.encodeTo buf
    let (buf, pfxp) ← onFrom buf rdpos (BgpItemIn.setBits m x.pfx)
    let bits ← m.add (BitVec.ofNat 8 (rdpos * 8)) pfxp.1
    .ok (buf, (bits, rdpos + pfxp.2))

/-! ## Flowspec, `src/afi/flowspec.rs` -/

/-- `FSItem` (`src/afi/flowspec.rs:15-20`) of IPv4 prefixes, `src/afi/flowspec.rs:21-37`. -/
@[reducible] def fsV4In (m : Build) : FSItem BgpAddrV4 where
  decodeFs buf := do
    let l ← idx buf 0
    let r ← BgpAddrV4.fromBitsIn m l (← rfrom buf 1)
    .ok (r.1, r.2 + 1)
  encodeFs x buf := do
    let buf ← setIdx buf 0 x.prefixlen
    let (buf, _) ← onFrom buf 1 (x.toBitsIn m)
    .ok buf
  storeSize x := 1 + (x.prefixlen.toNat + 7) / 8

/-- `src/afi/flowspec.rs:55-78`. -/
@[reducible] def fsV6In (m : Build) : FSItem FS6 where
  decodeFs buf := do
    let l ← idx buf 0
    let v6 ← BgpAddrV6.fromBitsIn m l (← rfrom buf 2)
    .ok (⟨v6.1, ← idx buf 1⟩, v6.2 + 2)
  encodeFs x buf := do
    let buf ← setIdx buf 0 x.ipv6.prefixlen
    let buf ← setIdx buf 1 x.offset
    let (buf, _) ← onFrom buf 2 (x.ipv6.toBitsIn m)
    .ok buf
  storeSize x := 2 + (x.ipv6.prefixlen.toNat + 7) / 8

/-- `src/afi/flowspec.rs:93-116`. -/
@[reducible] def fsVpnIn (m : Build) : FSItem FSV4U where
  decodeFs buf := do
    let rd ← BgpRD.decodeFrom (← rfrom buf 1)
    let l ← m.sub (← idx buf 0) 64
    let pf ← BgpAddrV4.fromBitsIn m l (← rfrom buf (rd.2 + 1))
    .ok (⟨⟨pf.1, rd.1⟩⟩, rd.2 + pf.2 + 1)
  encodeFs x buf := do
    let buf ← setIdx buf 0 0
    let buf ← setIdx buf 1 0
    let (buf, _) ← onFrom buf 2 (BgpItemIn.setBits m x.pfx)
    .ok buf
  storeSize x := 10 + (x.pfx.pfx.prefixlen.toNat + 7) / 8

/-- `src/afi/flowspec.rs:426-584` for prefixes read and written by `i`. -/
@[reducible] def flowIn {T : Type} (i : FSItem T) : BgpAddrItem (BgpFlowSpec T) where
  decodeFrom _ buf := @BgpFlowSpec.decodeFrom T i buf
  encodeTo x _ buf := @BgpFlowSpec.encodeTo T i x buf

/-! ## VPLS, `src/afi/vpls.rs` -/

/-- `src/afi/vpls.rs:26-55`. The subtraction `size - 14` is behind the test `size < 17`. -/
@[reducible] def vplsIn (m : Build) : BgpItemLong BgpAddrL2 where
  extractFrom size buf :=
    if size < 17 then .err .dynStr else do
      let srd ← BgpRD.decodeFrom buf
      let lbls ← MplsLabels.extractBitsIn m (BitVec.ofNat 8 ((size - 14) * 8)) (← rfrom buf 14)
      .ok ⟨srd.1, ← getn16 (← rslice buf 8 10), ← getn16 (← rslice buf 10 12),
        ← getn16 (← rslice buf 12 14), lbls.1⟩
  packTo x buf :=
    if buf.length < 15 then .err .insufficientBufferSize else do
      let (buf, _) ← x.rd.encodeTo buf
      let buf ← modRange buf 8 10 (setn16 x.site)
      let buf ← modRange buf 10 12 (setn16 x.offset)
      let buf ← modRange buf 12 14 (setn16 x.range)
      let (buf, r) ← onFrom buf 14 (x.labels.setBitsIn m)
      .ok (buf, r.2 + 14)

/-! ## EVPN, `src/afi/evpn.rs` -/

/-- `src/afi/evpn.rs:62-96`. -/
@[reducible] def evpn1In (m : Build) : BgpAddrItem BgpEVPN1 where
  decodeFrom _ buf := do
    let rdp ← BgpRD.decodeFrom buf
    let (t, esi) ← EVPNESI.read (← rfrom buf rdp.2)
    let etag ← getn32 (← rslice buf (rdp.2 + 10) (rdp.2 + 14))
    let left ← m.subN (← m.subN buf.length rdp.2) 14
    let lbls ← MplsLabels.extractBitsIn m (BitVec.ofNat 8 (8 * left)) (← rfrom buf (rdp.2 + 14))
    .ok (⟨rdp.1, t, esi, etag, lbls.1⟩, rdp.2 + 14 + lbls.2)
  encodeTo x _ buf := do
    let (buf, pos) ← x.rd.encodeTo buf
    let buf ← EVPNESI.write x.esiType x.esi buf pos
    let pos := pos + 10
    let buf ← modRange buf pos (pos + 4) (setn32 x.etherTag)
    let pos := pos + 4
    let (buf, lbls) ← onFrom buf pos (x.labels.setBitsIn m)
    .ok (buf, pos + lbls.2)

/-- `src/afi/evpn.rs:120-209`. -/
@[reducible] def evpn2In (m : Build) : BgpAddrItem BgpEVPN2 where
  decodeFrom _ buf := do
    let rdp ← BgpRD.decodeFrom buf
    let sz := rdp.2
    let (t, esi) ← EVPNESI.read (← rfrom buf sz)
    let sz := sz + 10
    let etag ← getn32 (← rslice buf sz (sz + 4))
    let sz := sz + 4
    if (← idx buf sz) ≠ 48 then .err .dynStr else do
      let sz := sz + 1
      let mc ← MacAddress.fromNetworkBytes (← rslice buf sz (sz + 6))
      let sz := sz + 6
      let addrtype ← idx buf sz
      let sz := sz + 1
      let (tip, sz) ← (if addrtype = 0 then .ok (none, sz)
        else if addrtype = 32 then do .ok (some (.v4 (← decodeAddrV4 (← rfrom buf sz))), sz + 4)
        else if addrtype = 128 then do .ok (some (.v6 (← decodeAddrV6 (← rfrom buf sz))), sz + 16)
        else .err .dynStr : Res (Option IpAddr × Nat))
      let left ← m.subN buf.length sz
      let lbls ← MplsLabels.extractBitsIn m (BitVec.ofNat 8 (8 * left)) (← rfrom buf sz)
      .ok (⟨rdp.1, t, esi, etag, mc, tip, lbls.1⟩, sz + lbls.2)
  encodeTo x _ buf := do
    let (buf, pos) ← x.rd.encodeTo buf
    let buf ← EVPNESI.write x.esiType x.esi buf pos
    let pos := pos + 10
    let buf ← modRange buf pos (pos + 4) (setn32 x.etherTag)
    let pos := pos + 4
    let buf ← setIdx buf pos 48
    let pos := pos + 1
    let buf ← modRange buf pos (pos + 6) x.mac.writeToNetworkBytes
    let pos := pos + 6
    let (buf, pos) ← (match x.ip with
      | none => do .ok (← setIdx buf pos 0, pos + 1)
      | some (.v4 a) => do
        let buf ← setIdx buf pos 32
        let pos := pos + 1
        let (buf, _) ← onRange buf pos (pos + 4) (encodeAddrV4 a)
        .ok (buf, pos + 4)
      | some (.v6 a) => do
        let buf ← setIdx buf pos 128
        let pos := pos + 1
        let (buf, _) ← onRange buf pos (pos + 16) (encodeAddrV6 a)
        .ok (buf, pos + 16) : Res (Bytes × Nat))
    let (buf, lbls) ← onFrom buf pos (x.labels.setBitsIn m)
    .ok (buf, pos + lbls.2)

/-- `src/afi/evpn.rs:379-452`. -/
@[reducible] def evpn5In (m : Build) : BgpAddrItem BgpEVPN5 where
  decodeFrom _ buf := do
    let (rd, pos) ← BgpRD.decodeFrom buf
    let (t, esi) ← EVPNESI.read (← rfrom buf pos)
    let pos := pos + 10
    let etag ← getn32 (← rfrom buf pos)
    let pos := pos + 4
    let len ← idx buf pos
    let pos := pos + 1
    let (pfx, gw, pos) ← (if buf.length = 34 then do
        let p ← decodeAddrV4 (← rfrom buf pos)
        let g ← decodeAddrV4 (← rfrom buf (pos + 4))
        .ok (.v4 p, .v4 g, pos + 8)
      else if buf.length = 58 then do
        let p ← decodeAddrV4 (← rfrom buf pos)
        let g ← decodeAddrV4 (← rfrom buf (pos + 16))
        .ok (.v4 p, .v4 g, pos + 32)
      else .err .dynStr : Res (IpAddr × IpAddr × Nat))
    let left ← m.subN buf.length pos
    let lbls ← MplsLabels.extractBitsIn m (BitVec.ofNat 8 (8 * left)) (← rfrom buf pos)
    .ok (⟨rd, t, esi, etag, len, pfx, gw, lbls.1⟩, pos + lbls.2)
  encodeTo x _ buf := do
    let (buf, pos) ← x.rd.encodeTo buf
    let buf ← EVPNESI.write x.esiType x.esi buf pos
    let pos := pos + 10
    let buf ← modRange buf pos (pos + 4) (setn32 x.etherTag)
    let pos := pos + 4
    let buf ← setIdx buf pos x.len
    let pos := pos + 1
    let (buf, pos) ← (match x.pfx, x.gwIp with
      | .v4 p, .v4 g => do
        let (buf, _) ← onFrom buf pos (encodeAddrV4 p)
        let (buf, _) ← onFrom buf (pos + 4) (encodeAddrV4 g)
        .ok (buf, pos + 8)
      | .v6 p, .v6 g => do
        let (buf, _) ← onFrom buf pos (encodeAddrV6 p)
        let (buf, _) ← onFrom buf (pos + 16) (encodeAddrV6 g)
        .ok (buf, pos + 16)
      | _, _ => .err .static : Res (Bytes × Nat))
    let (buf, lbls) ← onFrom buf pos (x.labels.setBitsIn m)
    .ok (buf, pos + lbls.2)

/-- `src/afi/evpn.rs:489-557`. Types 3 and 4 have no arithmetic that can overflow. -/
@[reducible] def evpnIn (m : Build) : BgpAddrItem BgpEVPN where
  decodeFrom mode buf := do
    let evpntype ← idx buf 0
    let routelen := (← idx buf 1).toNat
    if buf.length < routelen + 2 then .err .dynStr
    else if evpntype = 1 then do
      let r ← (evpn1In m).decodeFrom mode (← rslice buf 2 (2 + routelen))
      .ok (.evpn1 r.1, r.2 + 2)
    else if evpntype = 2 then do
      let r ← (evpn2In m).decodeFrom mode (← rslice buf 2 (2 + routelen))
      .ok (.evpn2 r.1, r.2 + 2)
    else if evpntype = 3 then do
      let r ← BgpAddrItem.decodeFrom mode (← rslice buf 2 (2 + routelen))
      .ok (.evpn3 r.1, r.2 + 2)
    else if evpntype = 4 then do
      let r ← BgpAddrItem.decodeFrom mode (← rslice buf 2 (2 + routelen))
      .ok (.evpn4 r.1, r.2 + 2)
    else if evpntype = 5 then do
      let r ← (evpn5In m).decodeFrom mode (← rslice buf 2 (2 + routelen))
      .ok (.evpn5 r.1, r.2 + 2)
    else .err .dynStr
  encodeTo x mode buf := do
    let (buf, pos) ← (match x with
      | .evpn1 r => do onFrom (← setIdx buf 0 1) 2 ((evpn1In m).encodeTo r mode)
      | .evpn2 r => do onFrom (← setIdx buf 0 2) 2 ((evpn2In m).encodeTo r mode)
      | .evpn3 r => do onFrom (← setIdx buf 0 3) 2 (BgpAddrItem.encodeTo r mode)
      | .evpn4 r => do onFrom (← setIdx buf 0 4) 2 (BgpAddrItem.encodeTo r mode)
      | .evpn5 r => do onFrom (← setIdx buf 0 5) 2 ((evpn5In m).encodeTo r mode) : Res (Bytes × Nat))
    if pos ≤ 0xff then do
      let buf ← setIdx buf 1 (BitVec.ofNat 8 pos)
      .ok (buf, pos + 2)
    else .err .tooManyData

/-! ## Collections, `src/afi/mod.rs` -/

namespace BgpAddrs

/-- `decodeAddpath` with the items of one build. -/
def decodeAddpathIn {T : Type} [BgpItemIn T] (m : Build) (peer : BgpSessionParams) (afi : U16) (safi : U8)
    (withId : List (WithPathId T) → BgpAddrs) (plain : List T → BgpAddrs) (buf : Bytes) : Res (BgpAddrs × Nat) :=
  @decodeAddpath T (itemIn T m) peer afi safi withId plain buf

/-- `src/afi/mod.rs:828-1043` `decode_from`. The MVPN items have no arithmetic that can overflow. -/
def decodeFromIn (m : Build) (peer : BgpSessionParams) (afi : U16) (safi : U8) (buf : Bytes) : Res (BgpAddrs × Nat) :=
  match afi.toNat, safi.toNat with
  | 1, 1 => decodeAddpathIn m peer afi safi IPV4UP IPV4U buf
  | 1, 2 => decodeAddpathIn m peer afi safi IPV4MP IPV4M buf
  | 1, 4 => decodeAddpathIn m peer afi safi IPV4LUP IPV4LU buf
  | 1, 5 => do
    let (v, n) ← decodeAddrItems .IPv4 buf
    .ok (MVPN v, n)
  | 1, 66 => decodeAddpathIn m peer afi safi IPV4MDTP IPV4MDT buf
  | 1, 128 => decodeAddpathIn m peer afi safi VPNV4UP VPNV4U buf
  | 1, 129 => decodeAddpathIn m peer afi safi VPNV4MP VPNV4M buf
  | 1, 133 => do
    let (v, n) ← @decodeAddrItems _ (flowIn (fsV4In m)) peer.peerMode buf
    .ok (FS4U v, n)
  | 1, 134 => do
    let (v, n) ← @decodeAddrItems _ (flowIn (fsVpnIn m)) peer.peerMode buf
    .ok (FSV4U v, n)
  | 2, 1 => decodeAddpathIn m peer afi safi IPV6UP IPV6U buf
  | 2, 2 => decodeAddpathIn m peer afi safi IPV6MP IPV6M buf
  | 2, 4 => decodeAddpathIn m peer afi safi IPV6LUP IPV6LU buf
  | 2, 66 => decodeAddpathIn m peer afi safi IPV6MDTP IPV6MDT buf
  | 2, 128 => decodeAddpathIn m peer afi safi VPNV6UP VPNV6U buf
  | 2, 129 => decodeAddpathIn m peer afi safi VPNV6MP VPNV6M buf
  | 2, 133 => do
    let (v, n) ← @decodeAddrItems _ (flowIn (fsV6In m)) peer.peerMode buf
    .ok (FS6U v, n)
  | 25, 65 => do
    let (v, n) ← @decodeLongItems _ (vplsIn m) buf
    .ok (L2VPLS v, n)
  | 25, 70 => do
    let (v, n) ← @decodeAddrItems _ (evpnIn m) peer.peerMode buf
    .ok (EVPN v, n)
  | _, _ => .err .dynStr

/-- `encodeItems` with the items of one build. -/
def encItemsIn {T : Type} [BgpItemIn T] (m : Build) (v : List T) (buf : Bytes) : Res (Bytes × Nat) :=
  @encodeItems T (itemIn T m) v buf

/-- `encodePathIdItems` with the items of one build. -/
def encPathIdItemsIn {T : Type} [BgpItemIn T] (m : Build) (v : List (WithPathId T)) (buf : Bytes) :
    Res (Bytes × Nat) :=
  @encodePathIdItems T (itemIn T m) v buf

/-- `src/afi/mod.rs:1044-1078` `encode_to`. -/
def encodeToIn (m : Build) (x : BgpAddrs) (peer : BgpSessionParams) (buf : Bytes) : Res (Bytes × Nat) :=
  match x with
  | None => .ok (buf, 0)
  | IPV4U v => encItemsIn m v buf
  | IPV4M v => encItemsIn m v buf
  | IPV4LU v => encItemsIn m v buf
  | MVPN v => encodeAddrItems v peer.peerMode buf
  | VPNV4U v => encItemsIn m v buf
  | VPNV4M v => encItemsIn m v buf
  | FS4U v => @encodeAddrItems _ (flowIn (fsV4In m)) v peer.peerMode buf
  | FSV4U v => @encodeAddrItems _ (flowIn (fsVpnIn m)) v peer.peerMode buf
  | FS6U v => @encodeAddrItems _ (flowIn (fsV6In m)) v peer.peerMode buf
  | IPV6U v => encItemsIn m v buf
  | IPV6M v => encItemsIn m v buf
  | IPV6LU v => encItemsIn m v buf
  | VPNV6U v => encItemsIn m v buf
  | VPNV6M v => encItemsIn m v buf
  | L2VPLS v => @encodeLongItems _ (vplsIn m) v buf
  | EVPN v => @encodeAddrItems _ (evpnIn m) v peer.peerMode buf
  | IPV4UP v => encPathIdItemsIn m v buf
  | IPV4MP v => encPathIdItemsIn m v buf
  | IPV4LUP v => encPathIdItemsIn m v buf
  | VPNV4UP v => encPathIdItemsIn m v buf
  | VPNV4MP v => encPathIdItemsIn m v buf
  | IPV6UP v => encPathIdItemsIn m v buf
  | IPV6MP v => encPathIdItemsIn m v buf
  | IPV6LUP v => encPathIdItemsIn m v buf
  | VPNV6UP v => encPathIdItemsIn m v buf
  | VPNV6MP v => encPathIdItemsIn m v buf
  | IPV4MDT v => encItemsIn m v buf
  | IPV4MDTP v => encPathIdItemsIn m v buf
  | IPV6MDT v => encItemsIn m v buf
  | IPV6MDTP v => encPathIdItemsIn m v buf

end BgpAddrs

/-! ## Attributes -/

/-- `src/message/attributes/multiproto.rs:67-148` `decode_from`. -/
def BgpMPUpdates.decodeFromIn (m : Build) (peer : BgpSessionParams) (buf : Bytes) : Res BgpMPUpdates := do
  let afi ← getn16 buf
  let safi ← idx buf 2
  let nhlen := (← idx buf 3).toNat
  let (nh, curpos) ← BgpMPUpdates.decodeNexthop peer afi safi nhlen buf
  let snpaCount := (← idx buf curpos).toNat
  let curpos ← BgpMPUpdates.skipSnpa buf snpaCount (curpos + 1)
  let (ap, _) ← BgpAddrs.decodeFromIn m peer afi safi (← rfrom buf curpos)
  .ok ⟨nh, ap⟩

/-- `src/message/attributes/multiproto.rs:171-191` `encode_to`. -/
def BgpMPUpdates.encodeToIn (m : Build) (x : BgpMPUpdates) (peer : BgpSessionParams) (buf : Bytes) :
    Res (Bytes × Nat) := do
  let buf ← modRange buf 0 2 (setn16 x.addrs.getAfiSafi.1)
  let buf ← setIdx buf 2 x.addrs.getAfiSafi.2
  let (buf, nhl) ← BgpMPUpdates.encodeNexthop x.nexthop peer buf
  let buf ← setIdx buf 3 (BitVec.ofNat 8 nhl)
  let buf ← setIdx buf (4 + nhl) 0
  let (buf, ps) ← onFrom buf (4 + nhl + 1) (x.addrs.encodeToIn m peer)
  .ok (buf, 4 + nhl + 1 + ps)

/-- `src/message/attributes/multiproto.rs:203-208` `decode_from`. -/
def BgpMPWithdraws.decodeFromIn (m : Build) (peer : BgpSessionParams) (buf : Bytes) : Res BgpMPWithdraws := do
  let afi ← getn16 buf
  let safi ← idx buf 2
  let (a, _) ← BgpAddrs.decodeFromIn m peer afi safi (← rfrom buf 3)
  .ok ⟨a⟩

/-- `src/message/attributes/multiproto.rs:229-237` `encode_to`. -/
def BgpMPWithdraws.encodeToIn (m : Build) (x : BgpMPWithdraws) (peer : BgpSessionParams) (buf : Bytes) :
    Res (Bytes × Nat) := do
  let buf ← modRange buf 0 2 (setn16 x.addrs.getAfiSafi.1)
  let buf ← setIdx buf 2 x.addrs.getAfiSafi.2
  let (buf, ps) ← onFrom buf 3 (x.addrs.encodeToIn m peer)
  .ok (buf, 3 + ps)

namespace BgpAttrItem

/-- `src/message/attributes/mod.rs:87-156` `decode_from`: the branches for MP_REACH_NLRI, MP_UNREACH_NLRI and the
attribute set; the other attributes have no arithmetic that can overflow, and are read as in `decodeN`. -/
def decodeNIn (m : Build) (peer : BgpSessionParams) : Nat → AttrDec
  | fuel, typecode, flags, attrlen, buf =>
    match typecode.toNat with
    | 14 => do .ok (.MPUpdates (← BgpMPUpdates.decodeFromIn m peer buf))
    | 15 => do .ok (.MPWithdraws (← BgpMPWithdraws.decodeFromIn m peer buf))
    | 128 =>
      match fuel with
      | 0 => .hang
      | fuel + 1 => BgpAttrSet.decodeFrom (decodeNIn m peer fuel) peer buf
    | _ => decodeN peer fuel typecode flags attrlen buf

/-- `src/message/attributes/mod.rs:87-156` `decode_from`. -/
def decodeFromIn (m : Build) (peer : BgpSessionParams) : AttrDec := fun typecode flags attrlen buf =>
  decodeNIn m peer (buf.length + 1) typecode flags attrlen buf

/-- The `encode_to` method (value only) of the attribute held, as in `encodeValue`. -/
def encodeValueIn (m : Build) (x : BgpAttrItem) (peer : BgpSessionParams) (buf : Bytes) : Res (Bytes × Nat) :=
  match x with
  | MPUpdates x => x.encodeToIn m peer buf
  | MPWithdraws x => x.encodeToIn m peer buf
  | x => x.encodeValue peer buf

/-- `src/message/attributes/mod.rs:185-206` `encode_to`. -/
def encodeToIn (m : Build) (x : BgpAttrItem) (peer : BgpSessionParams) (buf : Bytes) : Res (Bytes × Nat) :=
  encodeBgpattr x.attr (x.encodeValueIn m peer) buf

end BgpAttrItem

/-! ## UPDATE messages, `src/message/update/mod.rs` -/

namespace BgpUpdateMessage

/-- `src/message/update/mod.rs:120-143` and `178-201`. -/
def decodeNlriIn (m : Build) (peer : BgpSessionParams) (buf : Bytes) : Res BgpAddrs := do
  let (r, _) ← (match peer.peerMode with
    | .IPv4 => BgpAddrs.decodeAddpathIn m peer 1 1 .IPV4UP .IPV4U buf
    | .IPv6 => BgpAddrs.decodeAddpathIn m peer 2 1 .IPV6UP .IPV6U buf)
  .ok r

/-- The loop `src/message/update/mod.rs:152-177`. -/
def attrLoopIn (m : Build) (peer : BgpSessionParams) (buf : Bytes) (stop : Nat) :
    Nat → Nat → Res (List BgpAttrItem × Nat)
  | fuel, curpos =>
    if curpos < stop then
      match fuel with
      | 0 => .hang
      | fuel + 1 => do
        let flags ← idx buf curpos
        let tc ← idx buf (curpos + 1)
        let (curpos, attrlen) ← (if flags &&& 16 > 0 then do
            .ok (curpos + 4, (← getn16 (← sliceE buf (curpos + 4 - 2) (curpos + 4))).toNat)
          else do
            .ok (curpos + 3, (← idx buf (curpos + 3 - 1)).toNat) : Res (Nat × Nat))
        if curpos + attrlen > stop then .err .protocolError
        else
          let x ← BgpAttrItem.decodeFromIn m peer tc flags attrlen (← sliceE buf curpos (curpos + attrlen))
          let (r, e) ← attrLoopIn m peer buf stop fuel (curpos + attrlen)
          .ok (x :: r, e)
    else .ok ([], curpos)

/-- `src/message/update/mod.rs:112-204` `decode_from`. -/
def decodeFromIn (m : Build) (self : BgpUpdateMessage) (peer : BgpSessionParams) (buf : Bytes) :
    Res BgpUpdateMessage := do
  let withdrawsLength := (← getn16 (← sliceE buf 0 2)).toNat
  let withdrawsEnd := 2 + withdrawsLength
  if buf.length ≤ withdrawsEnd then .err .insufficientBufferSize
  else
    let withdraws ← decodeNlriIn m peer (← sliceE buf 2 withdrawsEnd)
    let pathattrLen := (← getn16 (← sliceE buf withdrawsEnd (withdrawsEnd + 2))).toNat
    let curpos := withdrawsEnd + 2
    let pathattrEnd := curpos + pathattrLen
    if pathattrEnd > buf.length then .err .protocolError
    else
      let (attrs, curpos) ← attrLoopIn m peer buf pathattrEnd pathattrEnd curpos
      let updates ← decodeNlriIn m peer (← sliceE buf curpos buf.length)
      .ok ⟨updates, withdraws, self.attrs ++ attrs⟩

/-- `src/message/update/mod.rs:208-250` and `264-287`. -/
def nlriEncoderIn (m : Build) (peer : BgpSessionParams) (x : BgpAddrs) : Option Enc :=
  match peer.peerMode, x with
  | .IPv4, .IPV4U v => some (BgpAddrs.encItemsIn m v)
  | .IPv4, .IPV4UP v => some (BgpAddrs.encPathIdItemsIn m v)
  | .IPv6, .IPV6U v => some (BgpAddrs.encItemsIn m v)
  | .IPv6, .IPV6UP v => some (BgpAddrs.encPathIdItemsIn m v)
  | _, _ => none

/-- The loop `src/message/update/mod.rs:253-258`. -/
def encodeAttrsIn (m : Build) (peer : BgpSessionParams) (lenPos : Nat) :
    List BgpAttrItem → Bytes → Nat → Res (Bytes × Nat)
  | [], buf, curpos => .ok (buf, curpos)
  | a :: r, buf, curpos =>
    if curpos - lenPos > 65535 then .err .static
    else do
      let (buf, n) ← onSliceE buf curpos buf.length (a.encodeToIn m peer)
      encodeAttrsIn m peer lenPos r buf (curpos + n)

/-- `src/message/update/mod.rs:208-250`. -/
def encodeWithdrawsIn (m : Build) (x : BgpUpdateMessage) (peer : BgpSessionParams) (buf : Bytes) :
    Res (Bytes × Nat) :=
  match nlriEncoderIn m peer x.withdraws with
  | some enc => do
    let (buf, wlen) ← onSliceE buf 2 buf.length enc
    if wlen > 65535 then .err .tooManyData
    else
      let (buf, _) ← onSliceE buf 0 buf.length fun b => do .ok (← setn16 (BitVec.ofNat 16 wlen) b, ())
      .ok (buf, 2 + wlen)
  | none => do .ok (← setn16 0 buf, 2)

/-- `src/message/update/mod.rs:205-289` `encode_to`. -/
def encodeToIn (m : Build) (x : BgpUpdateMessage) (peer : BgpSessionParams) (buf : Bytes) : Res (Bytes × Nat) := do
  let (buf, lenPos) ← x.encodeWithdrawsIn m peer buf
  let (buf, curpos) ← encodeAttrsIn m peer lenPos x.attrs buf (lenPos + 2)
  let (buf, _) ← onSliceE buf lenPos (lenPos + 2) fun b => do
    .ok (← setn16 (BitVec.ofNat 16 (curpos - lenPos - 2)) b, ())
  match nlriEncoderIn m peer x.updates with
  | some enc => do
    let (buf, n) ← onSliceE buf curpos buf.length enc
    .ok (buf, curpos + n)
  | none => .ok (buf, curpos)

end BgpUpdateMessage

/-! ## The message header, `src/lib.rs` -/

namespace BgpSessionParams

/-- `src/lib.rs:847-863` `decode_message_head`. -/
def decodeMessageHeadIn (m : Build) (buf : Bytes) : Res (BgpMessageType × Nat) :=
  if buf.length < 19 then .err .static else do
    let marker ← rslice buf 0 16
    if marker.any (fun q => q != 255) then .err .static else do
      let messagetype ← BgpMessageType.decodeFrom (← idx buf 18)
      let len ← m.sub (← getn16 (← rslice buf 16 18)) 19
      .ok (messagetype, len.toNat)

/-- `src/lib.rs:874-889` `prepare_message_buf`. -/
def prepareMessageBufIn (m : Build) (buf : Bytes) (messagetype : BgpMessageType) (messagelen : Nat) :
    Res (Bytes × Nat) :=
  if buf.length < messagelen + 19 then .err .insufficientBufferSize else do
    let buf ← copyAt buf 0 16 (List.replicate 16 255)
    let lng ← m.add (BitVec.ofNat 16 messagelen) 19
    let buf ← setIdx buf 16 ((lng >>> 8).setWidth 8)
    let buf ← setIdx buf 17 ((lng &&& 0xff).setWidth 8)
    let buf ← setIdx buf 18 messagetype.encode
    .ok (buf, lng.toNat)

/-- `src/lib.rs:891-910` `send_message_buf`. -/
def sendMessageBufIn (m : Build) (buf : Bytes) (messagetype : BgpMessageType) (messagelen : Nat) :
    Res (Bytes × Bytes) :=
  if buf.length < messagelen + 19 then .err .insufficientBufferSize else do
    let buf ← copyAt buf 0 16 (List.replicate 16 255)
    let lng ← m.add (BitVec.ofNat 16 messagelen) 19
    let buf ← setIdx buf 16 ((lng >>> 8).setWidth 8)
    let buf ← setIdx buf 17 ((lng &&& 0xff).setWidth 8)
    let buf ← setIdx buf 18 messagetype.encode
    let out ← rslice buf 0 lng.toNat
    .ok (buf, out)

end BgpSessionParams

end Zbgp
