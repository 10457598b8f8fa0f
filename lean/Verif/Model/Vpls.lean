import Verif.Model.Order

/-!
# Model of `src/afi/vpls.rs`

The structure `BgpAddrL2` itself is in `Model/Order.lean`.
-/

namespace Zbgp

/-- `src/afi/vpls.rs:26-55`. -/
instance : BgpItemLong BgpAddrL2 where
  extractFrom size buf :=
    if size < 17 then .err .dynStr else do
      let srd ← BgpRD.decodeFrom buf
      let lbls ← MplsLabels.extractBits (BitVec.ofNat 8 ((size - 14) * 8)) (← rfrom buf 14)
      .ok ⟨srd.1, ← getn16 (← rslice buf 8 10), ← getn16 (← rslice buf 10 12),
        ← getn16 (← rslice buf 12 14), lbls.1⟩
  packTo x buf :=
    if buf.length < 15 then .err .insufficientBufferSize else do
      let (buf, _) ← x.rd.encodeTo buf
      let buf ← modRange buf 8 10 (setn16 x.site)
      let buf ← modRange buf 10 12 (setn16 x.offset)
      let buf ← modRange buf 12 14 (setn16 x.range)
      let (buf, r) ← onFrom buf 14 (MplsLabels.setBits x.labels)
      .ok (buf, r.2 + 14)

/-- `src/afi/vpls.rs:65-73`. -/
structure BgpL2 where
  rd : BgpRD
  site : U16
  offset : U16
  range : U16
deriving DecidableEq, Repr

/-- `src/afi/vpls.rs:93-117`. -/
instance : BgpAddrItem BgpL2 where
  decodeFrom _ buf :=
    if buf.length ≥ 14 then do
      let rdp ← BgpRD.decodeFrom (← rslice buf 0 8)
      .ok (⟨rdp.1, ← getn16 (← rslice buf 8 10), ← getn16 (← rslice buf 10 12),
        ← getn16 (← rslice buf 12 14)⟩, 14)
    else .err .static
  encodeTo x _ buf := do
    let (buf, pos) ← x.rd.encodeTo buf
    let buf ← modFrom buf pos (setn16 x.site)
    let buf ← modFrom buf (pos + 2) (setn16 x.offset)
    let buf ← modFrom buf (pos + 4) (setn16 x.range)
    .ok (buf, pos + 6)

end Zbgp
