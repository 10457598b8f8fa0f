import Verif.Spec.Station
import Verif.Spec.ReleaseBmp

/-! # The two loops of Spec/Station.lean in builds without overflow checks (C127)

The common header is written and read without arithmetic, and so as in a build with checks. -/

namespace Zbgp.Spec

open Zbgp

/-- As `exporter`. -/
def exporterRelease (room : Nat) : List BmpMessage → Res Bytes
  | [] => .ok []
  | m :: ms => do
    let (buf, n) ← m.encodeToIn .release (List.replicate room 0)
    let (hdr, k) ← (⟨3, 5 + n⟩ : BmpMessageHeader).encodeTo (List.replicate 5 0)
    let rest ← exporterRelease room ms
    .ok (hdr.take k ++ (buf.take n ++ rest))

/-- As `stationLoop`. -/
def stationLoopRelease : Nat → BMPSession → Bytes → List (Res BmpMessage)
  | 0, _, _ => []
  | fuel + 1, s, stream =>
    if stream = [] then []
    else
      match BmpMessageHeader.decodeFrom stream with
      | .ok (h, k) =>
        if h.msglength < k ∨ stream.length < h.msglength then [.err .other]
        else
          (s.decodeFromIn .release ((stream.take h.msglength).drop k)).1 ::
            stationLoopRelease fuel (s.decodeFromIn .release ((stream.take h.msglength).drop k)).2 (stream.drop h.msglength)
      | .err e => [.err e]
      | .panic => [.panic]
      | .hang => [.hang]

/-- As `station`. -/
def stationRelease (stream : Bytes) : List (Res BmpMessage) := stationLoopRelease stream.length .default stream

end Zbgp.Spec
