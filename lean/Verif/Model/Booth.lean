import Verif.Model.Outcome
import Mathlib.Data.Int.Notation

/-! Model of `cryptography/bls12_381/src/booth_encoding.rs`. -/
namespace Verif

/-- Up to four bytes of `el` from `skip` on as a little-endian `u32`, missing bytes are zero,
booth_encoding.rs:19-23 -/
def leWindow (el : List UInt8) (skip : Nat) : Nat :=
  let b := fun i => ((el.drop skip)[i]?.map UInt8.toNat).getD 0
  b 0 + 256 * b 1 + 65536 * b 2 + 16777216 * b 3

/-- `get_booth_index`, booth_encoding.rs:4-46, with `u32` arithmetic. The shifts by `window_size + 1`
panic (debug) or wrap (release) for widths above 30; the model panics. -/
def getBoothIndex {ε : Type} (windowIndex windowSize : Nat) (el : List UInt8) : Outcome ε Int := do
  let skipBits := windowIndex * windowSize - 1
  let skipBytes := skipBits / 8
  let tmp := leWindow el skipBytes
  let tmp := if windowIndex = 0 then (tmp <<< 1) % 2 ^ 32 else tmp
  let tmp := tmp >>> (skipBits - skipBytes * 8)
  assertP (windowSize + 1 < 32)
  let tmp := tmp &&& ((1 <<< (windowSize + 1)) - 1)
  let sign : Bool := (tmp &&& (1 <<< windowSize)) = 0
  let tmp := (tmp + 1) >>> 1
  if sign then pure (tmp : Int)
  else pure (-(((2 ^ 32 - 1 - (tmp - 1)) &&& ((1 <<< windowSize) - 1) : Nat) : Int))

end Verif
