import Verif.Model.Field
import Verif.Model.Outcome

/-! Byte strings, integers and scalars (the blstrs conversions used by the code). -/
namespace Verif

/-- Horner evaluation of a big-endian byte string. -/
def beToNat (b : List UInt8) : Nat := b.foldl (fun acc x => acc * 256 + x.toNat) 0

/-- the `n` low little-endian bytes of `v` -/
def natToLE : Nat → Nat → List UInt8
  | 0, _ => []
  | n + 1, v => UInt8.ofNat (v % 256) :: natToLE n (v / 256)

/-- the `n` low bytes of `v`, big-endian (`to_be_bytes`) -/
def natToBE (n v : Nat) : List UInt8 := (natToLE n v).reverse

/-- blstrs `Scalar::from_bytes_be`: `None` if the integer is not below the modulus. -/
def scalarFromBytesBE (b : List UInt8) : Option Fr :=
  if beToNat b < frOrder then some (beToNat b : Fr) else none

/-- blstrs `Scalar::to_bytes_be` -/
def scalarToBytesBE (s : Fr) : List UInt8 := natToBE 32 s.val

/-- blstrs `Scalar::to_bytes_le` -/
def scalarToBytesLE (s : Fr) : List UInt8 := natToLE 32 s.val

/-- `reduce_bytes_to_scalar_bias`, bls12_381/src/lib.rs:50-62: big-endian integer reduced modulo r. -/
def reduceBytesToScalarBias (b : List UInt8) : Fr := (beToNat b : Fr)

/-- `slice::chunks_exact(k)`: the full chunks of length `k`. -/
def chunksExact {α : Type} (k : Nat) (l : List α) : List (List α) :=
  (List.range (l.length / k)).map (fun i => (l.drop (i * k)).take k)

/-- `compressed` codec of curve points (blstrs `to_compressed`, `from_compressed`, the latter with
subgroup check, and `from_compressed_unchecked`). A parameter of the model. -/
class PointCodec (G : Type) where
  toCompressed : G → List UInt8
  fromCompressed : List UInt8 → Option G

export PointCodec (toCompressed fromCompressed)

/-- The laws of the codec used by theorems: fixed length, decoding inverts encoding, and no second encoding of a point is
accepted. -/
class LawfulPointCodec (G : Type) [PointCodec G] (size : outParam Nat) : Prop where
  length_toCompressed : ∀ p : G, (toCompressed p).length = size
  fromCompressed_toCompressed : ∀ p : G, fromCompressed (toCompressed p) = some p
  toCompressed_fromCompressed : ∀ (b : List UInt8) (p : G), b.length = size → fromCompressed b = some p → toCompressed p = b

end Verif
