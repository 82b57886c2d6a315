import Verif.Model.Bytes
import Verif.Model.Constants
import Verif.Model.Errors

/-! Model of `eip7594/src/serialization.rs`. -/
namespace Verif

abbrev SerOutcome (α : Type) := Outcome SerializationError α

/-- `deserialize_bytes_to_scalar`, serialization.rs:47-60. The conversion to `[u8; 32]` panics on other
lengths. -/
def deserializeBytesToScalar (b : List UInt8) : SerOutcome Fr := do
  assertP (b.length = 32)
  match scalarFromBytesBE b with
  | some s => pure s
  | none => .err (.CouldNotDeserializeScalar b)

/-- `deserialize_bytes_to_scalars`, serialization.rs:12-28 -/
def deserializeBytesToScalars (bytes : List UInt8) : SerOutcome (List Fr) :=
  if bytes.length % BYTES_PER_FIELD_ELEMENT ≠ 0 then
    .err (.ScalarHasInvalidLength bytes bytes.length)
  else (chunksExact BYTES_PER_FIELD_ELEMENT bytes).mapM deserializeBytesToScalar

/-- `deserialize_blob_to_scalars`, serialization.rs:30-40 -/
def deserializeBlobToScalars (blob : List UInt8) : SerOutcome (List Fr) :=
  if blob.length ≠ BYTES_PER_BLOB then .err (.BlobHasInvalidLength blob blob.length)
  else deserializeBytesToScalars blob

/-- `deserialize_cell_to_scalars`, serialization.rs:41-45 -/
def deserializeCellToScalars (cell : List UInt8) : SerOutcome (List Fr) := deserializeBytesToScalars cell

/-- `serialize_scalars_to_cell`, serialization.rs:91-103 -/
def serializeScalarsToCell {ε : Type} (scalars : List Fr) : Outcome ε (List UInt8) := do
  assertP (scalars.length = FIELD_ELEMENTS_PER_CELL)
  pure (scalars.foldl (fun bytes s => bytes ++ scalarToBytesBE s) [])

/-- `deserialize_cells`, serialization.rs:105-113 -/
def deserializeCells (cells : List (List UInt8)) : SerOutcome (List (List Fr)) :=
  cells.mapM deserializeCellToScalars

/-- `coset_evaluations_to_cells`, serialization.rs:116-131 -/
def cosetEvaluationsToCells {ε : Type} (evaluations : List (List Fr)) : Outcome ε (List (List UInt8)) := do
  let cells ← evaluations.mapM (fun ev => do
    let cell ← serializeScalarsToCell ev
    assertP (cell.length = BYTES_PER_CELL)
    pure cell)
  assertP (cells.length = CELLS_PER_EXT_BLOB)
  pure cells

section
variable {G1 : Type} [PointCodec G1]

/-- `deserialize_compressed_g1`, serialization.rs:62-77 -/
def deserializeCompressedG1 (b : List UInt8) : SerOutcome G1 :=
  if b.length ≠ 48 then .err (.G1PointHasInvalidLength b b.length)
  else match (fromCompressed b : Option G1) with
    | some p => .ok p
    | none => .err (.CouldNotDeserializeG1Point b)

/-- `serialize_g1_compressed`, serialization.rs:78-80 -/
def serializeG1Compressed (p : G1) : List UInt8 := toCompressed p

/-- `deserialize_compressed_g1_points`, serialization.rs:82-89 -/
def deserializeCompressedG1Points (points : List (List UInt8)) : SerOutcome (List G1) :=
  points.mapM deserializeCompressedG1

/-- `serialize_cells_and_proofs`, serialization.rs:133-147 -/
def serializeCellsAndProofs {ε : Type} (cosetEvaluations : List (List Fr)) (proofs : List G1) :
    Outcome ε (List (List UInt8) × List (List UInt8)) := do
  let cells ← cosetEvaluationsToCells cosetEvaluations
  let proofs := proofs.map serializeG1Compressed
  assertP (proofs.length = CELLS_PER_EXT_BLOB)
  pure (cells, proofs)
end

end Verif
