import Mathlib.Data.Nat.Digits.Defs
import Verif.Model.Errors

/-! The text `format!("{:?}", err)` of the error enums: the output of `#[derive(Debug)]` in its compact form, as bytes
(all characters are ASCII). Bindings pass this text to their callers. -/
namespace Verif

/-- the bytes of an ASCII string -/
def ascii (s : String) : List UInt8 := s.toList.map (fun c => UInt8.ofNat c.toNat)

/-- `Debug` of an unsigned integer: its decimal digits -/
def debugNat (n : Nat) : List UInt8 :=
  if n = 0 then [48] else (Nat.digits 10 n).reverse.map (fun d => UInt8.ofNat (48 + d))

/-- the list separated by `, ` -/
def commaSeparated : List (List UInt8) → List UInt8
  | [] => []
  | [x] => x
  | x :: y :: xs => x ++ ascii ", " ++ commaSeparated (y :: xs)

/-- `Debug` of `Vec<u8>` -/
def debugBytes (b : List UInt8) : List UInt8 := ascii "[" ++ commaSeparated (b.map (fun x => debugNat x.toNat)) ++ ascii "]"

/-- derived `Debug` of a variant with one unnamed field -/
def debugTuple (name : String) (inner : List UInt8) : List UInt8 := ascii name ++ ascii "(" ++ inner ++ ascii ")"

/-- derived `Debug` of a variant with named fields -/
def debugStruct (name : String) (fields : List (String × List UInt8)) : List UInt8 :=
  ascii name ++ ascii " { " ++ commaSeparated (fields.map (fun f => ascii f.1 ++ ascii ": " ++ f.2)) ++ ascii " }"

/-- erasure_codes/src/errors.rs:1-19 -/
def RSError.debug : RSError → List UInt8
  | .PolynomialHasTooManyCoefficients a b => debugStruct "PolynomialHasTooManyCoefficients"
      [("num_coefficients", debugNat a), ("max_num_coefficients", debugNat b)]
  | .PolynomialHasInvalidLength a b => debugStruct "PolynomialHasInvalidLength"
      [("num_coefficients", debugNat a), ("expected_num_coefficients", debugNat b)]
  | .TooManyBlockErasures a b => debugStruct "TooManyBlockErasures"
      [("num_block_erasures", debugNat a), ("max_num_block_erasures_accepted", debugNat b)]
  | .InvalidBlockIndex a b => debugStruct "InvalidBlockIndex" [("block_index", debugNat a), ("block_size", debugNat b)]

/-- kzg_multi_open/src/fk20/errors.rs:1-4 -/
def FK20VerifierError.debug : FK20VerifierError → List UInt8
  | .InvalidProof => ascii "InvalidProof"

/-- eip7594/src/errors.rs:60-81 -/
def RecoveryError.debug : RecoveryError → List UInt8
  | .NotEnoughCellsToReconstruct a b => debugStruct "NotEnoughCellsToReconstruct"
      [("num_cells_received", debugNat a), ("min_cells_needed", debugNat b)]
  | .NumCellIndicesNotEqualToNumCells a b => debugStruct "NumCellIndicesNotEqualToNumCells"
      [("num_cell_indices", debugNat a), ("num_cells", debugNat b)]
  | .TooManyCellsReceived a b => debugStruct "TooManyCellsReceived"
      [("num_cells_received", debugNat a), ("max_cells_needed", debugNat b)]
  | .CellIndexOutOfRange a b => debugStruct "CellIndexOutOfRange"
      [("cell_index", debugNat a), ("max_number_of_cells", debugNat b)]
  | .CellIndicesNotUnique => ascii "CellIndicesNotUnique"
  | .ReedSolomon e => debugTuple "ReedSolomon" e.debug

/-- eip7594/src/errors.rs:49-52 -/
def ProverError.debug : ProverError → List UInt8
  | .RecoveryFailure e => debugTuple "RecoveryFailure" e.debug

/-- eip7594/src/errors.rs:90-112 -/
def VerifierError.debug : VerifierError → List UInt8
  | .CellIndexOutOfRange a b => debugStruct "CellIndexOutOfRange"
      [("cell_index", debugNat a), ("max_number_of_cells", debugNat b)]
  | .InvalidCommitmentIndex a b => debugStruct "InvalidCommitmentIndex"
      [("commitment_index", debugNat a), ("max_number_of_commitments", debugNat b)]
  | .InvalidProof => ascii "InvalidProof"
  | .BatchVerificationInputsMustHaveSameLength a b c d => debugStruct "BatchVerificationInputsMustHaveSameLength"
      [("commitment_indices_len", debugNat a), ("cell_indices_len", debugNat b), ("cells_len", debugNat c),
        ("proofs_len", debugNat d)]
  | .FK20 e => debugTuple "FK20" e.debug
  | .PolynomialHasInvalidLength a b => debugStruct "PolynomialHasInvalidLength"
      [("num_coefficients", debugNat a), ("expected_num_coefficients", debugNat b)]

/-- eip7594/src/errors.rs:122-129 -/
def SerializationError.debug : SerializationError → List UInt8
  | .CouldNotDeserializeScalar b => debugStruct "CouldNotDeserializeScalar" [("bytes", debugBytes b)]
  | .CouldNotDeserializeG1Point b => debugStruct "CouldNotDeserializeG1Point" [("bytes", debugBytes b)]
  | .ScalarHasInvalidLength b n => debugStruct "ScalarHasInvalidLength" [("bytes", debugBytes b), ("length", debugNat n)]
  | .BlobHasInvalidLength b n => debugStruct "BlobHasInvalidLength" [("bytes", debugBytes b), ("length", debugNat n)]
  | .G1PointHasInvalidLength b n => debugStruct "G1PointHasInvalidLength" [("bytes", debugBytes b), ("length", debugNat n)]

/-- eip7594/src/errors.rs:5-11 -/
def Error.debug : Error → List UInt8
  | .Prover e => debugTuple "Prover" e.debug
  | .Verifier e => debugTuple "Verifier" e.debug
  | .Recovery e => debugTuple "Recovery" e.debug
  | .Serialization e => debugTuple "Serialization" e.debug

end Verif
