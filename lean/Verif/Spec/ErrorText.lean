import Verif.Model.Errors

/-! The texts of errors, as in the Rust declarations of the enums: a variant with named fields is shown as `Name { field: value, ... }`, a
variant around another value as `Name(value)`, a byte vector as `[1, 2, 3]`. -/
namespace Verif.Spec

def rsText : RSError → String
  | .PolynomialHasTooManyCoefficients a b => s!"PolynomialHasTooManyCoefficients \{ num_coefficients: {a}, max_num_coefficients: {b} }"
  | .PolynomialHasInvalidLength a b => s!"PolynomialHasInvalidLength \{ num_coefficients: {a}, expected_num_coefficients: {b} }"
  | .TooManyBlockErasures a b => s!"TooManyBlockErasures \{ num_block_erasures: {a}, max_num_block_erasures_accepted: {b} }"
  | .InvalidBlockIndex a b => s!"InvalidBlockIndex \{ block_index: {a}, block_size: {b} }"

def recoveryText : RecoveryError → String
  | .NotEnoughCellsToReconstruct a b => s!"NotEnoughCellsToReconstruct \{ num_cells_received: {a}, min_cells_needed: {b} }"
  | .NumCellIndicesNotEqualToNumCells a b => s!"NumCellIndicesNotEqualToNumCells \{ num_cell_indices: {a}, num_cells: {b} }"
  | .TooManyCellsReceived a b => s!"TooManyCellsReceived \{ num_cells_received: {a}, max_cells_needed: {b} }"
  | .CellIndexOutOfRange a b => s!"CellIndexOutOfRange \{ cell_index: {a}, max_number_of_cells: {b} }"
  | .CellIndicesNotUnique => "CellIndicesNotUnique"
  | .ReedSolomon e => s!"ReedSolomon({rsText e})"

def verifierText : VerifierError → String
  | .CellIndexOutOfRange a b => s!"CellIndexOutOfRange \{ cell_index: {a}, max_number_of_cells: {b} }"
  | .InvalidCommitmentIndex a b => s!"InvalidCommitmentIndex \{ commitment_index: {a}, max_number_of_commitments: {b} }"
  | .InvalidProof => "InvalidProof"
  | .BatchVerificationInputsMustHaveSameLength a b c d => s!"BatchVerificationInputsMustHaveSameLength \{ commitment_indices_len: {a}, cell_indices_len: {b}, cells_len: {c}, proofs_len: {d} }"
  | .FK20 _ => "FK20(InvalidProof)"
  | .PolynomialHasInvalidLength a b => s!"PolynomialHasInvalidLength \{ num_coefficients: {a}, expected_num_coefficients: {b} }"

def serializationText : SerializationError → String
  | .CouldNotDeserializeScalar b => s!"CouldNotDeserializeScalar \{ bytes: {b} }"
  | .CouldNotDeserializeG1Point b => s!"CouldNotDeserializeG1Point \{ bytes: {b} }"
  | .ScalarHasInvalidLength b n => s!"ScalarHasInvalidLength \{ bytes: {b}, length: {n} }"
  | .BlobHasInvalidLength b n => s!"BlobHasInvalidLength \{ bytes: {b}, length: {n} }"
  | .G1PointHasInvalidLength b n => s!"G1PointHasInvalidLength \{ bytes: {b}, length: {n} }"

/-- the text of an error -/
def errorText : Error → String
  | .Prover (.RecoveryFailure e) => s!"Prover(RecoveryFailure({recoveryText e}))"
  | .Verifier e => s!"Verifier({verifierText e})"
  | .Recovery e => s!"Recovery({recoveryText e})"
  | .Serialization e => s!"Serialization({serializationText e})"

end Verif.Spec
