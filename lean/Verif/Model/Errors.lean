/-! Error enums. All Rust variants are kept, also those that no code constructs. -/
namespace Verif

/-- `RSError`, erasure_codes/src/errors.rs:2-19 -/
inductive RSError where
  | PolynomialHasTooManyCoefficients (num_coefficients max_num_coefficients : Nat)
  | PolynomialHasInvalidLength (num_coefficients expected_num_coefficients : Nat)
  | TooManyBlockErasures (num_block_erasures max_num_block_erasures_accepted : Nat)
  | InvalidBlockIndex (block_index block_size : Nat)
  deriving DecidableEq, Repr

/-- kzg_multi_open `VerifierError`, fk20/errors.rs:2-4 -/
inductive FK20VerifierError where
  | InvalidProof
  deriving DecidableEq, Repr

/-- `RecoveryError`, eip7594/src/errors.rs:62-81 -/
inductive RecoveryError where
  | NotEnoughCellsToReconstruct (num_cells_received min_cells_needed : Nat)
  | NumCellIndicesNotEqualToNumCells (num_cell_indices num_cells : Nat)
  | TooManyCellsReceived (num_cells_received max_cells_needed : Nat)
  | CellIndexOutOfRange (cell_index max_number_of_cells : Nat)
  | CellIndicesNotUnique
  | ReedSolomon (e : RSError)
  deriving DecidableEq, Repr

/-- `ProverError`, eip7594/src/errors.rs:50-52 -/
inductive ProverError where
  | RecoveryFailure (e : RecoveryError)
  deriving DecidableEq, Repr

/-- `VerifierError`, eip7594/src/errors.rs:91-112 -/
inductive VerifierError where
  | CellIndexOutOfRange (cell_index max_number_of_cells : Nat)
  | InvalidCommitmentIndex (commitment_index max_number_of_commitments : Nat)
  | InvalidProof
  | BatchVerificationInputsMustHaveSameLength
      (commitment_indices_len cell_indices_len cells_len proofs_len : Nat)
  | FK20 (e : FK20VerifierError)
  | PolynomialHasInvalidLength (num_coefficients expected_num_coefficients : Nat)
  deriving DecidableEq, Repr

/-- `SerializationError`, eip7594/src/errors.rs:123-129 -/
inductive SerializationError where
  | CouldNotDeserializeScalar (bytes : List UInt8)
  | CouldNotDeserializeG1Point (bytes : List UInt8)
  | ScalarHasInvalidLength (bytes : List UInt8) (length : Nat)
  | BlobHasInvalidLength (bytes : List UInt8) (length : Nat)
  | G1PointHasInvalidLength (bytes : List UInt8) (length : Nat)
  deriving DecidableEq, Repr

/-- `Error`, eip7594/src/errors.rs:6-11. The `From` conversions (errors.rs:27-58, 83-87, 114-118) are the
constructors. -/
inductive Error where
  | Prover (e : ProverError)
  | Verifier (e : VerifierError)
  | Recovery (e : RecoveryError)
  | Serialization (e : SerializationError)
  deriving DecidableEq, Repr

/-- `Error::invalid_proof`, eip7594/src/errors.rs:18-24 -/
def Error.invalidProof : Error → Bool
  | .Verifier verifier_err => match verifier_err with
    | .FK20 _ => true
    | _ => false
  | _ => false

end Verif
