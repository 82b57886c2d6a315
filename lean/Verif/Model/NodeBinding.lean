import Verif.Model.Api
import Verif.Model.Debug

/-! Model of the Node bindings, `bindings/node/src/lib.rs`.

An `Err(Error::from_reason(text))` becomes a JavaScript exception with this text. A BigInt is an integer. The asynchronous methods
(lib.rs:104-106, 138-143, 153-155, 199-205, 244-252) call the synchronous ones; they are in `Model/NodeAsync`. Assumption about the `napi` crate:
`BigInt::get_u128` returns the sign and the magnitude modulo 2^128. -/
namespace Verif

/-- an exception with its text -/
abbrev NodeError := List UInt8

/-- `BigInt::get_u128` without its third component -/
def bigIntGetU128 (value : Int) : Bool × Nat := (decide (value < 0), value.natAbs % 2 ^ 128)

/-- `bigint_to_u64`, lib.rs:256-260 -/
def bigintToU64 (value : Int) : Outcome NodeError Nat := do
  let (signed, valueU128) := bigIntGetU128 value
  assertP (¬ signed = true)
  pure (valueU128 % 2 ^ 64)

/-- `slice_to_array_ref`, lib.rs:266-277, with the text of `TryFromSliceError` -/
def sliceToArrayRefN (n : Nat) (slice : List UInt8) (name : String) : Outcome NodeError (List UInt8) :=
  if slice.length = n then .ok slice
  else .err (ascii name ++ ascii " must have size " ++ debugNat n ++ ascii ", found size " ++ debugNat slice.length ++
    ascii "\n err:could not convert slice to array")

section
variable {K G1 G2 GT : Type} [Field K] [DecidableEq K] [AddCommGroup G1] [Module Fr G1] [DecidableEq G1]
  [Curve K G1] [PointCodec G1] [AddCommGroup G2] [Module Fr G2] [AddCommGroup GT] [DecidableEq GT]
  [Pairing G1 G2 GT]

/-- `DASContextOptions`, lib.rs:45-57; the default is precomputation and one thread -/
structure DASContextOptions where
  usePrecomp : Bool := true
  numThreads : UInt32 := 1

/-- `DASContextJs::create`, lib.rs:67-86. The number of threads does not influence results (C36). -/
def dasContextJsCreate (setup : SetupPoints G1 G2) (options : DASContextOptions) : Outcome NodeError (DASContext K G1 G2) :=
  DASContext.new setup (if options.usePrecomp then .yes RECOMMENDED_PRECOMP_WIDTH else .no)

/-- `DASContextJs::new`, lib.rs:62-64 -/
def dasContextJsNew (setup : SetupPoints G1 G2) : Outcome NodeError (DASContext K G1 G2) := dasContextJsCreate setup {}

/-- `blob_to_kzg_commitment`, lib.rs:89-101 -/
def blobToKzgCommitmentN (ctx : DASContext K G1 G2) (blob : List UInt8) : Outcome NodeError (List UInt8) := do
  let blob ← sliceToArrayRefN BYTES_PER_BLOB blob "blob"
  (ctx.blobToKzgCommitment blob).mapErr (fun err => ascii "failed to compute blob_to_kzg_commitment: " ++ err.debug)

/-- `compute_cells_and_kzg_proofs`, lib.rs:109-135 -/
def computeCellsAndKzgProofsN (ctx : DASContext K G1 G2) (blob : List UInt8) :
    Outcome NodeError (List (List UInt8) × List (List UInt8)) := do
  let blob ← sliceToArrayRefN BYTES_PER_BLOB blob "blob"
  (ctx.computeCellsAndKzgProofs blob).mapErr (fun err => ascii "failed to compute compute_cells_and_kzg_proofs: " ++ err.debug)

/-- `compute_cells`, lib.rs:146-150 -/
def computeCellsN (ctx : DASContext K G1 G2) (blob : List UInt8) : Outcome NodeError (List (List UInt8)) := do
  let cellsAndProofs ← computeCellsAndKzgProofsN ctx blob
  pure cellsAndProofs.1

/-- `recover_cells_and_kzg_proofs`, lib.rs:159-196 -/
def recoverCellsAndKzgProofsN (ctx : DASContext K G1 G2) (cellIndices : List Int) (cells : List (List UInt8)) :
    Outcome NodeError (List (List UInt8) × List (List UInt8)) := do
  let cellIndices ← cellIndices.mapM bigintToU64
  let cells ← cells.mapM (fun cell => sliceToArrayRefN BYTES_PER_CELL cell "cell")
  (ctx.recoverCellsAndKzgProofs cellIndices cells).mapErr
    (fun err => ascii "failed to compute recover_cells_and_kzg_proofs: " ++ err.debug)

/-- `verify_cell_kzg_proof_batch`, lib.rs:208-241 -/
def verifyCellKzgProofBatchN (sha256 : List UInt8 → List UInt8) (ctx : DASContext K G1 G2) (commitments : List (List UInt8))
    (cellIndices : List Int) (cells proofs : List (List UInt8)) : Outcome NodeError Bool := do
  let cellIndices ← cellIndices.mapM bigintToU64
  let commitments ← commitments.mapM (fun commitment => sliceToArrayRefN BYTES_PER_COMMITMENT commitment "commitment")
  let cells ← cells.mapM (fun cell => sliceToArrayRefN BYTES_PER_CELL cell "cell")
  let proofs ← proofs.mapM (fun proof => sliceToArrayRefN BYTES_PER_COMMITMENT proof "proof")
  match ctx.verifyCellKzgProofBatch sha256 commitments cellIndices cells proofs with
  | .ok _ => pure true
  | .err x => if x.invalidProof then pure false else .err (ascii "failed to compute verify_cell_kzg_proof_batch: " ++ x.debug)
  | .panic => .panic

end
end Verif
