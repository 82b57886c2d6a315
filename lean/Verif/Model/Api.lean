import Mathlib.Data.List.Dedup
import Verif.Model.Fk20Verifier
import Verif.Model.ReedSolomon
import Verif.Model.Serialization

/-! Model of `eip7594/src/prover.rs`, `recovery.rs`, `verifier.rs` and `lib.rs`.

The trusted setup enters as its decoded points (the decoding is in `TrustedSetup.lean`). Thread pools are
not part of the context (C36 treats parallel execution). Types with a fixed length (`&[u8; N]`) are byte
lists; the theorems carry the length as a hypothesis. -/
namespace Verif

/-- `ProverContext`, prover.rs:26-29 -/
structure ProverContext (K G1 : Type) where
  kzgMultipointProver : FK20Prover K G1
  rs : ReedSolomon

/-- `VerifierContext`, verifier.rs:16-18 -/
structure VerifierContext (G1 G2 : Type) where
  kzgMultipointVerifier : FK20Verifier G1 G2

/-- `DASContext`, lib.rs:101-106 -/
structure DASContext (K G1 G2 : Type) where
  proverCtx : ProverContext K G1
  verifierCtx : VerifierContext G1 G2

/-- The decoded points of a trusted setup: `g1_monomial` and `g2_monomial`, trusted_setup.rs:10-30 -/
structure SetupPoints (G1 G2 : Type) where
  g1Monomial : List G1
  g2Monomial : List G2

variable {ε : Type}

/-- `deduplicate_with_indices`, verifier.rs:49-68. The `HashMap` is an association list. -/
def deduplicateWithIndices {α : Type} [DecidableEq α] (input : List α) : List α × List Nat :=
  let st := input.foldl (fun (st : List α × List (α × Nat) × List Nat) item =>
    match st.2.1.lookup item with
    | some index => (st.1, st.2.1, st.2.2 ++ [index])
    | none =>
      let newIndex := st.1.length
      (st.1 ++ [item], (item, newIndex) :: st.2.1, st.2.2 ++ [newIndex])) ([], [], [])
  (st.1, st.2.2)

/-- `validation::verify_cell_kzg_proof_batch`, verifier.rs:132-173 -/
def validateVerify (dedup : List (List UInt8)) (commitmentIndices cellIndices : List Nat)
    (cells proofs : List (List UInt8)) : Outcome VerifierError Unit :=
  let sameLength := (commitmentIndices.length == cellIndices.length)
    && (commitmentIndices.length == cells.length) && (commitmentIndices.length == proofs.length)
  if ¬ sameLength then
    .err (.BatchVerificationInputsMustHaveSameLength commitmentIndices.length cellIndices.length
      cells.length proofs.length)
  else match commitmentIndices.find? (fun i => decide (i ≥ dedup.length)) with
  | some i => .err (.InvalidCommitmentIndex i dedup.length)
  | none => match cellIndices.find? (fun i => decide (i ≥ CELLS_PER_EXT_BLOB)) with
    | some i => .err (.CellIndexOutOfRange i CELLS_PER_EXT_BLOB)
    | none => .ok ()

/-- `are_cell_indices_unique`, recovery.rs:147-151. Collecting into a `HashSet` removes duplicates. -/
def areCellIndicesUnique (cellIndices : List Nat) : Bool := cellIndices.dedup.length == cellIndices.length

/-- `validation::recover_polynomial_coeff`, recovery.rs:88-144 -/
def validateRecover (cellIndices : List Nat) (cells : List (List UInt8)) : Outcome RecoveryError Unit :=
  if cellIndices.length ≠ cells.length then
    .err (.NumCellIndicesNotEqualToNumCells cellIndices.length cells.length)
  else match cellIndices.find? (fun i => decide (i ≥ CELLS_PER_EXT_BLOB)) with
  | some i => .err (.CellIndexOutOfRange i CELLS_PER_EXT_BLOB)
  | none => do
    assertP (cells.all (fun c => c.length == BYTES_PER_CELL) = true)
    if ¬ areCellIndicesUnique cellIndices then .err .CellIndicesNotUnique
    else if cellIndices.length < CELLS_PER_EXT_BLOB / EXPANSION_FACTOR then
      .err (.NotEnoughCellsToReconstruct cellIndices.length (CELLS_PER_EXT_BLOB / EXPANSION_FACTOR))
    else if cellIndices.length > CELLS_PER_EXT_BLOB then
      .err (.TooManyCellsReceived cellIndices.length CELLS_PER_EXT_BLOB)
    else .ok ()

/-- `find_missing_cell_indices`, recovery.rs:64-76 -/
def findMissingCellIndices (present : List Nat) : List Nat :=
  (List.range CELLS_PER_EXT_BLOB).filter (fun i => ¬ present.contains i)

/-- `recover_polynomial_coeff`, recovery.rs:14-62. Cell indices are `u64`, equal to `usize` (64 bit). -/
def recoverPolynomialCoeff (rs : ReedSolomon) (cellIndices : List Nat) (cells : List (List UInt8)) :
    Outcome Error (List Fr) := do
  (validateRecover cellIndices cells).mapErr Error.Recovery
  let cosetEvaluations ← (deserializeCells cells).mapErr Error.Serialization
  let res ← recoverEvaluationsInDomainOrder FIELD_ELEMENTS_PER_EXT_BLOB cellIndices cosetEvaluations
  let (cellIndicesNormalOrder, flattened) ← expect res
  let missing := findMissingCellIndices cellIndicesNormalOrder
  (rs.recoverPolynomialCoefficient flattened missing).mapErr (fun e => Error.Recovery (.ReedSolomon e))

section
variable {K G1 G2 GT : Type} [Field K] [DecidableEq K] [AddCommGroup G1] [Module Fr G1] [DecidableEq G1]
  [Curve K G1] [PointCodec G1] [AddCommGroup G2] [Module Fr G2] [AddCommGroup GT] [DecidableEq GT]
  [Pairing G1 G2 GT]

/-- `ProverContext::new`, prover.rs:39-70 -/
def ProverContext.new (setup : SetupPoints G1 G2) (usePrecomp : UsePrecomp) :
    Outcome ε (ProverContext K G1) := do
  let commitKey ← commitKeyNew setup.g1Monomial
  let prover ← FK20Prover.new commitKey FIELD_ELEMENTS_PER_BLOB FIELD_ELEMENTS_PER_CELL
    FIELD_ELEMENTS_PER_EXT_BLOB usePrecomp
  let rs ← ReedSolomon.new FIELD_ELEMENTS_PER_BLOB EXPANSION_FACTOR CELLS_PER_EXT_BLOB
  pure { kzgMultipointProver := prover, rs := rs }

/-- `to_verification_key` on decoded points, trusted_setup.rs:108-121 -/
def verificationKeyOfSetup (setup : SetupPoints G1 G2) : Outcome ε (VerificationKey G1 G2) := do
  let g1s ← slice setup.g1Monomial 0 setup.g2Monomial.length
  VerificationKey.new g1s setup.g2Monomial FIELD_ELEMENTS_PER_CELL FIELD_ELEMENTS_PER_BLOB

/-- `VerifierContext::new`, verifier.rs:28-40 -/
def VerifierContext.new (setup : SetupPoints G1 G2) : Outcome ε (VerifierContext G1 G2) := do
  let vk ← verificationKeyOfSetup setup
  let v ← FK20Verifier.new vk FIELD_ELEMENTS_PER_EXT_BLOB CELLS_PER_EXT_BLOB
  pure { kzgMultipointVerifier := v }

/-- `DASContext::with_threads` / `DASContext::new`, lib.rs:127-161 -/
def DASContext.new (setup : SetupPoints G1 G2) (usePrecomp : UsePrecomp) :
    Outcome ε (DASContext K G1 G2) := do
  let p ← ProverContext.new setup usePrecomp
  let v ← VerifierContext.new setup
  pure { proverCtx := p, verifierCtx := v }

/-- `blob_to_kzg_commitment`, prover.rs:77-91 -/
def DASContext.blobToKzgCommitment (ctx : DASContext K G1 G2) (blob : List UInt8) :
    Outcome Error (List UInt8) := do
  let scalars ← (deserializeBlobToScalars blob).mapErr Error.Serialization
  let commitment ← ctx.proverCtx.kzgMultipointProver.commit (.data scalars)
  pure (serializeG1Compressed commitment)

/-- `compute_cells_and_kzg_proofs`, prover.rs:96-114 -/
def DASContext.computeCellsAndKzgProofs (ctx : DASContext K G1 G2) (blob : List UInt8) :
    Outcome Error (List (List UInt8) × List (List UInt8)) := do
  let scalars ← (deserializeBlobToScalars blob).mapErr Error.Serialization
  let (proofs, cells) ← ctx.proverCtx.kzgMultipointProver.computeMultiOpeningProofs (.data scalars)
  serializeCellsAndProofs cells proofs

/-- `recover_cells_and_kzg_proofs`, prover.rs:122-141 -/
def DASContext.recoverCellsAndKzgProofs (ctx : DASContext K G1 G2) (cellIndices : List Nat)
    (cells : List (List UInt8)) : Outcome Error (List (List UInt8) × List (List UInt8)) := do
  let polyCoeff ← recoverPolynomialCoeff ctx.proverCtx.rs cellIndices cells
  let (proofs, cosetEvaluations) ←
    ctx.proverCtx.kzgMultipointProver.computeMultiOpeningProofs (.polyCoeff polyCoeff)
  serializeCellsAndProofs cosetEvaluations proofs

/-- `verify_cell_kzg_proof_batch`, verifier.rs:75-121 -/
def DASContext.verifyCellKzgProofBatch (sha256 : List UInt8 → List UInt8) (ctx : DASContext K G1 G2)
    (commitments : List (List UInt8)) (cellIndices : List Nat) (cells proofsBytes : List (List UInt8)) :
    Outcome Error Unit := do
  let (deduplicatedCommitments, rowIndices) := deduplicateWithIndices commitments
  (validateVerify deduplicatedCommitments rowIndices cellIndices cells proofsBytes).mapErr Error.Verifier
  if cells.isEmpty then pure ()
  else do
    let rowCommitments : List G1 ←
      (deserializeCompressedG1Points deduplicatedCommitments).mapErr Error.Serialization
    let proofs : List G1 ← (deserializeCompressedG1Points proofsBytes).mapErr Error.Serialization
    let cosetEvals ← (deserializeCells cells).mapErr Error.Serialization
    (ctx.verifierCtx.kzgMultipointVerifier.verifyMultiOpening sha256 rowCommitments rowIndices cellIndices
      cosetEvals proofs).mapErr (fun e => Error.Verifier (.FK20 e))

end

end Verif
