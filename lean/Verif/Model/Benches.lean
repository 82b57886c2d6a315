import Verif.Model.Api
import Verif.Model.BlstMsm
import Verif.Model.Naive
import Verif.Model.UnitTests

/-! Model of the benchmarks (`*/benches/benchmark.rs`).

A benchmark is modelled by what one measured iteration evaluates to, including the preparation before it; Criterion, the labels,
`black_box` and the clones are left out. Random draws are parameters: `Scalar::random` any scalar, `G1Projective::random` and
`G2Projective::random` any point, `shuffle` any permutation. The results of the measured calls are dropped by the benchmarks, so
an error returned by a call is measured and not reported, whereas a panic ends the run. -/
namespace Verif.Benches
open UnitTests

variable {ε : Type}

/-! `eip7594/benches/benchmark.rs` -/

/-- `dummy_blob`, benchmark.rs:11-20 -/
def dummyBlob : Outcome ε (List UInt8) := do
  let polynomial := (List.range 4096).map fun i : Nat => -(i : Fr)
  let blob := polynomial.flatMap scalarToBytesBE
  assertP (blob.length = 131072) -- try_into().unwrap()
  pure blob

/-- `THREAD_COUNTS`, benchmark.rs:33-39 (`none`: single threaded). The calls with any number of threads return what the sequential
ones return (C36), so the number does not occur below. -/
def threadCounts : List (Option Nat) := [none, some 4, some 8, some 16, some 32]

section
variable {K G1 G2 GT : Type} [Field K] [DecidableEq K] [AddCommGroup G1] [Module Fr G1] [DecidableEq G1]
  [Curve K G1] [PointCodec G1] [AddCommGroup G2] [Module Fr G2] [AddCommGroup GT] [DecidableEq GT]
  [Pairing G1 G2 GT]

/-- `dummy_commitment_cells_and_proofs`, benchmark.rs:22-31; `defaultCtx` is `DASContext::default()` -/
def dummyCommitmentCellsAndProofs (defaultCtx : DASContext K G1 G2) :
    Outcome ε (List UInt8 × List (List UInt8) × List (List UInt8)) := do
  let blob ← dummyBlob
  let commitment ← unwrap (defaultCtx.blobToKzgCommitment blob)
  let cp ← unwrap (defaultCtx.computeCellsAndKzgProofs blob)
  pure (commitment, cp.1, cp.2)

/-- `bench_compute_cells_and_kzg_proofs`, benchmark.rs:41-60; `setup` is `TrustedSetup::default()` -/
def computeCellsAndKzgProofs (setup : SetupPoints G1 G2) : Outcome Error (List (List UInt8) × List (List UInt8)) := do
  let blob ← dummyBlob
  let ctx : DASContext K G1 G2 ← DASContext.new setup (.yes 8)
  ctx.computeCellsAndKzgProofs blob

/-- `bench_recover_cells_and_compute_kzg_proofs`, benchmark.rs:62-98 -/
def recoverCellsAndComputeKzgProofs (setup : SetupPoints G1 G2) (defaultCtx : DASContext K G1 G2) :
    Outcome Error (List (List UInt8) × List (List UInt8)) := do
  let (_, cells, _) ← dummyCommitmentCellsAndProofs defaultCtx
  let cellIndices := List.range cells.length
  let halfCellIndices ← slice cellIndices 0 (CELLS_PER_EXT_BLOB / 2)
  let halfCells ← slice cells 0 (CELLS_PER_EXT_BLOB / 2)
  let ctx : DASContext K G1 G2 ← DASContext.new setup (.yes 8)
  ctx.recoverCellsAndKzgProofs halfCellIndices halfCells

/-- `bench_verify_cell_kzg_proof_batch`, benchmark.rs:100-136 -/
def verifyCellKzgProofBatch (sha256 : List UInt8 → List UInt8) (setup : SetupPoints G1 G2) (defaultCtx : DASContext K G1 G2) :
    Outcome Error Unit := do
  let (commitment, cells, proofs) ← dummyCommitmentCellsAndProofs defaultCtx
  let commitments := List.replicate CELLS_PER_EXT_BLOB commitment
  let cellIndices := List.range CELLS_PER_EXT_BLOB
  let ctx : DASContext K G1 G2 ← DASContext.new setup (.yes 8)
  ctx.verifyCellKzgProofBatch sha256 commitments cellIndices cells proofs

/-- `bench_init_context`, benchmark.rs:138-150 -/
def initContext (setup : SetupPoints G1 G2) : Outcome ε (DASContext K G1 G2) := DASContext.new setup (.yes 8)

/-! `cryptography/kzg_multi_open/benches/benchmark.rs` -/

/-- `bench_compute_proof_fk20`, benchmark.rs:10-38. The keys are those of `create_insecure_commit_verification_keys`, a copy
(benchmark.rs:92-134) of the function of the crate; `polynomial` are the random scalars. -/
def computeProofFk20 (P : G1) (H : G2) (polynomial : List Fr) : Outcome ε (List G1 × List (List Fr)) := do
  let (ck, _) ← createInsecureCommitVerificationKeys P H
  let prover : FK20Prover K G1 ← FK20Prover.new ck 4096 64 (2 * 4096) (.yes 8)
  prover.computeMultiOpeningProofs (.polyCoeff polynomial)

/-- `bench_verify_proof_fk20`, benchmark.rs:40-79; the outer outcome is the preparation, the inner one the measured call -/
def verifyProofFk20 (K : Type) [Field K] [DecidableEq K] [Curve K G1] (sha256 : List UInt8 → List UInt8) (P : G1) (H : G2)
    (polynomial : List Fr) : Outcome ε (Outcome FK20VerifierError Unit) := do
  let (ck, vk) ← createInsecureCommitVerificationKeys P H
  let prover : FK20Prover K G1 ← FK20Prover.new ck 4096 64 (2 * 4096) (.yes 8)
  let commitment ← prover.commit (.polyCoeff polynomial)
  let verifier ← FK20Verifier.new vk (2 * 4096) prover.numProofs
  let (proofs, cosetEvals) ← prover.computeMultiOpeningProofs (.polyCoeff polynomial)
  pure (verifier.verifyMultiOpening sha256 [commitment] (List.replicate 128 0) (List.range 128) cosetEvals proofs)
end

/-! `cryptography/erasure_codes/benches/benchmark.rs` -/

/-- `generate_unique_random_numbers`, benchmark.rs:39-44; `shuffled` is the shuffled list of the numbers of the range -/
def generateUniqueRandomNumbers (shuffled : List Nat) (n : Nat) : List Nat := shuffled.take n

/-- `bench_erasure_code_decoding_4096_8192`, benchmark.rs:6-37; `shuffled` is the shuffled list of the numbers below `blockSize` -/
def erasureCodeDecoding (shuffled : List Nat) : Outcome RSError (List Fr) := do
  let blockSize := 128
  let rs ← ReedSolomon.new 4096 2 blockSize
  let extendedPolyLen := rs.codewordLength
  let encodedPolynomial := (List.range extendedPolyLen).map fun i => -((i + 1 : Nat) : Fr)
  let numBlocks := extendedPolyLen / blockSize
  let missingBlocks := generateUniqueRandomNumbers shuffled (numBlocks / 2)
  rs.recoverPolynomialCoefficient encodedPolynomial missingBlocks

/-! `cryptography/polynomial/benches/benchmark.rs` -/

/-- `bench_polynomial_evaluation`, benchmark.rs:6-16 -/
def polynomialEvaluation (polynomial : List Fr) (value : Fr) : Fr := polyEval polynomial value

/-- first half of `bench_fft`, benchmark.rs:18-27 -/
def fftScalars (polynomial : List Fr) : Outcome ε (List Fr) := do
  let domain ← Domain.new 8192
  domain.fftScalars polynomial

section
variable {K G : Type} [Field K] [DecidableEq K] [AddCommGroup G] [Module Fr G] [DecidableEq G] [Curve K G]

/-- second half of `bench_fft`, benchmark.rs:29-38 -/
def fftGroupElements (points : List G) : Outcome ε (List G) := do
  let domain ← Domain.new 8192
  domain.fftG1 points

/-! `cryptography/bls12_381/benches/benchmark.rs` -/

/-- `batch_inversion`, benchmark.rs:13-25 -/
def batchInversion (elements : List Fr) : Outcome ε (List Fr) := batchInverse elements

/-- first half of `fixed_base_msm`, benchmark.rs:26-37 -/
def fixedBaseMsmBlst (junk : List G) (scratchNeeded : Nat → Nat) (generators : List G) (scalars : List Fr) : Access G :=
  match FixedBaseMSMPrecompBLST.new junk scratchNeeded generators 8 with
  | .done fbm => fbm.msm scratchNeeded scalars
  | .fault => .fault

/-- second half of `fixed_base_msm`, benchmark.rs:39-43 -/
def fixedBaseMsmWindow (K : Type) [Field K] [DecidableEq K] [Curve K G] (generators : List G) (scalars : List Fr) : Outcome ε G := do
  let table : List (List (Aff K)) ← precompWindowNew generators 8
  precompWindowMsm table 8 scalars

/-- `bench_msm`, benchmark.rs:46-72, for either of the two groups: the unchecked and the safe combination -/
def msm (elements : List G) (scalars : List Fr) : Option G × Option G := (lincombUnsafe elements scalars, lincomb elements scalars)
end

end Verif.Benches
