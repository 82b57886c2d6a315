import Verif.Model.Toeplitz
import Verif.Model.Cosets

/-! Model of `commit_key.rs` and `fk20/prover.rs`. -/
namespace Verif

variable {ε : Type}

section
variable {G : Type} [AddCommGroup G] [Module Fr G] [DecidableEq G]

/-- `CommitKey::new`, commit_key.rs:15-22 (the key is its list of points, commit_key.rs:10-12) -/
def commitKeyNew (g1s : List G) : Outcome ε (List G) := do
  assertP (g1s ≠ [])
  pure g1s

/-- `CommitKey::commit_g1`, commit_key.rs:25-31 -/
def commitG1 (g1s : List G) (polyCoeff : List Fr) : Outcome ε G := do
  let pts ← slice g1s 0 polyCoeff.length
  expect (lincomb pts polyCoeff)
end

/-- `Input`, fk20/prover.rs:13-20 -/
inductive ProverInput where
  | polyCoeff (p : List Fr)
  | data (d : List Fr)

/-- `FK20Prover`, fk20/prover.rs:31-54 -/
structure FK20Prover (K G : Type) where
  batchToeplitz : BatchToeplitz K G
  cosetSize : Nat
  numberOfPointsToOpen : Nat
  proofDomain : Domain
  evaluationDomain : Domain
  polyDomain : Domain
  commitKey : List G

section
variable {K G : Type} [Field K] [DecidableEq K] [AddCommGroup G] [Module Fr G] [DecidableEq G] [Curve K G]

/-- The padded SRS vectors, fk20/prover.rs:85-101 -/
def srsVectors (g1s : List G) (pointsPerProof : Nat) : List (List G) :=
  let srsTruncated := g1s.reverse.drop pointsPerProof
  (takeEveryNth srsTruncated pointsPerProof).map (fun v => resize v (nextPow2 v.length) 0)

/-- `FK20Prover::new`, fk20/prover.rs:63-123 -/
def FK20Prover.new (commitKey : List G) (polynomialBound pointsPerProof numberOfPointsToOpen : Nat)
    (usePrecomp : UsePrecomp) : Outcome ε (FK20Prover K G) := do
  assertP (isPow2 pointsPerProof = true)
  assertP (isPow2 numberOfPointsToOpen = true)
  assertP (numberOfPointsToOpen > pointsPerProof)
  assertP (isPow2 polynomialBound = true)
  assertP (commitKey.length ≥ polynomialBound)
  assertP (commitKey.length > pointsPerProof)
  let batchToeplitz ← BatchToeplitz.new (srsVectors commitKey pointsPerProof) usePrecomp
  let numProofs := numberOfPointsToOpen / pointsPerProof
  let proofDomain ← Domain.new numProofs
  let evaluationDomain ← Domain.new numberOfPointsToOpen
  let polyDomain ← Domain.new polynomialBound
  pure { batchToeplitz := batchToeplitz
         cosetSize := pointsPerProof
         numberOfPointsToOpen := numberOfPointsToOpen
         proofDomain := proofDomain
         evaluationDomain := evaluationDomain
         polyDomain := polyDomain
         commitKey := commitKey }

/-- Conversion of the input to coefficients, fk20/prover.rs:127-139 and 172-178 -/
def FK20Prover.inputToPoly (p : FK20Prover K G) : ProverInput → Outcome ε (List Fr)
  | .polyCoeff c => pure c
  | .data d => do
    let d ← reverseBitOrder d
    p.polyDomain.ifftScalars d

/-- `FK20Prover::commit`, fk20/prover.rs:126-143 -/
def FK20Prover.commit (p : FK20Prover K G) (input : ProverInput) : Outcome ε G := do
  let polyCoeff ← p.inputToPoly input
  commitG1 p.commitKey polyCoeff

/-- `FK20Prover::num_proofs`, fk20/prover.rs:146-148 -/
def FK20Prover.numProofs (p : FK20Prover K G) : Nat := p.numberOfPointsToOpen / p.cosetSize

/-- `compute_coset_evaluations`, fk20/prover.rs:155-162 -/
def FK20Prover.computeCosetEvaluations (p : FK20Prover K G) (polynomial : List Fr) :
    Outcome ε (List (List Fr)) := do
  let evaluations ← p.evaluationDomain.fftScalars polynomial
  let evaluations ← reverseBitOrder evaluations
  pure (chunksExact p.cosetSize evaluations)

/-- `compute_multi_opening_proofs_poly_coeff`, fk20/prover.rs:189-207 -/
def FK20Prover.computeMultiOpeningProofsPolyCoeff (p : FK20Prover K G) (polynomial : List Fr) :
    Outcome ε (List G × List (List Fr)) := do
  let hPolyCommitments ← computeHPolyCommitments p.batchToeplitz polynomial p.cosetSize
  let proofs ← p.proofDomain.fftG1 hPolyCommitments
  let proofs ← reverseBitOrder proofs
  let evals ← p.computeCosetEvaluations polynomial
  pure (proofs, evals)

/-- `compute_multi_opening_proofs`, fk20/prover.rs:170-181 -/
def FK20Prover.computeMultiOpeningProofs (p : FK20Prover K G) (input : ProverInput) :
    Outcome ε (List G × List (List Fr)) := do
  let polyCoeff ← p.inputToPoly input
  p.computeMultiOpeningProofsPolyCoeff polyCoeff
end

end Verif
