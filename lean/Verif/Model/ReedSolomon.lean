import Verif.Model.BatchInverse
import Verif.Model.PolyCoeff
import Verif.Model.Errors

/-! Model of `cryptography/erasure_codes/src/reed_solomon.rs`. -/
namespace Verif

/-- `ReedSolomon`, reed_solomon.rs:42-71 -/
structure ReedSolomon where
  expansionFactor : Nat
  polyLen : Nat
  evaluationDomain : Domain
  blockSize : Nat
  numBlocks : Nat
  blockSizeDomain : Domain
  fftCosetGen : CosetFFT

variable {ε : Type}

/-- `ReedSolomon::new`, reed_solomon.rs:74-97 -/
def ReedSolomon.new (polyLen expansionFactor blockSize : Nat) : Outcome ε ReedSolomon := do
  assertP (isPow2 expansionFactor = true)
  assertP (isPow2 polyLen = true)
  assertP (isPow2 blockSize = true)
  let evaluationSize := polyLen * expansionFactor
  let evaluationDomain ← Domain.new evaluationSize
  let numBlocks := evaluationSize / blockSize
  let blockSizeDomain ← Domain.new blockSize
  let fftCosetGen ← CosetFFT.new MULTIPLICATIVE_GENERATOR
  pure { polyLen := polyLen
         evaluationDomain := evaluationDomain
         expansionFactor := expansionFactor
         blockSize := blockSize
         blockSizeDomain := blockSizeDomain
         numBlocks := numBlocks
         fftCosetGen := fftCosetGen }

namespace ReedSolomon

/-- `acceptable_num_random_erasures`, reed_solomon.rs:103-107 -/
def acceptableNumRandomErasures (rs : ReedSolomon) : Nat := rs.polyLen * rs.expansionFactor - rs.polyLen

/-- `acceptable_num_block_erasures`, reed_solomon.rs:112-114; division by zero panics -/
def acceptableNumBlockErasures (rs : ReedSolomon) : Outcome ε Nat := do
  assertP (rs.numBlocks ≠ 0)
  pure (rs.acceptableNumRandomErasures / rs.numBlocks)

/-- `codeword_length`, reed_solomon.rs:117-119 -/
def codewordLength (rs : ReedSolomon) : Nat := rs.polyLen * rs.expansionFactor

/-- `encode`, reed_solomon.rs:123-131 -/
def encode (rs : ReedSolomon) (poly : List Fr) : Outcome RSError (List Fr) :=
  if poly.length > rs.polyLen then
    .err (.PolynomialHasTooManyCoefficients poly.length rs.polyLen)
  else rs.evaluationDomain.fftScalars poly

/-- Spreading loop, reed_solomon.rs:214-232 -/
def spreadLoop (numBlocks : Nat) (coeffs : List Fr) (z : List Fr) : Outcome ε (List Fr) :=
  coeffs.zipIdx.foldlM (fun z (q : Fr × Nat) => setIdx z (q.2 * numBlocks) q.1) z

/-- `construct_vanishing_poly_from_block_erasures`, reed_solomon.rs:178-235 -/
def constructVanishingPolyFromBlockErasures (rs : ReedSolomon) (blockIndices : List Nat) :
    Outcome ε (List Fr) := do
  assertP (blockIndices.length ≠ rs.blockSize)
  let roots ← blockIndices.mapM (fun index => idx rs.blockSizeDomain.roots index)
  let vanishPolyFirstBlock ← vanishingPoly roots
  spreadLoop rs.numBlocks vanishPolyFirstBlock (List.replicate rs.evaluationDomain.roots.length 0)

/-- `construct_vanishing_poly_from_erasure_pattern`, reed_solomon.rs:237-281, block-synchronized pattern
(the other one, for tests, is `constructVanishingPolyRandom`) -/
def constructVanishingPoly (rs : ReedSolomon) (indices : List Nat) : Outcome RSError (List Fr) :=
  match indices.find? (fun i => decide (i ≥ rs.blockSize)) with
  | some bad => .err (.InvalidBlockIndex bad rs.blockSize)
  | none => do
    let acceptable ← rs.acceptableNumBlockErasures
    if indices.length > acceptable then .err (.TooManyBlockErasures indices.length acceptable)
    else rs.constructVanishingPolyFromBlockErasures indices

/-- `recover_polynomial_coefficient_erasure_pattern` after the vanishing polynomial, reed_solomon.rs:294-340 -/
def recoverFromVanishing (rs : ReedSolomon) (dataEval zX : List Fr) : Outcome RSError (List Fr) := do
  let zXEval ← rs.evaluationDomain.fftScalars zX
  let ezEval := (zXEval.zip dataEval).map (fun q => q.1 * q.2)
  let dzPoly ← rs.evaluationDomain.ifftScalars ezEval
  let cosetDzEval ← rs.evaluationDomain.cosetFftScalars dzPoly rs.fftCosetGen
  let cosetZEval ← rs.evaluationDomain.cosetFftScalars zX rs.fftCosetGen
  let invCosetZEval ← batchInverse cosetZEval
  let cosetQuotientEval := (cosetDzEval.zip invCosetZEval).map (fun q => q.1 * q.2)
  let coefficients ← rs.evaluationDomain.cosetIfftScalars cosetQuotientEval rs.fftCosetGen
  if (coefficients.drop rs.polyLen).any (fun c => c ≠ 0) then
    .err (.PolynomialHasInvalidLength coefficients.length rs.polyLen)
  else slice coefficients 0 rs.polyLen

/-- `recover_polynomial_coefficient`, reed_solomon.rs:138-147, 284-292 -/
def recoverPolynomialCoefficient (rs : ReedSolomon) (dataEval : List Fr) (erasures : List Nat) :
    Outcome RSError (List Fr) := do
  let zX ← rs.constructVanishingPoly erasures
  rs.recoverFromVanishing dataEval zX

/-- `construct_vanishing_poly_from_erasure_pattern`, reed_solomon.rs:262-278, pattern `Random` (compiled for tests only) -/
def constructVanishingPolyRandom (rs : ReedSolomon) (indices : List Nat) : Outcome ε (List Fr) := do
  assertP (indices.length ≤ rs.acceptableNumRandomErasures)
  let roots ← indices.mapM (fun index => idx rs.evaluationDomain.roots index)
  vanishingPoly roots

/-- `recover_polynomial_coefficient_random_erasure`, reed_solomon.rs:149-161 (compiled for tests only) -/
def recoverPolynomialCoefficientRandomErasure (rs : ReedSolomon) (dataEval : List Fr) (indices : List Nat) :
    Outcome RSError (List Fr) := do
  let zX ← rs.constructVanishingPolyRandom indices
  rs.recoverFromVanishing dataEval zX

end ReedSolomon

end Verif
