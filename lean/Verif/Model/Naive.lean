import Verif.Model.Fk20Verifier

/-! Model of the reference implementations the repository tests its provers against (compiled for tests only):
`kzg_multi_open/src/naive.rs`, `fk20/naive.rs`, `generate_cosets` of `fk20/cosets.rs`, the matrix products of
`fk20/toeplitz.rs` and `create_insecure_commit_verification_keys` of `kzg_multi_open/src/lib.rs`. -/
namespace Verif

variable {ε : Type}

/-- `divide_by_linear`, naive.rs:70-87 -/
def divideByLinear (poly : List Fr) (z : Fr) : List Fr :=
  let st := poly.reverse.foldl (fun (st : List Fr × Fr) coeff =>
    let t := coeff + st.2
    (st.1 ++ [t], z * t)) ([], 0)
  st.1.dropLast.reverse

section
variable {G : Type} [AddCommGroup G] [Module Fr G] [DecidableEq G]

/-- `compute_multi_opening` and `_compute_multi_opening_naive`, naive.rs:29-35, 64-122. The result of `lagrange_interpolate`
is unwrapped by `expect`; the check of naive.rs:110-112 is an assertion on every point. -/
def naiveComputeMultiOpening (commitKey : List G) (polynomial points : List Fr) : Outcome ε (G × List Fr) := do
  let evaluations := points.map (fun point => polyEval polynomial point)
  let coordinates := points.zip evaluations
  let r ← lagrangeInterpolate coordinates
  let iX ← expect r
  (points.zip evaluations).forM (fun q => assertP (polyEval iX q.1 = q.2))
  let polyShifted ← polySub polynomial iX
  let quotientPoly := points.foldl divideByLinear polyShifted
  let c ← commitG1 commitKey quotientPoly
  pure (c, evaluations)
end

section
variable {G1 G2 GT : Type} [AddCommGroup G1] [Module Fr G1] [DecidableEq G1] [AddCommGroup G2] [Module Fr G2]
  [DecidableEq G2] [AddCommGroup GT] [DecidableEq GT] [Pairing G1 G2 GT]

/-- `VerificationKey::commit_g2`, verification_key.rs:59-63 -/
def VerificationKey.commitG2 (vk : VerificationKey G1 G2) (polynomial : List Fr) : Outcome ε G2 := do
  assertP (vk.g2s.length ≥ polynomial.length)
  let pts ← slice vk.g2s 0 polynomial.length
  expect (lincomb pts polynomial)

/-- `verify_multi_opening` and `_verify_multi_opening_naive`, naive.rs:38-52, 137-166 (`g2_gen`,
verification_key.rs:73-75, is the field) -/
def naiveVerifyMultiOpening (vk : VerificationKey G1 G2) (commitment proof : G1) (inputPoints outputPoints : List Fr) :
    Outcome ε Bool := do
  let coordinates := inputPoints.zip outputPoints
  let r ← lagrangeInterpolate coordinates
  let iX ← expect r
  let vanishing ← vanishingPoly inputPoints
  let commVanishingPoly ← vk.commitG2 vanishing
  let commIX ← vk.commitG1 iX
  let commMinusIX := commitment - commIX
  pure (multiPairings2 proof commVanishingPoly commMinusIX (-vk.g2Gen))

/-- `create_insecure_commit_verification_keys`, kzg_multi_open/src/lib.rs:14-62, with its two generators as parameters: the
secret is -1, 4096 coefficients, 64 points per proof. `batch_normalize` does not change the group elements. -/
def createInsecureCommitVerificationKeys (g1Gen : G1) (g2Gen : G2) : Outcome ε (List G1 × VerificationKey G1 G2) := do
  let g1Points := ((List.range 4096).foldl (fun (st : List G1 × Fr) _ => (st.1 ++ [st.2 • g1Gen], st.2 * -1)) ([], 1)).1
  let ck ← commitKeyNew g1Points
  let g2Points := ((List.range 65).foldl (fun (st : List G2 × Fr) _ => (st.1 ++ [st.2 • g2Gen], st.2 * -1)) ([], 1)).1
  let first ← slice g1Points 0 65
  let vk ← VerificationKey.new first g2Points 64 4096
  pure (ck, vk)
end

/-- `shift_polynomial`, fk20/naive.rs:13-25 -/
def shiftPolynomial (poly : List Fr) (degree : Nat) : Outcome ε (List Fr) :=
  let n := poly.length
  if degree ≥ n then pure [] else slice poly degree n

/-- `compute_h_poly`, fk20/naive.rs:32-61; dividing by zero is excluded by the first assertion -/
def naiveComputeHPoly (polynomial : List Fr) (cosetSize : Nat) : Outcome ε (List (List Fr)) := do
  assertP (isPow2 cosetSize = true)
  let numCoefficients := polynomial.length
  assertP (isPow2 numCoefficients = true)
  let numProofs := numCoefficients / cosetSize
  assertP (isPow2 numProofs = true)
  (List.range numProofs).mapM (fun i => shiftPolynomial polynomial ((i + 1) * cosetSize))

/-- `compute_coset_evaluations`, fk20/naive.rs:96-109 -/
def naiveComputeCosetEvaluations (polynomial : List Fr) (cosetSize : Nat) (evaluationDomain : Domain) :
    Outcome ε (List (List Fr)) := do
  let evaluations ← evaluationDomain.fftScalars polynomial
  let evaluations ← reverseBitOrder evaluations
  pure (chunksExact cosetSize evaluations)

section
variable {G : Type} [AddCommGroup G] [Module Fr G] [DecidableEq G]

/-- `open_multi_point`, fk20/naive.rs:65-94 -/
def naiveOpenMultiPoint (commitKey : List G) (polynomial : List Fr) (cosetSize numberOfPointsToOpen : Nat) :
    Outcome ε (List G × List (List Fr)) := do
  assertP (isPow2 cosetSize = true)
  assertP (isPow2 numberOfPointsToOpen = true)
  assertP (isPow2 polynomial.length = true)
  assertP (numberOfPointsToOpen > cosetSize)
  assertP (commitKey.length ≥ polynomial.length)
  let hPolys ← naiveComputeHPoly polynomial cosetSize
  let commitmentHPolys ← hPolys.mapM (fun hPoly => commitG1 commitKey hPoly)
  let proofDomain ← Domain.new (numberOfPointsToOpen / cosetSize)
  let proofs ← proofDomain.fftG1 commitmentHPolys
  let proofsAffine ← reverseBitOrder proofs
  let evaluationDomain ← Domain.new numberOfPointsToOpen
  let cosetEvaluations ← naiveComputeCosetEvaluations polynomial cosetSize evaluationDomain
  pure (proofsAffine, cosetEvaluations)

/-- `CirculantMatrix::vector_mul_g1`, toeplitz.rs:154-168 -/
def circulantVectorMulG1 (row : List Fr) (vector : List G) : Outcome ε (List G) := do
  assertP (isPow2 vector.length = true)
  let domain ← Domain.new (vector.length * 2)
  let mFft ← domain.fftG1 vector
  let colFft ← domain.fftScalars row
  let evaluations := (mFft.zip colFft).map (fun q => q.2 • q.1)
  domain.ifftG1 evaluations

/-- `ToeplitzMatrix::vector_mul_g1`, toeplitz.rs:183-193 -/
def ToeplitzMatrix.vectorMulG1 (tm : ToeplitzMatrix) (vector : List G) : Outcome ε (List G) := do
  let n := vector.length
  let circulantResult ← circulantVectorMulG1 (circulantFromToeplitz tm) vector
  pure (circulantResult.take n)
end

/-- `CirculantMatrix::vector_mul_scalar`, toeplitz.rs:137-148 -/
def circulantVectorMulScalar (row vector : List Fr) : Outcome ε (List Fr) := do
  let domain ← Domain.new (vector.length * 2)
  let mFft ← domain.fftScalars vector
  let colFft ← domain.fftScalars row
  let evaluations := (mFft.zip colFft).map (fun q => q.1 * q.2)
  domain.ifftScalars evaluations

/-- `ToeplitzMatrix::vector_mul_scalars`, toeplitz.rs:173-181 -/
def ToeplitzMatrix.vectorMulScalars (tm : ToeplitzMatrix) (vector : List Fr) : Outcome ε (List Fr) := do
  let n := vector.length
  assertP (vector.length = tm.col.length)
  let circulantResult ← circulantVectorMulScalar (circulantFromToeplitz tm) vector
  pure (circulantResult.take n)

/-- `DenseMatrix::from_toeplitz`, toeplitz.rs:209-228: `row.len()` rows of `col.len()` zeros, overwritten at `(i, j)` for `i`
below `col.len()` and `j` below `row.len()` -/
def denseFromToeplitz (tm : ToeplitzMatrix) : Outcome ε (List (List Fr)) :=
  (List.range tm.col.length).foldlM (fun matrix i =>
    (List.range tm.row.length).foldlM (fun matrix j => do
      let v ← (if i ≤ j then idx tm.row (j - i) else idx tm.col (i - j))
      let r ← idx matrix i
      let r ← setIdx r j v
      setIdx matrix i r) matrix) (List.replicate tm.row.length (List.replicate tm.col.length (0 : Fr)))

/-- `DenseMatrix::vector_mul_scalar` and `vector_mul`, toeplitz.rs:231-262 -/
def denseVectorMulScalar (matrix : List (List Fr)) (vector : List Fr) : Outcome ε (List Fr) := do
  let r0 ← idx matrix 0
  assertP (r0.length = vector.length)
  pure (matrix.map (fun row => ((vector.zip row).map (fun q => q.1 * q.2)).sum))

/-- `generate_cosets`, cosets.rs:179-203 -/
def generateCosets (numPoints pointsPerCoset : Nat) (bitReversed : Bool) : Outcome ε (List (List Fr)) := do
  let domain ← Domain.new pointsPerCoset
  assertP (pointsPerCoset ≠ 0) -- division by zero
  let numCosets := numPoints / pointsPerCoset
  let generators ← cosetGens numPoints numCosets bitReversed
  pure (generators.map (fun generator => domain.roots.map (fun element => generator * element)))

end Verif
