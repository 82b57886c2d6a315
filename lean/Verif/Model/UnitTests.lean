import Verif.Model.Api
import Verif.Model.BlstMsm
import Verif.Model.Naive

/-! Model of the unit tests of the Rust crates (`#[test]` functions in `cryptography/*/src` and `eip7594/src`).

A failed assertion is a panic, so a test passes if it returns `ok`; tests marked `#[should_panic]` pass if they panic. The numbers
and the random draws of a test are parameters here, and the values that the repository uses are stated in `Verif.Props.UnitTests`.
Random points are `G1Projective::random`, random scalars `Scalar::random`. Comparing `HashSet`s of `to_bytes_be` is comparing finite
sets of the bytes. `test_embedded_setup_has_points_in_correct_subgroup` is C76_valid, and the tests that read vectors are in
`Verif.Model.Tests`. -/
namespace Verif.UnitTests

variable {ε : Type}

/-- `x.unwrap()` on a `Result` -/
def unwrap {ε' α : Type} : Outcome ε' α → Outcome ε α
  | .ok a => .ok a
  | _ => .panic

/-- `slice::chunks(k)`: chunks of length `k`, the last one may be shorter (a panic for `k = 0`, which the tests do not reach) -/
def chunks {α : Type} (k : Nat) (l : List α) : List (List α) :=
  (List.range ((l.length + k - 1) / k)).map fun i => (l.drop (i * k)).take k

/-! `polynomial/src/poly_coeff.rs` -/

/-- `naive_poly_eval`, poly_coeff.rs:163-169 -/
def naivePolyEval (poly : List Fr) (value : Fr) : Fr := poly.zipIdx.foldl (fun result q => result + q.1 * value ^ q.2) 0

/-- one of the two checks of `basic_polynomial_add`, poly_coeff.rs:172-182 -/
def basicPolynomialAdd (a b c : List Fr) : Outcome ε Unit := do
  let r ← polyAdd a b
  assertP (r = c)

/-- `polynomial_neg`, poly_coeff.rs:185-189 -/
def polynomialNeg (a b : List Fr) : Outcome ε Unit := assertP (polyNeg a = b)

/-- one of the two checks of `basic_polynomial_subtraction`, poly_coeff.rs:192-202 -/
def basicPolynomialSubtraction (a b c : List Fr) : Outcome ε Unit := do
  let r ← polySub a b
  assertP (r = c)

/-- `polynomial_evaluation`, poly_coeff.rs:205-211 -/
def polynomialEvaluation (poly : List Fr) (value : Fr) : Outcome ε Unit := assertP (polyEval poly value = naivePolyEval poly value)

/-- `polynomial_multiplication`, poly_coeff.rs:214-227 -/
def polynomialMultiplication (a b expected : List Fr) : Outcome ε Unit := do
  let r ← polyMul a b
  assertP (r = expected)

/-- `vanishing_polynomial_smoke_test`, poly_coeff.rs:230-246 -/
def vanishingPolynomialSmokeTest (roots expected : List Fr) : Outcome ε Unit := do
  let poly ← vanishingPoly roots
  assertP (poly = expected)
  roots.forM fun root => assertP (polyEval poly root = 0)

/-- `polynomial_interpolation_smoke_test`, poly_coeff.rs:249-261 -/
def polynomialInterpolationSmokeTest (points : List (Fr × Fr)) (expected : List Fr) : Outcome ε Unit := do
  let r ← lagrangeInterpolate points
  let poly ← expect r
  assertP (poly = expected)

/-! `polynomial/src/domain.rs` -/

/-- `largest_root_of_unity_has_correct_order`, domain.rs:223-233 (`two_adicity` is 32) -/
def largestRootOfUnityHasCorrectOrder : Outcome ε Unit := do
  assertP (ROOT_OF_UNITY ^ 2 ^ 32 = 1)
  (List.range 32).forM fun i => assertP (ROOT_OF_UNITY ^ 2 ^ i ≠ 1)

/-- `fft_test_polynomial`, domain.rs:236-253 -/
def fftTestPolynomial (size : Nat) (evaluations : List Fr) : Outcome ε Unit := do
  let domain ← Domain.new size
  let polyCoeff ← domain.ifftScalars evaluations
  domain.roots.zipIdx.forM fun q => do
    let e ← idx evaluations q.2
    assertP (polyEval polyCoeff q.1 = e)
  let gotEvals ← domain.fftScalars polyCoeff
  assertP (gotEvals = evaluations)

/-- `test_polynomial_coset_fft`, domain.rs:256-265, where the generator is `Scalar::MULTIPLICATIVE_GENERATOR` -/
def testPolynomialCosetFft (size : Nat) (generator : Fr) (polynomial : List Fr) : Outcome ε Unit := do
  let domain ← Domain.new size
  let cosetFft ← CosetFFT.new generator
  let cosetEvals ← domain.cosetFftScalars polynomial cosetFft
  let gotPoly ← domain.cosetIfftScalars cosetEvals cosetFft
  assertP (gotPoly = polynomial)

section
variable {G : Type} [AddCommGroup G] [Module Fr G] [DecidableEq G]

/-- `naive_msm`, domain.rs:269-275 -/
def naiveMsm (points : List G) (scalars : List Fr) : G := (points.zip scalars).foldl (fun acc q => acc + q.2 • q.1) 0

/-- `powers_of`, domain.rs:276-283: `max_degree + 1` powers -/
def powersOf (scalar : Fr) (maxDegree : Nat) : Outcome ε (List Fr) :=
  (List.range maxDegree).foldlM (fun (powers : List Fr) i => do
    let prev ← idx powers (i + 1 - 1)
    pure (powers ++ [prev * scalar])) [1]

/-- `fft_g1_smoke_test`, domain.rs:268-301, with its random points as parameter -/
def fftG1SmokeTest (n : Nat) (points : List G) : Outcome ε Unit := do
  let domain ← Domain.new n
  let fftPoints ← domain.fftG1 points
  domain.roots.zipIdx.forM fun q => do
    let powers ← powersOf q.1 points.length
    let expected := naiveMsm points powers
    let got ← idx fftPoints q.2
    assertP (expected = got)
  let back ← domain.ifftG1 fftPoints
  assertP (back = points)
end

/-! `bls12_381/src` -/

section
variable {K G : Type} [Field K] [DecidableEq K] [AddCommGroup G] [Module Fr G] [DecidableEq G] [Curve K G]

/-- `precomp_lookup_table`, fixed_base_msm_window.rs:99-107; the loop leaves out the first entry -/
def precompLookupTable (wbits : Nat) (generator : G) : Outcome ε Unit := do
  let lookupTable ← precomputePoints wbits generator
  (List.range (lookupTable.length - 1)).forM fun i => do
    let got ← idx lookupTable (i + 1)
    assertP (got = toAff ((((i + 1 + 1 : Nat) : Fr)) • generator))

/-- `test_fixed_base_msm_with_precomp`, fixed_base_msm.rs:129-145, with its random points and scalars as parameters;
`msm_blst_precomp`, fixed_base_msm_window.rs:110-126, is the case of width 7. -/
def testFixedBaseMsmWithPrecomp (usePrecomp : UsePrecomp) (generators : List G) (scalars : List Fr) : Outcome ε Unit := do
  let res ← expect (lincomb generators scalars)
  let fbm ← FixedBaseMSM.new generators usePrecomp
  let result ← fbm.msm scalars
  assertP (res = result)

/-- `smoke_test_fixed_base_msm`, fixed_base_msm.rs:148-152; each of the three calls draws its own points and scalars -/
def smokeTestFixedBaseMsm (draws : UsePrecomp → List G × List Fr) : Outcome ε Unit := do
  testFixedBaseMsmWithPrecomp .no (draws .no).1 (draws .no).2
  testFixedBaseMsmWithPrecomp (.yes 4) (draws (.yes 4)).1 (draws (.yes 4)).2
  testFixedBaseMsmWithPrecomp (.yes 8) (draws (.yes 8)).1 (draws (.yes 8)).2

/-- `bench_window_sizes_msm`, fixed_base_msm_window.rs:129-142: widths 2 to 14, no result is compared -/
def benchWindowSizesMsm (generators : List G) (scalars : List Fr) : Outcome ε Unit :=
  (List.range 13).forM fun i => do
    let fbm ← FixedBaseMSM.new generators (.yes (i + 2))
    let _ ← fbm.msm scalars
    pure ()

/-- `fixed_base_msm_non_zero`, fixed_base_msm.rs:155-167. An access out of bounds in blst is counted as failure. -/
def fixedBaseMsmNonZero (junk : List G) (scratchNeeded : Nat → Nat) (generators : List G) (wbits : Nat) : Outcome ε Unit :=
  match FixedBaseMSMPrecompBLST.new junk scratchNeeded generators wbits with
  | .fault => .panic
  | .done fbm => fbm.table.forM fun val => assertP (val ≠ 0)

/-- `blst_footgun`, lincomb.rs:96-113 -/
def blstFootgun (generator : G) : Outcome ε Unit := do
  let result ← expect (lincombUnsafe [generator, 0] [1, 1])
  assertP (result = 0)
  let result ← expect (lincomb [generator, 0] [1, 1])
  assertP (result = generator)

/-- one step of `mul`, booth_encoding.rs:80-91 -/
def mulStep (window : Nat) (u : List UInt8) (table : List G) (acc : G) (i : Nat) : Outcome ε G := do
  let acc := (List.range window).foldl (fun acc _ => acc + acc) acc
  let idx' ← getBoothIndex i window u
  if idx' < 0 then do
    let p ← idx table idx'.natAbs
    pure (acc + -p)
  else if idx' > 0 then do
    let p ← idx table idx'.natAbs
    pure (acc + p)
  else pure acc

/-- `mul`, booth_encoding.rs:70-95. `window - 1` underflows for width 0. -/
def mul (scalar : Fr) (point : G) (window : Nat) : Outcome ε G := do
  let u := scalarToBytesLE scalar
  assertP (window ≠ 0)
  let n := 255 / window + 1
  let table := (List.range (1 <<< (window - 1) + 1)).map fun (i : Nat) => (i : Fr) • point
  (List.range n).reverse.foldlM (mulStep window u table) 0

/-- `smoke_scalar_mul`, booth_encoding.rs:58-68 -/
def smokeScalarMul (generator : G) (s : Fr) (window : Nat) : Outcome ε Unit := do
  let got ← mul s generator window
  assertP (s • generator = got)

/-- `test_batch_addition`, batch_addition.rs:213-226, with its random points as parameter -/
def testBatchAddition (points : List G) : Outcome ε Unit := do
  let expected := points.foldl (fun acc p => acc + p) 0
  let got : G ← batchAddition (points.map toAff)
  assertP (expected = got)

/-- `test_multi_batch_addition_binary_stride`, batch_addition.rs:229-248, with its random points as parameter -/
def testMultiBatchAdditionBinaryStride (sets : List (List G)) : Outcome ε Unit := do
  let expected : List G ← sets.mapM fun points => batchAddition (points.map toAff)
  let got : List G ← multiBatchAddition (sets.map fun points => points.map toAff)
  assertP (got = expected)
end

/-- `batch_inversion_smoke_test`, batch_inversion.rs:65-80, with its random elements as parameter -/
def batchInversionSmokeTest (elements : List Fr) : Outcome ε Unit := do
  let nonZero := elements.map fun f => if f = 0 then 1 else f
  let got ← nonZero.mapM invertExpect
  let r ← batchInverse nonZero
  assertP (r = got)

/-- `batch_inverse_panic_check`, batch_inversion.rs:84-88 (should panic) -/
def batchInversePanicCheck (n : Nat) : Outcome ε Unit := do
  let _ ← batchInverse (List.replicate n (0 : Fr))
  pure ()

/-- `BLS12_381_R` and `TWO_256_MINUS_ONE_MOD_R`, lib.rs:70-81 -/
def orderBytes : List UInt8 := [
  0x73, 0xED, 0xA7, 0x53, 0x29, 0x9D, 0x7D, 0x48, 0x33, 0x39, 0xD8, 0x08, 0x09, 0xA1, 0xD8,
  0x05, 0x53, 0xBD, 0xA4, 0x02, 0xFF, 0xFE, 0x5B, 0xFE, 0xFF, 0xFF, 0xFF, 0xFF, 0x00, 0x00,
  0x00, 0x01]
def twoPow256MinusOneModR : List UInt8 := [
  0x18, 0x24, 0xB1, 0x59, 0xAC, 0xC5, 0x05, 0x6F, 0x99, 0x8C, 0x4F, 0xEF, 0xEC, 0xBC, 0x4F,
  0xF5, 0x58, 0x84, 0xB7, 0xFA, 0x00, 0x03, 0x48, 0x02, 0x00, 0x00, 0x00, 0x01, 0xFF, 0xFF,
  0xFF, 0xFD]

/-- `test_reduce_bytes_to_scalar_edge_cases`, lib.rs:84-132 -/
def testReduceBytesToScalarEdgeCases : Outcome ε Unit := do
  assertP (reduceBytesToScalarBias (List.replicate 32 0) = 0)
  assertP (reduceBytesToScalarBias (List.replicate 31 0 ++ [1]) = 1)
  let maxBytes : List UInt8 := [
    0x73, 0xED, 0xA7, 0x53, 0x29, 0x9D, 0x7D, 0x48, 0x33, 0x39, 0xD8, 0x08, 0x09, 0xA1,
    0xD8, 0x05, 0x53, 0xBD, 0xA4, 0x02, 0xFF, 0xFE, 0x5B, 0xFE, 0xFF, 0xFF, 0xFF, 0xFF,
    0x00, 0x00, 0x00, 0x00]
  let result := reduceBytesToScalarBias maxBytes
  assertP (result ≠ 0)
  assertP (result = -1)
  assertP (reduceBytesToScalarBias orderBytes = 0)
  let last ← idx orderBytes 31
  let rPlusOne ← setIdx orderBytes 31 (last + 1)
  assertP (reduceBytesToScalarBias rPlusOne = 1)
  let expected ← expect (scalarFromBytesBE twoPow256MinusOneModR)
  assertP (reduceBytesToScalarBias (List.replicate 32 0xFF) = expected)

/-! `kzg_multi_open/src` -/

/-- the set of the encodings of some scalars -/
def bytesSet (l : List Fr) : Finset (List UInt8) := (l.map scalarToBytesBE).toFinset

/-- `set_equality_scalar`, prover.rs:356-365 -/
def setEqualityScalar (lhs rhs : List Fr) : Bool := lhs.length == rhs.length && bytesSet lhs == bytesSet rhs

/-- `smoke_test_downsample`, h_poly.rs:84-89 -/
def smokeTestDownsample : Outcome ε Unit := assertP (takeEveryNth [5, 4, 3, 2] 2 = [[5, 3], [4, 2]])

section
variable {K G1 G2 GT : Type} [Field K] [DecidableEq K] [AddCommGroup G1] [Module Fr G1] [DecidableEq G1] [Curve K G1]
  [PointCodec G1] [AddCommGroup G2] [Module Fr G2] [DecidableEq G2] [AddCommGroup GT] [DecidableEq GT] [Pairing G1 G2 GT]

/-- `smoke_aggregated_matrix_vector_mul`, batch_toeplitz.rs:167-211: rows, columns and vectors are parameters -/
def smokeAggregatedMatrixVectorMul (usePrecomp : UsePrecomp) (data : List (List Fr × List Fr × List G1)) : Outcome ε Unit := do
  let toeplitzMatrices ← data.mapM fun d => ToeplitzMatrix.new d.1 d.2.1
  let vectors := data.map fun d => d.2.2
  let bm : BatchToeplitz K G1 ← BatchToeplitz.new vectors usePrecomp
  let gotResult ← bm.sumMatrixVectorMul toeplitzMatrices
  let expectedResult ← (toeplitzMatrices.zip vectors).foldlM (fun (acc : List G1) q => do
    let intermediate ← q.1.vectorMulG1 q.2
    pure (acc.zipWith (· + ·) intermediate ++ acc.drop intermediate.length)) (List.replicate gotResult.length 0)
  assertP (gotResult = expectedResult)

/-- `check_consistency_of_toeplitz_h_polys`, h_poly.rs:92-113 -/
def checkConsistencyOfToeplitzHPolys (P : G1) (H : G2) (polyLen cosetSize : Nat) (poly : List Fr) : Outcome ε Unit := do
  let (commitKey, _) ← createInsecureCommitVerificationKeys P H
  let hPolynomials ← naiveComputeHPoly poly cosetSize
  let expected ← hPolynomials.mapM fun h => commitG1 commitKey h
  let fk20 : FK20Prover K G1 ← FK20Prover.new commitKey polyLen cosetSize (2 * polyLen) .no
  let got ← computeHPolyCommitments fk20.batchToeplitz poly cosetSize
  assertP (expected.length = got.length)
  assertP (expected = got)

/-- `data_is_contained_in_the_first_section_of_cells`, prover.rs:228-252 -/
def dataIsContainedInTheFirstSectionOfCells (P : G1) (H : G2) (polyLen cosetSize : Nat) (data : List Fr) : Outcome ε Unit := do
  let (commitKey, _) ← createInsecureCommitVerificationKeys P H
  let fk20 : FK20Prover K G1 ← FK20Prover.new commitKey polyLen cosetSize (2 * polyLen) .no
  let (_, cells) ← fk20.computeMultiOpeningProofs (.data data)
  let first ← slice cells.flatten 0 polyLen
  assertP (data = first)

/-- `smoke_test_prove_verify`, prover.rs:255-287 -/
def smokeTestProveVerify (sha256 : List UInt8 → List UInt8) (P : G1) (H : G2) (polyLen cosetSize : Nat) (data : List Fr) :
    Outcome ε Unit := do
  let (commitKey, verificationKey) ← createInsecureCommitVerificationKeys P H
  let numPointsToOpen := 2 * polyLen
  let numCosets := numPointsToOpen / cosetSize
  let fk20 : FK20Prover K G1 ← FK20Prover.new commitKey polyLen cosetSize numPointsToOpen .no
  let fk20Verifier ← FK20Verifier.new verificationKey numPointsToOpen numCosets
  let (proofs, cells) ← fk20.computeMultiOpeningProofs (.data data)
  let commitment ← fk20.commit (.data data)
  unwrap (fk20Verifier.verifyMultiOpening sha256 [commitment] (List.replicate numCosets 0) (List.range numCosets) cells proofs)

/-- `check_consistency_of_proofs_against_naive_fk20_implementation`, prover.rs:290-316 -/
def checkConsistencyOfProofsAgainstNaive (P : G1) (H : G2) (polyLen cosetSize : Nat) (poly : List Fr) : Outcome ε Unit := do
  let (commitKey, _) ← createInsecureCommitVerificationKeys P H
  let (expectedProofs, expectedEvaluations) ← naiveOpenMultiPoint commitKey poly cosetSize (2 * polyLen)
  let fk20 : FK20Prover K G1 ← FK20Prover.new commitKey polyLen cosetSize (2 * polyLen) .no
  let (gotProofs, gotEvaluations) ← fk20.computeMultiOpeningProofsPolyCoeff poly
  assertP (gotProofs.length = expectedProofs.length)
  assertP (gotEvaluations.length = expectedEvaluations.length)
  assertP (gotEvaluations = expectedEvaluations)
  assertP (gotProofs = expectedProofs)

/-- `test_consistency_between_naive_kzg_naive_fk20`, prover.rs:319-354 -/
def testConsistencyBetweenNaives (P : G1) (H : G2) (polyLen cosetSize : Nat) (polynomial : List Fr) : Outcome ε Unit := do
  let (ck, _) ← createInsecureCommitVerificationKeys P H
  let cosets ← generateCosets (2 * polyLen) cosetSize true
  let (gotProofs, gotOutputs) ← naiveOpenMultiPoint ck polynomial cosetSize (2 * polyLen)
  (List.range gotProofs.length).forM fun k => do
    let inputPoints ← idx cosets k
    let (expectedQuotient, expectedOutputs) ← naiveComputeMultiOpening ck polynomial inputPoints
    let outputs ← idx gotOutputs k
    assertP (setEqualityScalar expectedOutputs outputs = true)
    let proof ← idx gotProofs k
    assertP (expectedQuotient = proof)

/-- `smoke_test_naive_multi_opening`, naive.rs:172-206: points to open, polynomial and the changed points are parameters -/
def smokeTestNaiveMultiOpening (P : G1) (H : G2) (inputPoints polynomial changed : List Fr) : Outcome ε Unit := do
  let (ck, verificationKey) ← createInsecureCommitVerificationKeys P H
  let commitment ← commitG1 ck polynomial
  let (quotientCommitment, outputPoints) ← naiveComputeMultiOpening ck polynomial inputPoints
  let proofValid ← naiveVerifyMultiOpening verificationKey commitment quotientCommitment inputPoints outputPoints
  assertP (proofValid = true)
  let proofValid ← naiveVerifyMultiOpening verificationKey commitment quotientCommitment changed outputPoints
  assertP (proofValid = false)
end

/-- `bit_reverse_cosets_equality`, cosets.rs:221-276 -/
def bitReverseCosetsEquality (numPoints pointsPerCoset : Nat) : Outcome ε Unit := do
  assertP (pointsPerCoset ≠ 0) -- remainder by zero
  assertP (numPoints % pointsPerCoset = 0)
  let cosets ← generateCosets numPoints pointsPerCoset true
  let domain ← Domain.new numPoints
  let roots ← reverseBitOrder domain.roots
  let chunked := chunks pointsPerCoset roots
  assertP (cosets.length = chunked.length)
  (cosets.zip chunked).forM fun q => assertP (q.1.length = q.2.length)
  (cosets.zip chunked).forM fun q => do
    assertP (bytesSet q.1 = bytesSet q.2)
    assertP ((bytesSet q.1).card = q.1.length)
    assertP ((bytesSet q.2).card = q.1.length)

/-- `test_data_distribution_bit_reverse_order`, cosets.rs:279-303 -/
def testDataDistributionBitReverseOrder (n : Nat) (originalData : List Fr) : Outcome ε Unit := do
  let bitReversed ← reverseBitOrder originalData
  let domain ← Domain.new n
  let polyCoeff ← domain.ifftScalars bitReversed
  let extendedDomain ← Domain.new (n * 2)
  let extended ← extendedDomain.fftScalars polyCoeff
  let extended ← reverseBitOrder extended
  let first ← slice extended 0 originalData.length
  assertP (first = originalData)

/-- `test_data_distribution_original_cosets`, cosets.rs:306-371 -/
def testDataDistributionOriginalCosets (n pointsPerCoset : Nat) (originalData : List Fr) : Outcome ε Unit := do
  let domain ← Domain.new n
  let polyCoeff ← domain.ifftScalars originalData
  let cosets ← generateCosets (n * 2) pointsPerCoset false
  let cosetEvaluations := cosets.map fun coset => coset.map fun x => polyEval polyCoeff x
  let extendedDomain ← Domain.new (n * 2)
  let extended ← extendedDomain.fftScalars polyCoeff
  let got := takeEveryNth extended (n * 2 / pointsPerCoset)
  assertP (got = cosetEvaluations)
  let transposed ← transpose got
  let even := (transposed.flatten.zipIdx.filter fun q => q.2 % 2 = 0).map Prod.fst
  let first ← slice even 0 originalData.length
  assertP (first = originalData)

/-- `check_valid_cosets`, cosets.rs:374-398 -/
def checkValidCosets (numPoints numPointsPerCoset : Nat) : Outcome ε Unit := do
  let cosets ← generateCosets numPoints numPointsPerCoset false
  let flattened := cosets.flatten
  assertP (flattened.length = (bytesSet flattened).card)
  let domain ← Domain.new numPoints
  assertP (bytesSet domain.roots = bytesSet flattened)

/-- `show_data_distribution_on_recover_evaluations_in_domain_order`, cosets.rs:401-479: 8 cosets of 4 values, of which numbers 0
and 3 are missing. Setting them to zero does not matter, since they are then left out. -/
def showDataDistribution (evaluations : List Fr) : Outcome ε Unit := do
  let split := chunks 4 evaluations
  let kept := (split.zipIdx.filter fun q => q.2 ≠ 0 ∧ q.2 ≠ 3).map Prod.fst
  let indices := (List.range 8).filter fun i => i ≠ 0 ∧ i ≠ 3
  let r ← recoverEvaluationsInDomainOrder 32 indices kept
  let (normalIndices, normalEvaluations) ← expect r
  let bits ← log2u32 8
  let missing0 := reverseBits 0 bits
  let missing3 := reverseBits 3 bits
  (chunks 8 normalEvaluations).forM fun block => block.zipIdx.forM fun q =>
    if q.2 = missing0 ∨ q.2 = missing3 then assertP (q.1 = 0) else assertP (q.1 ≠ 0)
  assertP (¬ normalIndices.contains missing0)
  assertP (¬ normalIndices.contains missing3)

/-- `u32::reverse_bits` -/
def reverseBits32 (n : Nat) : Nat := (List.range 32).foldl (fun acc i => acc + (n / 2 ^ i % 2) * 2 ^ (31 - i)) 0

/-- `naive_bit_reverse`, cosets.rs:483-487 -/
def naiveBitReverse (n l : Nat) : Outcome ε Nat := do
  assertP (isPow2 l = true)
  let numBits := trailingZeros32 l
  pure (reverseBits32 n >>> (32 - numBits))

/-- `bit_reverse_fuzz`, cosets.rs:482-496: exponents 1 to 30 -/
def bitReverseFuzz (count : Nat) : Outcome ε Unit :=
  (List.range count).forM fun i => (List.range 30).forM fun e => do
    let k := 2 ^ (e + 1)
    let expected ← naiveBitReverse i k
    let l ← log2u32 k
    assertP (expected = reverseBits i l % 2 ^ 32)

/-- `test_compute_powers`, verifier.rs:371-386 -/
def testComputePowers (base : Fr) : Outcome ε Unit := do
  let powers := computePowers base 5
  assertP (powers.length = 5)
  (List.range 5).forM fun i => do
    let p ← idx powers i
    assertP (p = base ^ i)
  assertP (computePowers base 0 = [])

/-- `check_divide_by_monomial_floor`, fk20/naive.rs:118-123 -/
def checkDivideByMonomialFloor (poly : List Fr) (degree : Nat) (expected : List Fr) : Outcome ε Unit := do
  let r ← shiftPolynomial poly degree
  assertP (r = expected)

/-- `is_toeplitz`, toeplitz.rs:268-285 -/
def isToeplitz (matrix : List (List Fr)) : Outcome ε Bool :=
  match matrix with
  | [] => pure false
  | r0 :: _ =>
    if r0.isEmpty then pure false
    else (List.range (matrix.length - 1)).foldlM (fun b i => (List.range (r0.length - 1)).foldlM (fun b j => do
      let r ← idx matrix i
      let r' ← idx matrix (i + 1)
      let x ← idx r j
      let x' ← idx r' (j + 1)
      pure (b && x == x')) b) true

/-- `smoke_test_check_dense_toeplitz_matrix_construction`, toeplitz.rs:288-314; the first argument of `new` is the row -/
def smokeTestCheckDenseToeplitzMatrixConstruction (first second : List Fr) (changed : Fr) : Outcome ε Unit := do
  let tm ← ToeplitzMatrix.new first second
  let dm ← denseFromToeplitz tm
  let b ← isToeplitz dm
  assertP (b = true)
  let r0 ← idx dm 0
  let r0 ← setIdx r0 0 changed
  let dm ← setIdx dm 0 r0
  let b ← isToeplitz dm
  assertP (b = false)

/-- `smoke_test_dense_matrix_vector_mul`, toeplitz.rs:317-337 -/
def smokeTestDenseMatrixVectorMul (row col vector expected : List Fr) : Outcome ε Unit := do
  let tm ← ToeplitzMatrix.new row col
  let dm ← denseFromToeplitz tm
  let got ← denseVectorMulScalar dm vector
  assertP (got = expected)

/-- `smoke_test_circulant_matrix`, toeplitz.rs:340-366; the first argument of `new` is the row -/
def smokeTestCirculantMatrix (first second vector : List Fr) : Outcome ε Unit := do
  let tm ← ToeplitzMatrix.new first second
  let dm ← denseFromToeplitz tm
  let got ← tm.vectorMulScalars vector
  let expected ← denseVectorMulScalar dm vector
  assertP (got = expected)

/-! `erasure_codes/src/reed_solomon.rs` -/

/-- `test_compute_vanishing_panics`, reed_solomon.rs:351-362 (should panic) -/
def testComputeVanishingPanics (polyLen expansionFactor blockSize : Nat) : Outcome ε Unit := do
  let rs ← ReedSolomon.new polyLen expansionFactor blockSize
  let _ ← rs.constructVanishingPolyFromBlockErasures (List.range blockSize)
  pure ()

/-- `smoke_test_recovery_no_erasures`, reed_solomon.rs:365-382 -/
def smokeTestRecoveryNoErasures (polyLen expansionFactor blockSize : Nat) (polyCoeff : List Fr) : Outcome ε Unit := do
  let rs ← ReedSolomon.new polyLen expansionFactor blockSize
  let codewords ← unwrap (rs.encode polyCoeff)
  assertP (codewords.length = polyLen * expansionFactor)
  let got ← unwrap (rs.recoverPolynomialCoefficient codewords [])
  assertP (got.length = polyCoeff.length)
  assertP (got = polyCoeff)

/-- `test_vanishing_poly_erasure_pattern_block_synchronized`, reed_solomon.rs:385-414 -/
def testVanishingPolyBlockSynchronized (polyLen expansionFactor blockSize : Nat) (indices : List Nat) : Outcome ε Unit := do
  let rs ← ReedSolomon.new polyLen expansionFactor blockSize
  let z ← rs.constructVanishingPolyFromBlockErasures indices
  assertP (z.length = polyLen * expansionFactor)
  let evals ← rs.evaluationDomain.fftScalars z
  let blocks := chunks blockSize evals
  assertP (blocks.length = rs.numBlocks)
  blocks.forM fun block => (List.range blockSize).forM fun index => do
    let v ← idx block index
    if indices.contains index then assertP (v = 0) else assertP (v ≠ 0)

/-- `test_vanishing_poly_erasure_pattern_equiv_random`, reed_solomon.rs:417-445 -/
def testVanishingPolyEquivRandom (polyLen expansionFactor blockSize : Nat) (indices : List Nat) : Outcome ε Unit := do
  let rs ← ReedSolomon.new polyLen expansionFactor blockSize
  let got ← rs.constructVanishingPolyFromBlockErasures indices
  let gotLagrange ← rs.evaluationDomain.fftScalars got
  let blocks := chunks blockSize gotLagrange
  let all := indices.flatMap fun index => (List.range blocks.length).map fun i => index + i * blockSize
  let z ← rs.constructVanishingPolyRandom all
  let expectedLagrange ← rs.evaluationDomain.fftScalars z
  assertP (expectedLagrange = gotLagrange)

/-- `smoke_test_recovery_upto_num_acceptable_random_erasures`, reed_solomon.rs:448-479 -/
def smokeTestRecoveryRandomErasures (polyLen expansionFactor blockSize : Nat) (polyCoeff : List Fr) : Outcome ε Unit := do
  let rs ← ReedSolomon.new polyLen expansionFactor blockSize
  let original ← unwrap (rs.encode polyCoeff)
  (List.range (rs.acceptableNumRandomErasures + 1)).forM fun numErasures => do
    let erased ← (List.range numErasures).foldlM (fun cw index => setIdx cw index (0 : Fr)) original
    let recovered ← unwrap (rs.recoverPolynomialCoefficientRandomErasure erased (List.range numErasures))
    assertP (recovered.length = polyCoeff.length)
    assertP (recovered = polyCoeff)

/-- `smoke_test_recovery_upto_num_acceptable_block_erasures`, reed_solomon.rs:482-529 -/
def smokeTestRecoveryBlockErasures (polyLen expansionFactor blockSize : Nat) (polyCoeff : List Fr) : Outcome ε Unit := do
  let rs ← ReedSolomon.new polyLen expansionFactor blockSize
  let original ← unwrap (rs.encode polyCoeff)
  (List.range (blockSize + 1)).forM fun numBlockErasures => do
    let blocks := chunks blockSize original
    let blocks ← (List.range numBlockErasures).foldlM (fun blocks index =>
      blocks.mapM fun (block : List Fr) => setIdx block index (0 : Fr)) blocks
    let acceptable ← rs.acceptableNumBlockErasures
    match rs.recoverPolynomialCoefficient blocks.flatten (List.range numBlockErasures) with
    | .panic => .panic
    | .ok recovered => do
      assertP (numBlockErasures ≤ acceptable)
      assertP (recovered.length = polyCoeff.length)
      assertP (recovered = polyCoeff)
    | .err _ => assertP (acceptable < numBlockErasures)

/-! `eip7594/src` -/

/-- `test_deduplicate_with_indices`, verifier.rs:178-189 -/
def testDeduplicateWithIndices (input expectedVec : List Int) (expectedIndices : List Nat) : Outcome ε Unit := do
  let r := deduplicateWithIndices input
  assertP (expectedVec = r.1)
  assertP (expectedIndices = r.2)

/-- `test_cell_indices_unique`, recovery.rs:159-168: the lists said to be free of repetitions and the others are parameters -/
def testCellIndicesUnique (distinct repeated : List (List Nat)) : Outcome ε Unit := do
  distinct.forM fun l => assertP (areCellIndicesUnique l = true)
  repeated.forM fun l => assertP (areCellIndicesUnique l = false)

end Verif.UnitTests
