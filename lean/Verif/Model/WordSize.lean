import Verif.Model.Api

/-!
The input-dependent machine arithmetic of the library on a target whose `usize` has `bits` bits. The other models compute with
unbounded numbers; here the same functions are written again with every conversion from `u64` to `usize` and every `usize` operation
whose operands depend on the caller's data made explicit. Sizes that are constants (domains, blobs, cells, windows) are left as they
are. Conversions from `usize` to `u64` change nothing for up to 64 bits.
-/
namespace Verif

/-- A target: the width of `usize`, and whether overflow is checked (`debug` profile: panic) or wraps (`release` profile; /repo/Cargo.toml
sets only `lto` for it). -/
structure Platform where
  bits : Nat
  overflowChecks : Bool

/-- `x as usize` for `x : u64` -/
def Platform.asUsize (m : Platform) (n : Nat) : Nat := n % 2 ^ m.bits

/-- the result `n` of an operation on `usize` -/
def Platform.usize {ε : Type} (m : Platform) (n : Nat) : Outcome ε Nat :=
  if n < 2 ^ m.bits then pure n else if m.overflowChecks then .panic else pure (n % 2 ^ m.bits)

/-- `a + b` on `usize` -/
def Platform.add {ε : Type} (m : Platform) (a b : Nat) : Outcome ε Nat := m.usize (a + b)

/-- `a * b` on `usize` -/
def Platform.mul {ε : Type} (m : Platform) (a b : Nat) : Outcome ε Nat := m.usize (a * b)

/-- `recover_polynomial_coeff`, recovery.rs:14-62, with the conversion of line 28 -/
def recoverPolynomialCoeffOn (m : Platform) (rs : ReedSolomon) (cellIndices : List Nat) (cells : List (List UInt8)) :
    Outcome Error (List Fr) := do
  (validateRecover cellIndices cells).mapErr Error.Recovery
  let cosetEvaluations ← (deserializeCells cells).mapErr Error.Serialization
  let cellIndices := cellIndices.map m.asUsize
  let res ← recoverEvaluationsInDomainOrder FIELD_ELEMENTS_PER_EXT_BLOB cellIndices cosetEvaluations
  let (cellIndicesNormalOrder, flattened) ← expect res
  let missing := findMissingCellIndices cellIndicesNormalOrder
  (rs.recoverPolynomialCoefficient flattened missing).mapErr (fun e => Error.Recovery (.ReedSolomon e))

/-- Body of the loop of `compute_sum_interpolation_poly`, fk20/verifier.rs:337-360, with the conversion of line 349 -/
def sumInterpolationStepOn {ε : Type} (m : Platform) (cosetDomain : Domain) (cosetFftGens : List CosetFFT) (acc : List Fr)
    (q : (List Fr × Nat) × Fr) : Outcome ε (List Fr) := do
  let cosetEval ← reverseBitOrder q.1.1
  let cosetGen ← idx cosetFftGens (m.asUsize q.1.2)
  let ifftScalars ← cosetDomain.cosetIfftScalars cosetEval cosetGen
  let scaled := ifftScalars.map (fun c => c * q.2)
  polyAdd acc scaled

/-- `compute_sum_interpolation_poly`, fk20/verifier.rs:328-363 -/
def computeSumInterpolationPolyOn {ε : Type} (m : Platform) (cosetDomain : Domain) (cosetFftGens : List CosetFFT)
    (cosetEvals : List (List Fr)) (cosetIndices : List Nat) (rPowers : List Fr) : Outcome ε (List Fr) :=
  ((cosetEvals.zip cosetIndices).zip rPowers).foldlM (sumInterpolationStepOn m cosetDomain cosetFftGens) []

/-- weights loop, fk20/verifier.rs:194-197, with the conversion of line 196 -/
def commitmentWeightsOn {ε : Type} (m : Platform) (numUnique : Nat) (commitmentIndices : List Nat) (rPowers : List Fr) :
    Outcome ε (List Fr) :=
  (commitmentIndices.zip rPowers).foldlM (fun weights (q : Nat × Fr) => do
    let w ← idx weights (m.asUsize q.1)
    setIdx weights (m.asUsize q.1) (w + q.2)) (List.replicate numUnique 0)

/-- weighted powers loop, fk20/verifier.rs:170-176, with the conversion of line 174 -/
def weightedRPowersOn {ε : Type} (m : Platform) (gensPowN : List Fr) (cosetIndices : List Nat) (rPowers : List Fr) :
    Outcome ε (List Fr) :=
  (cosetIndices.zip rPowers).mapM (fun q => do
    let g ← idx gensPowN (m.asUsize q.1)
    pure (q.2 * g))

section
variable {K G1 G2 GT : Type} [Field K] [DecidableEq K] [AddCommGroup G1] [Module Fr G1] [DecidableEq G1]
  [Curve K G1] [PointCodec G1] [AddCommGroup G2] [Module Fr G2] [AddCommGroup GT] [DecidableEq GT]
  [Pairing G1 G2 GT]

/-- `hash_input_size`, fk20/verifier.rs:256-265: the products and then the sums, from left to right -/
def hashInputSizeOn {ε : Type} (m : Platform) (cosetSize numCommitments numRows numCosets numEvals numProofs : Nat) :
    Outcome ε Nat := do
  let head ← m.add DOMAIN_SEP.length 8
  let head ← m.add head 8
  let head ← m.add head 8
  let head ← m.add head 8
  let a ← m.mul numCommitments 48
  let s ← m.add head a
  let a ← m.mul numRows 8
  let s ← m.add s a
  let a ← m.mul numCosets 8
  let s ← m.add s a
  let a ← m.mul numEvals cosetSize
  let a ← m.mul a 32
  let s ← m.add s a
  let a ← m.mul numProofs 48
  m.add s a

/-- `hash_input` of `compute_fiat_shamir_challenge`, fk20/verifier.rs:256-292, with the conversions of lines 284-289 -/
def fiatShamirHashInputOn {ε : Type} (m : Platform) (vk : VerificationKey G1 G2) (rowCommitments : List G1)
    (rowIndices cosetIndices : List Nat) (cosetEvals : List (List Fr)) (proofs : List G1) :
    Outcome ε (List UInt8) := do
  let hashInputSize ← hashInputSizeOn m vk.cosetSize rowCommitments.length rowIndices.length cosetIndices.length
    cosetEvals.length proofs.length
  let items ← (List.range cosetIndices.length).mapM (fun k =>
    transcriptItem rowIndices cosetIndices cosetEvals proofs (m.asUsize k))
  let hashInput := DOMAIN_SEP ++ natToBE 8 vk.numCoefficientsInPolynomial ++ natToBE 8 vk.cosetSize
    ++ natToBE 8 rowCommitments.length ++ natToBE 8 cosetIndices.length
    ++ (rowCommitments.map toCompressed).flatten ++ items.flatten
  assertP (hashInput.length = hashInputSize)
  pure hashInput

/-- `FK20Verifier::verify_multi_opening`, fk20/verifier.rs:115-238 -/
def FK20Verifier.verifyMultiOpeningOn (m : Platform) (sha256 : List UInt8 → List UInt8) (v : FK20Verifier G1 G2)
    (deduplicatedCommitments : List G1) (commitmentIndices cosetIndices : List Nat)
    (cosetEvals : List (List Fr)) (proofs : List G1) : Outcome FK20VerifierError Unit := do
  assertP (commitmentIndices.length = proofs.length)
  assertP (cosetIndices.length = proofs.length)
  assertP (cosetEvals.length = proofs.length)
  let batchSize := cosetIndices.length
  let hashInput ← fiatShamirHashInputOn m v.verificationKey deduplicatedCommitments commitmentIndices
    cosetIndices cosetEvals proofs
  let r := reduceBytesToScalarBias (sha256 hashInput)
  let rPowers := computePowers r batchSize
  let numUniqueCommitments := deduplicatedCommitments.length
  let commRandomSumProofs ← expect (lincomb proofs rPowers)
  let weighted ← weightedRPowersOn m v.bitReversedCosetGensPowN cosetIndices rPowers
  let randomWeightedSumProofs ← expect (lincomb proofs weighted)
  let weights ← commitmentWeightsOn m numUniqueCommitments commitmentIndices rPowers
  let randomSumCommitments ← expect (lincomb deduplicatedCommitments weights)
  let interp ← computeSumInterpolationPolyOn m v.cosetDomain v.bitReversedCosetFftGens cosetEvals cosetIndices rPowers
  let commInterp ← v.verificationKey.commitG1 interp
  let pairingInputG1 := (randomSumCommitments - commInterp) + randomWeightedSumProofs
  if multiPairings2 commRandomSumProofs v.tauPowN pairingInputG1 v.negG2Gen then pure ()
  else .err .InvalidProof

/-- `recover_cells_and_kzg_proofs`, prover.rs:122-141 -/
def DASContext.recoverCellsAndKzgProofsOn (m : Platform) (ctx : DASContext K G1 G2) (cellIndices : List Nat)
    (cells : List (List UInt8)) : Outcome Error (List (List UInt8) × List (List UInt8)) := do
  let polyCoeff ← recoverPolynomialCoeffOn m ctx.proverCtx.rs cellIndices cells
  let (proofs, cosetEvaluations) ←
    ctx.proverCtx.kzgMultipointProver.computeMultiOpeningProofs (.polyCoeff polyCoeff)
  serializeCellsAndProofs cosetEvaluations proofs

/-- `verify_cell_kzg_proof_batch`, verifier.rs:75-121 -/
def DASContext.verifyCellKzgProofBatchOn (m : Platform) (sha256 : List UInt8 → List UInt8) (ctx : DASContext K G1 G2)
    (commitments : List (List UInt8)) (cellIndices : List Nat) (cells proofsBytes : List (List UInt8)) :
    Outcome Error Unit := do
  let (deduplicatedCommitments, rowIndices) := deduplicateWithIndices commitments
  (validateVerify deduplicatedCommitments rowIndices cellIndices cells proofsBytes).mapErr Error.Verifier
  if cells.isEmpty then pure ()
  else do
    let rowCommitments : List G1 ←
      (deserializeCompressedG1Points deduplicatedCommitments).mapErr Error.Serialization
    let proofs : List G1 ← (deserializeCompressedG1Points proofsBytes).mapErr Error.Serialization
    let cosetEvals ← (deserializeCells cells).mapErr Error.Serialization
    (ctx.verifierCtx.kzgMultipointVerifier.verifyMultiOpeningOn m sha256 rowCommitments rowIndices cellIndices
      cosetEvals proofs).mapErr (fun e => Error.Verifier (.FK20 e))

end

end Verif
