import Verif.Model.Fk20Prover
import Verif.Model.PolyCoeff
import Verif.Model.Errors

/-! Model of `verification_key.rs` and `fk20/verifier.rs`. -/
namespace Verif

/-- The pairing `e : G1 × G2 → GT` of blstrs, a parameter of the model. `GT` is written additively. -/
class Pairing (G1 G2 : Type) (GT : outParam Type) where
  pair : G1 → G2 → GT

export Pairing (pair)

/-- Bilinearity of the pairing, used by theorems. -/
class LawfulPairing (G1 G2 : Type) (GT : outParam Type) [AddCommGroup G1] [Module Fr G1] [AddCommGroup G2] [Module Fr G2]
    [AddCommGroup GT] [Pairing G1 G2 GT] : Prop where
  pair_add_left : ∀ (a b : G1) (c : G2), pair (a + b) c = (pair a c + pair b c : GT)
  pair_add_right : ∀ (a : G1) (b c : G2), pair a (b + c) = (pair a b + pair a c : GT)
  pair_smul : ∀ (s : Fr) (a : G1) (b : G2), (pair (s • a) b : GT) = pair a (s • b)

/-- `VerificationKey`, verification_key.rs:8-33 -/
structure VerificationKey (G1 G2 : Type) where
  g1s : List G1
  g2s : List G2
  g2Gen : G2
  cosetSize : Nat
  numCoefficientsInPolynomial : Nat

/-- `FK20Verifier`, fk20/verifier.rs:38-54 -/
structure FK20Verifier (G1 G2 : Type) where
  verificationKey : VerificationKey G1 G2
  cosetGensBitReversed : List Fr
  cosetDomain : Domain
  tauPowN : G2
  negG2Gen : G2
  bitReversedCosetGensPowN : List Fr
  bitReversedCosetFftGens : List CosetFFT

variable {ε : Type}

/-- `compute_powers`, fk20/verifier.rs:311-323 -/
def computePowers (value : Fr) (numElements : Nat) : List Fr :=
  ((List.range numElements).foldl (fun (st : List Fr × Fr) _ => (st.1 ++ [st.2], st.2 * value)) ([], 1)).1

/-- Body of the loop of `compute_sum_interpolation_poly`, fk20/verifier.rs:337-360 -/
def sumInterpolationStep (cosetDomain : Domain) (cosetFftGens : List CosetFFT) (acc : List Fr)
    (q : (List Fr × Nat) × Fr) : Outcome ε (List Fr) := do
  let cosetEval ← reverseBitOrder q.1.1
  let cosetGen ← idx cosetFftGens q.1.2
  let ifftScalars ← cosetDomain.cosetIfftScalars cosetEval cosetGen
  let scaled := ifftScalars.map (fun c => c * q.2)
  polyAdd acc scaled

/-- `compute_sum_interpolation_poly`, fk20/verifier.rs:328-363 -/
def computeSumInterpolationPoly (cosetDomain : Domain) (cosetFftGens : List CosetFFT)
    (cosetEvals : List (List Fr)) (cosetIndices : List Nat) (rPowers : List Fr) : Outcome ε (List Fr) :=
  ((cosetEvals.zip cosetIndices).zip rPowers).foldlM (sumInterpolationStep cosetDomain cosetFftGens) []

section
variable {G1 G2 GT : Type} [AddCommGroup G1] [Module Fr G1] [DecidableEq G1] [PointCodec G1]
  [AddCommGroup G2] [Module Fr G2] [AddCommGroup GT] [DecidableEq GT] [Pairing G1 G2 GT]

/-- `VerificationKey::new`, verification_key.rs:36-56 -/
def VerificationKey.new (g1s : List G1) (g2s : List G2) (cosetSize numCoefficients : Nat) :
    Outcome ε (VerificationKey G1 G2) := do
  let g2Gen ← idx g2s 0
  assertP (cosetSize < g2s.length)
  pure { g1s := g1s, g2s := g2s, g2Gen := g2Gen, cosetSize := cosetSize,
         numCoefficientsInPolynomial := numCoefficients }

/-- `VerificationKey::commit_g1`, verification_key.rs:66-70 -/
def VerificationKey.commitG1 (vk : VerificationKey G1 G2) (polynomial : List Fr) : Outcome ε G1 := do
  assertP (vk.g1s.length ≥ polynomial.length)
  let pts ← slice vk.g1s 0 polynomial.length
  expect (lincomb pts polynomial)

/-- `FK20Verifier::new`, fk20/verifier.rs:57-94 -/
def FK20Verifier.new (vk : VerificationKey G1 G2) (numPointsToOpen numCosets : Nat) :
    Outcome ε (FK20Verifier G1 G2) := do
  let gens ← cosetGens numPointsToOpen numCosets true
  assertP (numCosets ≠ 0) -- division by zero
  let cosetSize := numPointsToOpen / numCosets
  assertP (vk.g2s.length ≥ cosetSize)
  let cosetDomain ← Domain.new vk.cosetSize
  let n := vk.cosetSize
  let tauPowN ← idx vk.g2s n
  let negG2Gen := -vk.g2Gen
  let gensPowN := gens.map (fun g => g ^ n)
  let cosetFftGens ← gens.mapM CosetFFT.new
  pure { verificationKey := vk
         cosetGensBitReversed := gens
         cosetDomain := cosetDomain
         tauPowN := tauPowN
         negG2Gen := negG2Gen
         bitReversedCosetGensPowN := gensPowN
         bitReversedCosetFftGens := cosetFftGens }

/-- The bytes of `"RCKZGCBATCH__V1_"`, fk20/verifier.rs:255 -/
def DOMAIN_SEP : List UInt8 :=
  [0x52, 0x43, 0x4b, 0x5a, 0x47, 0x43, 0x42, 0x41, 0x54, 0x43, 0x48, 0x5f, 0x5f, 0x56, 0x31, 0x5f]

/-- The transcript of one opening, fk20/verifier.rs:284-289 -/
def transcriptItem (rowIndices cosetIndices : List Nat) (cosetEvals : List (List Fr)) (proofs : List G1)
    (k : Nat) : Outcome ε (List UInt8) := do
  let rowIndex ← idx rowIndices k
  let cosetIndex ← idx cosetIndices k
  let evals ← idx cosetEvals k
  let proof ← idx proofs k
  pure (natToBE 8 rowIndex ++ natToBE 8 cosetIndex ++ (evals.map scalarToBytesBE).flatten ++ toCompressed proof)

/-- `hash_input` of `compute_fiat_shamir_challenge`, fk20/verifier.rs:256-292 -/
def fiatShamirHashInput (vk : VerificationKey G1 G2) (rowCommitments : List G1)
    (rowIndices cosetIndices : List Nat) (cosetEvals : List (List Fr)) (proofs : List G1) :
    Outcome ε (List UInt8) := do
  let hashInputSize := DOMAIN_SEP.length + 8 + 8 + 8 + 8 + rowCommitments.length * 48
    + rowIndices.length * 8 + cosetIndices.length * 8 + cosetEvals.length * vk.cosetSize * 32
    + proofs.length * 48
  let items ← (List.range cosetIndices.length).mapM (transcriptItem rowIndices cosetIndices cosetEvals proofs)
  let hashInput := DOMAIN_SEP ++ natToBE 8 vk.numCoefficientsInPolynomial ++ natToBE 8 vk.cosetSize
    ++ natToBE 8 rowCommitments.length ++ natToBE 8 cosetIndices.length
    ++ (rowCommitments.map toCompressed).flatten ++ items.flatten
  assertP (hashInput.length = hashInputSize)
  pure hashInput

/-- `compute_fiat_shamir_challenge`, fk20/verifier.rs:247-306; `sha256` is a parameter. -/
def computeFiatShamirChallenge (sha256 : List UInt8 → List UInt8) (vk : VerificationKey G1 G2)
    (rowCommitments : List G1) (rowIndices cosetIndices : List Nat) (cosetEvals : List (List Fr))
    (proofs : List G1) : Outcome ε Fr := do
  let hashInput ← fiatShamirHashInput vk rowCommitments rowIndices cosetIndices cosetEvals proofs
  pure (reduceBytesToScalarBias (sha256 hashInput))

/-- `multi_pairings` on two pairs, bls12_381/src/lib.rs:26-31 -/
def multiPairings2 (a : G1) (p : G2) (b : G1) (q : G2) : Bool := decide (pair a p + pair b q = (0 : GT))

/-- weights loop, fk20/verifier.rs:194-197 -/
def commitmentWeights (numUnique : Nat) (commitmentIndices : List Nat) (rPowers : List Fr) :
    Outcome ε (List Fr) :=
  (commitmentIndices.zip rPowers).foldlM (fun weights (q : Nat × Fr) => do
    let w ← idx weights q.1
    setIdx weights q.1 (w + q.2)) (List.replicate numUnique 0)

/-- weighted powers loop, fk20/verifier.rs:170-176 -/
def weightedRPowers (gensPowN : List Fr) (cosetIndices : List Nat) (rPowers : List Fr) :
    Outcome ε (List Fr) :=
  (cosetIndices.zip rPowers).mapM (fun q => do
    let g ← idx gensPowN q.1
    pure (q.2 * g))

/-- `FK20Verifier::verify_multi_opening`, fk20/verifier.rs:115-238 -/
def FK20Verifier.verifyMultiOpening (sha256 : List UInt8 → List UInt8) (v : FK20Verifier G1 G2)
    (deduplicatedCommitments : List G1) (commitmentIndices cosetIndices : List Nat)
    (cosetEvals : List (List Fr)) (proofs : List G1) : Outcome FK20VerifierError Unit := do
  assertP (commitmentIndices.length = proofs.length)
  assertP (cosetIndices.length = proofs.length)
  assertP (cosetEvals.length = proofs.length)
  let batchSize := cosetIndices.length
  let r ← computeFiatShamirChallenge sha256 v.verificationKey deduplicatedCommitments commitmentIndices
    cosetIndices cosetEvals proofs
  let rPowers := computePowers r batchSize
  let numUniqueCommitments := deduplicatedCommitments.length
  let commRandomSumProofs ← expect (lincomb proofs rPowers)
  let weighted ← weightedRPowers v.bitReversedCosetGensPowN cosetIndices rPowers
  let randomWeightedSumProofs ← expect (lincomb proofs weighted)
  let weights ← commitmentWeights numUniqueCommitments commitmentIndices rPowers
  let randomSumCommitments ← expect (lincomb deduplicatedCommitments weights)
  let interp ← computeSumInterpolationPoly v.cosetDomain v.bitReversedCosetFftGens cosetEvals cosetIndices rPowers
  let commInterp ← v.verificationKey.commitG1 interp
  let pairingInputG1 := (randomSumCommitments - commInterp) + randomWeightedSumProofs
  if multiPairings2 commRandomSumProofs v.tauPowN pairingInputG1 v.negG2Gen then pure ()
  else .err .InvalidProof

end

end Verif
