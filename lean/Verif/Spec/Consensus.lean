import Mathlib.LinearAlgebra.Lagrange
import Verif.Model.Field
import Verif.Model.Bytes
import Verif.Model.Fk20Verifier
import Verif.Spec.BitRev
import Verif.Spec.Bytes

/-!
The Ethereum consensus specification of EIP-4844 and EIP-7594, transliterated from Python: the documents
`specs/deneb/polynomial-commitments.md` and `specs/_features/eip7594/polynomial-commitments-sampling.md` at the commit
`13ac373a2c284dc66b48ddd2ef0a10537e4e0de6` which /repo/eip7594/src/prover.rs:76, 95, 121 and verifier.rs:74 name as what the
Rust functions implement. It shares nothing with the model but the scalar field, the point codec and the pairing.

A failed `assert` is `none`. Simplifications:
* group elements are decoded when they enter and encoded when they leave, where Python keeps them as bytes throughout;
* `bytes_to_kzg_commitment`/`bytes_to_kzg_proof` (key validation) are the point decoder, a parameter as in the model;
* loops are folds over `List.range`, slices are `take`/`drop`; an index out of range, which never occurs, reads zero;
* `int.to_bytes(_, 8)` is reduced modulo `2^64` where Python raises;
* `hash` is a parameter.
-/
namespace Verif.Consensus

/-- `bytes_to_bls_field` -/
def bytesToBlsField (b : List UInt8) : Option Fr :=
  if Spec.beValue b < frOrder then some (Spec.beValue b : Nat) else none

/-- `int.to_bytes(v, n, 'big')` -/
def intToBytes (n v : Nat) : List UInt8 := (List.range n).map (fun i => UInt8.ofNat (v / 256 ^ (n - 1 - i) % 256))

/-- `bls_field_to_bytes` -/
def blsFieldToBytes (x : Fr) : List UInt8 := intToBytes 32 x.val

/-- `reverse_bits(n, order)` for a power of two `order` -/
def reverseBits (n order : Nat) : Nat := Spec.brev (Nat.log2 order) n

/-- `bit_reversal_permutation` -/
def bitReversalPermutation {α : Type} [Zero α] (sequence : List α) : List α :=
  (List.range sequence.length).map (fun i => sequence.getD (reverseBits i sequence.length) 0)

/-- `compute_powers` -/
def computePowers (x : Fr) (n : Nat) : List Fr := (List.range n).map (fun i => x ^ i)

/-- `compute_roots_of_unity` -/
def computeRootsOfUnity (order : Nat) : List Fr := computePowers (7 ^ ((frOrder - 1) / order)) order

/-- `vals[::2]` -/
def evens {α : Type} : List α → List α
  | [] => []
  | [a] => [a]
  | a :: _ :: l => a :: evens l

/-- `vals[1::2]` -/
def odds {α : Type} : List α → List α
  | [] => []
  | [_] => []
  | _ :: b :: l => b :: odds l

/-- `_fft_field`; the first argument bounds the depth of the recursion -/
def fftFieldRec : Nat → List Fr → List Fr → List Fr
  | 0, vals, _ => vals
  | depth + 1, vals, roots =>
    if vals.length = 1 then vals
    else
      let L := fftFieldRec depth (evens vals) (evens roots)
      let R := fftFieldRec depth (odds vals) (evens roots)
      (List.range L.length).map (fun i => L.getD i 0 + R.getD i 0 * roots.getD i 0) ++
        (List.range L.length).map (fun i => L.getD i 0 - R.getD i 0 * roots.getD i 0)

/-- `fft_field(vals, roots_of_unity)` -/
def fftField (vals roots : List Fr) : List Fr := fftFieldRec vals.length vals roots

/-- `fft_field(vals, roots_of_unity, inv=True)` -/
def ifftField (vals roots : List Fr) : List Fr :=
  (fftFieldRec vals.length vals (roots.take 1 ++ (roots.drop 1).reverse)).map (fun x => x * ((vals.length : Nat) : Fr)⁻¹)

/-- `shift_vals` of `coset_fft_field` -/
def shiftVals (vals : List Fr) (factor : Fr) : List Fr :=
  (List.range vals.length).map (fun i => vals.getD i 0 * factor ^ i)

/-- `coset_fft_field(vals, roots_of_unity)` -/
def cosetFftField (vals roots : List Fr) : List Fr := fftField (shiftVals vals 7) roots

/-- `coset_fft_field(vals, roots_of_unity, inv=True)` -/
def cosetIfftField (vals roots : List Fr) : List Fr := shiftVals (ifftField vals roots) 7⁻¹

/-- `add_polynomialcoeff` -/
def addPolynomialcoeff (a b : List Fr) : List Fr :=
  let (a, b) := if b.length ≤ a.length then (a, b) else (b, a)
  (List.range a.length).map (fun i => a.getD i 0 + (if i < b.length then b.getD i 0 else 0))

/-- `multiply_polynomialcoeff` -/
def multiplyPolynomialcoeff (a b : List Fr) : Option (List Fr) :=
  if a.length + b.length ≤ 8192 then
    some ((List.range a.length).foldl (fun r power =>
      addPolynomialcoeff r (List.replicate power 0 ++ b.map (fun x => a.getD power 0 * x))) [0])
  else none

/-- `divide_polynomialcoeff`: the loop runs over `diff` from `len(a) - len(b)` down to zero, with the list that is being
reduced and the quotient so far -/
def dividePolynomialcoeff (a b : List Fr) : List Fr :=
  ((List.range (a.length + 1 - b.length)).reverse.foldl (fun (s : List Fr × List Fr) diff =>
    let quot := s.1.getD (diff + (b.length - 1)) 0 / b.getD (b.length - 1) 0
    ((List.range s.1.length).map (fun k =>
      if diff ≤ k ∧ k < diff + b.length then s.1.getD k 0 - b.getD (k - diff) 0 * quot else s.1.getD k 0),
     quot :: s.2)) (a, [])).2

/-- `interpolate_polynomialcoeff` -/
def interpolatePolynomialcoeff (xs ys : List Fr) : Option (List Fr) :=
  if xs.length = ys.length then
    (List.range xs.length).foldlM (fun r i => do
      let summand ← (List.range ys.length).foldlM (fun summand j =>
        if j ≠ i then
          multiplyPolynomialcoeff summand [-((xs.getD i 0 - xs.getD j 0)⁻¹ * xs.getD j 0), (xs.getD i 0 - xs.getD j 0)⁻¹]
        else some summand) [ys.getD i 0]
      pure (addPolynomialcoeff r summand)) [0]
  else none

/-- `vanishing_polynomialcoeff` -/
def vanishingPolynomialcoeff (xs : List Fr) : Option (List Fr) :=
  xs.foldlM (fun p x => multiplyPolynomialcoeff p [-x, 1]) [1]

/-- `evaluate_polynomialcoeff` -/
def evaluatePolynomialcoeff (p : List Fr) (z : Fr) : Fr := p.reverse.foldl (fun y coef => y * z + coef) 0

/-- `blob_to_polynomial` -/
def blobToPolynomial (blob : List UInt8) : Option (List Fr) :=
  (List.range 4096).mapM (fun i => bytesToBlsField ((blob.drop (i * 32)).take 32))

/-- `polynomial_eval_to_coeff` -/
def polynomialEvalToCoeff (polynomial : List Fr) : List Fr :=
  ifftField (bitReversalPermutation polynomial) (computeRootsOfUnity 4096)

/-- `cell_to_coset_evals` -/
def cellToCosetEvals (cell : List UInt8) : Option (List Fr) :=
  (List.range 64).mapM (fun i => bytesToBlsField ((cell.drop (i * 32)).take 32))

/-- `coset_evals_to_cell` -/
def cosetEvalsToCell (cosetEvals : List Fr) : List UInt8 := (cosetEvals.map blsFieldToBytes).flatten

/-- `coset_shift_for_cell` -/
def cosetShiftForCell (cellIndex : Nat) : Option Fr :=
  if cellIndex < 128 then some ((bitReversalPermutation (computeRootsOfUnity 8192)).getD (64 * cellIndex) 0) else none

/-- `coset_for_cell` -/
def cosetForCell (cellIndex : Nat) : Option (List Fr) :=
  if cellIndex < 128 then
    some (((bitReversalPermutation (computeRootsOfUnity 8192)).drop (64 * cellIndex)).take 64)
  else none

section
variable {G1 G2 GT : Type} [AddCommGroup G1] [Module Fr G1] [PointCodec G1] [AddCommGroup G2] [Module Fr G2]
  [AddCommGroup GT] [DecidableEq GT] [Pairing G1 G2 GT]

/-- `g1_lincomb` -/
def g1Lincomb (points : List G1) (scalars : List Fr) : Option G1 :=
  if points.length = scalars.length then some ((points.zip scalars).map (fun p => p.2 • p.1)).sum else none

/-- `blob_to_kzg_commitment`; `g1Lagrange` is `KZG_SETUP_G1_LAGRANGE` -/
def blobToKzgCommitment (g1Lagrange : List G1) (blob : List UInt8) : Option (List UInt8) := do
  if blob.length = 131072 then
    let polynomial ← blobToPolynomial blob
    let c ← g1Lincomb (bitReversalPermutation g1Lagrange) polynomial
    some (toCompressed c)
  else none

/-- `compute_kzg_proof_multi_impl`; `g1` is `KZG_SETUP_G1_MONOMIAL` -/
def computeKzgProofMultiImpl (g1 : List G1) (polynomialCoeff zs : List Fr) : Option (List UInt8 × List Fr) := do
  let ys := zs.map (evaluatePolynomialcoeff polynomialCoeff)
  let denominatorPoly ← vanishingPolynomialcoeff zs
  let quotientPolynomial := dividePolynomialcoeff polynomialCoeff denominatorPoly
  let proof ← g1Lincomb (g1.take quotientPolynomial.length) quotientPolynomial
  some (toCompressed proof, ys)

/-- the loop of `compute_cells` -/
def computeCellsPolynomialcoeff (polynomialCoeff : List Fr) : Option (List (List UInt8)) :=
  (List.range 128).mapM (fun i => do
    let coset ← cosetForCell i
    some (cosetEvalsToCell (coset.map (evaluatePolynomialcoeff polynomialCoeff))))

/-- `compute_cells` -/
def computeCells (blob : List UInt8) : Option (List (List UInt8)) := do
  if blob.length = 131072 then
    let polynomial ← blobToPolynomial blob
    computeCellsPolynomialcoeff (polynomialEvalToCoeff polynomial)
  else none

/-- `compute_cells_and_kzg_proofs_polynomialcoeff` -/
def computeCellsAndKzgProofsPolynomialcoeff (g1 : List G1) (polynomialCoeff : List Fr) :
    Option (List (List UInt8) × List (List UInt8)) := do
  let both ← (List.range 128).mapM (fun i => do
    let coset ← cosetForCell i
    let (proof, ys) ← computeKzgProofMultiImpl g1 polynomialCoeff coset
    some (cosetEvalsToCell ys, proof))
  some (both.map Prod.fst, both.map Prod.snd)

/-- `compute_cells_and_kzg_proofs` -/
def computeCellsAndKzgProofs (g1 : List G1) (blob : List UInt8) : Option (List (List UInt8) × List (List UInt8)) := do
  if blob.length = 131072 then
    let polynomial ← blobToPolynomial blob
    computeCellsAndKzgProofsPolynomialcoeff g1 (polynomialEvalToCoeff polynomial)
  else none

/-- `construct_vanishing_polynomial` -/
def constructVanishingPolynomial (missingCellIndices : List Nat) : Option (List Fr) := do
  let rootsOfUnityReduced := computeRootsOfUnity 128
  let shortZeroPoly ← vanishingPolynomialcoeff
    (missingCellIndices.map (fun i => rootsOfUnityReduced.getD (reverseBits i 128) 0))
  some ((List.range shortZeroPoly.length).foldl (fun z i => z.set (i * 64) (shortZeroPoly.getD i 0))
    (List.replicate 8192 0))

/-- `recover_polynomialcoeff` -/
def recoverPolynomialcoeff (cellIndices : List Nat) (cosetsEvals : List (List Fr)) : Option (List Fr) := do
  let rootsOfUnityExtended := computeRootsOfUnity 8192
  let extendedEvaluationRbo := (cellIndices.zip cosetsEvals).foldl (fun e p =>
    e.take (p.1 * 64) ++ p.2 ++ e.drop ((p.1 + 1) * 64)) (List.replicate 8192 0)
  let extendedEvaluation := bitReversalPermutation extendedEvaluationRbo
  let missingCellIndices := (List.range 128).filter (fun k => ¬ cellIndices.contains k)
  let zeroPolyCoeff ← constructVanishingPolynomial missingCellIndices
  let zeroPolyEval := fftField zeroPolyCoeff rootsOfUnityExtended
  let extendedEvaluationTimesZero := (zeroPolyEval.zip extendedEvaluation).map (fun p => p.1 * p.2)
  let extendedEvaluationTimesZeroCoeffs := ifftField extendedEvaluationTimesZero rootsOfUnityExtended
  let extendedEvaluationsOverCoset := cosetFftField extendedEvaluationTimesZeroCoeffs rootsOfUnityExtended
  let zeroPolyOverCoset := cosetFftField zeroPolyCoeff rootsOfUnityExtended
  let reconstructedPolyOverCoset := (extendedEvaluationsOverCoset.zip zeroPolyOverCoset).map (fun p => p.1 / p.2)
  let reconstructedPolyCoeff := cosetIfftField reconstructedPolyOverCoset rootsOfUnityExtended
  some (reconstructedPolyCoeff.take 4096)

/-- `recover_cells_and_kzg_proofs` -/
def recoverCellsAndKzgProofs (g1 : List G1) (cellIndices : List Nat) (cells : List (List UInt8)) :
    Option (List (List UInt8) × List (List UInt8)) := do
  if cellIndices.length = cells.length ∧ 128 / 2 ≤ cellIndices.length ∧ cellIndices.length ≤ 128 ∧ cellIndices.Nodup ∧
      (∀ i ∈ cellIndices, i < 128) ∧ (∀ c ∈ cells, c.length = 2048) then
    let cosetsEvals ← cells.mapM cellToCosetEvals
    let polynomialCoeff ← recoverPolynomialcoeff cellIndices cosetsEvals
    computeCellsAndKzgProofsPolynomialcoeff g1 polynomialCoeff
  else none

/-- `compute_verify_cell_kzg_proof_batch_challenge` -/
def computeChallenge (hash : List UInt8 → List UInt8) (commitments : List (List UInt8)) (commitmentIndices cellIndices : List Nat)
    (cosetsEvals : List (List Fr)) (proofs : List (List UInt8)) : Fr :=
  let hashinput := "RCKZGCBATCH__V1_".toUTF8.toList ++ intToBytes 8 4096 ++ intToBytes 8 64 ++
    intToBytes 8 commitments.length ++ intToBytes 8 cellIndices.length
  let hashinput := commitments.foldl (fun h c => h ++ c) hashinput
  let hashinput := (List.range cosetsEvals.length).foldl (fun h k =>
    h ++ intToBytes 8 (commitmentIndices.getD k 0) ++ intToBytes 8 (cellIndices.getD k 0) ++
      cosetEvalsToCell (cosetsEvals.getD k []) ++ proofs.getD k []) hashinput
  (Spec.beValue (hash hashinput) : Nat)

/-- `verify_cell_kzg_proof_batch_impl`; every commitment and proof comes as its bytes and the point they denote -/
def verifyCellKzgProofBatchImpl (hash : List UInt8 → List UInt8) (g1 : List G1) (g2 : List G2)
    (commitments : List (List UInt8 × G1)) (commitmentIndices cellIndices : List Nat) (cosetsEvals : List (List Fr))
    (proofs : List (List UInt8 × G1)) : Option Bool := do
  if commitmentIndices.length = cellIndices.length ∧ cellIndices.length = cosetsEvals.length ∧
      cosetsEvals.length = proofs.length ∧ (commitments.map Prod.fst).Nodup ∧
      (∀ i ∈ commitmentIndices, i < commitments.length) then
    let numCells := cellIndices.length
    let r := computeChallenge hash (commitments.map Prod.fst) commitmentIndices cellIndices cosetsEvals
      (proofs.map Prod.fst)
    let rPowers := computePowers r numCells
    let ll ← g1Lincomb (proofs.map Prod.snd) rPowers
    let lr := g2.getD 64 0
    let weights := (List.range numCells).foldl (fun w k =>
      w.set (commitmentIndices.getD k 0) (w.getD (commitmentIndices.getD k 0) 0 + rPowers.getD k 0))
      (List.replicate commitments.length 0)
    let rlc ← g1Lincomb (commitments.map Prod.snd) weights
    let sumInterpPolysCoeff ← (List.range numCells).foldlM (fun sum k => do
      let coset ← cosetForCell (cellIndices.getD k 0)
      let interpPolyCoeff ← interpolatePolynomialcoeff coset (cosetsEvals.getD k [])
      let interpPolyScaledCoeff ← multiplyPolynomialcoeff [rPowers.getD k 0] interpPolyCoeff
      pure (addPolynomialcoeff sum interpPolyScaledCoeff)) (List.replicate 64 0)
    let rli ← g1Lincomb (g1.take 64) sumInterpPolysCoeff
    let weightedRPowers ← (List.range numCells).mapM (fun k => do
      let hk ← cosetShiftForCell (cellIndices.getD k 0)
      some (rPowers.getD k 0 * hk ^ 64))
    let rlp ← g1Lincomb (proofs.map Prod.snd) weightedRPowers
    let rl := rlc + -rli + rlp
    some (decide (pair ll lr + pair rl (-(g2.getD 0 0)) = (0 : GT)))
  else none

/-- `bytes_to_kzg_commitment`, `bytes_to_kzg_proof`: the bytes with the point they denote -/
def bytesToG1 (b : List UInt8) : Option (List UInt8 × G1) := (fromCompressed b).map (fun p => (b, p))

/-- `verify_cell_kzg_proof_batch` -/
def verifyCellKzgProofBatch (hash : List UInt8 → List UInt8) (g1 : List G1) (g2 : List G2)
    (commitmentsBytes : List (List UInt8)) (cellIndices : List Nat) (cells proofsBytes : List (List UInt8)) :
    Option Bool := do
  if commitmentsBytes.length = cells.length ∧ cells.length = proofsBytes.length ∧
      proofsBytes.length = cellIndices.length ∧ (∀ c ∈ commitmentsBytes, c.length = 48) ∧
      (∀ k ∈ cellIndices, k < 128) ∧ (∀ c ∈ cells, c.length = 2048) ∧ (∀ p ∈ proofsBytes, p.length = 48) then
    let deduplicated := ((List.range commitmentsBytes.length).filter (fun i =>
      commitmentsBytes.idxOf (commitmentsBytes.getD i []) = i)).map (fun i => commitmentsBytes.getD i [])
    let commitments ← deduplicated.mapM (bytesToG1 (G1 := G1))
    let commitmentIndices := commitmentsBytes.map (fun b => (commitments.map Prod.fst).idxOf b)
    let cosetsEvals ← cells.mapM cellToCosetEvals
    let proofs ← proofsBytes.mapM (bytesToG1 (G1 := G1))
    verifyCellKzgProofBatchImpl hash g1 g2 commitments commitmentIndices cellIndices cosetsEvals proofs
  else none

end

/-- `KZG_SETUP_G1_LAGRANGE` for the secret `τ`: the Lagrange basis of the blob domain, in natural order, at `τ`. -/
structure LagrangeSetup {G : Type} [AddCommGroup G] [Module Fr G] (g1Lagrange : List G) (τ : Fr) (P : G) : Prop where
  length_eq : g1Lagrange.length = 4096
  getElem_eq : ∀ i < 4096, g1Lagrange[i]? = some ((Lagrange.basis (Finset.range 4096)
    (fun j => ((7 : Fr) ^ ((frOrder - 1) / 4096)) ^ j) i).eval τ • P)

end Verif.Consensus
