import Verif.Model.Msm

/-! Model of `fk20/toeplitz.rs`, `fk20/batch_toeplitz.rs` and `fk20/h_poly.rs`. -/
namespace Verif

variable {ε : Type}

/-- `ToeplitzMatrix`, toeplitz.rs:47-53 -/
structure ToeplitzMatrix where
  row : List Fr
  col : List Fr

/-- `ToeplitzMatrix::new`, toeplitz.rs:106-113 -/
def ToeplitzMatrix.new (row col : List Fr) : Outcome ε ToeplitzMatrix := do
  assertP (row ≠ [] ∧ col ≠ [])
  pure ⟨row, col⟩

/-- `CirculantMatrix::from_toeplitz`, toeplitz.rs:120-128; the result is the `row` field.
`rotate_left(1)` moves the first element to the end. -/
def circulantFromToeplitz (tm : ToeplitzMatrix) : List Fr :=
  let extensionCol := (tm.row.drop 1 ++ tm.row.take 1).reverse
  tm.col ++ extensionCol

/-- `iter().step_by(n)`, `n > 0` -/
def stepByList {α : Type} (l : List α) (n : Nat) : List α :=
  (List.range ((l.length + n - 1) / n)).filterMap (fun t => l[t * n]?)

/-- `take_every_nth`, h_poly.rs:65-69 -/
def takeEveryNth {α : Type} (list : List α) (n : Nat) : List (List α) :=
  (List.range n).map (fun i => stepByList (list.drop i) n)

/-- Inner loop of `transpose`, batch_toeplitz.rs:150-152 -/
def transposeRow {α : Type} (result : List (List α)) (row : List α) : Outcome ε (List (List α)) :=
  row.zipIdx.foldlM (fun result (q : α × Nat) => do
    let c ← idx result q.2
    setIdx result q.2 (c ++ [q.1])) result

/-- `transpose`, batch_toeplitz.rs:139-156 -/
def transpose {α : Type} (v : List (List α)) : Outcome ε (List (List α)) :=
  match v with
  | [] => pure []
  | v0 :: _ =>
    if v0.isEmpty then pure []
    else v.foldlM transposeRow (List.replicate v0.length [])

/-- `BatchToeplitzMatrixVecMul`, batch_toeplitz.rs:16-27 -/
structure BatchToeplitz (K G : Type) where
  batchSize : Nat
  precomputedFftVectors : List (FixedBaseMSM K G)
  sizeOfVector : Nat
  circulantDomain : Domain

section
variable {K G : Type} [Field K] [DecidableEq K] [AddCommGroup G] [Module Fr G] [DecidableEq G] [Curve K G]

/-- `BatchToeplitzMatrixVecMul::new`, batch_toeplitz.rs:30-74. Parallel maps are sequential maps (C36);
`g1_batch_normalize` does not change the group elements. -/
def BatchToeplitz.new (vectors : List (List G)) (usePrecomp : UsePrecomp) :
    Outcome ε (BatchToeplitz K G) := do
  let v0 ← idx vectors 0
  let sizeOfVector := v0.length
  assertP (vectors.all (fun v => v.length == sizeOfVector) = true)
  assertP (isPow2 sizeOfVector = true)
  let circulantDomain ← Domain.new (sizeOfVector * 2)
  let vectors ← vectors.mapM (fun v => circulantDomain.fftG1 v)
  let batchSize := vectors.length
  let transposed ← transpose vectors
  let table ← transposed.mapM (fun v => FixedBaseMSM.new v usePrecomp)
  pure { batchSize := batchSize
         precomputedFftVectors := table
         sizeOfVector := sizeOfVector
         circulantDomain := circulantDomain }

/-- `sum_matrix_vector_mul`, batch_toeplitz.rs:82-116 -/
def BatchToeplitz.sumMatrixVectorMul (bt : BatchToeplitz K G) (matrices : List ToeplitzMatrix) :
    Outcome ε (List G) := do
  assertP (matrices.length = bt.batchSize)
  let circulantMatrices := matrices.map circulantFromToeplitz
  let colFfts ← circulantMatrices.mapM (fun row => bt.circulantDomain.fftScalars row)
  let msmScalars ← transpose colFfts
  let result ← (bt.precomputedFftVectors.zip msmScalars).mapM (fun q => q.1.msm q.2)
  bt.circulantDomain.ifftG1TakeN result (some bt.sizeOfVector)

/-- One Toeplitz matrix of h_poly.rs:49-54 -/
def hPolyMatrix (row : List Fr) : Outcome ε ToeplitzMatrix := do
  let col := List.replicate row.length (0 : Fr)
  let r0 ← idx row 0
  let col ← setIdx col 0 r0
  ToeplitzMatrix.new row col

/-- `compute_h_poly_commitments`, h_poly.rs:17-58 -/
def computeHPolyCommitments (bt : BatchToeplitz K G) (polynomial : List Fr) (cosetSize : Nat) :
    Outcome ε (List G) := do
  assertP (isPow2 cosetSize = true)
  assertP (isPow2 polynomial.length = true)
  let polynomial := polynomial.reverse
  let toeplitzRows := takeEveryNth polynomial cosetSize
  let matrices ← toeplitzRows.mapM hPolyMatrix
  bt.sumMatrixVectorMul matrices
end

end Verif
