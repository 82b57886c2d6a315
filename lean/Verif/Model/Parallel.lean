import Verif.Model.Api

/-! Model of parallel execution: `maybe_rayon` (rayon's parallel maps, `multi_threaded.rs`), the thread pool of `DASContext`
(`eip7594/src/lib.rs`, `macros.rs`) and the parallel maps of `fk20/batch_toeplitz.rs`.

A parallel `map(f).collect()` over `n` items consists of `n` tasks. A pool of workers executes them: a free worker may start any
task that has not been started, a busy worker may perform the next step of its task, in any interleaving. A task that returns
writes its value to its slot of the output; a task that panics marks the computation as panicked, after which tasks that have not
been started may be dropped. When nothing is left to do, `collect` returns the slots, panics if some task panicked, and also panics
if a slot has not been written (rayon's check of the number of writes). Not modelled: the splitting of index ranges into jobs and
the work stealing queues of rayon, which only restrict the order in which tasks are started. Tasks have no shared mutable state
(the closures in `batch_toeplitz.rs` borrow `self` immutably and own their argument). -/
namespace Verif

variable {ε α β : Type}

/-- The program of a task, as a machine: from the state `s` it returns the outcome `o` after `n` steps. -/
inductive RunsIn {σ : Type} (step : σ → σ ⊕ Outcome ε β) : Nat → σ → Outcome ε β → Prop where
  | done {s o} : step s = .inr o → RunsIn step 0 s o
  | more {s s' n o} : step s = .inl s' → RunsIn step n s' o → RunsIn step (n + 1) s o

/-- A program that computes the function `f`: states, the initial state for an argument, and single steps. -/
structure Machine (f : α → Outcome ε β) where
  σ : Type
  init : α → σ
  step : σ → σ ⊕ Outcome ε β
  runs : ∀ a, ∃ n, RunsIn step n (init a) (f a)

/-- The state of the pool: tasks not yet started, tasks in progress, output slots, and whether a task has panicked. -/
structure PoolState (α β σ : Type) where
  todo : List (Nat × α)
  running : List (Nat × σ)
  slots : List (Option β)
  panicked : Bool

/-- One step of some worker. -/
inductive PoolStep {f : α → Outcome ε β} (workers : Nat) (m : Machine f) : PoolState α β m.σ → PoolState α β m.σ → Prop where
  /-- a free worker starts a task -/
  | start {i a l₁ l₂ running slots p} : running.length < workers →
      PoolStep workers m ⟨l₁ ++ (i, a) :: l₂, running, slots, p⟩ ⟨l₁ ++ l₂, (i, m.init a) :: running, slots, p⟩
  /-- a worker performs a step of its task -/
  | work {i s s' todo l₁ l₂ slots p} : m.step s = .inl s' →
      PoolStep workers m ⟨todo, l₁ ++ (i, s) :: l₂, slots, p⟩ ⟨todo, l₁ ++ (i, s') :: l₂, slots, p⟩
  /-- a task returns and its value is written to its slot -/
  | finish {i s b todo l₁ l₂ slots p} : m.step s = .inr (.ok b) →
      PoolStep workers m ⟨todo, l₁ ++ (i, s) :: l₂, slots, p⟩ ⟨todo, l₁ ++ l₂, slots.set i (some b), p⟩
  /-- a task panics -/
  | fail {i s o todo l₁ l₂ slots p} : m.step s = .inr o → (∀ b, o ≠ .ok b) →
      PoolStep workers m ⟨todo, l₁ ++ (i, s) :: l₂, slots, p⟩ ⟨todo, l₁ ++ l₂, slots, true⟩
  /-- after a panic a task may be dropped -/
  | cancel {i a l₁ l₂ running slots} :
      PoolStep workers m ⟨l₁ ++ (i, a) :: l₂, running, slots, true⟩ ⟨l₁ ++ l₂, running, slots, true⟩

/-- the pool before the parallel map over `xs` -/
def PoolState.initial {σ : Type} (xs : List α) : PoolState α β σ :=
  ⟨xs.zipIdx.map (fun q => (q.2, q.1)), [], List.replicate xs.length none, false⟩

/-- nothing is left to do -/
def PoolState.Final {σ : Type} (s : PoolState α β σ) : Prop := s.todo = [] ∧ s.running = []

/-- the result of `collect` -/
def PoolState.collect {σ : Type} (s : PoolState α β σ) : Outcome ε (List β) :=
  if s.panicked then .panic else expect (s.slots.mapM id)

/-- executions -/
inductive PoolSteps {f : α → Outcome ε β} (workers : Nat) (m : Machine f) : PoolState α β m.σ → PoolState α β m.σ → Prop where
  | refl (s) : PoolSteps workers m s s
  | tail {s t u} : PoolSteps workers m s t → PoolStep workers m t u → PoolSteps workers m s u

/-- A nondeterministic computation: the set of its outcomes. -/
def ND (ε α : Type) := Outcome ε α → Prop

/-- a computation with one outcome -/
def ND.lift (x : Outcome ε α) : ND ε α := fun o => o = x

instance : Monad (ND ε) where
  pure a := ND.lift (.ok a)
  bind m f := fun o => ∃ x, m x ∧ match x with
    | .ok a => f a o
    | .err e => o = .err e
    | .panic => o = .panic

/-- `xs.maybe_into_par_iter().map(f).collect()`, multi_threaded.rs:6-19, on a pool with the given number of workers -/
def parMap (workers : Nat) {f : α → Outcome ε β} (m : Machine f) (xs : List α) : ND ε (List β) := fun o =>
  ∃ s, PoolSteps workers m (.initial xs) s ∧ s.Final ∧ o = s.collect

/-- `ThreadCount`, lib.rs:72-84 -/
inductive ThreadCount where
  | single
  | multi (n : Nat)
  | sensibleDefault

/-- `usize::from(ThreadCount)`, lib.rs:85-98 -/
def ThreadCount.toUsize : ThreadCount → Nat
  | .single => 1
  | .multi n => n
  | .sensibleDefault => 0

/-- The number of workers of the pool built by `with_threads`, lib.rs:133-139. Rayon replaces 0 by the value `auto` it finds in
the environment or the number of processors, at least 1. -/
def ThreadCount.workers (auto : Nat) (t : ThreadCount) : Nat := if t.toUsize = 0 then max auto 1 else t.toUsize

section
variable {K G : Type} [Field K] [DecidableEq K] [AddCommGroup G] [Module Fr G] [DecidableEq G] [Curve K G]

/-- A program for every function that is used in a parallel map. -/
abbrev Programs (ε : Type) := ∀ {α β : Type} (f : α → Outcome ε β), Machine f

variable (w : Nat) (prog : Programs ε)

/-- `BatchToeplitzMatrixVecMul::new`, batch_toeplitz.rs:30-74, with its parallel maps at lines 45-54 and 63-66 -/
def BatchToeplitz.newPar (vectors : List (List G)) (usePrecomp : UsePrecomp) : ND ε (BatchToeplitz K G) := do
  let v0 ← ND.lift (idx vectors 0)
  let sizeOfVector := v0.length
  ND.lift (assertP (vectors.all (fun v => v.length == sizeOfVector) = true))
  ND.lift (assertP (isPow2 sizeOfVector = true))
  let circulantDomain ← ND.lift (Domain.new (sizeOfVector * 2))
  let vectors ← parMap w (prog (fun v => circulantDomain.fftG1 v)) vectors
  let batchSize := vectors.length
  let transposed ← ND.lift (transpose vectors)
  let table ← parMap w (prog (fun v => FixedBaseMSM.new v usePrecomp)) transposed
  pure { batchSize := batchSize
         precomputedFftVectors := table
         sizeOfVector := sizeOfVector
         circulantDomain := circulantDomain }

/-- `sum_matrix_vector_mul`, batch_toeplitz.rs:82-116, with its parallel maps at lines 90-102 (the two chained maps are one
parallel map of the composed function) and 105-109 -/
def BatchToeplitz.sumMatrixVectorMulPar (bt : BatchToeplitz K G) (matrices : List ToeplitzMatrix) : ND ε (List G) := do
  ND.lift (assertP (matrices.length = bt.batchSize))
  let colFfts ← parMap w (prog (fun m => bt.circulantDomain.fftScalars (circulantFromToeplitz m))) matrices
  let msmScalars ← ND.lift (transpose colFfts)
  let result ← parMap w (prog (fun (q : FixedBaseMSM K G × List Fr) => q.1.msm q.2)) (bt.precomputedFftVectors.zip msmScalars)
  ND.lift (bt.circulantDomain.ifftG1TakeN result (some bt.sizeOfVector))

/-- `compute_h_poly_commitments`, h_poly.rs:17-58 -/
def computeHPolyCommitmentsPar (bt : BatchToeplitz K G) (polynomial : List Fr) (cosetSize : Nat) : ND ε (List G) := do
  ND.lift (assertP (isPow2 cosetSize = true))
  ND.lift (assertP (isPow2 polynomial.length = true))
  let polynomial := polynomial.reverse
  let toeplitzRows := takeEveryNth polynomial cosetSize
  let matrices ← ND.lift (toeplitzRows.mapM hPolyMatrix)
  bt.sumMatrixVectorMulPar w prog matrices

/-- `FK20Prover::new`, fk20/prover.rs:63-123 -/
def FK20Prover.newPar (commitKey : List G) (polynomialBound pointsPerProof numberOfPointsToOpen : Nat)
    (usePrecomp : UsePrecomp) : ND ε (FK20Prover K G) := do
  ND.lift (assertP (isPow2 pointsPerProof = true))
  ND.lift (assertP (isPow2 numberOfPointsToOpen = true))
  ND.lift (assertP (numberOfPointsToOpen > pointsPerProof))
  ND.lift (assertP (isPow2 polynomialBound = true))
  ND.lift (assertP (commitKey.length ≥ polynomialBound))
  ND.lift (assertP (commitKey.length > pointsPerProof))
  let batchToeplitz ← BatchToeplitz.newPar w prog (srsVectors commitKey pointsPerProof) usePrecomp
  let numProofs := numberOfPointsToOpen / pointsPerProof
  let proofDomain ← ND.lift (Domain.new numProofs)
  let evaluationDomain ← ND.lift (Domain.new numberOfPointsToOpen)
  let polyDomain ← ND.lift (Domain.new polynomialBound)
  pure { batchToeplitz := batchToeplitz
         cosetSize := pointsPerProof
         numberOfPointsToOpen := numberOfPointsToOpen
         proofDomain := proofDomain
         evaluationDomain := evaluationDomain
         polyDomain := polyDomain
         commitKey := commitKey }

/-- `compute_multi_opening_proofs_poly_coeff`, fk20/prover.rs:189-207 -/
def FK20Prover.computeMultiOpeningProofsPolyCoeffPar (p : FK20Prover K G) (polynomial : List Fr) :
    ND ε (List G × List (List Fr)) := do
  let hPolyCommitments ← computeHPolyCommitmentsPar w prog p.batchToeplitz polynomial p.cosetSize
  let proofs ← ND.lift (p.proofDomain.fftG1 hPolyCommitments)
  let proofs ← ND.lift (reverseBitOrder proofs)
  let evals ← ND.lift (p.computeCosetEvaluations polynomial)
  pure (proofs, evals)

/-- `compute_multi_opening_proofs`, fk20/prover.rs:170-181 -/
def FK20Prover.computeMultiOpeningProofsPar (p : FK20Prover K G) (input : ProverInput) :
    ND ε (List G × List (List Fr)) := do
  let polyCoeff ← ND.lift (p.inputToPoly input)
  p.computeMultiOpeningProofsPolyCoeffPar w prog polyCoeff

end

section
variable {K G1 G2 : Type} [Field K] [DecidableEq K] [AddCommGroup G1] [Module Fr G1] [DecidableEq G1]
  [Curve K G1] [PointCodec G1] [AddCommGroup G2] [Module Fr G2]

/-- `DASContext::with_threads`, lib.rs:127-147. The context is built by the calling thread, outside of the pool of the context, on
rayon's global pool: `w` is the size of that pool. -/
def DASContext.newPar (w : Nat) (prog : Programs ε) (setup : SetupPoints G1 G2) (usePrecomp : UsePrecomp) :
    ND ε (DASContext K G1 G2) := do
  let commitKey ← ND.lift (commitKeyNew setup.g1Monomial)
  let prover ← FK20Prover.newPar w prog commitKey FIELD_ELEMENTS_PER_BLOB FIELD_ELEMENTS_PER_CELL
    FIELD_ELEMENTS_PER_EXT_BLOB usePrecomp
  let rs ← ND.lift (ReedSolomon.new FIELD_ELEMENTS_PER_BLOB EXPANSION_FACTOR CELLS_PER_EXT_BLOB)
  let v ← ND.lift (VerifierContext.new setup)
  pure { proverCtx := { kzgMultipointProver := prover, rs := rs }, verifierCtx := v }

/-- `compute_cells_and_kzg_proofs` in the pool of the context, prover.rs:96-114 and macros.rs:2-13 -/
def DASContext.computeCellsAndKzgProofsPar (w : Nat) (prog : Programs Error) (ctx : DASContext K G1 G2) (blob : List UInt8) :
    ND Error (List (List UInt8) × List (List UInt8)) := do
  let scalars ← ND.lift ((deserializeBlobToScalars blob).mapErr Error.Serialization)
  let (proofs, cells) ← ctx.proverCtx.kzgMultipointProver.computeMultiOpeningProofsPar w prog (.data scalars)
  ND.lift (serializeCellsAndProofs cells proofs)

/-- `recover_cells_and_kzg_proofs` in the pool of the context, prover.rs:122-141 and macros.rs:2-13 -/
def DASContext.recoverCellsAndKzgProofsPar (w : Nat) (prog : Programs Error) (ctx : DASContext K G1 G2) (cellIndices : List Nat)
    (cells : List (List UInt8)) : ND Error (List (List UInt8) × List (List UInt8)) := do
  let polyCoeff ← ND.lift (recoverPolynomialCoeff ctx.proverCtx.rs cellIndices cells)
  let (proofs, cosetEvaluations) ←
    ctx.proverCtx.kzgMultipointProver.computeMultiOpeningProofsPar w prog (.polyCoeff polyCoeff)
  ND.lift (serializeCellsAndProofs cosetEvaluations proofs)

end

end Verif
