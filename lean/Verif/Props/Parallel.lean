import Verif.Lemmas.Parallel
import Verif.Props.ProverCells

set_option linter.unusedSectionVars false

/-! C36: parallel execution does not change results. -/
namespace Verif

section
variable {ε α β : Type} {f : α → Outcome ε β}

/-- C36: take any execution of a parallel map over `xs`, with any number of workers, any program for `f` and any interleaving of
the steps of the workers, that has nothing left to do. If no call of `f` fails, it returns a list of the same length whose element
`i` is the value of `f` on element `i` of `xs`; otherwise it panics. -/
theorem C36_map (workers : Nat) (m : Machine f) (xs : List α) (hf : ∀ a e, f a ≠ .err e) (s : PoolState α β m.σ)
    (hs : PoolSteps workers m (.initial xs) s) (hfin : s.Final) :
    (∀ ys : List β, (s.collect : Outcome ε (List β)) = .ok ys ↔
      ys.length = xs.length ∧ ∀ (i : Nat) x y, xs[i]? = some x → ys[i]? = some y → f x = .ok y) ∧
    ((s.collect : Outcome ε (List β)) = .panic ↔ ∃ x ∈ xs, f x = .panic) := by
  have hc := Pool.collect_eq hf (Pool.inv_steps hs Pool.inv_initial) hfin
  have hok : ∀ ys : List β, (ys.length = xs.length ∧ ∀ (i : Nat) x y, xs[i]? = some x → ys[i]? = some y → f x = .ok y) →
      (s.collect : Outcome ε (List β)) = .ok ys := by
    rintro ys ⟨h1, h2⟩
    rw [hc]
    refine Pool.mapM_eq_ok h1 fun i b hb => ?_
    have hi : i < xs.length := by
      rw [← h1]
      by_contra hn
      rw [List.getElem?_eq_none (by omega)] at hb
      cases hb
    exact ⟨xs[i], by simp [hi], h2 i _ b (by simp [hi]) hb⟩
  have hpanic : (∃ x ∈ xs, f x = .panic) → (s.collect : Outcome ε (List β)) = .panic := by
    rintro ⟨x, hx, h⟩
    rw [hc]
    exact Pool.mapM_eq_panic hf ⟨x, hx, fun b hb => by rw [h] at hb; cases hb⟩
  have hcase : (∃ x ∈ xs, f x = .panic) ∨
      ∃ ys : List β, ys.length = xs.length ∧ ∀ (i : Nat) x y, xs[i]? = some x → ys[i]? = some y → f x = .ok y := by
    clear hok hpanic hc hs
    induction xs with
    | nil => exact Or.inr ⟨[], rfl, fun i x y h => by simp at h⟩
    | cons a l ih =>
      rcases ha : f a with b | e | _
      · rcases ih with ⟨x, hx, h⟩ | ⟨ys, h1, h2⟩
        · exact Or.inl ⟨x, List.mem_cons_of_mem _ hx, h⟩
        · refine Or.inr ⟨b :: ys, by simp [h1], fun i x y hx hy => ?_⟩
          cases i with
          | zero => simp at hx hy; rw [← hx, ← hy, ha]
          | succ i => exact h2 i x y (by simpa using hx) (by simpa using hy)
      · exact absurd ha (hf a e)
      · exact Or.inl ⟨a, by simp, ha⟩
  constructor
  · intro ys
    constructor
    · intro h
      rcases hcase with hp | ⟨ys', hys⟩
      · rw [hpanic hp] at h; cases h
      · have := hok ys' hys
        rw [h] at this
        cases this
        exact hys
    · exact hok ys
  · constructor
    · intro h
      rcases hcase with hp | ⟨ys', hys⟩
      · exact hp
      · rw [hok ys' hys] at h; cases h
    · exact hpanic

/-- C36: with at least one worker the pool never gets stuck while something is left to do. -/
theorem C36_progress (workers : Nat) (hw : 1 ≤ workers) (m : Machine f) (s : PoolState α β m.σ) (hs : ¬ s.Final) :
    ∃ t, PoolStep workers m s t :=
  Pool.progress hw s hs

/-- C36: every execution ends: there is no infinite sequence of steps. -/
theorem C36_terminates (workers : Nat) (m : Machine f) (xs : List α) (run : Nat → PoolState α β m.σ)
    (h0 : run 0 = .initial xs) : ¬ ∀ n, PoolStep workers m (run n) (run (n + 1)) := by
  intro h
  have hI : ∀ n, Pool.Inv m xs (run n) := by
    intro n
    induction n with
    | zero => rw [h0]; exact Pool.inv_initial
    | succ n ih => exact Pool.inv_step (h n) ih
  have hm : ∀ n, Pool.measure m (run n) + n ≤ Pool.measure m (run 0) := by
    intro n
    induction n with
    | zero => simp
    | succ n ih =>
      have := Pool.measure_step (h n) (hI n)
      omega
  have := hm (Pool.measure m (run 0) + 1)
  omega

/-- C36: at most `workers` tasks are in progress at any time. -/
theorem C36_bounded (workers : Nat) (m : Machine f) (xs : List α) (s : PoolState α β m.σ)
    (hs : PoolSteps workers m (.initial xs) s) : s.running.length ≤ workers := by
  induction hs with
  | refl => simp [PoolState.initial]
  | tail _ h ih => cases h <;> simp at * <;> omega

/-- The pool of a context has at least one worker, whatever thread count is asked for. -/
theorem C36_workers (auto : Nat) (t : ThreadCount) : 1 ≤ t.workers auto := by
  unfold ThreadCount.workers
  split_ifs <;> omega

end

section
variable {ε K G1 G2 : Type} [Field K] [DecidableEq K] [AddCommGroup G1] [Module Fr G1] [DecidableEq G1]
  [Curve K G1] [PointCodec G1] [AddCommGroup G2] [Module Fr G2]

/-- C36: building a context on a pool with any number of workers, under any schedule, has exactly the outcome of the sequential
code. -/
theorem C36_context (w : Nat) (hw : 1 ≤ w) (prog : Programs ε) (setup : SetupPoints G1 G2) (up : UsePrecomp)
    (o : Outcome ε (DASContext K G1 G2)) :
    DASContext.newPar w prog setup up o ↔ o = DASContext.new setup up := by
  rw [DASContext.newPar_eq prog hw]
  exact Iff.rfl

/-- C36: computing cells and proofs, likewise. -/
theorem C36_compute (auto : Nat) (t : ThreadCount) (prog : Programs Error) (ctx : DASContext K G1 G2) (blob : List UInt8)
    (o : Outcome Error (List (List UInt8) × List (List UInt8))) :
    ctx.computeCellsAndKzgProofsPar (t.workers auto) prog blob o ↔ o = ctx.computeCellsAndKzgProofs blob := by
  rw [DASContext.computeCellsAndKzgProofsPar_eq prog (C36_workers auto t)]
  exact Iff.rfl

/-- C36: recovery, likewise. -/
theorem C36_recover (auto : Nat) (t : ThreadCount) (prog : Programs Error) (ctx : DASContext K G1 G2) (cellIndices : List Nat)
    (cells : List (List UInt8)) (o : Outcome Error (List (List UInt8) × List (List UInt8))) :
    ctx.recoverCellsAndKzgProofsPar (t.workers auto) prog cellIndices cells o ↔ o = ctx.recoverCellsAndKzgProofs cellIndices cells := by
  rw [DASContext.recoverCellsAndKzgProofsPar_eq prog (C36_workers auto t)]
  exact Iff.rfl

/-- C36: results do not depend on the thread count or the schedule. -/
theorem C36_thread_count (auto auto' : Nat) (t t' : ThreadCount) (prog prog' : Programs Error) (ctx : DASContext K G1 G2)
    (blob : List UInt8) (o o' : Outcome Error (List (List UInt8) × List (List UInt8)))
    (h : ctx.computeCellsAndKzgProofsPar (t.workers auto) prog blob o)
    (h' : ctx.computeCellsAndKzgProofsPar (t'.workers auto') prog' blob o') : o = o' := by
  rw [C36_compute] at h h'
  rw [h, h']

end

/-! A concrete pool: tasks square a number by repeated addition, one addition per step, and panic on 7. -/

def squareOrPanic (n : Nat) : Outcome Unit Nat := if n = 7 then .panic else .ok (n * n)

def squareStep (s : Nat × Nat × Nat) : (Nat × Nat × Nat) ⊕ Outcome Unit Nat :=
  if s.1 = 7 then .inr .panic else if s.2.1 = 0 then .inr (.ok s.2.2) else .inl (s.1, s.2.1 - 1, s.2.2 + s.1)

theorem squareStep_runs (n : Nat) (hn : n ≠ 7) (k acc : Nat) : RunsIn squareStep k (n, k, acc) (.ok (acc + k * n)) := by
  induction k generalizing acc with
  | zero => exact .done (by simp [squareStep, hn])
  | succ k ih =>
    refine .more (s' := (n, k, acc + n)) (by simp [squareStep, hn]) ?_
    have : acc + (k + 1) * n = acc + n + k * n := by rw [Nat.succ_mul]; omega
    rw [this]
    exact ih _

def squareMachine : Machine squareOrPanic where
  σ := Nat × Nat × Nat
  init n := (n, n, 0)
  step := squareStep
  runs n := by
    by_cases h : n = 7
    · exact ⟨0, .done (by simp [squareStep, squareOrPanic, h])⟩
    · refine ⟨n, ?_⟩
      have := squareStep_runs n h n 0
      simpa [squareOrPanic, h] using this

/-- Two workers: the second task is started first, the steps interleave, the first task ends first. -/
example : PoolSteps 2 squareMachine (.initial [1, 2]) ⟨[], [], [some 1, some 4], false⟩ := by
  have h1 : PoolStep 2 squareMachine (.initial [1, 2]) ⟨[(0, 1)], [(1, (2, 2, 0))], [none, none], false⟩ :=
    PoolStep.start (l₁ := [(0, 1)]) (l₂ := []) (by decide)
  have h2 : PoolStep 2 squareMachine ⟨[(0, 1)], [(1, (2, 2, 0))], [none, none], false⟩
      ⟨[], [(0, (1, 1, 0)), (1, (2, 2, 0))], [none, none], false⟩ := PoolStep.start (l₁ := []) (l₂ := []) (by decide)
  have h3 : PoolStep 2 squareMachine ⟨[], [(0, (1, 1, 0)), (1, (2, 2, 0))], [none, none], false⟩
      ⟨[], [(0, (1, 1, 0)), (1, (2, 1, 2))], [none, none], false⟩ := PoolStep.work (m := squareMachine) (l₁ := [(0, ((1, 1, 0) : Nat × Nat × Nat))]) (l₂ := []) rfl
  have h4 : PoolStep 2 squareMachine ⟨[], [(0, (1, 1, 0)), (1, (2, 1, 2))], [none, none], false⟩
      ⟨[], [(0, (1, 0, 1)), (1, (2, 1, 2))], [none, none], false⟩ := PoolStep.work (m := squareMachine) (l₁ := []) (l₂ := [(1, ((2, 1, 2) : Nat × Nat × Nat))]) rfl
  have h5 : PoolStep 2 squareMachine ⟨[], [(0, (1, 0, 1)), (1, (2, 1, 2))], [none, none], false⟩
      ⟨[], [(1, (2, 1, 2))], [some 1, none], false⟩ := PoolStep.finish (m := squareMachine) (i := 0) (l₁ := []) (l₂ := [(1, ((2, 1, 2) : Nat × Nat × Nat))]) rfl
  have h6 : PoolStep 2 squareMachine ⟨[], [(1, (2, 1, 2))], [some 1, none], false⟩
      ⟨[], [(1, (2, 0, 4))], [some 1, none], false⟩ := PoolStep.work (l₁ := []) (l₂ := []) rfl
  have h7 : PoolStep 2 squareMachine ⟨[], [(1, (2, 0, 4))], [some 1, none], false⟩
      ⟨[], [], [some 1, some 4], false⟩ := PoolStep.finish (i := 1) (l₁ := []) (l₂ := []) rfl
  exact .tail (.tail (.tail (.tail (.tail (.tail (.tail (.refl _) h1) h2) h3) h4) h5) h6) h7

/-- A panic: the task after the panicking one is dropped. -/
example : PoolSteps 1 squareMachine (.initial [7, 2]) ⟨[], [], [none, none], true⟩ := by
  have h1 : PoolStep 1 squareMachine (.initial [7, 2]) ⟨[(1, 2)], [(0, (7, 7, 0))], [none, none], false⟩ :=
    PoolStep.start (l₁ := []) (l₂ := [(1, 2)]) (by decide)
  have h2 : PoolStep 1 squareMachine ⟨[(1, 2)], [(0, (7, 7, 0))], [none, none], false⟩ ⟨[(1, 2)], [], [none, none], true⟩ :=
    PoolStep.fail (i := 0) (o := .panic) (l₁ := []) (l₂ := []) rfl (by simp)
  have h3 : PoolStep 1 squareMachine ⟨[(1, 2)], [], [none, none], true⟩ ⟨[], [], [none, none], true⟩ :=
    PoolStep.cancel (i := 1) (l₁ := []) (l₂ := [])
  exact .tail (.tail (.tail (.refl _) h1) h2) h3

example : (PoolState.collect (σ := Nat) (α := Nat) ⟨[], [], [some 1, some 4], false⟩ : Outcome Unit (List Nat)) = .ok [1, 4] := rfl

/-- `C36_map` for the square machine: every complete execution on `[3, 1, 2]` returns `[9, 1, 4]`. -/
example (workers : Nat) (s : PoolState Nat Nat squareMachine.σ) (hs : PoolSteps workers squareMachine (.initial [3, 1, 2]) s)
    (hfin : s.Final) : (s.collect : Outcome Unit (List Nat)) = .ok [9, 1, 4] := by
  refine ((C36_map workers squareMachine [3, 1, 2] (fun a e h => ?_) s hs hfin).1 _).2 ⟨rfl, fun i x y hx hy => ?_⟩
  · unfold squareOrPanic at h; split_ifs at h
  · match i with
    | 0 => cases hx; cases hy; rfl
    | 1 => cases hx; cases hy; rfl
    | 2 => cases hx; cases hy; rfl
    | n + 3 => cases hx

/-- Programs exist for all functions: the machine that computes its function in one step. -/
example {ε : Type} : Programs ε := fun f => ⟨_, id, fun a => .inr (f a), fun _ => ⟨0, .done rfl⟩⟩

end Verif
