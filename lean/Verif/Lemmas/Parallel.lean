import Verif.Model.Parallel
import Verif.Lemmas.NoErr
import Mathlib.Algebra.BigOperators.Group.List.Basic

set_option linter.unusedSectionVars false

/-! Lemmas about the pool: invariant, progress, termination, and the outcome of a parallel map. -/
namespace Verif

variable {ε α β : Type}

namespace RunsIn
variable {σ : Type} {step : σ → σ ⊕ Outcome ε β}

theorem steps_unique {n m : Nat} {s : σ} {o o' : Outcome ε β} (h : RunsIn step n s o) (h' : RunsIn step m s o') :
    n = m ∧ o = o' := by
  induction h generalizing m with
  | done hs =>
    cases h' with
    | done hs' => rw [hs] at hs'; exact ⟨rfl, Sum.inr.inj hs'⟩
    | more hs' _ => rw [hs] at hs'; cases hs'
  | more hs _ ih =>
    cases h' with
    | done hs' => rw [hs] at hs'; cases hs'
    | more hs' h2 =>
      rw [hs] at hs'
      cases hs'
      obtain ⟨h3, h4⟩ := ih h2
      exact ⟨by rw [h3], h4⟩

end RunsIn

open Classical in
/-- the number of steps a task still needs -/
noncomputable def stepsLeft {σ : Type} (step : σ → σ ⊕ Outcome ε β) (s : σ) : Nat :=
  if h : ∃ n o, RunsIn step n s o then h.choose else 0

theorem stepsLeft_eq {σ : Type} {step : σ → σ ⊕ Outcome ε β} {s : σ} {n : Nat} {o : Outcome ε β} (h : RunsIn step n s o) :
    stepsLeft step s = n := by
  have h1 : ∃ n o, RunsIn step n s o := ⟨n, o, h⟩
  unfold stepsLeft
  rw [dif_pos h1]
  obtain ⟨o', h2⟩ := h1.choose_spec
  exact (h2.steps_unique h).1

namespace Pool
variable {f : α → Outcome ε β} {workers : Nat} {m : Machine f} {xs : List α}

/-- what holds in every reachable state -/
structure Inv (m : Machine f) (xs : List α) (s : PoolState α β m.σ) : Prop where
  todo : ∀ q ∈ s.todo, xs[q.1]? = some q.2
  running : ∀ q ∈ s.running, ∃ a n, xs[q.1]? = some a ∧ RunsIn m.step n q.2 (f a)
  slots : s.slots.length = xs.length
  written : ∀ (i : Nat) (b : β), s.slots[i]? = some (some b) → ∃ a, xs[i]? = some a ∧ f a = .ok b
  panicked : s.panicked = true → ∃ a ∈ xs, ∀ b, f a ≠ .ok b
  covered : s.panicked = false → ∀ i : Nat, s.slots[i]? = some none →
    i ∈ s.todo.map Prod.fst ∨ i ∈ s.running.map Prod.fst

theorem inv_initial : Inv m xs (.initial xs) where
  todo := by
    intro q hq
    simp only [PoolState.initial, List.mem_map] at hq
    obtain ⟨⟨a, i⟩, h1, rfl⟩ := hq
    simpa [List.mem_zipIdx_iff_getElem?] using h1
  running := by intro q hq; simp [PoolState.initial] at hq
  slots := by simp [PoolState.initial]
  written := by
    intro i b h
    simp [PoolState.initial, List.getElem?_replicate] at h
  panicked := by intro h; simp [PoolState.initial] at h
  covered := by
    intro _ i h
    left
    have hi : i < xs.length := by
      by_contra hc
      simp [PoolState.initial, hc] at h
    simp only [PoolState.initial, List.map_map, List.mem_map]
    exact ⟨(xs[i], i), by simp [List.mem_zipIdx_iff_getElem?, hi], rfl⟩

theorem inv_step {s t : PoolState α β m.σ} (h : PoolStep workers m s t) (hI : Inv m xs s) : Inv m xs t := by
  obtain ⟨h1, h2, h3, h4, h5, h6⟩ := hI
  cases h with
  | @start i a l₁ l₂ running slots p hw =>
    refine ⟨?_, ?_, h3, h4, h5, ?_⟩
    · intro q hq
      apply h1 q
      simp only [List.mem_append, List.mem_cons] at hq ⊢
      tauto
    · intro q hq
      rcases List.mem_cons.1 hq with rfl | hq
      · obtain ⟨n, hn⟩ := m.runs a
        exact ⟨a, n, h1 (i, a) (by simp), hn⟩
      · exact h2 q hq
    · intro hp j hj
      have := h6 hp j hj
      simp only [List.map_append, List.map_cons, List.mem_append, List.mem_cons] at this ⊢
      tauto
  | @work i s s' todo l₁ l₂ slots p hs =>
    refine ⟨h1, ?_, h3, h4, h5, ?_⟩
    · intro q hq
      simp only [List.mem_append, List.mem_cons] at hq
      have key : ∃ a n, xs[i]? = some a ∧ RunsIn m.step n s' (f a) := by
        obtain ⟨a, n, ha, hn⟩ := h2 (i, s) (by simp)
        cases hn with
        | done hd => rw [hs] at hd; cases hd
        | more hd hr => rw [hs] at hd; cases hd; exact ⟨a, _, ha, hr⟩
      rcases hq with hq | rfl | hq
      · exact h2 q (by simp [hq])
      · exact key
      · exact h2 q (by simp [hq])
    · intro hp j hj
      have := h6 hp j hj
      simpa using this
  | @finish i s b todo l₁ l₂ slots p hs =>
    obtain ⟨a, n, ha, hn⟩ := h2 (i, s) (by simp)
    have hfa : f a = .ok b := by
      cases hn with
      | done hd => rw [hs] at hd; exact (Sum.inr.inj hd).symm
      | more hd hr => rw [hs] at hd; cases hd
    refine ⟨h1, ?_, by simpa using h3, ?_, h5, ?_⟩
    · intro q hq
      apply h2 q
      simp only [List.mem_append, List.mem_cons] at hq ⊢
      tauto
    · intro j b' hj
      rw [List.getElem?_set] at hj
      split_ifs at hj with hij hlt
      · cases hj
        exact ⟨a, hij ▸ ha, hfa⟩
      · exact h4 j b' hj
    · intro hp j hj
      rw [List.getElem?_set] at hj
      split_ifs at hj with hij hlt
      · cases hj
      · have := h6 hp j hj
        simp only [List.map_append, List.map_cons, List.mem_append, List.mem_cons] at this ⊢
        have hji : ¬ j = i := fun h => hij h.symm
        tauto
  | @fail i s o todo l₁ l₂ slots p hs ho =>
    obtain ⟨a, n, ha, hn⟩ := h2 (i, s) (by simp)
    have hfa : f a = o := by
      cases hn with
      | done hd => rw [hs] at hd; exact (Sum.inr.inj hd).symm
      | more hd hr => rw [hs] at hd; cases hd
    refine ⟨h1, ?_, h3, h4, fun _ => ⟨a, List.mem_of_getElem? ha, by rw [hfa]; exact ho⟩, fun hp => by cases hp⟩
    intro q hq
    apply h2 q
    simp only [List.mem_append, List.mem_cons] at hq ⊢
    tauto
  | @cancel i a l₁ l₂ running slots =>
    refine ⟨?_, h2, h3, h4, h5, fun hp => by cases hp⟩
    intro q hq
    apply h1 q
    simp only [List.mem_append, List.mem_cons] at hq ⊢
    tauto

theorem inv_steps {s t : PoolState α β m.σ} (h : PoolSteps workers m s t) (hI : Inv m xs s) : Inv m xs t := by
  induction h with
  | refl => exact hI
  | tail _ hs ih => exact inv_step hs ih

/-- an upper bound for the number of steps until nothing is left to do -/
noncomputable def measure (m : Machine f) (s : PoolState α β m.σ) : Nat :=
  (s.todo.map (fun q => stepsLeft m.step (m.init q.2) + 2)).sum + (s.running.map (fun q => stepsLeft m.step q.2 + 1)).sum

theorem measure_step {s t : PoolState α β m.σ} (h : PoolStep workers m s t) (hI : Inv m xs s) : measure m t < measure m s := by
  obtain ⟨h1, h2, h3, h4, h5, h6⟩ := hI
  cases h with
  | @start i a l₁ l₂ running slots p hw => simp [measure]; omega
  | @work i s s' todo l₁ l₂ slots p hs =>
    obtain ⟨a, n, ha, hn⟩ := h2 (i, s) (by simp)
    have key : stepsLeft m.step s = stepsLeft m.step s' + 1 := by
      rw [stepsLeft_eq hn]
      cases hn with
      | done hd => rw [hs] at hd; cases hd
      | more hd hr => rw [hs] at hd; cases hd; rw [stepsLeft_eq hr]
    simp [measure, key]
  | @finish i s b todo l₁ l₂ slots p hs => simp [measure]
  | @fail i s o todo l₁ l₂ slots p hs ho => simp [measure]
  | @cancel i a l₁ l₂ running slots => simp [measure]

theorem progress (hw : 1 ≤ workers) (s : PoolState α β m.σ) (hs : ¬ s.Final) : ∃ t, PoolStep workers m s t := by
  obtain ⟨todo, running, slots, p⟩ := s
  cases running with
  | cons q running =>
    obtain ⟨i, s⟩ := q
    rcases h : m.step s with s' | o
    · exact ⟨_, PoolStep.work (l₁ := []) h⟩
    · cases o with
      | ok b => exact ⟨_, PoolStep.finish (l₁ := []) h⟩
      | err e => exact ⟨_, PoolStep.fail (l₁ := []) h (by intro b hb; cases hb)⟩
      | panic => exact ⟨_, PoolStep.fail (l₁ := []) h (by intro b hb; cases hb)⟩
  | nil =>
    cases todo with
    | nil => exact absurd ⟨rfl, rfl⟩ hs
    | cons q todo => exact ⟨_, PoolStep.start (i := q.1) (a := q.2) (l₁ := []) (by simp only [List.length_nil]; omega)⟩

theorem exists_final (hw : 1 ≤ workers) (s : PoolState α β m.σ) (hI : Inv m xs s) :
    ∃ t, PoolSteps workers m s t ∧ t.Final := by
  induction hn : measure m s using Nat.strong_induction_on generalizing s with
  | _ n ih =>
    by_cases hs : s.Final
    · exact ⟨s, .refl s, hs⟩
    · obtain ⟨t, ht⟩ := progress hw s hs
      obtain ⟨u, hu, hf⟩ := ih _ (hn ▸ measure_step ht hI) t (inv_step ht hI) rfl
      refine ⟨u, ?_, hf⟩
      clear hf
      induction hu with
      | refl => exact .tail (.refl s) ht
      | tail _ h3 ih2 => exact .tail ih2 h3

theorem mapM_eq_ok {l : List α} {bs : List β} (hlen : bs.length = l.length)
    (h : ∀ (i : Nat) (b : β), bs[i]? = some b → ∃ a, l[i]? = some a ∧ f a = .ok b) : l.mapM f = .ok bs := by
  induction l generalizing bs with
  | nil =>
    cases bs with
    | nil => rfl
    | cons b bs => simp at hlen
  | cons a l ih =>
    cases bs with
    | nil => simp at hlen
    | cons b bs =>
      obtain ⟨a', h1, h2⟩ := h 0 b (by simp)
      simp only [List.getElem?_cons_zero, Option.some.injEq] at h1
      subst h1
      rw [List.mapM_cons, h2, Outcome.ok_bind, ih (by simpa using hlen) (fun i b hb => by simpa using h (i + 1) b (by simpa using hb))]
      rfl

theorem mapM_eq_panic (hf : ∀ a, NoErr (f a)) {l : List α} (h : ∃ a ∈ l, ∀ b, f a ≠ .ok b) : l.mapM f = .panic := by
  induction l with
  | nil => obtain ⟨a, ha, _⟩ := h; cases ha
  | cons x l ih =>
    rw [List.mapM_cons]
    rcases hx : f x with b | e | _
    · obtain ⟨a, ha, hb⟩ := h
      rcases List.mem_cons.1 ha with rfl | ha
      · exact absurd hx (hb b)
      · rw [Outcome.ok_bind, ih ⟨a, ha, hb⟩]
        rfl
    · exact absurd hx (hf x e)
    · rfl

theorem option_mapM_id {l : List (Option β)} (h : ∀ i : Nat, l[i]? ≠ some none) :
    ∃ bs, l.mapM id = some bs ∧ l = bs.map some := by
  induction l with
  | nil => exact ⟨[], rfl, rfl⟩
  | cons x l ih =>
    obtain ⟨bs, h1, h2⟩ := ih (fun i hi => h (i + 1) (by simpa using hi))
    cases x with
    | none => exact absurd (by simp) (h 0)
    | some b => exact ⟨b :: bs, by simp [List.mapM_cons, h1], by simp [h2]⟩

theorem collect_eq (hf : ∀ a, NoErr (f a)) {s : PoolState α β m.σ} (hI : Inv m xs s) (hs : s.Final) :
    (s.collect : Outcome ε (List β)) = xs.mapM f := by
  obtain ⟨h1, h2, h3, h4, h5, h6⟩ := hI
  obtain ⟨ht, hr⟩ := hs
  unfold PoolState.collect
  rcases hp : s.panicked with _ | _
  · have hnone : ∀ i : Nat, s.slots[i]? ≠ some none := by
      intro i hi
      have := h6 hp i hi
      simp [ht, hr] at this
    obtain ⟨bs, h7, h8⟩ := option_mapM_id hnone
    rw [h7]
    simp only [Bool.false_eq_true, if_false, expect_some]
    symm
    apply mapM_eq_ok
    · rw [← h3, h8]; simp
    · intro i b hb
      exact h4 i b (by rw [h8]; simp [hb])
  · simp only [if_true]
    exact (mapM_eq_panic hf (h5 hp)).symm

theorem parMap_eq (hw : 1 ≤ workers) (hf : ∀ a, NoErr (f a)) (m : Machine f) (xs : List α) :
    parMap workers m xs = ND.lift (xs.mapM f) := by
  funext o
  apply propext
  constructor
  · rintro ⟨s, h1, h2, rfl⟩
    exact collect_eq hf (inv_steps h1 inv_initial) h2
  · intro h
    obtain ⟨t, h1, h2⟩ := exists_final hw _ (inv_initial (m := m) (xs := xs))
    refine ⟨t, h1, h2, ?_⟩
    rw [collect_eq hf (inv_steps h1 inv_initial) h2]
    exact h

end Pool

namespace ND

@[simp] theorem pure_eq (a : α) : (pure a : ND ε α) = ND.lift (.ok a) := rfl

@[simp] theorem lift_bind (x : Outcome ε α) (g : α → ND ε β) :
    (ND.lift x >>= g) = match x with
      | .ok a => g a
      | .err e => ND.lift (.err e)
      | .panic => ND.lift .panic := by
  funext o
  apply propext
  constructor
  · rintro ⟨y, hy, h⟩
    cases hy
    cases x <;> exact h
  · intro h
    refine ⟨x, rfl, ?_⟩
    cases x <;> exact h

theorem lift_bind_lift (x : Outcome ε α) (g : α → Outcome ε β) (g' : α → ND ε β) (h : ∀ a, g' a = ND.lift (g a)) :
    (ND.lift x >>= g') = ND.lift (x >>= g) := by
  rw [lift_bind]
  cases x with
  | ok a => exact h a
  | err e => rfl
  | panic => rfl

end ND

section
variable {K G : Type} [Field K] [DecidableEq K] [AddCommGroup G] [Module Fr G] [DecidableEq G] [Curve K G]
variable {w : Nat} (prog : Programs ε)

theorem NoErr.fixedBaseNew (v : List G) (up : UsePrecomp) : NoErr (FixedBaseMSM.new v up : Outcome ε (FixedBaseMSM K G)) := by
  cases up
  · exact NoErr.bind (NoErr.mapM (fun _ => NoErr.bind (NoErr.assertP _) fun _ => NoErr.pure _) _) fun _ => NoErr.pure _
  · exact NoErr.pure _

theorem BatchToeplitz.newPar_eq (hw : 1 ≤ w) (vectors : List (List G)) (up : UsePrecomp) :
    (BatchToeplitz.newPar w prog vectors up : ND ε (BatchToeplitz K G)) = ND.lift (BatchToeplitz.new vectors up) := by
  unfold BatchToeplitz.newPar BatchToeplitz.new
  refine ND.lift_bind_lift _ _ _ fun v0 => ND.lift_bind_lift _ _ _ fun _ => ND.lift_bind_lift _ _ _ fun _ =>
    ND.lift_bind_lift _ _ _ fun d => ?_
  rw [Pool.parMap_eq hw (fun v => NoErr.fftG1 d v)]
  refine ND.lift_bind_lift _ _ _ fun vs => ND.lift_bind_lift _ _ _ fun t => ?_
  rw [Pool.parMap_eq hw (fun v => NoErr.fixedBaseNew v up)]
  exact ND.lift_bind_lift _ _ _ fun _ => rfl

theorem BatchToeplitz.sumMatrixVectorMulPar_eq (hw : 1 ≤ w) (bt : BatchToeplitz K G) (matrices : List ToeplitzMatrix) :
    bt.sumMatrixVectorMulPar w prog matrices = ND.lift (bt.sumMatrixVectorMul matrices) := by
  unfold BatchToeplitz.sumMatrixVectorMulPar BatchToeplitz.sumMatrixVectorMul
  refine ND.lift_bind_lift _ _ _ fun _ => ?_
  rw [Pool.parMap_eq hw (fun m => NoErr.fftScalars _ _)]
  simp only [List.mapM_map, Function.comp_def]
  refine ND.lift_bind_lift _ _ _ fun _ => ND.lift_bind_lift _ _ _ fun _ => ?_
  rw [Pool.parMap_eq hw (fun m => NoErr.msm _ _)]
  exact ND.lift_bind_lift _ _ _ fun _ => rfl

theorem computeHPolyCommitmentsPar_eq (hw : 1 ≤ w) (bt : BatchToeplitz K G) (p : List Fr) (c : Nat) :
    computeHPolyCommitmentsPar w prog bt p c = ND.lift (computeHPolyCommitments bt p c) := by
  unfold computeHPolyCommitmentsPar computeHPolyCommitments
  exact ND.lift_bind_lift _ _ _ fun _ => ND.lift_bind_lift _ _ _ fun _ => ND.lift_bind_lift _ _ _ fun _ =>
    BatchToeplitz.sumMatrixVectorMulPar_eq prog hw _ _

theorem FK20Prover.newPar_eq (hw : 1 ≤ w) (ck : List G) (a b c : Nat) (up : UsePrecomp) :
    (FK20Prover.newPar w prog ck a b c up : ND ε (FK20Prover K G)) = ND.lift (FK20Prover.new ck a b c up) := by
  unfold FK20Prover.newPar FK20Prover.new
  refine ND.lift_bind_lift _ _ _ fun _ => ND.lift_bind_lift _ _ _ fun _ => ND.lift_bind_lift _ _ _ fun _ =>
    ND.lift_bind_lift _ _ _ fun _ => ND.lift_bind_lift _ _ _ fun _ => ND.lift_bind_lift _ _ _ fun _ => ?_
  rw [BatchToeplitz.newPar_eq prog hw]
  exact ND.lift_bind_lift _ _ _ fun _ => ND.lift_bind_lift _ _ _ fun _ => ND.lift_bind_lift _ _ _ fun _ =>
    ND.lift_bind_lift _ _ _ fun _ => rfl

theorem FK20Prover.computeMultiOpeningProofsPar_eq (hw : 1 ≤ w) (p : FK20Prover K G) (input : ProverInput) :
    p.computeMultiOpeningProofsPar w prog input = ND.lift (p.computeMultiOpeningProofs input) := by
  unfold FK20Prover.computeMultiOpeningProofsPar FK20Prover.computeMultiOpeningProofs
    FK20Prover.computeMultiOpeningProofsPolyCoeffPar FK20Prover.computeMultiOpeningProofsPolyCoeff
  refine ND.lift_bind_lift _ _ _ fun _ => ?_
  rw [computeHPolyCommitmentsPar_eq prog hw]
  exact ND.lift_bind_lift _ _ _ fun _ => ND.lift_bind_lift _ _ _ fun _ => ND.lift_bind_lift _ _ _ fun _ =>
    ND.lift_bind_lift _ _ _ fun _ => rfl
end

section
variable {K G1 G2 : Type} [Field K] [DecidableEq K] [AddCommGroup G1] [Module Fr G1] [DecidableEq G1]
  [Curve K G1] [PointCodec G1] [AddCommGroup G2] [Module Fr G2] {w : Nat}

theorem DASContext.newPar_eq (prog : Programs ε) (hw : 1 ≤ w) (setup : SetupPoints G1 G2) (up : UsePrecomp) :
    (DASContext.newPar w prog setup up : ND ε (DASContext K G1 G2)) = ND.lift (DASContext.new setup up) := by
  unfold DASContext.newPar DASContext.new ProverContext.new
  simp only [bind_assoc]
  refine ND.lift_bind_lift _ _ _ fun _ => ?_
  rw [FK20Prover.newPar_eq prog hw]
  exact ND.lift_bind_lift _ _ _ fun _ => ND.lift_bind_lift _ _ _ fun _ => ND.lift_bind_lift _ _ _ fun _ => rfl

theorem DASContext.computeCellsAndKzgProofsPar_eq (prog : Programs Error) (hw : 1 ≤ w) (ctx : DASContext K G1 G2)
    (blob : List UInt8) :
    ctx.computeCellsAndKzgProofsPar w prog blob = ND.lift (ctx.computeCellsAndKzgProofs blob) := by
  unfold DASContext.computeCellsAndKzgProofsPar DASContext.computeCellsAndKzgProofs
  refine ND.lift_bind_lift _ _ _ fun _ => ?_
  rw [FK20Prover.computeMultiOpeningProofsPar_eq prog hw]
  exact ND.lift_bind_lift _ _ _ fun _ => rfl

theorem DASContext.recoverCellsAndKzgProofsPar_eq (prog : Programs Error) (hw : 1 ≤ w) (ctx : DASContext K G1 G2)
    (ci : List Nat) (cells : List (List UInt8)) :
    ctx.recoverCellsAndKzgProofsPar w prog ci cells = ND.lift (ctx.recoverCellsAndKzgProofs ci cells) := by
  unfold DASContext.recoverCellsAndKzgProofsPar DASContext.recoverCellsAndKzgProofs
  refine ND.lift_bind_lift _ _ _ fun _ => ?_
  rw [FK20Prover.computeMultiOpeningProofsPar_eq prog hw]
  exact ND.lift_bind_lift _ _ _ fun _ => rfl
end

end Verif
