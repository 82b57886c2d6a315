import Verif.Lemmas.PolyCoeff
import Verif.Lemmas.NaiveVerify
import Verif.Lemmas.BatchInverse
import Verif.Lemmas.Toeplitz

/-! C26, C27, C29, C30: linear combinations, batch inversion, Toeplitz products and polynomial arithmetic. -/
namespace Verif
open Polynomial Finset

set_option linter.unusedSectionVars false

variable {ε : Type}

/-- C26: `g1_lincomb` returns `Some` of the sum of the products of paired points and scalars, whatever the lengths and
whether or not some points are the identity. -/
theorem C26_lincomb {G : Type} [AddCommGroup G] [Module Fr G] [DecidableEq G] (points : List G) (scalars : List Fr) :
    lincomb points scalars =
      some (∑ i ∈ range (min points.length scalars.length), scalars.getD i 0 • points.getD i 0) := by
  rw [lincomb_eq]
  congr 1
  unfold lcSum
  set n := min points.length scalars.length with hn
  have h : points.zip scalars = (points.take n).zip (scalars.take n) := List.zip_eq_zip_take_min
  rw [h, sum_zip_eq (fun q : G × Fr => q.2 • q.1) _ _ 0 0 n (by simp [hn]) (by simp [hn])]
  apply sum_congr rfl
  intro i hi
  have hi : i < n := mem_range.1 hi
  simp [List.getD_eq_getElem?_getD, hi]

/-- C26: the documented `None` on lists of different lengths is never returned. -/
theorem C26_never_none {G : Type} [AddCommGroup G] [Module Fr G] [DecidableEq G] (points : List G) (scalars : List Fr) :
    lincomb points scalars ≠ none := by
  rw [C26_lincomb]; simp

/-- C27 -/
theorem C27_batch_inverse {F : Type} [Field F] [DecidableEq F] (v : List F) :
    ((∀ x ∈ v, x ≠ 0) → ∃ w, (batchInverse v : Outcome ε (List F)) = .ok w ∧ w.length = v.length ∧
      ∀ i (hi : i < v.length) (hw : i < w.length), v[i] * w[i] = 1) ∧
    (0 ∈ v → (batchInverse v : Outcome ε (List F)) = .panic) ∧
    (batchInverse ([] : List F) : Outcome ε (List F)) = .ok [] := by
  refine ⟨?_, batchInverse_panic v, by rw [batchInverse_ok [] (by simp)]; rfl⟩
  intro hv
  refine ⟨_, batchInverse_ok v hv, by simp, ?_⟩
  intro i hi _
  rw [List.getElem_map]
  exact mul_inv_cancel₀ (hv _ (List.getElem_mem hi))

/-- C29: `BatchToeplitzMatrixVecMul` without precomputation, for every number of matrices: component `a` of the result
is the sum of the components `a` of the ordinary matrix-vector products. -/
theorem C29_toeplitz {K G : Type} [Field K] [DecidableEq K] [AddCommGroup G] [Module Fr G] [DecidableEq G] [Curve K G]
    (vectors : List (List G)) (matrices : List ToeplitzMatrix) (k : Nat) (hk : k + 1 ≤ 32) (hne : matrices ≠ [])
    (hlen : vectors.length = matrices.length) (hl : ∀ v ∈ vectors, v.length = 2 ^ k)
    (hm : ∀ tm ∈ matrices, tm.row.length = 2 ^ k ∧ tm.col.length = 2 ^ k) :
    ∃ bt r, (BatchToeplitz.new vectors .no : Outcome ε (BatchToeplitz K G)) = .ok bt ∧
      (bt.sumMatrixVectorMul matrices : Outcome ε (List G)) = .ok r ∧ r.length = 2 ^ k ∧
      ∀ a < 2 ^ k, r[a]? = some (((vectors.zip matrices).map (fun q =>
        ∑ b ∈ range (2 ^ k), (if b ≤ a then q.2.col.getD (a - b) 0 else q.2.row.getD (b - a) 0) • q.1.getD b 0)).sum) := by
  have hv : vectors ≠ [] := by
    intro h; rw [h] at hlen; exact hne (List.eq_nil_of_length_eq_zero hlen.symm)
  refine ⟨⟨vectors.length, (List.range (2 ^ (k + 1))).map (fun j => .noPrecomp (fftGens vectors (k + 1) j)), 2 ^ k,
    domainOf (k + 1)⟩, _, ?_, sumMatrixVectorMul_noPrecomp vectors matrices k hk hne hlen hl hm, by simp, ?_⟩
  · rw [batchToeplitz_new vectors k hk hv hl .no, List.mapM_map]
    rw [mapM_ok (g := fun j => FixedBaseMSM.noPrecomp (fftGens vectors (k + 1) j)) (by intro j _; rfl)]
    rfl
  · intro a ha
    rw [(rep_map_range (2 ^ k) _).2 a ha]
    rfl

section
variable {F : Type} [Field F] [DecidableEq F]

/-- C30: the ring operations. -/
theorem C30_arithmetic (a b : List F) (x : F) :
    (∃ c, (polyAdd a b : Outcome ε (List F)) = .ok c ∧ c.length = max a.length b.length ∧
      Spec.polyOf c = Spec.polyOf a + Spec.polyOf b) ∧
    (∃ c, (polySub a b : Outcome ε (List F)) = .ok c ∧ c.length = max a.length b.length ∧
      Spec.polyOf c = Spec.polyOf a - Spec.polyOf b) ∧
    (polyNeg a).length = a.length ∧ Spec.polyOf (polyNeg a) = - Spec.polyOf a ∧
    polyEval a x = (Spec.polyOf a).eval x := by
  refine ⟨polyAdd_spec a b, polySub_spec a b, by simp [polyNeg], polyOf_map_neg a, polyEval_eq a x⟩

/-- C30: multiplication; the only panic is the product of two empty lists. -/
theorem C30_mul (a b : List F) :
    ((a ≠ [] ∨ b ≠ []) → ∃ c, (polyMul a b : Outcome ε (List F)) = .ok c ∧ c.length + 1 = a.length + b.length ∧
      Spec.polyOf c = Spec.polyOf a * Spec.polyOf b) ∧
    (a = [] ∧ b = [] → (polyMul a b : Outcome ε (List F)) = .panic) := by
  constructor
  · intro h
    have hl : 1 ≤ a.length + b.length := by
      rcases h with h | h <;> have := List.length_pos_iff.2 h <;> omega
    obtain ⟨c, hc, hlen, hp⟩ := polyMul_spec (ε := ε) a b hl
    exact ⟨c, hc, by omega, hp⟩
  · rintro ⟨rfl, rfl⟩; exact polyMul_panic

/-- C30: the vanishing polynomial of a list of points. -/
theorem C30_vanishing (roots : List F) :
    ∃ c, (vanishingPoly roots : Outcome ε (List F)) = .ok c ∧ c.length = roots.length + 1 ∧
      Spec.polyOf c = (roots.map (fun r => X - C r)).prod := vanishingPoly_spec roots

/-- C30: interpolation returns the coefficients of the unique polynomial of degree below the number of points. -/
theorem C30_interpolate (points : List (F × F)) (hn : 2 ≤ points.length) (hd : (points.map Prod.fst).Nodup) :
    ∃ r, (lagrangeInterpolate points : Outcome ε (Option (List F))) = .ok (some r) ∧ r.length = points.length ∧
      (∀ p ∈ points, (Spec.polyOf r).eval p.1 = p.2) ∧
      ∀ g : F[X], g.degree < points.length → (∀ p ∈ points, g.eval p.1 = p.2) → g = Spec.polyOf r := by
  have hinj : ∀ i j (hi : i < points.length) (hj : j < points.length), points[i].1 = points[j].1 → i = j := by
    intro i j hi hj h
    refine (List.Nodup.getElem_inj_iff hd (i := i) (j := j) (hi := by simpa using hi) (hj := by simpa using hj)).1 ?_
    simpa using h
  obtain ⟨r, hr, hl, hev⟩ := lagrangeInterpolate_spec (ε := ε) points hn hinj
  have hall : ∀ p ∈ points, (Spec.polyOf r).eval p.1 = p.2 := by
    intro p hp
    obtain ⟨m, hm, rfl⟩ := List.getElem_of_mem hp
    exact hev m hm
  refine ⟨r, hr, hl, hall, ?_⟩
  intro g hg hgev
  have hc : (points.map Prod.fst).toFinset.card = points.length := by
    rw [List.toFinset_card_of_nodup hd, List.length_map]
  refine Polynomial.eq_of_degrees_lt_of_eval_finset_eq (points.map Prod.fst).toFinset (by rw [hc]; exact hg)
    (by rw [hc, ← hl]; exact Spec.degree_polyOf_lt r) ?_
  intro x hx
  rw [List.mem_toFinset, List.mem_map] at hx
  obtain ⟨p, hp, rfl⟩ := hx
  rw [hgev p hp, hall p hp]

/-- C30: interpolation panics on fewer than two points and on two points with the same abscissa. -/
theorem C30_interpolate_panics (points : List (F × F)) (h : points.length < 2 ∨ ¬(points.map Prod.fst).Nodup) :
    (lagrangeInterpolate points : Outcome ε (Option (List F))) = .panic := lagrangeInterpolate_panic points h
end

/-! Non-vacuity: concrete inputs meeting the hypotheses. -/

example : lincomb ([2, 0, 5] : List Fr) [3, 4, 7] = some 41 := by decide +kernel
example : lincomb ([2, 0, 5] : List Fr) [3] = some 6 := by decide +kernel
example : ∀ x ∈ ([2, 3] : List ℚ), x ≠ 0 := by decide +kernel
example : (batchInverse [2, 3] : Outcome Unit (List ℚ)) = .ok [1/2, 1/3] := by decide +kernel
example : ∃ (vectors : List (List Fr)) (matrices : List ToeplitzMatrix), matrices ≠ [] ∧
    vectors.length = matrices.length ∧ (∀ v ∈ vectors, v.length = 2 ^ 1) ∧
    ∀ tm ∈ matrices, tm.row.length = 2 ^ 1 ∧ tm.col.length = 2 ^ 1 :=
  ⟨[[1, 2], [3, 4]], [⟨[5, 6], [5, 7]⟩, ⟨[8, 9], [8, 1]⟩], by simp, rfl, by simp, by simp⟩
example : (polyMul [1, 2] [3, 0, 4] : Outcome Unit (List ℚ)) = .ok [3, 6, 4, 8] := by decide +kernel
example : ([(1, 5), (2, 7), (4, 1)] : List (ℚ × ℚ)).map Prod.fst |>.Nodup := by decide +kernel
example : (lagrangeInterpolate [(1, 5), (2, 7), (3, 11)] : Outcome Unit (Option (List ℚ))) = .ok (some [5, -1, 1]) := by
  decide +kernel
example : ¬(([(1, 5), (2, 7), (1, 5)] : List (ℚ × ℚ)).map Prod.fst).Nodup := by decide +kernel

end Verif
