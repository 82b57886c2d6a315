import Verif.Model.UnitTests
import Verif.Props.Transforms
import Verif.Props.Algebra

/-! C91: the unit tests of the Rust crates, as programs: polynomials and transforms. Each test is stated for every value of its data,
and the data of the repository is an instance. -/
namespace Verif
open UnitTests Polynomial Finset

variable {ε : Type}

theorem forM_ok_iff {α : Type} (l : List α) (f : α → Outcome ε Unit) : l.forM f = .ok () ↔ ∀ a ∈ l, f a = .ok () := by
  induction l with
  | nil => exact ⟨fun _ a ha => by simp at ha, fun _ => rfl⟩
  | cons a l ih =>
    show (f a >>= fun _ => l.forM f) = _ ↔ _
    rw [bind_eq_ok]
    constructor
    · rintro ⟨_, ha, hl⟩ b hb
      rcases List.mem_cons.1 hb with rfl | hb
      · exact ha
      · exact ih.1 hl b hb
    · intro h
      exact ⟨(), h a (by simp), ih.2 fun b hb => h b (by simp [hb])⟩

/-- C91: the tests of addition, subtraction, negation and multiplication pass exactly if the expected list has the right length and
is the right polynomial. -/
theorem C91_poly_arithmetic (a b c : List Fr) :
    ((basicPolynomialAdd a b c : Outcome ε Unit) = .ok () ↔
      c.length = max a.length b.length ∧ Spec.polyOf c = Spec.polyOf a + Spec.polyOf b) ∧
    ((basicPolynomialSubtraction a b c : Outcome ε Unit) = .ok () ↔
      c.length = max a.length b.length ∧ Spec.polyOf c = Spec.polyOf a - Spec.polyOf b) ∧
    ((polynomialNeg a c : Outcome ε Unit) = .ok () ↔ c.length = a.length ∧ Spec.polyOf c = - Spec.polyOf a) ∧
    ((polynomialMultiplication a b c : Outcome ε Unit) = .ok () ↔
      c.length + 1 = a.length + b.length ∧ Spec.polyOf c = Spec.polyOf a * Spec.polyOf b) := by
  obtain ⟨⟨s, hs, hsl, hsp⟩, ⟨d, hd, hdl, hdp⟩, hnl, hnp, -⟩ := C30_arithmetic (ε := ε) a b (0 : Fr)
  refine ⟨?_, ?_, ?_, ?_⟩
  · unfold basicPolynomialAdd
    rw [hs, Outcome.ok_bind, assertP_eq_ok]
    constructor
    · rintro rfl; exact ⟨hsl, hsp⟩
    · rintro ⟨h1, h2⟩; exact Spec.polyOf_injective (by omega) (by rw [hsp, h2])
  · unfold basicPolynomialSubtraction
    rw [hd, Outcome.ok_bind, assertP_eq_ok]
    constructor
    · rintro rfl; exact ⟨hdl, hdp⟩
    · rintro ⟨h1, h2⟩; exact Spec.polyOf_injective (by omega) (by rw [hdp, h2])
  · unfold polynomialNeg
    rw [assertP_eq_ok]
    constructor
    · rintro rfl; exact ⟨hnl, hnp⟩
    · rintro ⟨h1, h2⟩; exact Spec.polyOf_injective (by omega) (by rw [hnp, h2])
  · unfold polynomialMultiplication
    by_cases hab : a ≠ [] ∨ b ≠ []
    · obtain ⟨m, hm, hml, hmp⟩ := (C30_mul (ε := ε) a b).1 hab
      rw [hm, Outcome.ok_bind, assertP_eq_ok]
      constructor
      · rintro rfl; exact ⟨hml, hmp⟩
      · rintro ⟨h1, h2⟩; exact Spec.polyOf_injective (by omega) (by rw [hmp, h2])
    · have hab : a = [] ∧ b = [] := by tauto
      rw [(C30_mul (ε := ε) a b).2 hab, hab.1, hab.2]
      simp

example : (basicPolynomialAdd [1, 2, 3] [4, 5, 6] [5, 7, 9] : Outcome Unit Unit) = .ok () := by decide +kernel
example : (basicPolynomialAdd [2, 3] [4, 5, 6] [6, 8, 6] : Outcome Unit Unit) = .ok () := by decide +kernel
example : (polynomialNeg [1, 2, 3] [-1, -2, -3] : Outcome Unit Unit) = .ok () := by decide +kernel
example : (basicPolynomialSubtraction [1, 2, 3] [4, 5, 6] [-3, -3, -3] : Outcome Unit Unit) = .ok () := by decide +kernel
example : (basicPolynomialSubtraction [4, 5] [6, 7, 8] [-2, -2, -8] : Outcome Unit Unit) = .ok () := by decide +kernel
example : (polynomialMultiplication [1, 2, 3] [4, 5] [4, 13, 22, 15] : Outcome Unit Unit) = .ok () := by decide +kernel
example : (polynomialMultiplication [1, 2, 3] [4, 5] [4, 13, 22, 15, 0] : Outcome Unit Unit) = .panic := by decide +kernel

theorem naivePolyEval_eq (p : List Fr) (v : Fr) : naivePolyEval p v = (Spec.polyOf p).eval v := by
  have key : ∀ (l : List Fr) (k : Nat) (acc : Fr),
      (l.zipIdx k).foldl (fun r q => r + q.1 * v ^ q.2) acc = acc + v ^ k * (Spec.polyOf l).eval v := by
    intro l
    induction l with
    | nil => intro k acc; simp [Spec.polyOf]
    | cons a l ih =>
      intro k acc
      rw [List.zipIdx_cons, List.foldl_cons, ih]
      simp only [Spec.polyOf, eval_add, eval_mul, eval_C, eval_X]
      ring
  unfold naivePolyEval
  rw [key]; simp

/-- C91: the test of the evaluation passes for every polynomial and every point; the tests of the vanishing polynomial and of the
interpolation pass exactly if the expected list is the right one. -/
theorem C91_poly_points (p : List Fr) (v : Fr) (roots expected : List Fr) (points : List (Fr × Fr)) :
    (polynomialEvaluation p v : Outcome ε Unit) = .ok () ∧
    ((vanishingPolynomialSmokeTest roots expected : Outcome ε Unit) = .ok () ↔
      expected.length = roots.length + 1 ∧ Spec.polyOf expected = (roots.map (fun r => X - C r)).prod) ∧
    ((polynomialInterpolationSmokeTest points expected : Outcome ε Unit) = .ok () ↔
      2 ≤ points.length ∧ (points.map Prod.fst).Nodup ∧ expected.length = points.length ∧
        ∀ q ∈ points, (Spec.polyOf expected).eval q.1 = q.2) := by
  refine ⟨?_, ?_, ?_⟩
  · unfold polynomialEvaluation
    rw [assertP_eq_ok, naivePolyEval_eq]
    exact polyEval_eq p v
  · obtain ⟨c, hc, hl, hp⟩ := C30_vanishing (ε := ε) roots
    unfold vanishingPolynomialSmokeTest
    rw [hc, Outcome.ok_bind]
    by_cases he : c = expected
    · subst he
      rw [assertP_true rfl, Outcome.ok_bind]
      refine ⟨fun _ => ⟨hl, hp⟩, fun _ => ?_⟩
      rw [forM_ok_iff]
      intro r hr
      rw [assertP_eq_ok, polyEval_eq, hp, eval_list_prod]
      apply List.prod_eq_zero
      rw [List.map_map, List.mem_map]
      exact ⟨r, hr, by simp⟩
    · rw [assertP_false he]
      refine ⟨fun h => by simp at h, fun h => absurd (Spec.polyOf_injective (by omega) (by rw [hp, h.2])) he⟩
  · unfold polynomialInterpolationSmokeTest
    by_cases hok : 2 ≤ points.length ∧ (points.map Prod.fst).Nodup
    · obtain ⟨r, hr, hl, hv, hu⟩ := C30_interpolate (ε := ε) points hok.1 hok.2
      rw [hr, Outcome.ok_bind, expect_some, Outcome.ok_bind, assertP_eq_ok]
      constructor
      · rintro rfl; exact ⟨hok.1, hok.2, hl, hv⟩
      · rintro ⟨-, -, h1, h2⟩
        refine Spec.polyOf_injective (by omega) (hu _ ?_ h2).symm
        rw [← h1]; exact Spec.degree_polyOf_lt expected
    · rw [C30_interpolate_panics points (by
        rcases not_and_or.1 hok with h | h
        · exact .inl (by omega)
        · exact .inr h)]
      refine ⟨fun h => by simp at h, fun h => absurd ⟨h.1, h.2.1⟩ hok⟩

example : (polynomialEvaluation [1, 2, 3] 2 : Outcome Unit Unit) = .ok () := by decide +kernel
example : (vanishingPolynomialSmokeTest [1, 2, 3] [-6, 11, -6, 1] : Outcome Unit Unit) = .ok () := by decide +kernel
example : (polynomialInterpolationSmokeTest [(0, 1), (1, 6), (2, 17)] [1, 2, 3] : Outcome Unit Unit) = .ok () := by decide +kernel

/-- C91: the test of the largest root of unity passes. -/
theorem C91_root_of_unity : (largestRootOfUnityHasCorrectOrder : Outcome ε Unit) = .ok () := by
  have h := (C37_roots (ε := ε) 0).1
  unfold largestRootOfUnityHasCorrectOrder
  rw [assertP_true h.pow_eq_one, Outcome.ok_bind, forM_ok_iff]
  intro i hi
  rw [List.mem_range] at hi
  rw [assertP_eq_ok]
  intro he
  exact absurd (Nat.le_of_dvd (by positivity) (h.dvd_of_pow_eq_one _ he))
    (not_le.2 (Nat.pow_lt_pow_right (by norm_num) hi))

/-- C91: the two tests of the scalar transforms pass for every domain up to `2^32`, every full list of values and every generator
other than zero. -/
theorem C91_transforms (k : Nat) (hk : k ≤ 32) (x : List Fr) (hx : x.length = 2 ^ k) :
    (fftTestPolynomial (2 ^ k) x : Outcome ε Unit) = .ok () ∧
    (∀ g, g ≠ 0 → (testPolynomialCosetFft (2 ^ k) g x : Outcome ε Unit) = .ok ()) ∧
    (testPolynomialCosetFft (2 ^ k) 0 x : Outcome ε Unit) = .panic := by
  refine ⟨?_, ?_, ?_⟩
  · obtain ⟨d, hd, -, h2⟩ := C20_fft_ifft (ε := ε) k hk x hx
    obtain ⟨B, hB, hBl, hE⟩ := ifftScalars_interp (ε := ε) k hk x
    rw [domain_new_two_pow k hk] at hd
    cases hd
    rw [hB, Outcome.ok_bind] at h2
    unfold fftTestPolynomial
    rw [domain_new_two_pow k hk, Outcome.ok_bind, hB, Outcome.ok_bind, h2, Outcome.ok_bind, assertP_true rfl, bind_eq_ok]
    refine ⟨(), ?_, rfl⟩
    rw [forM_ok_iff]
    intro q hq
    obtain ⟨i, hi, rfl⟩ := List.getElem_of_mem hq
    have hi : i < 2 ^ k := by simpa [domainOf] using hi
    simp only [domainOf, List.getElem_zipIdx, List.getElem_map, List.getElem_range, Nat.zero_add]
    rw [idx_lt (by omega), Outcome.ok_bind, assertP_eq_ok, polyEval_eq, hE i hi, List.getD_eq_getElem _ _ (by omega)]
  · intro g hg
    obtain ⟨d, c, hd, hc, h, -⟩ := (C20_coset (ε := ε) k hk g x hx).1 hg
    unfold testPolynomialCosetFft
    rw [hd, Outcome.ok_bind, hc, Outcome.ok_bind]
    obtain ⟨y, hy, hz⟩ := bind_eq_ok.1 h
    rw [hy, Outcome.ok_bind, hz, Outcome.ok_bind, assertP_true rfl]
  · unfold testPolynomialCosetFft
    rw [domain_new_two_pow k hk, Outcome.ok_bind, (C20_coset (ε := ε) k hk 0 x hx).2]
    rfl

/-- the values of the repository: two evaluations, and 32 coefficients with generator 7 -/
example : (fftTestPolynomial 2 [2, 4] : Outcome Unit Unit) = .ok () := (C91_transforms 1 (by norm_num) [2, 4] rfl).1
example : (testPolynomialCosetFft 32 MULTIPLICATIVE_GENERATOR ((List.range 32).map fun (i : Nat) => -(i : Fr)) : Outcome Unit Unit) = .ok () :=
  (C91_transforms 5 (by norm_num) _ (by simp)).2.1 _ (by decide +kernel)

theorem powersOf_eq (s : Fr) (n : Nat) : (powersOf s n : Outcome ε (List Fr)) = .ok ((List.range (n + 1)).map fun i => s ^ i) := by
  unfold powersOf
  obtain ⟨l, hl, hI⟩ := foldlM_range_inv (ε := ε) (n := n) (s := [(1 : Fr)])
    (body := fun (powers : List Fr) i => do
      let prev ← idx powers (i + 1 - 1)
      pure (powers ++ [prev * s]))
    (fun i l => l = (List.range (i + 1)).map fun i => s ^ i) (by simp) (by
      rintro i l hi rfl
      refine ⟨_, ?_, rfl⟩
      rw [Nat.add_sub_cancel, idx_lt (by simp), Outcome.ok_bind, List.range_succ (n := i + 1), List.map_append]
      simp [pow_succ])
  rw [hl, hI]

theorem naiveMsm_eq {G : Type} [AddCommGroup G] [Module Fr G] (points : List G) (scalars : List Fr) :
    naiveMsm points scalars = ((points.zip scalars).map fun q => q.2 • q.1).sum := by
  unfold naiveMsm
  have key : ∀ (l : List (G × Fr)) (acc : G), l.foldl (fun acc q => acc + q.2 • q.1) acc = acc + (l.map fun q => q.2 • q.1).sum := by
    intro l
    induction l with
    | nil => simp
    | cons q l ih => intro acc; rw [List.foldl_cons, ih, List.map_cons, List.sum_cons, add_assoc]
  rw [key, zero_add]

/-- C91: the test of the transform of points passes for every list of `2^k` points. -/
theorem C91_point_transform {G : Type} [AddCommGroup G] [Module Fr G] [DecidableEq G] (k : Nat) (hk : k ≤ 32) (points : List G)
    (hp : points.length = 2 ^ k) : (fftG1SmokeTest (2 ^ k) points : Outcome ε Unit) = .ok () := by
  obtain ⟨d, hd, h1, -⟩ := C20_fft_ifft_points (ε := ε) k hk points hp
  obtain ⟨d', B, hd', hB, hl, hv⟩ := C19_fft_points (ε := ε) k hk points
  rw [domain_new_two_pow k hk] at hd hd'
  cases hd; cases hd'
  rw [hB, Outcome.ok_bind] at h1
  unfold fftG1SmokeTest
  rw [domain_new_two_pow k hk, Outcome.ok_bind, hB, Outcome.ok_bind, h1, Outcome.ok_bind, assertP_true rfl, bind_eq_ok]
  refine ⟨(), ?_, rfl⟩
  rw [forM_ok_iff]
  intro q hq
  obtain ⟨j, hj, rfl⟩ := List.getElem_of_mem hq
  have hj : j < 2 ^ k := by simpa [domainOf] using hj
  simp only [domainOf, List.getElem_zipIdx, List.getElem_map, List.getElem_range, Nat.zero_add]
  rw [powersOf_eq, Outcome.ok_bind, idx_ok (hv j hj), Outcome.ok_bind, assertP_eq_ok, naiveMsm_eq]
  have hz : points.zip ((List.range (points.length + 1)).map fun i => (Spec.omega k ^ j) ^ i) =
      points.zip ((List.range points.length).map fun i => (Spec.omega k ^ j) ^ i) := by
    rw [List.zip_eq_zip_take_min, ← List.map_take]
    simp
  rw [hz, sum_zip_eq (fun q : G × Fr => q.2 • q.1) _ _ 0 0 (2 ^ k) (by omega) (by simp [hp])]
  apply sum_congr rfl
  intro i hi
  have hi := mem_range.1 hi
  simp [List.getD_eq_getElem?_getD, hp, hi]

example : (fftG1SmokeTest 4 ([1, 2, 3, 4] : List Fr) : Outcome Unit Unit) = .ok () :=
  C91_point_transform 2 (by norm_num) [1, 2, 3, 4] rfl

end Verif
