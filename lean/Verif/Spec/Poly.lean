import Mathlib.Algebra.Polynomial.Eval.Degree
import Mathlib.Algebra.Polynomial.Degree.Lemmas
import Mathlib.Algebra.Polynomial.Roots
import Mathlib.LinearAlgebra.Lagrange
import Verif.Spec.Dft
import Verif.Model.Field

/-! Polynomials given by coefficient lists, roots of unity of the protocol. -/
namespace Verif.Spec
open Polynomial

section
variable {F : Type} [Field F]

/-- The polynomial with the given coefficients, constant term first. -/
noncomputable def polyOf : List F → F[X]
  | [] => 0
  | a :: l => C a + X * polyOf l

theorem coeff_polyOf (l : List F) (i : Nat) : (polyOf l).coeff i = l.getD i 0 := by
  induction l generalizing i with
  | nil => simp [polyOf]
  | cons a l ih =>
    cases i with
    | zero => simp [polyOf]
    | succ i => simp [polyOf, ih, coeff_X_mul]

theorem degree_polyOf_lt (l : List F) : (polyOf l).degree < l.length := by
  rw [degree_lt_iff_coeff_zero]
  intro m hm
  rw [coeff_polyOf]
  simp [List.getD, List.getElem?_eq_none hm]

/-- A polynomial of degree `< n` is determined by its list of coefficients. -/
theorem polyOf_eq_iff {l : List F} {p : F[X]} (h : p.degree < l.length) :
    polyOf l = p ↔ ∀ i, i < l.length → l.getD i 0 = p.coeff i := by
  constructor
  · rintro rfl i _; rw [coeff_polyOf]
  · intro hc
    ext i
    rw [coeff_polyOf]
    by_cases hi : i < l.length
    · exact hc i hi
    · have hi : l.length ≤ i := by omega
      rw [(degree_lt_iff_coeff_zero _ _).1 h i hi]
      simp [List.getD, List.getElem?_eq_none hi]

theorem eval_polyOf (l : List F) (x : F) :
    (polyOf l).eval x = ∑ i ∈ Finset.range l.length, l.getD i 0 * x ^ i := by
  by_cases h : l = []
  · subst h; simp [polyOf]
  have hpos : 0 < l.length := List.length_pos_of_ne_nil h
  rw [eval_eq_sum_range' (n := l.length)]
  · simp only [coeff_polyOf]
  · by_cases h0 : polyOf l = 0
    · rw [h0]; simpa using hpos
    · exact (natDegree_lt_iff_degree_lt h0).2 (degree_polyOf_lt l)

theorem polyOf_injective {l m : List F} (h : l.length = m.length) (hp : polyOf l = polyOf m) : l = m := by
  apply List.ext_getElem?
  intro i
  by_cases hi : i < l.length
  · have := congrArg (fun p => p.coeff i) hp
    simp only [coeff_polyOf] at this
    have hi' : i < m.length := h ▸ hi
    simp [hi, hi'] at this ⊢
    exact this
  · rw [List.getElem?_eq_none (by omega), List.getElem?_eq_none (by omega)]

/-- the coefficients of `p` below `n` -/
noncomputable def coeffs (n : Nat) (p : F[X]) : List F := (List.range n).map p.coeff

theorem polyOf_coeffs {n : Nat} {p : F[X]} (h : p.degree < n) : polyOf (coeffs n p) = p := by
  rw [polyOf_eq_iff (by simpa [coeffs] using h)]
  intro i hi
  have hi' : i < n := by simpa [coeffs] using hi
  simp [coeffs, hi']

end

/-- The primitive `2^k`-th root of unity of the protocol: `7 ^ ((r-1) / 2^k)` (EIP-4844,
`compute_roots_of_unity`). -/
def omega (k : Nat) : Fr := (7 : Fr) ^ ((frOrder - 1) / 2 ^ k)

end Verif.Spec
