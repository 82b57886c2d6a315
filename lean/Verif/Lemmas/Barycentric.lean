import Mathlib.LinearAlgebra.Lagrange

/-! A polynomial of degree below `N` outside the `N`-th roots of unity, from its values in them. -/
namespace Verif
open Polynomial Finset

theorem barycentric {F ι : Type} [Field F] [DecidableEq ι] (N : Nat) (hN : 0 < N) (s : Finset ι) (v : ι → F)
    (hv : Set.InjOn v s) (hs : s.card = N) (hr : ∀ i ∈ s, v i ^ N = 1) (g : F[X]) (hg : g.degree < N) (x : F) (hx : ∀ i ∈ s, x ≠ v i) :
    g.eval x = (x ^ N - 1) / N * ∑ i ∈ s, g.eval (v i) * v i / (x - v i) := by
  have hnodal : Lagrange.nodal s v = X ^ N - 1 := by
    refine eq_of_degree_sub_lt_of_eval_index_eq s hv ?_ fun i hi => ?_
    · have h1 : (Lagrange.nodal s v).degree = N := by rw [Lagrange.degree_nodal, hs]
      have h2 : (X ^ N - 1 : F[X]).degree = N := by
        rw [← C_1]
        exact degree_X_pow_sub_C hN _
      rw [hs, ← h1]
      refine degree_sub_lt_left (h1.trans h2.symm) Lagrange.nodal_ne_zero ?_
      · rw [Lagrange.nodal_monic.leadingCoeff, ← C_1]
        exact (monic_X_pow_sub_C _ hN.ne').leadingCoeff.symm
    · rw [Lagrange.eval_nodal_at_node hi, eval_sub, eval_pow, eval_X, eval_one, hr i hi, sub_self]
  have hw : ∀ i ∈ s, Lagrange.nodalWeight s v i = v i / N := by
    intro i hi
    rw [Lagrange.nodalWeight_eq_eval_derivative_nodal hi, hnodal, derivative_sub, derivative_X_pow, derivative_one, sub_zero, eval_mul,
      eval_C, eval_pow, eval_X]
    have h := hr i hi
    have h0 : v i ≠ 0 := by
      intro h0
      rw [h0, zero_pow hN.ne'] at h
      exact zero_ne_one h
    have h1 : v i ^ (N - 1) = (v i)⁻¹ := by
      refine eq_inv_of_mul_eq_one_left ?_
      rw [← pow_succ, Nat.sub_add_cancel hN, h]
    rw [h1, mul_inv, inv_inv, div_eq_mul_inv, mul_comm]
  have hi : g = Lagrange.interpolate s v fun i => g.eval (v i) :=
    Lagrange.eq_interpolate hv (by rw [hs]; exact hg)
  conv_lhs => rw [hi]
  rw [Lagrange.eval_interpolate_not_at_node _ hx, hnodal, eval_sub, eval_pow, eval_X, eval_one, div_mul_eq_mul_div, mul_div_assoc,
    div_eq_mul_inv, sum_mul]
  congr 1
  refine sum_congr rfl fun i hi => ?_
  rw [hw i hi, div_eq_mul_inv, div_eq_mul_inv]
  ring

end Verif
