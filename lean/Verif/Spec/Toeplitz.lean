import Mathlib.Algebra.Module.BigOperators
import Verif.Model.Field

/-! Independent specification of Toeplitz matrix-vector products. -/
namespace Verif.Spec
open Finset

/-- Entry `(a, b)` of the Toeplitz matrix with first row `row` and first column `col`. -/
def toeplitzEntry (row col : List Fr) (a b : Nat) : Fr := if b ≤ a then col.getD (a - b) 0 else row.getD (b - a) 0

/-- Component `a` of the product of that matrix with the vector `v` of length `n`. -/
def toeplitzMul {G : Type} [AddCommGroup G] [Module Fr G] (row col : List Fr) (v : List G) (n a : Nat) : G :=
  ∑ b ∈ range n, toeplitzEntry row col a b • v.getD b 0

end Verif.Spec
