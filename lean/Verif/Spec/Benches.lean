import Verif.Spec.Poly

/-! What the FK20 benchmark computes with. -/
namespace Verif.Spec
open Finset

/-- Scalar `j` of the multi scalar multiplication number `2 i` of the FK20 prover, as a combination of the coefficients `f`. -/
def fkScalar (f : List Fr) (i j : Nat) : Fr :=
  2 * f.getD (4095 - j) 0 + ∑ u ∈ range 63, omega 7 ^ ((u + 1) * (2 * i)) * f.getD (4095 - j - 64 * (63 - u)) 0

/-- None of 64 scalars is a multiple of 256 (as a number), and two neighbours (the first of them at an even position) have the
same remainder. -/
def Collide (x : Nat → Fr) : Prop :=
  (∀ j < 64, (x j).val % 256 ≠ 0) ∧ ∃ m < 32, (x (2 * m)).val % 256 = (x (2 * m + 1)).val % 256

end Verif.Spec
