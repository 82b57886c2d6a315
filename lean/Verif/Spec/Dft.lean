import Mathlib.Algebra.BigOperators.Group.Finset.Basic
import Mathlib.Algebra.Module.Defs
import Mathlib.Algebra.Field.Defs

/-! Specification of the discrete Fourier transform. -/
namespace Verif.Spec
open Finset

variable {F T : Type} [Field F] [AddCommGroup T] [Module F T]

/-- `j`-th coefficient of the DFT of `x 0, …, x (n-1)` with root `ω`; for scalars this is the value at
`ω^j` of the polynomial with coefficients `x i`. -/
def dft (ω : F) (n : Nat) (x : Nat → T) (j : Nat) : T := ∑ i ∈ range n, ω ^ (i * j) • x i

end Verif.Spec
