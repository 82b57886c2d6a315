import Verif.Spec.Dft
import Verif.Spec.Poly

/-! Specification of the setups for which the precomputed tables of the prover contain no identity point. -/
namespace Verif.Spec
open Finset

variable {G : Type} [AddCommGroup G] [Module Fr G]

/-- The base points of the fixed-base multiplications of the prover: entry `i` of table `j` is the value at the `j`-th
128-th root of unity of the polynomial with coefficients `g[4031-i], g[4031-i-64], …` (63 coefficients). -/
def basePoint (g : List G) (i j : Nat) : G := ∑ b ∈ range 63, omega 7 ^ (b * j) • g.getD (4031 - i - 64 * b) 0

/-- No base point is the identity. -/
def NoIdentity (g : List G) : Prop := ∀ i < 64, ∀ j < 128, basePoint g i j ≠ 0

end Verif.Spec
