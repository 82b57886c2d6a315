import Verif.Spec.Recovery
import Mathlib.Data.Fintype.Prod

/-!
What C96 speaks about: `all` are the cells that were sent, `got k` is what arrived as cell `k`, for the cells `k` in the list `inds`.
-/
namespace Verif.Spec

/-- the cells that did not arrive as they were sent -/
def wrongCells (all : List (List UInt8)) (inds : List (Fin 128)) (got : Fin 128 → List UInt8) : Finset (Fin 128) :=
  Finset.univ.filter fun k => k ∈ inds ∧ all[k.val]? ≠ some (got k)

/-- the elements that did not arrive as they were sent, as pairs of the cell and the place in it -/
def wrongElements (all : List (List UInt8)) (inds : List (Fin 128)) (got : Fin 128 → List UInt8) : Finset (Fin 128 × Fin 64) :=
  Finset.univ.filter fun p => p.1 ∈ inds ∧ (all[p.1.val]?).map (block 32 p.2) ≠ some (block 32 p.2 (got p.1))

end Verif.Spec
