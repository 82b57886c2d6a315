import Mathlib.Algebra.Module.BigOperators
import Verif.Model.Field

/-! Setup points of any number. -/
namespace Verif.Spec

/-- The points of `g` are the powers of `τ` times `P`, from the zeroth on. -/
def IsPowers {G : Type} [AddCommGroup G] [Module Fr G] (g : List G) (τ : Fr) (P : G) : Prop :=
  ∀ i < g.length, g[i]? = some (τ ^ i • P)

end Verif.Spec
