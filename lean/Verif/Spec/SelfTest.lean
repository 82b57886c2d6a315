import Verif.Spec.Verify
import Verif.Model.Fk20Verifier

/-!
What a setup must satisfy for the library to accept what it makes itself. `pair` is the pairing of the model's parameters; nothing else here
refers to the model.
-/
namespace Verif.Spec
variable {G1 G2 : Type} (GT : Type) [AddCommGroup G1] [Module Fr G1] [AddCommGroup G2] [Module Fr G2] [AddCommGroup GT]
  [Pairing G1 G2 GT]

/-- Points of G1 that are 64 places apart are in the same ratio as the two points of G2 with the numbers 64 and 0. -/
def SelfConsistent (g1 : List G1) (g2 : List G2) : Prop :=
  ∀ H H', g2[0]? = some H → g2[64]? = some H' → ∀ j P P', g1[j]? = some P → g1[j + 64]? = some P' → (pair P' H : GT) = pair P H'

/-- Neighbouring points of G1 are in the same ratio as the first two points of G2, and neighbouring points of G2 as the first two of G1:
the check of a powers-of-tau ceremony. -/
def CeremonyChecks (g1 : List G1) (g2 : List G2) : Prop :=
  (∀ H H', g2[0]? = some H → g2[1]? = some H' → ∀ j P P', g1[j]? = some P → g1[j + 1]? = some P' → (pair P' H : GT) = pair P H') ∧
  ∀ P P', g1[0]? = some P → g1[1]? = some P' → ∀ j H H', g2[j]? = some H → g2[j + 1]? = some H' → (pair P H' : GT) = pair P' H

end Verif.Spec
