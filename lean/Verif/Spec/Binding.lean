import Mathlib.LinearAlgebra.Lagrange
import Verif.Spec.Verify
import Verif.Model.Fk20Verifier

/-!
What an attacker who makes the verifier accept contradictory claims can compute. Every function of this file takes only
public data (the setup points, the claims) and never the secret.
-/
namespace Verif.Spec
open Polynomial Finset

section
variable {G1 G2 GT : Type} [AddCommGroup G1] [Module Fr G1] [AddCommGroup G2] [Module Fr G2] [AddCommGroup GT]

/-- From two claims for the coset `k` that differ at its point number `j` (call it `x`): a candidate for
`e((τ - x)⁻¹ P, H)`, the solution of the bilinear strong Diffie-Hellman problem of the setup at `x`. -/
noncomputable def sdhSolution [Pairing G1 G2 GT] (g1 : List G1) (g2 : List G2) (k j : Nat) (I I' : Fr[X]) (proof proof' : G1) :
    GT :=
  let x := point 13 (64 * k + j)
  let s := ((I' - I).eval x)⁻¹
  pair (s • (proof - proof')) (commitment g2 (vanishing 13 6 k /ₘ (X - C x))) -
    pair (s • commitment g1 ((I' - I) /ₘ (X - C x))) (g2.getD 0 0)

/-- The points `X^64` takes on the cosets of the claims. -/
def cosetValue (os : List (Opening G1)) (i : Fin os.length) : Fr := point 13 (64 * os[i].index) ^ 64

/-- The vanishing polynomial of all cosets of the claims, of degree `64` times their number. -/
noncomputable def allVanishing (os : List (Opening G1)) : Fr[X] := (os.map (fun o => vanishing 13 6 o.index)).prod

/-- From claims of one commitment and a polynomial `f`: the weighted sum, over the claims, of the difference between the given
proof and the proof for `f`; the weight of a claim is the inverse of the product of the differences between its coset
value and the others. -/
noncomputable def excess (g1 : List G1) (f : Fr[X]) (os : List (Opening G1)) : G1 :=
  ∑ i : Fin os.length, (∏ j ∈ univ.erase i, (cosetValue os i - cosetValue os j))⁻¹ •
    (os[i].proof - openingProof g1 13 6 f os[i].index)

end
end Verif.Spec
