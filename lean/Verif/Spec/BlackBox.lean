import Verif.Spec.Kzg
import Verif.Model.Api

/-!
Attackers that treat the groups as black boxes: they know the setup points only as points, compute combinations of them with
coefficients of their choice, ask whether products of pairings of such combinations are trivial, and go on as the answers tell them.
They do not look at encodings of points. Specification only.
-/
namespace Verif.Spec
open Polynomial

section
variable {G : Type} [AddCommGroup G] [Module Fr G]

/-- the combination of the points with the given coefficients -/
def combination (coefficients : List Fr) (points : List G) : G := (List.zipWith (· • ·) coefficients points).sum

end

/-- the polynomial of degree below 4096 with the given coefficients, as many of them as there are points -/
noncomputable def polynomialOf (coefficients : List Fr) : Fr[X] := ∑ i ∈ Finset.range 4096, C (coefficients.getD i 0) * X ^ i

/-- the setup with the given secret: 4096 powers in G1 and 65 in G2 -/
def powersSetup {G1 G2 : Type} [AddCommGroup G1] [Module Fr G1] [AddCommGroup G2] [Module Fr G2] (P : G1) (H : G2) (τ : Fr) :
    SetupPoints G1 G2 :=
  ⟨(List.range 4096).map (fun i => τ ^ i • P), (List.range 65).map (fun i => τ ^ i • H)⟩

/-- An attack that ends with a result: either it stops, or it asks whether a product of pairings is trivial and goes on. A term of the product
has the coefficients of a combination of the points of G1 and of one of the points of G2. That two combinations in one group are equal is the
question with the term that pairs their difference with a generator. -/
inductive Attack (α : Type) where
  | done (result : α)
  | ask (terms : List (List Fr × List Fr)) (yes no : Attack α)

/-- how many questions it asks at most -/
def Attack.questions {α : Type} : Attack α → Nat
  | .done _ => 0
  | .ask _ yes no => max yes.questions no.questions + 1

/-- its result with a setup -/
def Attack.run {α G1 G2 GT : Type} [AddCommGroup G1] [Module Fr G1] [AddCommGroup G2] [Module Fr G2] [AddCommGroup GT] [DecidableEq GT]
    [Pairing G1 G2 GT] (setup : SetupPoints G1 G2) : Attack α → α
  | .done result => result
  | .ask terms yes no =>
    if (terms.map (fun t => (pair (combination t.1 setup.g1Monomial) (combination t.2 setup.g2Monomial) : GT))).sum = 0 then yes.run setup
    else no.run setup

/-- What an attacker claims: commitment and proof as combinations of the points of G1, a cell in bytes and its index. -/
structure CombinationClaim where
  commitment : List Fr
  index : Nat
  cell : List UInt8
  proof : List Fr

/-- The cell is not that of the blob whose polynomial was committed to. -/
def CombinationClaim.Wrong (c : CombinationClaim) : Prop := ¬ IsCell (polynomialOf c.commitment) c.index c.cell

end Verif.Spec
