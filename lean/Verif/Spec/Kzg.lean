import Mathlib.Algebra.Polynomial.Div
import Mathlib.Algebra.Module.BigOperators
import Verif.Spec.Poly
import Verif.Spec.BitRev
import Verif.Spec.Bytes

/-!
Specification of the KZG objects of EIP-7594, independent of the model: evaluation points in protocol
order, blobs and cells as evaluation lists, commitments, coset vanishing polynomials and cell proofs.
-/
namespace Verif.Spec
open Polynomial Finset

/-- Evaluation point number `i` of a domain of size `2^e` in the bit-reversed (protocol) order. -/
def point (e i : Nat) : Fr := omega e ^ brev e i

/-- `blob` is the serialization of the values of `f`, of degree below 4096, on the blob domain. -/
def IsBlobPoly (blob : List UInt8) (f : Fr[X]) : Prop :=
  f.degree < 4096 ∧ blob.length = 4096 * 32 ∧ ∀ i < 4096, Encodes (block 32 i blob) (f.eval (point 12 i))

/-- `cell` is the serialization of the values of `f` on coset number `k` of the extended domain. -/
def IsCell (f : Fr[X]) (k : Nat) (cell : List UInt8) : Prop :=
  cell.length = 64 * 32 ∧ ∀ j < 64, Encodes (block 32 j cell) (f.eval (point 13 (64 * k + j)))

/-- `f` has degree below 4096 and every supplied cell holds the values of `f` on its coset. -/
def Consistent (cellIndices : List Nat) (cells : List (List UInt8)) (f : Fr[X]) : Prop :=
  f.degree < 4096 ∧ ∀ p ∈ cellIndices.zip cells, IsCell f p.1 p.2

/-- All field elements of a byte string of `n` field elements are canonical. -/
def Canonical (n : Nat) (b : List UInt8) : Prop := ∀ i < n, beValue (block 32 i b) < frOrder

/-- The vanishing polynomial of the `k`-th group of `2^q` consecutive points of the domain of size `2^e`. -/
noncomputable def vanishing (e q k : Nat) : Fr[X] := ∏ j ∈ range (2 ^ q), (X - C (point e (2 ^ q * k + j)))

section
variable {G : Type} [AddCommGroup G] [Module Fr G]

/-- The commitment to `f` under the commitment key `g`. -/
noncomputable def commitment (g : List G) (f : Fr[X]) : G := ∑ i ∈ range g.length, f.coeff i • g.getD i 0

/-- The opening proof of `f` on the `k`-th group of points: the commitment to the quotient of `f` by the
vanishing polynomial of the group. -/
noncomputable def openingProof (g : List G) (e q : Nat) (f : Fr[X]) (k : Nat) : G :=
  commitment g (f /ₘ vanishing e q k)

/-- A powers-of-tau setup: 4096 powers of `τ` times `G`, and between 65 and 4096 powers times `H`. -/
structure PowersOfTau {G2 : Type} [AddCommGroup G2] [Module Fr G2] (g1 : List G) (g2 : List G2) (τ : Fr) (P : G)
    (H : G2) : Prop where
  length_g1 : g1.length = 4096
  g1_eq : ∀ i < 4096, g1[i]? = some (τ ^ i • P)
  length_g2 : 64 < g2.length ∧ g2.length ≤ 4096
  g2_eq : ∀ i < g2.length, g2[i]? = some (τ ^ i • H)

end
end Verif.Spec
