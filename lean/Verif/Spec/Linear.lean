import Verif.Spec.Groupings

/-!
Linear combinations of byte strings that hold field elements, and of byte strings that hold points.
-/
namespace Verif.Spec

/-- `r` holds `n` field elements, each of them `a` times the one in `x` plus `b` times the one in `y`. -/
def Combined (n : Nat) (a b : Fr) (x y r : List UInt8) : Prop :=
  r.length = n * 32 ∧ ∀ i < n, ∃ s t : Fr, Encodes (block 32 i x) s ∧ Encodes (block 32 i y) t ∧ Encodes (block 32 i r) (a * s + b * t)

/-- The same for lists of cells. -/
def CombinedCells (a b : Fr) (x y r : List (List UInt8)) : Prop :=
  x.length = r.length ∧ y.length = r.length ∧
    ∀ (k : Nat) u v w, x[k]? = some u → y[k]? = some v → r[k]? = some w → Combined 64 a b u v w

section
variable (G : Type) [AddCommGroup G] [Module Fr G] [PointCodec G]

/-- The point in `r` is `a` times the one in `x` plus `b` times the one in `y`. -/
def CombinedPoint (a b : Fr) (x y r : List UInt8) : Prop :=
  ∃ P Q : G, fromCompressed x = some P ∧ fromCompressed y = some Q ∧ fromCompressed r = some (a • P + b • Q)

/-- The same for lists of proofs. -/
def CombinedPoints (a b : Fr) (x y r : List (List UInt8)) : Prop :=
  x.length = r.length ∧ y.length = r.length ∧
    ∀ (k : Nat) u v w, x[k]? = some u → y[k]? = some v → r[k]? = some w → CombinedPoint G a b u v w

/-- The claim `e` is the combination of two claims about the same index: of their commitments, of their cells and of their proofs. -/
structure CombinedClaim (a b : Fr) (c d e : CellClaim) : Prop where
  index : c.index = e.index ∧ d.index = e.index
  commitment : CombinedPoint G a b c.commitment d.commitment e.commitment
  cell : Combined 64 a b c.cell d.cell e.cell
  proof : CombinedPoint G a b c.proof d.proof e.proof

end
end Verif.Spec
