import Verif.Spec.RandomOracle

/-!
Claims one by one, and batches that are put together from them. Specification only; nothing here refers to the model.
-/
namespace Verif.Spec
open Polynomial

/-- One entry of a batch, in bytes: the cell with this index of the blob behind the commitment, with its proof. -/
structure CellClaim where
  commitment : List UInt8
  index : Nat
  cell : List UInt8
  proof : List UInt8

/-- the batch with the given entries -/
def batchOf (l : List CellClaim) : Batch := ⟨l.map (·.commitment), l.map (·.index), l.map (·.cell), l.map (·.proof)⟩

/-- The fields have the sizes of the Rust types. -/
def CellClaim.Sized (c : CellClaim) : Prop := c.commitment.length = 48 ∧ c.cell.length = 2048 ∧ c.proof.length = 48

section
variable {G : Type} [AddCommGroup G] [Module Fr G] [PointCodec G]

/-- The entry can be decoded, and this is what it says. -/
def CellClaim.Denotes (c : CellClaim) (o : Opening G) : Prop :=
  fromCompressed c.commitment = some o.commitment ∧ (c.index = o.index ∧ c.index < 128) ∧
    (o.interp.degree < 64 ∧ IsCell o.interp o.index c.cell) ∧ fromCompressed c.proof = some o.proof

/-- The entry can be decoded and its equation holds. -/
def CellClaim.IsTrue (τ : Fr) (P : G) (c : CellClaim) : Prop := ∃ o : Opening G, c.Denotes o ∧ o.Valid τ P

end

/-- The entry cannot be decoded: the index is too large, or the commitment, the proof or an element of the cell is not one. -/
def CellClaim.Malformed (G : Type) [PointCodec G] (c : CellClaim) : Prop :=
  128 ≤ c.index ∨ (fromCompressed c.commitment : Option G) = none ∨ (fromCompressed c.proof : Option G) = none ∨ ¬ Canonical 64 c.cell

/-- The two lists of batches have the same entries, in whatever order, grouping and multiplicity. -/
def SameClaims (g g' : List (List CellClaim)) : Prop := ∀ c, c ∈ g.flatten ↔ c ∈ g'.flatten

end Verif.Spec
