import Verif.Spec.Sampling

/-!
Columns of several blobs: a column has one cell and one proof for each blob, and is checked against the list of all commitments.
Specification only; nothing here refers to the model.
-/
namespace Verif.Spec

/-- What comes back for a request of `k` columns when there are `n` blobs: for each column and blob a cell and a proof. -/
abbrev Columns (k n : Nat) := Fin k → Fin n → List UInt8 × List UInt8

/-- the batch with which one column is checked: one entry for each blob, all with the index of the column -/
def Columns.batch {k n : Nat} (x : Columns k n) (r : ColumnRequest k) (cms : Fin n → List UInt8) (j : Fin k) : Batch :=
  ⟨List.ofFn cms, List.replicate n (r j : Nat), List.ofFn (fun t => (x j t).1), List.ofFn (fun t => (x j t).2)⟩

/-- the part of the columns that belongs to blob number `t` -/
def Columns.row {k n : Nat} (x : Columns k n) (t : Fin n) : Reply k := fun j => x j t

section
open Polynomial

/-- Two different polynomials of degree below 4096, known in full as the polynomials of two blobs, have the same value at the
secret: the secret is a root of their difference. -/
def RevealsSecret (τ : Fr) (blob blob' : List UInt8) : Prop :=
  ∃ f f' : Fr[X], IsBlobPoly blob f ∧ IsBlobPoly blob' f' ∧ f - f' ≠ 0 ∧ (f - f').natDegree ≤ 4095 ∧ (f - f').IsRoot τ

end

end Verif.Spec
