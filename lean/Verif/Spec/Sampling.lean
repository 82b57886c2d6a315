import Mathlib.Logic.Embedding.Basic
import Verif.Spec.RandomOracle

/-!
Data-availability sampling: clients ask for some columns (cells with their proofs) of a blob and check what they get. Specification
only; nothing here refers to the model.
-/
namespace Verif.Spec

/-- The request of a client: `k` different columns, in the order in which it asks for them. -/
abbrev ColumnRequest (k : Nat) := Fin k ↪ Fin 128

/-- What comes back: for each requested column a cell and a proof. -/
abbrev Reply (k : Nat) := Fin k → List UInt8 × List UInt8

/-- the batch that the client gives to the verifier -/
def ColumnRequest.batch {k : Nat} (r : ColumnRequest k) (cm : List UInt8) (a : Reply k) : Batch :=
  ⟨List.replicate k cm, List.ofFn (fun j => (r j : Nat)), List.ofFn (fun j => (a j).1), List.ofFn (fun j => (a j).2)⟩

/-- the columns of a batch: index, cell and proof -/
def Batch.columns (b : Batch) : List (Nat × List UInt8 × List UInt8) := b.inds.zip (b.cells.zip b.proofs)

/-- `b` is put together from the batches in `bs`, all for the commitment `cm`: for each column that occurs in one of them it has one entry,
taken from one of them. -/
structure Batch.Collects (b : Batch) (cm : List UInt8) (bs : Batch → Prop) : Prop where
  commitments : b.commitments = List.replicate b.inds.length cm
  cells : b.cells.length = b.inds.length
  proofs : b.proofs.length = b.inds.length
  distinct : b.inds.Nodup
  complete : ∀ c, bs c → ∀ k ∈ c.inds, k ∈ b.inds
  received : ∀ x ∈ b.columns, ∃ c, bs c ∧ x ∈ c.columns

/-- The reply of a publisher who has put columns up before the request is made: all requested columns, if they are there. -/
def published {k : Nat} (columns : Fin 128 → Option (List UInt8 × List UInt8)) (r : ColumnRequest k) : Option (Reply k) :=
  if h : ∀ j, (columns (r j)).isSome then some (fun j => (columns (r j)).get (h j)) else none

/-- the request for a single column -/
def ColumnRequest.one (c : Fin 128) : ColumnRequest 1 := ⟨fun _ => c, fun a b _ => Subsingleton.elim a b⟩

end Verif.Spec
