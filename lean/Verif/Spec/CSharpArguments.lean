import Verif.Model.CSharpArguments
import Verif.Spec.Managed

/-! Specification of arguments of the C# methods. -/
namespace Verif.Spec

/-- an argument that no other thread changes and that has no null references -/
def unchanged (arrays : List CsArray) : CsItems := some (arrays.map fun a => (some a, some a))

/-- an argument whose items are `arrays` when their lengths are checked and `later` when their addresses are taken -/
def replaced (arrays later : List CsArray) : CsItems := some ((arrays.zip later).map fun q => (some q.1, some q.2))

/-- the reference or one of the items is null when the lengths are checked -/
def HasNull (items : CsItems) : Prop := items = none ∨ ∃ l, items = some l ∧ ∃ q ∈ l, q.1 = none

/-- all items that are not null have `n` bytes when the lengths are checked -/
def ItemsSized (n : Nat) (items : CsItems) : Prop := ∀ l, items = some l → ∀ q ∈ l, ∀ a, q.1 = some a → a.length = n

/-- the number of items -/
def count : CsItems → Nat
  | none => 0
  | some l => l.length

/-- The method raises an exception without calling the library: the memory that was mapped before is unchanged. -/
def Raises {Ctx α : Type} (s : CState Ctx) (out : COut Ctx CsFailure α) (which : CsFailure → Prop) : Prop :=
  ∃ e s', out = .err e s' ∧ which e ∧ Extends s s'

end Verif.Spec
