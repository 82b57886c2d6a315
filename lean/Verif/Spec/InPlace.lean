import Mathlib.Logic.Relation
import Verif.Model.Errors
import Verif.Model.Outcome

/-! Specification of arguments that lie in memory which other threads write while the library reads it, independent of the library. A
history gives the bytes at the moments at which the library looks at them; nothing is assumed about what happens in between. -/
namespace Verif

/-- the byte at each address, at each moment -/
abbrev MemHistory := Nat → Nat → UInt8

namespace Spec

/-- `v` has `n` bytes, and each of them was in its place at some moment -/
def SeenAt (H : MemHistory) (n p : Nat) (v : List UInt8) : Prop :=
  v.length = n ∧ ∀ (j : Nat) (x : UInt8), v[j]? = some x → ∃ t, H t (p + j) = x

/-- the `n` bytes at an address at a moment -/
def bytesAt (H : MemHistory) (t n p : Nat) : List UInt8 := (List.range n).map (fun j => H t (p + j))

/-- nobody writes these bytes -/
def Unwritten (H : MemHistory) (n p : Nat) : Prop := ∀ t j, j < n → H t (p + j) = H 0 (p + j)

/-- the same string can be seen at both addresses -/
def SameSeen (H : MemHistory) (n p q : Nat) : Prop := ∃ v, SeenAt H n p v ∧ SeenAt H n q v

/-- connected by addresses at which the same string can be seen -/
def Linked (H : MemHistory) (n : Nat) : Nat → Nat → Prop := Relation.ReflTransGen (SameSeen H n)

/-- the `n` bytes at `p` belong to one of the slices, given by length and address -/
def Within (slices : List (Nat × Nat)) (n p : Nat) : Prop := ∃ s ∈ slices, s.2 ≤ p ∧ p + n ≤ s.2 + s.1

/-- the same error, or two errors that quote bytes seen in the same place of the arguments -/
inductive SameError (H : MemHistory) (slices : List (Nat × Nat)) : Error → Error → Prop
  | same (e : Error) : SameError H slices e e
  | scalar (p : Nat) (b b' : List UInt8) : Within slices 32 p → SeenAt H 32 p b → SeenAt H 32 p b' →
      SameError H slices (.Serialization (.CouldNotDeserializeScalar b)) (.Serialization (.CouldNotDeserializeScalar b'))
  | point (p : Nat) (b b' : List UInt8) : Within slices 48 p → SeenAt H 48 p b → SeenAt H 48 p b' →
      SameError H slices (.Serialization (.CouldNotDeserializeG1Point b)) (.Serialization (.CouldNotDeserializeG1Point b'))

/-- the same result up to quoted bytes; the left one comes with the number of looks -/
inductive SameAnswer (H : MemHistory) (slices : List (Nat × Nat)) {α : Type} : Outcome Error (α × Nat) → Outcome Error α → Prop
  | ok (a : α) (t : Nat) : SameAnswer H slices (.ok (a, t)) (.ok a)
  | err (e e' : Error) : SameError H slices e e' → SameAnswer H slices (.err e) (.err e')
  | panic : SameAnswer H slices .panic .panic

end Spec
end Verif
