import Mathlib.Algebra.BigOperators.Fin
import Mathlib.Data.Int.ModEq
import Mathlib.Data.List.Forall2

/-! Specification of the data passed through the language bindings. -/
namespace Verif.Spec

/-- all items have `n` elements -/
def Sized {α : Type} (n : Nat) (items : List (List α)) : Prop := ∀ x ∈ items, x.length = n

/-- the first item that does not have `n` elements has `got` elements -/
def FirstWrong {α : Type} (n got : Nat) (items : List (List α)) : Prop :=
  ∃ pre x post, items = pre ++ x :: post ∧ Sized n pre ∧ x.length = got ∧ got ≠ n

/-- the unsigned byte with the bits of a Java byte -/
def JavaByte (x : Int8) (b : UInt8) : Prop := (b.toNat : Int) = x.toInt % 256

/-- the unsigned bytes with the bits of the Java bytes -/
def JavaBytes (l : List Int8) (b : List UInt8) : Prop := List.Forall₂ JavaByte l b

/-- The hash code of a sequence as `java.util.List.hashCode` documents it, before it wraps: `31ⁿ + Σ hᵢ · 31ⁿ⁻¹⁻ⁱ`. -/
def javaListHash (h : List Int) : Int :=
  31 ^ h.length + ∑ i : Fin h.length, h[i] * 31 ^ (h.length - 1 - i.val)

/-- A Java array's hash code: 0 for null. -/
def javaArrayHash {α : Type} (elem : α → Int) : Option (List α) → Int
  | none => 0
  | some a => javaListHash (a.map elem)
/-- Either all items have the right size or one is the first that does not. -/
theorem sized_or_firstWrong {α : Type} (n : Nat) (items : List (List α)) : Sized n items ∨ ∃ got, FirstWrong n got items := by
  induction items with
  | nil => exact Or.inl (by simp [Sized])
  | cons x xs ih =>
    by_cases hx : x.length = n
    · rcases ih with h | ⟨got, pre, y, post, rfl, hpre, hy, hg⟩
      · exact Or.inl (by simpa [Sized, hx] using h)
      · exact Or.inr ⟨got, x :: pre, y, post, rfl, by simpa [Sized, hx] using hpre, hy, hg⟩
    · exact Or.inr ⟨x.length, [], x, xs, rfl, by simp [Sized], rfl, hx⟩

end Verif.Spec
