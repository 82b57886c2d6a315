import Verif.Model.JavaBinding

/-! Specification of Java arrays that other threads write while a native method reads them, independent of the bindings. A history gives
the contents of all arrays at the moments at which the method looks at them; nothing is assumed about what happens in between. -/
namespace Verif

/-- the contents of all arrays, by reference -/
structure JHeap where
  bytes : Nat → List Int8
  longs : Nat → List Int64
  /-- arrays of references to byte arrays -/
  objects : Nat → List (Option Nat)

/-- the heap at each moment -/
abbrev JHistory := Nat → JHeap

namespace Spec

/-- the length of an array never changes (JLS 10.2) -/
structure FixedLengths (H : JHistory) : Prop where
  bytes : ∀ t r, ((H t).bytes r).length = ((H 0).bytes r).length
  longs : ∀ t r, ((H t).longs r).length = ((H 0).longs r).length
  objects : ∀ t r, ((H t).objects r).length = ((H 0).objects r).length

/-- the 64-bit number with the upper half of `a` and the lower half of `b`: reads of a `long` need not be atomic (JLS 17.7) -/
def halves (a b : Int64) : Int64 := (UInt64.ofNat (a.toUInt64.toNat / 2 ^ 32 * 2 ^ 32 + b.toUInt64.toNat % 2 ^ 32)).toInt64

/-- `v` has the length of the array, and each of its bytes was in its place at some moment -/
def BytesSeen (H : JHistory) : Option Nat → JByteArray → Prop
  | none, none => True
  | some r, some l => l.length = ((H 0).bytes r).length ∧ ∀ j < l.length, ∃ t, l[j]? = ((H t).bytes r)[j]?
  | _, _ => False

/-- the same for numbers, each half of which was in its place at some moment -/
def LongsSeen (H : JHistory) : Option Nat → JLongArray → Prop
  | none, none => True
  | some r, some l => l.length = ((H 0).longs r).length ∧
    ∀ j < l.length, ∃ t t' a b, ((H t).longs r)[j]? = some a ∧ ((H t').longs r)[j]? = some b ∧ l[j]? = some (halves a b)
  | _, _ => False

/-- the same for arrays of arrays: each item is what was seen of an array that was in its place at some moment -/
def ItemsSeen (H : JHistory) : Option Nat → JObjectArray → Prop
  | none, none => True
  | some r, some l => l.length = ((H 0).objects r).length ∧
    ∀ (j : Nat) (x : JByteArray), l[j]? = some x → ∃ t r', ((H t).objects r)[j]? = some r' ∧ BytesSeen H r' x
  | _, _ => False

end Spec
end Verif
