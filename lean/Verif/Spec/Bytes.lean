import Verif.Model.Field

/-! Independent specification of byte encodings. -/
namespace Verif.Spec
open Finset

/-- Value of a big-endian byte string: `Σ b[i] * 256^(len-1-i)`. -/
def beValue (b : List UInt8) : Nat := ∑ i ∈ range b.length, (b.getD i 0).toNat * 256 ^ (b.length - 1 - i)

/-- `b` is the canonical 32-byte big-endian encoding of the field element `x`. -/
def Encodes (b : List UInt8) (x : Fr) : Prop := b.length = 32 ∧ beValue b = x.val

/-- block `i` of width `w` of a byte string -/
def block {α : Type} (w i : Nat) (b : List α) : List α := (b.drop (w * i)).take w

end Verif.Spec
