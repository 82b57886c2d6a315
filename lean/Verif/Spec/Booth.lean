import Mathlib.Algebra.BigOperators.Group.Finset.Basic

/-! Specification for signed window recoding. -/
namespace Verif.Spec
open Finset

/-- Value of a little-endian byte string: `Σ b[i] * 256^i`. -/
def leValue (b : List UInt8) : Nat := ∑ i ∈ range b.length, (b.getD i 0).toNat * 256 ^ i

end Verif.Spec
