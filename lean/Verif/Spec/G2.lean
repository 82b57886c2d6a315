import Mathlib.Algebra.QuadraticAlgebra.Basic
import Verif.Spec.Bytes
import Verif.Lemmas.CurveInstance
import Verif.Model.Bls12381

/-!
Independent specification of the compressed encoding of a point of `y^2 = x^3 + 4 (1 + u)`, as one 768-bit integer. The definition
says nothing about how bytes are read or square roots are taken.
-/
namespace Verif.Spec
open WeierstrassCurve

variable [Fact fpOrder.Prime] [Fact (∀ r : ZMod fpOrder, r ^ 2 ≠ -1 + 0 * r)]

/-- `a` precedes `b`: the imaginary parts are compared first, as integers, then the real parts. -/
def Precedes (a b : QuadraticAlgebra (ZMod fpOrder) (-1) 0) : Prop :=
  a.im.val < b.im.val ∨ (a.im = b.im ∧ a.re.val < b.re.val)

open Classical in
/-- The integer of an encoded point: bit 767 is always set; bit 766 marks the point at infinity, which has no other bit; bit 765
says that `y` is the larger of the two candidates; then come the imaginary part of `x` and, in the lower 384 bits, the real part. -/
noncomputable def g2Code : CurvePoint (⟨4, 4⟩ : QuadraticAlgebra (ZMod fpOrder) (-1) 0) → Nat
  | .zero => 2 ^ 767 + 2 ^ 766
  | .some x y _ => 2 ^ 767 + (if Precedes (-y) y then 2 ^ 765 else 0) + x.im.val * 2 ^ 384 + x.re.val

/-- `b` is the 96-byte encoding of `P`. -/
def EncodesG2 (b : List UInt8) (P : CurvePoint (⟨4, 4⟩ : QuadraticAlgebra (ZMod fpOrder) (-1) 0)) : Prop :=
  b.length = 96 ∧ beValue b = g2Code P

end Verif.Spec
