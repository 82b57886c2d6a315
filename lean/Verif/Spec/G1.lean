import Verif.Spec.Bytes
import Verif.Lemmas.CurveInstance
import Verif.Model.Bls12381

/-!
Independent specification of the compressed encoding of a point of `y^2 = x^3 + 4`, as one 384-bit integer. The definition says
nothing about how bytes are read or square roots are taken.
-/
namespace Verif.Spec
open WeierstrassCurve

/-- The integer of an encoded point: bit 383 is always set; bit 382 marks the point at infinity, which has no other bit; bit 381
says that `y` is the larger of the two candidates; the rest is `x`. -/
def g1Code [Fact fpOrder.Prime] : CurvePoint (4 : ZMod fpOrder) → Nat
  | .zero => 2 ^ 383 + 2 ^ 382
  | .some x y _ => 2 ^ 383 + (if (-y).val < y.val then 2 ^ 381 else 0) + x.val

/-- `b` is the 48-byte encoding of `P`. -/
def EncodesG1 [Fact fpOrder.Prime] (b : List UInt8) (P : CurvePoint (4 : ZMod fpOrder)) : Prop :=
  b.length = 48 ∧ beValue b = g1Code P

end Verif.Spec
