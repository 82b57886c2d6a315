import Mathlib.Data.List.Forall2

/-! Specification of the text format of the points of a trusted setup, independent of the model. -/
namespace Verif.Spec

/-- The character `c` is a hexadecimal digit of value `d`: `0`..`9`, `a`..`f` or `A`..`F`. -/
def HexDigit (c : UInt8) (d : Nat) : Prop :=
  (d < 10 ∧ c.toNat = 48 + d) ∨ (10 ≤ d ∧ d < 16 ∧ (c.toNat = 87 + d ∨ c.toNat = 55 + d))

/-- `s` is `0x` followed by two digits for each byte of `b`, high digit first. -/
def HexString (s b : List UInt8) : Prop :=
  s.length = 2 + 2 * b.length ∧ s[0]? = some 48 ∧ s[1]? = some 120 ∧
  ∀ i (hi : i < b.length), ∃ h l, s[2 + 2 * i]? = some h ∧ s[3 + 2 * i]? = some l ∧
    ∃ d e, HexDigit h d ∧ HexDigit l e ∧ b[i].toNat = 16 * d + e

/-- `s` is the text of the point `p`, for encodings of `size` bytes: the text decodes to exactly `size` bytes, `p` is the point of
the encoding, and `p` lies in the subgroup if this is required. -/
def PointText {E : Type} (decode : List UInt8 → Option E) (subgroup : E → Prop) (size : Nat) (required : Prop) (s : List UInt8)
    (p : E) : Prop :=
  ∃ b, HexString s b ∧ b.length = size ∧ decode b = some p ∧ (required → subgroup p)

end Verif.Spec
