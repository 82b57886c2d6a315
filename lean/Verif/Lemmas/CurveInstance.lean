import Mathlib.AlgebraicGeometry.EllipticCurve.Affine.Point
import Mathlib.Algebra.Module.ZMod
import Verif.Model.BatchAddition
import Verif.Model.Field

set_option linter.unusedSectionVars false

/-!
The assumptions of `LawfulCurve` hold for the curves `y^2 = x^3 + b` over every field, with Mathlib's group law, and for the
subgroup of points of order dividing `r` in such a curve, which is a vector space over the scalar field.
-/
namespace Verif
open WeierstrassCurve

variable {K : Type} [Field K] [DecidableEq K]

/-- `y^2 = x^3 + b` -/
def shortCurve (b : K) : WeierstrassCurve.Affine K := ⟨0, 0, 0, 0, b⟩

/-- its group of (nonsingular) points -/
abbrev CurvePoint (b : K) : Type := (shortCurve b).Point

open Classical in
noncomputable instance instCurvePoint (b : K) : Curve K (CurvePoint b) where
  toAff P := match P with
    | .zero => ⟨0, 0⟩
    | .some x y _ => ⟨x, y⟩
  ofAff p := if h : (shortCurve b).Nonsingular p.x p.y then .some p.x p.y h else 0

theorem toAff_zero' (b : K) : (toAff (0 : CurvePoint b) : Aff K) = ⟨0, 0⟩ := rfl

theorem toAff_some (b : K) {x y : K} (h : (shortCurve b).Nonsingular x y) :
    (toAff (Affine.Point.some x y h : CurvePoint b) : Aff K) = ⟨x, y⟩ := rfl

theorem not_nonsingular_zero (b : K) : ¬ (shortCurve b).Nonsingular 0 0 := by
  rw [Affine.nonsingular_iff]
  rintro ⟨-, h | h⟩ <;> simp [shortCurve] at h

instance instLawfulCurvePoint (b : K) : LawfulCurve K (CurvePoint b) where
  ofAff_toAff P := by
    cases P with
    | zero =>
      exact dif_neg (not_nonsingular_zero b)
    | some x y h =>
      exact dif_pos h
  toAff_zero := rfl
  toAff_neg P := by
    cases P with
    | zero =>
      show (⟨0, 0⟩ : Aff K) = ⟨0, -0⟩
      rw [neg_zero]
    | some x y h =>
      rw [Affine.Point.neg_some, toAff_some, toAff_some]
      simp [Affine.negY, shortCurve]
  chord P Q hP hQ h l x hl hx := by
    cases P with
    | zero => exact absurd rfl hP
    | some x1 y1 h1 =>
      cases Q with
      | zero => exact absurd rfl hQ
      | some x2 y2 h2 =>
        rw [toAff_some, toAff_some] at *
        simp only at *
        rw [Affine.Point.add_of_X_ne h, toAff_some, Affine.slope_of_X_ne h]
        have hl' : (y1 - y2) / (x1 - x2) = l := by rw [hl, ← neg_sub y2, ← neg_sub x2, neg_div_neg_eq]
        rw [hl']
        simp only [Affine.addX, Affine.addY, Affine.negAddY, Affine.negY, shortCurve]
        rw [hx, Aff.mk.injEq]
        constructor <;> ring
  tangent P hP h l x hl hx := by
    cases P with
    | zero => exact absurd rfl hP
    | some x1 y1 h1 =>
      rw [toAff_some] at *
      simp only at *
      have hy : y1 ≠ (shortCurve b).negY x1 y1 := by
        intro e
        simp only [Affine.negY, shortCurve, zero_mul, sub_zero] at e
        exact h (by linear_combination e)
      rw [Affine.Point.add_self_of_Y_ne hy, toAff_some, Affine.slope_of_Y_ne rfl hy]
      have hl' : (3 * x1 ^ 2 + 2 * (shortCurve b).a₂ * x1 + (shortCurve b).a₄ - (shortCurve b).a₁ * y1) /
          (y1 - (shortCurve b).negY x1 y1) = l := by
        rw [hl]
        simp only [Affine.negY, shortCurve, zero_mul, mul_zero, add_zero, sub_zero]
        rw [sub_neg_eq_add, ← two_mul]
      rw [hl']
      simp only [Affine.addX, Affine.addY, Affine.negAddY, Affine.negY, shortCurve]
      rw [hx, Aff.mk.injEq]
      constructor <;> ring
  opposite P Q hP hQ h := by
    cases P with
    | zero => exact absurd rfl hP
    | some x1 y1 h1 =>
      cases Q with
      | zero => exact absurd rfl hQ
      | some x2 y2 h2 =>
        rw [toAff_some, toAff_some] at h
        simp only at h
        rcases Affine.Point.X_eq_iff.1 h with e | e
        · exact .inl e
        · right; rw [e, neg_add_cancel]
  two_torsion P hP h := by
    cases P with
    | zero => exact absurd rfl hP
    | some x1 y1 h1 =>
      rw [toAff_some] at h
      simp only at h
      apply Affine.Point.add_self_of_Y_eq
      simp only [Affine.negY, shortCurve, zero_mul, sub_zero]
      linear_combination h

/-! ### subgroups -/

section
variable {G : Type} [AddCommGroup G] [Curve K G] [LawfulCurve K G] (H : AddSubgroup G)

open Classical in
noncomputable instance instCurveSubgroup : Curve K H where
  toAff P := toAff P.1
  ofAff p := if h : (ofAff p : G) ∈ H then ⟨ofAff p, h⟩ else 0

theorem toAff_coe (P : H) : (toAff P : Aff K) = toAff (P : G) := rfl

instance instLawfulSubgroup : LawfulCurve K H where
  ofAff_toAff P := by
    have e := LawfulCurve.ofAff_toAff (K := K) (P : G)
    have h : (ofAff (toAff (P : G) : Aff K) : G) ∈ H := by rw [e]; exact P.2
    exact (dif_pos h).trans (Subtype.ext e)
  toAff_zero := LawfulCurve.toAff_zero (K := K) (G := G)
  toAff_neg P := LawfulCurve.toAff_neg (K := K) (P : G)
  chord P Q hP hQ h l x hl hx := LawfulCurve.chord (K := K) (P : G) Q (by simpa using hP) (by simpa using hQ) h l x hl hx
  tangent P hP h l x hl hx := LawfulCurve.tangent (K := K) (P : G) (by simpa using hP) h l x hl hx
  opposite P Q hP hQ h := by
    rcases LawfulCurve.opposite (K := K) (P : G) Q (by simpa using hP) (by simpa using hQ) h with e | e
    · exact .inl (Subtype.ext e)
    · exact .inr (Subtype.ext e)
  two_torsion P hP h := Subtype.ext (LawfulCurve.two_torsion (K := K) (P : G) (by simpa using hP) h)
end

/-- The points of order dividing `r` of `y^2 = x^3 + b`. -/
noncomputable abbrev Torsion (b : K) : Type := (nsmulAddMonoidHom frOrder : CurvePoint b →+ CurvePoint b).ker

noncomputable instance (b : K) : Module Fr (Torsion b) :=
  AddCommGroup.zmodModule (fun P => Subtype.ext P.2)

end Verif
