import Mathlib.Tactic.FieldSimp
import Mathlib.Tactic.LinearCombination
import Verif.Lemmas.Api

/-!
A concrete instance of the parameters of the model, used only to show that the hypotheses of the property
theorems can be met: the groups are the scalar field itself (with generator 1), the pairing is the product,
a point is encoded by 16 zero bytes and its 32-byte value, and its coordinates are those of a point of the
cuspidal cubic `y^2 = x^3`. `Lemmas/CurveInstance.lean` has the instance for elliptic curves `y^2 = x^3 + b`.
-/
namespace Verif.Toy
open Polynomial

scoped instance instCodec : PointCodec Fr where
  toCompressed s := List.replicate 16 0 ++ scalarToBytesBE s
  fromCompressed b := if b.take 16 = List.replicate 16 0 then scalarFromBytesBE (b.drop 16) else none

instance instLawfulCodec : LawfulPointCodec Fr 48 where
  length_toCompressed p := by
    show (List.replicate 16 0 ++ scalarToBytesBE p).length = 48
    rw [List.length_append, length_scalarToBytesBE]; simp
  fromCompressed_toCompressed p := by
    show (if (List.replicate 16 0 ++ scalarToBytesBE p).take 16 = _ then
      scalarFromBytesBE ((List.replicate 16 0 ++ scalarToBytesBE p).drop 16) else none) = some p
    rw [if_pos (List.take_left' (by simp)), List.drop_left' (by simp)]
    exact (scalarFromBytesBE_eq_some (length_scalarToBytesBE p)).2 (encodes_scalarToBytesBE p)
  toCompressed_fromCompressed b p hb h := by
    change (if b.take 16 = List.replicate 16 0 then scalarFromBytesBE (b.drop 16) else none) = some p at h
    split_ifs at h with h16
    have h2 := encodes_iff.1 ((scalarFromBytesBE_eq_some (by rw [List.length_drop, hb])).1 h)
    show List.replicate 16 0 ++ scalarToBytesBE p = b
    rw [← h2, ← h16, List.take_append_drop]

/-- The cuspidal cubic `y^2 = x^3`: its nonsingular points other than the identity are `(t⁻², t⁻³)` for `t ≠ 0`, they form the
additive group of the field, and chord and tangent addition is the addition of the parameters `t`. -/
scoped instance instCurve : Curve Fr Fr where
  toAff t := ⟨t⁻¹ ^ 2, t⁻¹ ^ 3⟩
  ofAff a := a.x / a.y

theorem toAff_eq (t : Fr) : (toAff t : Aff Fr) = ⟨t⁻¹ ^ 2, t⁻¹ ^ 3⟩ := rfl

instance instLawfulCurve : LawfulCurve Fr Fr where
  ofAff_toAff t := by
    show t⁻¹ ^ 2 / t⁻¹ ^ 3 = t
    by_cases h : t = 0
    · subst h; simp
    · field_simp
  toAff_zero := by rw [toAff_eq]; simp
  toAff_neg t := by
    simp only [toAff_eq, Aff.mk.injEq, inv_neg]
    constructor <;> ring
  chord s t hs ht h l x hl hx := by
    simp only [toAff_eq] at *
    have h1 : s - t ≠ 0 := by
      intro e; apply h; rw [sub_eq_zero.1 e]
    have h2 : s + t ≠ 0 := by
      intro e; apply h; rw [eq_neg_of_add_eq_zero_left e, inv_neg, neg_sq]
    have h3 : t⁻¹ ^ 2 - s⁻¹ ^ 2 ≠ 0 := sub_ne_zero.2 (Ne.symm h)
    have e : t⁻¹ ^ 2 - s⁻¹ ^ 2 = (s - t) * (s + t) * (s⁻¹ ^ 2 * t⁻¹ ^ 2) := by field_simp; ring
    have hl' : l = (s ^ 2 + s * t + t ^ 2) / (s * t * (s + t)) := by
      rw [hl, e]; field_simp; ring
    rw [hx, hl', Aff.mk.injEq]
    constructor
    · field_simp; ring
    · field_simp; ring
  tangent s hs h l x hl hx := by
    simp only [toAff_eq] at *
    have h2 : (2 : Fr) ≠ 0 := by intro e; apply h; rw [e, zero_mul]
    have h3 : s + s ≠ 0 := by rw [← two_mul]; exact mul_ne_zero h2 hs
    have hl' : l = 3 / (2 * s) := by
      rw [hl]; field_simp
    rw [hx, hl', Aff.mk.injEq, ← two_mul]
    constructor
    · field_simp; ring
    · field_simp; ring
  opposite s t hs ht h := by
    simp only [toAff_eq] at h
    have : (s - t) * (s + t) = 0 := by
      have h' := h
      field_simp at h'
      linear_combination - h'
    rcases mul_eq_zero.1 this with e | e
    · exact .inl (sub_eq_zero.1 e)
    · exact .inr e
  two_torsion s hs h := by
    simp only [toAff_eq] at h
    rcases mul_eq_zero.1 h with e | e
    · rw [← two_mul, e, zero_mul]
    · exact absurd (inv_eq_zero.1 (pow_eq_zero_iff (by norm_num) |>.1 e)) hs
scoped instance instPairing : Pairing Fr Fr Fr where
  pair a b := a * b

instance instLawfulPairing : LawfulPairing Fr Fr Fr where
  pair_add_left a b c := add_mul a b c
  pair_add_right a b c := mul_add a b c
  pair_smul s a b := by
    show s * a * b = a * (s * b)
    ring

theorem nondegenerate : ∀ a : Fr, pair a (1 : Fr) = (0 : Fr) → a = 0 := by
  intro a h
  change a * 1 = 0 at h
  rwa [mul_one] at h

/-- powers of tau with generators 1 -/
def setup (τ : Fr) : SetupPoints Fr Fr :=
  ⟨(List.range 4096).map (τ ^ ·), (List.range 65).map (τ ^ ·)⟩

theorem length_g1 (τ : Fr) : (setup τ).g1Monomial.length = 4096 := by simp [setup]
theorem length_g2 (τ : Fr) : (setup τ).g2Monomial.length = 65 := by simp [setup]

theorem powersOfTau (τ : Fr) : Spec.PowersOfTau (setup τ).g1Monomial (setup τ).g2Monomial τ (1 : Fr) (1 : Fr) where
  length_g1 := length_g1 τ
  g1_eq i hi := by
    unfold setup
    simp only [List.getElem?_map]
    rw [List.getElem?_range hi]
    simp
  length_g2 := by rw [length_g2]; norm_num
  g2_eq i hi := by
    rw [length_g2] at hi
    unfold setup
    simp only [List.getElem?_map]
    rw [List.getElem?_range hi]
    simp

/-- a context exists -/
theorem context (τ : Fr) : ∃ ctx : DASContext Fr Fr Fr, (DASContext.new (setup τ) .no : Outcome Error _) = .ok ctx :=
  context_exists (setup τ) (length_g1 τ) (by rw [length_g2]) (by rw [length_g2]; norm_num)

/-- a polynomial of degree one -/
noncomputable def poly : Fr[X] := 3 * X + C 5

theorem poly_degree : poly.degree < 4096 := by
  have : poly.degree ≤ 1 := by
    unfold poly
    have : (3 : Fr[X]) = C 3 := (map_ofNat C 3).symm
    rw [this]
    exact degree_linear_le
  exact lt_of_le_of_lt this (by norm_num)

/-- the blob of that polynomial -/
noncomputable def blob : List UInt8 := blobOf poly

theorem blob_poly : Spec.IsBlobPoly blob poly := isBlobPoly_blobOf poly poly_degree

/-- a second blob -/
noncomputable def blob' : List UInt8 := blobOf (C 9)

theorem blob_poly' : Spec.IsBlobPoly blob' (C 9) :=
  isBlobPoly_blobOf (C 9) (lt_of_le_of_lt degree_C_le (by norm_num))

end Verif.Toy
