import Mathlib.FieldTheory.Finite.Basic
import Verif.Lemmas.BlsGroup2

/-!
No point of the two curves has `y = 0`, because `-4` and `-4 (1 + u)` are not cubes. So the sign flag of an encoding is never
ambiguous, and the decoding without the subgroup test, too, accepts exactly the encodings of points.
-/
namespace Verif.Bls
open WeierstrassCurve

/-! ### powers of pairs -/

/-- `a ^ e` modulo `n` by repeated squaring, with enough fuel for `e < 2 ^ fuel` -/
def powPair (n : Nat) : Nat → Pair → Nat → Pair
  | 0, _, _ => ⟨1, 0⟩
  | fuel + 1, a, e =>
    let h := powPair n fuel (Pair.mul n a a) (e / 2)
    if e % 2 = 1 then Pair.mul n a h else h

theorem val_powPair : ∀ (fuel : Nat) (a : Pair) (e : Nat), e < 2 ^ fuel →
    (powPair fpOrder fuel a e).val imag = a.val imag ^ e
  | 0, a, e, h => by
    have : e = 0 := by simpa using h
    subst this
    simp [powPair, Pair.val]
  | fuel + 1, a, e, h => by
    have ih := val_powPair fuel (Pair.mul fpOrder a a) (e / 2) (by rw [pow_succ] at h; omega)
    rw [val_mul fpOrder_pos fp2_char imag_sq] at ih
    have h2 : a.val imag ^ e = (a.val imag * a.val imag) ^ (e / 2) * a.val imag ^ (e % 2) := by
      rw [← pow_two, ← pow_mul, ← pow_add]
      congr 1
      omega
    unfold powPair
    rcases Nat.mod_two_eq_zero_or_one e with e0 | e1
    · simp only [e0, zero_ne_one, if_false]
      rw [ih, h2, e0, pow_zero, mul_one]
    · simp only [e1, if_true]
      rw [val_mul fpOrder_pos fp2_char imag_sq, ih, h2, e1, pow_one, mul_comm]

/-! ### the constants are not cubes -/

theorem not_cube_of_pow {F : Type} [Field F] [Fintype F] {v : F} (h0 : v ≠ 0) {k : Nat} (hk : 3 * k = Fintype.card F - 1)
    (h : v ^ k ≠ 1) (x : F) : x ^ 3 ≠ v := by
  rintro rfl
  apply h
  have hx : x ≠ 0 := fun e => h0 (by rw [e]; simp)
  rw [← pow_mul, hk, FiniteField.pow_card_sub_one_eq_one x hx]

theorem not_cube (x : Fp) : x ^ 3 ≠ -4 := by
  have h4 : ((4 : Nat) : Fp) ≠ 0 := by rw [Ne, ZMod.natCast_eq_zero_iff]; decide +kernel
  have h4' : (4 : Fp) ≠ 0 := by exact_mod_cast h4
  refine not_cube_of_pow (k := (fpOrder - 1) / 3) (neg_ne_zero.2 h4') (by rw [ZMod.card]; decide +kernel) ?_ x
  intro e
  have hc : ((fpOrder - 4 : Nat) : Fp) = -4 := by
    rw [Nat.cast_sub (by decide +kernel), ZMod.natCast_self, zero_sub]
    norm_num
  rw [← hc] at e
  have e2 : (((fpOrder - 4) ^ ((fpOrder - 1) / 3) : Nat) : Fp) = (1 : Nat) := by push_cast; exact_mod_cast e
  rw [ZMod.natCast_eq_natCast_iff, Nat.ModEq, ← powMod_eq fpOrder 400 _ _ (by decide +kernel)] at e2
  revert e2
  decide +kernel

theorem not_cube2 (x : Fp2) : x ^ 3 ≠ -b2 := by
  refine not_cube_of_pow (k := (fpOrder ^ 2 - 1) / 3) (neg_ne_zero.2 b2_ne) (by rw [card_fp2]; decide +kernel) ?_ x
  intro e
  have hc : Pair.val imag ⟨fpOrder - 4, fpOrder - 4⟩ = -b2 := by
    rw [val_pair]
    have : ((fpOrder - 4 : Nat) : Fp) = -4 := by
      rw [Nat.cast_sub (by decide +kernel), ZMod.natCast_self, zero_sub]
      norm_num
    rw [this]
    rfl
  rw [← hc, ← val_powPair 800 _ _ (by decide +kernel), val_pair] at e
  have e1 := congrArg QuadraticAlgebra.re e
  rw [QuadraticAlgebra.re_one] at e1
  have e2 : ((powPair fpOrder 800 ⟨fpOrder - 4, fpOrder - 4⟩ ((fpOrder ^ 2 - 1) / 3)).re : Fp) = (1 : Nat) := by
    rw [Nat.cast_one]; exact e1
  rw [ZMod.natCast_eq_natCast_iff, Nat.ModEq] at e2
  revert e2
  decide +kernel

theorem y_ne {x y : Fp} (h : (shortCurve (4 : Fp)).Nonsingular x y) : y ≠ 0 := by
  rintro rfl
  have := ((WeierstrassCurve.Affine.nonsingular_iff ..).1 h).1
  rw [WeierstrassCurve.Affine.equation_iff] at this
  simp only [shortCurve] at this
  exact not_cube x (by linear_combination -this)

theorem y2_ne {x y : Fp2} (h : (shortCurve b2).Nonsingular x y) : y ≠ 0 := by
  rintro rfl
  exact not_cube2 x (by linear_combination -(equation2 h))

/-! ### the unchecked decoders -/

/-- the decoder of G1 without the subgroup test accepts exactly the encodings of the points of the curve -/
theorem uncompress_iff {b : List UInt8} (hl : b.length = 48) (P : Curve1) : uncompress b = some P ↔ b = compress P := by
  constructor
  · exact fun h => (compress_uncompress b P hl h fun x y h _ => y_ne h).symm
  · rintro rfl
    exact uncompress_compress P fun x y h _ => y_ne h

theorem uncompress2_iff {b : List UInt8} (hl : b.length = 96) (P : Curve2) : uncompress2 b = some P ↔ b = compress2 P := by
  constructor
  · exact fun h => (compress_uncompress2 b P hl h fun x y h _ => y2_ne h).symm
  · rintro rfl
    exact uncompress_compress2 P fun x y h _ => y2_ne h

end Verif.Bls
