import Verif.Lemmas.EmbeddedCheck
import Mathlib.RingTheory.RootsOfUnity.PrimitiveRoots

/-! The point 4032 of the embedded setup is not a 128-th root of unity times the generator. -/
namespace Verif.Embedded
open Bls

/-- a primitive 128-th root of unity -/
def omega128 : Nat := 0x6898111413588742b7c68b4d7fdd60d098d0caac87f5713c5130c2c1660125be

/-- the bits of a number, without the highest -/
def bitsOf (s : Nat) : List Bool := (List.range (Nat.log2 s)).reverse.map (Nat.testBit s)

/-- string 4032 of `g1_monomial` -/
def point4032 : Nat := 0xaad3f318f1622ea87e12541dfd982d71629b8f1ded4c301f9f6b6af9432716ad057773c33bdaa6f15dc151b0ee4505ea

/-- `x` is not the first coordinate of `s` times the generator -/
def differs (x s : Nat) : Bool :=
  let bits := bitsOf s
  Nat.beq (bitsValue 1 bits) s &&
    match ladder fpOrder g1GeneratorX g1GeneratorY bits g1GeneratorX g1GeneratorY 1 with
    | (X, _, Z) => !(Nat.beq (X % fpOrder) (x * (Z * Z) % fpOrder)) && Nat.blt 0 (Z % fpOrder)

/-- the same for `k` powers of the root of unity times `s` -/
def differsAll (x : Nat) : Nat → Nat → Bool
  | 0, _ => true
  | k + 1, s => differs x s && differsAll x k (s * omega128 % frOrder)

set_option maxRecDepth 100000 in
theorem differs_point4032 : differsAll (point4032 % 2 ^ 381) 64 1 = true := by decide +kernel

theorem differs_sound {x s : Nat} (h : differs x s = true) :
    (toAff (s • (generator : Curve1)) : Aff Fp).x ≠ x := by
  unfold differs at h
  obtain ⟨⟨X, Y, Z⟩, hl⟩ : ∃ t, ladder fpOrder g1GeneratorX g1GeneratorY (bitsOf s) g1GeneratorX g1GeneratorY 1 = t := ⟨_, rfl⟩
  simp only [hl, Bool.and_eq_true, Nat.beq_eq, Nat.blt_eq, Bool.not_eq_true', Bool.eq_false_iff, Ne] at h
  obtain ⟨hs, hX, hZ⟩ := h
  have hP0 : (generator : Curve1) ≠ 0 := generatorPoint_ne (ZMod.natCast_self _)
  have hPa : (toAff (generator : Curve1) : Aff Fp) = ⟨g1GeneratorX, g1GeneratorY⟩ := rfl
  have hJ : Jac (1 • (generator : Curve1)) (g1GeneratorX : Fp) g1GeneratorY (1 : Nat) := by
    right
    rw [one_nsmul, Nat.cast_one, one_pow, one_pow, div_one, div_one]
    exact ⟨hP0, hPa⟩
  have hZ' : (Z : Fp) ≠ 0 := by
    intro e
    rw [ZMod.natCast_eq_zero_iff] at e
    rw [Nat.mod_eq_zero_of_dvd e] at hZ
    exact absurd hZ (lt_irrefl _)
  obtain hz | ⟨hk0, hk⟩ := ladder_sound (by decide +kernel) (ZMod.natCast_self _) hP0 hPa (bitsOf s) hJ hl
  · exact absurd hz hZ'
  rw [hs] at hk
  rw [hk]
  intro e
  simp only at e
  apply hX
  rw [div_eq_iff (pow_ne_zero 2 hZ')] at e
  refine (ZMod.natCast_eq_natCast_iff' _ _ _).1 ?_
  push_cast
  rw [e]
  ring

theorem differsAll_sound {x : Nat} : ∀ {k s : Nat}, differsAll x k s = true → s < frOrder →
    ∀ j < k, (toAff (((s : Fr) * omega128 ^ j).val • (generator : Curve1)) : Aff Fp).x ≠ x
  | 0, _, _, _, j, hj => absurd hj (by omega)
  | k + 1, s, h, hs, j, hj => by
    rw [differsAll, Bool.and_eq_true] at h
    cases j with
    | zero =>
      rw [pow_zero, mul_one, ZMod.val_natCast_of_lt hs]
      exact differs_sound h.1
    | succ j =>
      have := differsAll_sound h.2 (Nat.mod_lt _ (by decide +kernel)) j (by omega)
      have e : (((s * omega128 % frOrder : Nat) : Fr)) * omega128 ^ j = (s : Fr) * omega128 ^ (j + 1) := by
        rw [ZMod.natCast_mod]
        push_cast
        ring
      rwa [e] at this

theorem omega128_pow : ((omega128 : Nat) : Fr) ^ 64 = -1 := by
  have h : ((omega128 ^ 64 + 1 : Nat) : Fr) = 0 := by
    rw [ZMod.natCast_eq_zero_iff]
    decide +kernel
  push_cast at h
  exact eq_neg_of_add_eq_zero_left h

theorem fr_one_ne : (1 : Fr) ≠ -1 := by decide +kernel

theorem omega128_primitive : IsPrimitiveRoot ((omega128 : Nat) : Fr) 128 := by
  rw [IsPrimitiveRoot.iff_orderOf]
  refine orderOf_eq_prime_pow (p := 2) (n := 6) ?_ ?_
  · rw [show 2 ^ 6 = 64 from rfl, omega128_pow]
    exact fun e => fr_one_ne e.symm
  · rw [show 2 ^ (6 + 1) = 64 * 2 from rfl, pow_mul, omega128_pow]
    norm_num

/-- the 128-th roots of unity, up to sign -/
theorem root_cases {t : Fr} (h : t ^ 128 = 1) : ∃ j < 64, t = omega128 ^ j ∨ t = -omega128 ^ j := by
  obtain ⟨i, hi, rfl⟩ := omega128_primitive.eq_pow_of_pow_eq_one h
  by_cases h64 : i < 64
  · exact ⟨i, h64, .inl rfl⟩
  · refine ⟨i - 64, by omega, .inr ?_⟩
    have : i = 64 + (i - 64) := by omega
    conv_lhs => rw [this, pow_add, omega128_pow, neg_one_mul]

theorem not_root {t : Fr} (hx : (toAff (t.val • (generator : Curve1)) : Aff Fp).x = (point4032 % 2 ^ 381 : Nat)) : t ^ 128 ≠ 1 := by
  intro h
  obtain ⟨j, hj, ht⟩ := root_cases h
  have hd := differsAll_sound differs_point4032 (by decide +kernel) j hj
  rw [Nat.cast_one, one_mul] at hd
  rcases ht with rfl | rfl
  · exact hd hx
  · apply hd
    rw [← hx]
    have e : ∀ u : Fr, ((-u).val) • (generator : Curve1) = -(u.val • (generator : Curve1)) := by
      intro u
      by_cases hu : u = 0
      · rw [hu, neg_zero, ZMod.val_zero, zero_smul, neg_zero]
      · rw [ZMod.neg_val, if_neg hu]
        refine eq_neg_of_add_eq_zero_left ?_
        rw [← add_nsmul, Nat.sub_add_cancel (ZMod.val_lt u).le]
        exact generator.2
    rw [e, LawfulCurve.toAff_neg]

end Verif.Embedded
