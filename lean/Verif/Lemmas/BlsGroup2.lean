import Verif.Lemmas.BlsCodec2
import Verif.Lemmas.Pocklington

/-!
G2 is a line over the scalar field: every point is a unique multiple of the generator. If there were a point of order `r` outside
the multiples of the generator, these two and a point of order `cofactorPrime` would generate `r ^ 2 * cofactorPrime` points, more
than the `2 p ^ 2 + 1` points that the curve can have.
-/
namespace Verif.Bls
open WeierstrassCurve

theorem generator2_ne : generator2 ≠ 0 := fun h => g2GeneratorPoint_ne (congrArg Subtype.val h)

theorem generator2_order : addOrderOf generator2 = frOrder :=
  addOrderOf_eq_prime (Subtype.ext g2GeneratorPoint_order) generator2_ne

theorem smul_generator2_injective : Function.Injective (fun s : Fr => s • generator2) :=
  smul_left_injective Fr generator2_ne

/-! ### a point of order `cofactorPrime` -/

def cofactorX : Pair :=
  ⟨0x742c321cfc416938d661ca92e2049e95cbff82f7f224a70ce7f110897519a5d9b04add2c76fff66fbd66bccb00621ac,
   0x3e2e4ca4a68ca97402f2aa09d95197cfc96d6aa1f2b915414c9b44a9440d9a06b6a83f86f01c2e3b1786800eb86c22d⟩

def cofactorY : Pair :=
  ⟨0x1231d9589ec6a2c4aaae92a89d107903f727d68f6f2ac572aabc893a1462d7aa0f5afcc5bccf3fd43bc3e57444e579a9,
   0xac675b7a5e4ca95afb5b181459f5dd8d78c91ab4c2c16a2134559f170abe2650ef25dfdc386f0fb7d1fcaa33ebcb0aa⟩

set_option maxRecDepth 100000 in
theorem cofactorChain_run : run2 fpOrder cofactorX cofactorY cofactorChain 1 cofactorX cofactorY =
    some (cofactorPrime - 1, cofactorX, Pair.sub fpOrder ⟨0, 0⟩ cofactorY) := by
  decide +kernel

noncomputable def cofactorPoint : Curve2 :=
  .some ⟨cofactorX.re, cofactorX.im⟩ ⟨cofactorY.re, cofactorY.im⟩
    (curve2_nonsingular (onCurve2_sound (by decide +kernel)))

theorem cofactorPoint_ne : cofactorPoint ≠ 0 := by intro e; cases e

theorem cofactorPoint_killed : cofactorPrime • cofactorPoint = 0 := by
  have h := run2_order fpOrder_pos fp2_char imag_sq cofactorPoint cofactorPoint_ne
    (by rw [val_pair, val_pair]; rfl) cofactorChain cofactorChain_run
  rwa [show cofactorPrime - 1 + 1 = cofactorPrime by decide +kernel] at h

theorem cofactorPoint_order : addOrderOf cofactorPoint = cofactorPrime := by
  have := Fact.mk cofactorPrime_prime
  exact addOrderOf_eq_prime cofactorPoint_killed cofactorPoint_ne

/-! ### the number of points -/

noncomputable instance : Fintype Fp2 := Fintype.ofEquiv (Fp × Fp) (QuadraticAlgebra.equivProd (-1) 0).symm

theorem card_fp2 : Fintype.card Fp2 = fpOrder ^ 2 := by
  rw [Fintype.card_congr (QuadraticAlgebra.equivProd (-1 : Fp) 0), Fintype.card_prod, ZMod.card, pow_two]

theorem exists_smul_generator2 (P : G2) : ∃ s : Fr, s • generator2 = P := by
  by_contra hc
  push Not at hc
  obtain ⟨hfin, hcard⟩ := card_points_le b2
  have hinj : Function.Injective (fun st : (Fr × Fr) × Fin cofactorPrime =>
      ((st.1.1 • generator2 + st.1.2 • P : G2) : Curve2) + st.2.val • cofactorPoint) := by
    rintro ⟨⟨s, t⟩, k⟩ ⟨⟨s', t'⟩, k'⟩ h
    simp only at h
    have hk : k = k' := by
      have h1 := congrArg (fun X : Curve2 => frOrder • X) h
      simp only [nsmul_add] at h1
      have z : ∀ X : G2, frOrder • (X : Curve2) = 0 := fun X => X.2
      rw [z, z, zero_add, zero_add, ← mul_nsmul', ← mul_nsmul', nsmul_eq_nsmul_iff_modEq, cofactorPoint_order] at h1
      have hco : Nat.gcd cofactorPrime frOrder = 1 := by decide +kernel
      have h2 : k.val ≡ k'.val [MOD cofactorPrime] := Nat.ModEq.cancel_left_of_coprime hco h1
      exact Fin.ext (Nat.ModEq.eq_of_lt_of_lt h2 k.isLt k'.isLt)
    subst hk
    have h' : s • generator2 + t • P = s' • generator2 + t' • P := Subtype.ext (add_right_cancel h)
    have h2 : (s - s') • generator2 + (t - t') • P = 0 := by
      rw [sub_smul, sub_smul]
      have : s • generator2 - s' • generator2 + (t • P - t' • P) =
        (s • generator2 + t • P) - (s' • generator2 + t' • P) := by abel
      rw [this, h', sub_self]
    by_cases ht : t - t' = 0
    · rw [ht, zero_smul, add_zero, smul_eq_zero, or_iff_left generator2_ne] at h2
      rw [sub_eq_zero.1 h2, sub_eq_zero.1 ht]
    · exfalso
      apply hc (-((t - t')⁻¹ * (s - s')))
      have h3 : (t - t')⁻¹ • ((s - s') • generator2 + (t - t') • P) = 0 := by rw [h2, smul_zero]
      rw [smul_add, smul_smul, smul_smul, inv_mul_cancel₀ ht, one_smul] at h3
      rw [neg_smul]
      exact neg_eq_of_add_eq_zero_right h3
  have := Nat.card_le_card_of_injective _ hinj
  have c1 : Nat.card Fr = frOrder := Nat.card_zmod _
  rw [Nat.card_prod, Nat.card_prod, c1, Nat.card_eq_fintype_card, Fintype.card_fin] at this
  rw [card_fp2] at hcard
  exact absurd (this.trans hcard) (by decide +kernel)

/-- the discrete logarithm to the base of the generator of G2 -/
noncomputable def log2 : G2 ≃ₗ[Fr] Fr :=
  (LinearEquiv.ofBijective (LinearMap.toSpanSingleton Fr G2 generator2)
    ⟨smul_generator2_injective, exists_smul_generator2⟩).symm

theorem log2_smul (P : G2) : log2 P • generator2 = P :=
  (LinearEquiv.ofBijective (LinearMap.toSpanSingleton Fr G2 generator2)
    ⟨smul_generator2_injective, exists_smul_generator2⟩).apply_symm_apply P

theorem log2_generator2 : log2 generator2 = 1 := by
  apply smul_generator2_injective
  show log2 generator2 • generator2 = (1 : Fr) • generator2
  rw [log2_smul, one_smul]

/-- A pairing of G1 with G2: the product of the discrete logarithms. -/
noncomputable abbrev logPairing2 : Pairing G1 G2 Fr where
  pair P Q := log P * log2 Q

theorem lawful_logPairing2 :
    letI := logPairing2
    LawfulPairing G1 G2 Fr := by
  let := logPairing2
  exact {
    pair_add_left := fun a b c => by
      show log (a + b) * log2 c = log a * log2 c + log b * log2 c
      rw [map_add, add_mul]
    pair_add_right := fun a b c => by
      show log a * log2 (b + c) = log a * log2 b + log a * log2 c
      rw [map_add, mul_add]
    pair_smul := fun s a b => by
      show log (s • a) * log2 b = log a * log2 (s • b)
      rw [map_smul, map_smul, smul_eq_mul, smul_eq_mul]
      ring }

end Verif.Bls
