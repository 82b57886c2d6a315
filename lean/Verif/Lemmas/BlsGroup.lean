import Mathlib.LinearAlgebra.Span.Basic
import Verif.Lemmas.BlsCodec
import Verif.Model.Fk20Verifier
import Verif.Spec.G1

/-!
G1 is a line over the scalar field: every point is a unique multiple of the generator. The reason is the number of points of the
curve, at most `2 p + 1`, which is less than `r ^ 2`.
-/
namespace Verif.Bls
open WeierstrassCurve

theorem generator_ne : generator ≠ 0 := fun h => generatorPoint_ne (ZMod.natCast_self _) (congrArg Subtype.val h)

theorem generator_order : addOrderOf generator = frOrder :=
  addOrderOf_eq_prime (Subtype.ext (generatorPoint_order (ZMod.natCast_self _))) generator_ne

theorem smul_generator_injective : Function.Injective (fun s : Fr => s • generator) :=
  smul_left_injective Fr generator_ne

theorem exists_smul_generator (P : G1) : ∃ s : Fr, s • generator = P := by
  by_contra hc
  push Not at hc
  obtain ⟨hfin, hcard⟩ := card_points_le (4 : Fp)
  have hinj : Function.Injective (fun st : Fr × Fr => ((st.1 • generator + st.2 • P : G1) : Curve1)) := by
    rintro ⟨s, t⟩ ⟨s', t'⟩ h
    have h' : s • generator + t • P = s' • generator + t' • P := Subtype.ext h
    have h2 : (s - s') • generator + (t - t') • P = 0 := by
      rw [sub_smul, sub_smul]
      have : s • generator - s' • generator + (t • P - t' • P) =
        (s • generator + t • P) - (s' • generator + t' • P) := by abel
      rw [this, h', sub_self]
    by_cases ht : t - t' = 0
    · rw [ht, zero_smul, add_zero, smul_eq_zero, or_iff_left generator_ne] at h2
      rw [sub_eq_zero.1 h2, sub_eq_zero.1 ht]
    · exfalso
      apply hc (-((t - t')⁻¹ * (s - s')))
      have h3 : (t - t')⁻¹ • ((s - s') • generator + (t - t') • P) = 0 := by rw [h2, smul_zero]
      rw [smul_add, smul_smul, smul_smul, inv_mul_cancel₀ ht, one_smul] at h3
      rw [neg_smul]
      exact neg_eq_of_add_eq_zero_right h3
  have := Nat.card_le_card_of_injective _ hinj
  have c1 : Nat.card Fr = frOrder := Nat.card_zmod _
  have c2 : Fintype.card Fp = fpOrder := ZMod.card _
  rw [Nat.card_prod, c1] at this
  rw [c2] at hcard
  exact absurd (this.trans hcard) (by decide +kernel)

/-- the discrete logarithm to the base of the generator -/
noncomputable def log : G1 ≃ₗ[Fr] Fr :=
  (LinearEquiv.ofBijective (LinearMap.toSpanSingleton Fr G1 generator)
    ⟨smul_generator_injective, exists_smul_generator⟩).symm

theorem log_smul (P : G1) : log P • generator = P :=
  (LinearEquiv.ofBijective (LinearMap.toSpanSingleton Fr G1 generator)
    ⟨smul_generator_injective, exists_smul_generator⟩).apply_symm_apply P

theorem log_generator : log generator = 1 := by
  apply smul_generator_injective
  show log generator • generator = (1 : Fr) • generator
  rw [log_smul, one_smul]

/-- A pairing of G1 with any vector space over the scalar field: `(s • generator, Q) ↦ s • Q`. -/
noncomputable abbrev logPairing (G2 : Type) [AddCommGroup G2] [Module Fr G2] : Pairing G1 G2 G2 where
  pair P Q := log P • Q

theorem lawful_logPairing (G2 : Type) [AddCommGroup G2] [Module Fr G2] :
    letI := logPairing G2
    LawfulPairing G1 G2 G2 := by
  let := logPairing G2
  exact {
    pair_add_left := fun a b c => by
      show log (a + b) • c = log a • c + log b • c
      rw [map_add, add_smul]
    pair_add_right := fun a b c => by
      show log a • (b + c) = log a • b + log a • c
      rw [smul_add]
    pair_smul := fun s a b => by
      show log (s • a) • b = log a • s • b
      rw [map_smul, smul_eq_mul, mul_smul, smul_comm] }

/-! ### the encoding as an integer -/

theorem flags_value : ∀ b : UInt8, b &&& 0xE0 = 0 → ∀ s : Bool,
    (b ||| 0x80 ||| (if s then 0x20 else 0)).toNat = b.toNat + 128 + (if s then 32 else 0) :=
  uint8_all (by decide +kernel)

theorem isLarger_iff (y : Fp) : isLarger y = true ↔ (-y).val < y.val := by
  by_cases h : y = 0
  · subst h
    simp [isLarger]
  · have hlt := ZMod.val_lt y
    have hv : y.val ≠ 0 := by rwa [Ne, ZMod.val_eq_zero]
    have hn : (-y).val = fpOrder - y.val := by rw [ZMod.neg_val, if_neg h]
    have hp := fpOrder_mod
    rw [isLarger, decide_eq_true_iff, hn]
    omega

theorem encodes_compress (P : Curve1) : Spec.EncodesG1 (compress P) P := by
  refine ⟨length_compress P, ?_⟩
  rw [← beToNat_eq]
  cases P with
  | zero => decide +kernel
  | some x y h =>
    obtain ⟨b0, rest, e, hb, hr⟩ := coordinate_bytes x
    have hx : beToNat (b0 :: rest) = x.val := by
      rw [← e, beToNat_natToBE]
      exact Nat.mod_eq_of_lt ((ZMod.val_lt x).trans (fpOrder_lt.trans (by decide +kernel)))
    rw [beToNat_cons, hr] at hx
    simp only [compress, e, Spec.g1Code]
    rw [beToNat_cons, flags_value b0 hb, hr]
    have h383 : 128 * 256 ^ 47 = 2 ^ 383 := by decide +kernel
    have h381 : 32 * 256 ^ 47 = 2 ^ 381 := by decide +kernel
    generalize 256 ^ 47 = M at *
    generalize 2 ^ 383 = A at *
    generalize 2 ^ 381 = B at *
    by_cases hs : isLarger y = true
    · rw [if_pos hs, if_pos ((isLarger_iff y).1 hs), add_mul, add_mul, h383, h381]
      omega
    · rw [if_neg hs, if_neg (fun hc => hs ((isLarger_iff y).2 hc)), add_mul, add_mul, h383]
      omega

theorem encodes_iff {b : List UInt8} {P : Curve1} : Spec.EncodesG1 b P ↔ b = compress P := by
  constructor
  · rintro ⟨hl, hv⟩
    obtain ⟨hl', hv'⟩ := encodes_compress P
    apply beToNat_inj (hl.trans hl'.symm)
    rw [beToNat_eq, beToNat_eq, hv, hv']
  · rintro rfl
    exact encodes_compress P

end Verif.Bls
