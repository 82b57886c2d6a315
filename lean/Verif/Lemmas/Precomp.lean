import Mathlib.Algebra.Field.GeomSum
import Verif.Lemmas.Context
import Verif.Lemmas.Msm
import Verif.Spec.Precomp

set_option linter.unusedSectionVars false

/-! The prover tables with precomputation. -/
namespace Verif
open Finset

section
variable {ε K G : Type} [Field K] [DecidableEq K] [AddCommGroup G] [Module Fr G] [DecidableEq G] [Curve K G]

theorem fftGens_eq (g : List G) (hg : g.length = 4096) (j : Nat) :
    fftGens (srsVectors g (2 ^ 6)) 7 j = (List.range 64).map (fun i => Spec.basePoint g i j) := by
  unfold fftGens
  rw [srsVectors_eq g 6 6 (by norm_num) (by rw [hg]; norm_num), List.map_map]
  apply List.map_congr_left
  intro i hi
  have hi : i < 64 := List.mem_range.1 hi
  simp only [Function.comp_apply, Spec.dft, Spec.basePoint]
  rw [← Finset.sum_subset (s₁ := range 63) (s₂ := range (2 ^ 7)) (by intro a ha; simp at ha ⊢; omega)]
  · apply Finset.sum_congr rfl
    intro b hb
    have hb := Finset.mem_range.1 hb
    congr 1
    rw [List.getD_eq_getElem _ _ (by simp; omega), List.getElem_map, List.getElem_range, if_pos (by omega)]
    congr 1
    omega
  · intro b hb hnb
    simp only [Finset.mem_range, not_lt] at hb hnb
    have : (List.map (fun b => if b + 1 < 2 ^ 6 then g.getD (2 ^ (6 + 6) - 1 - (2 ^ 6 + (i + b * 2 ^ 6))) 0 else 0)
        (List.range (2 ^ 6))).getD b 0 = 0 := by
      simp only [List.getD, List.getElem?_map]
      by_cases h : b < 2 ^ 6
      · rw [List.getElem?_range h, Option.map_some, Option.getD_some, if_neg (by omega)]
      · rw [List.getElem?_eq_none (by simp; omega)]
        rfl
    rw [this, smul_zero]

/-- A usable setting: no precomputation, or width 1 to 24 and no identity among the base points. -/
def Usable (g : List G) (up : UsePrecomp) : Prop :=
  up = .no ∨ ∃ w, up = .yes w ∧ 1 ≤ w ∧ w ≤ 24 ∧ Spec.NoIdentity g

theorem msmSound_of [LawfulCurve K G] (g : List G) (hg : g.length = 4096) (up : UsePrecomp) (hu : Usable g up)
    (M : Nat → FixedBaseMSM K G)
    (h : ∀ j < 2 ^ 7, (FixedBaseMSM.new (fftGens (srsVectors g (2 ^ 6)) 7 j) up : Outcome ε (FixedBaseMSM K G)) = .ok (M j)) :
    MsmSound ε g 6 6 M := by
  rcases hu with rfl | ⟨w, rfl, hw, hw', hn⟩
  · intro j hj x hx
    exact .inr (msmExact_no g 6 6 M h j hj x hx)
  · intro j hj x hx
    have hnew := h j hj
    simp only [FixedBaseMSM.new, precompWindowNew_eq w hw, Outcome.ok_bind, Outcome.pure_eq, Outcome.ok.injEq] at hnew
    rw [← hnew]
    have hne : ∀ P ∈ fftGens (srsVectors g (2 ^ 6)) 7 j, P ≠ 0 := by
      rw [fftGens_eq g hg]
      intro P hP
      obtain ⟨i, hi, rfl⟩ := List.mem_map.1 hP
      exact hn i (List.mem_range.1 hi) j hj
    obtain ⟨h1, h2⟩ := precompWindowMsm_eq (ε := ε) (K := K) w hw hw' (fftGens (srsVectors g (2 ^ 6)) 7 j) x
      (by rw [fftGens_eq g hg, hx]; simp) hne
    by_cases hc : Spec.Clash Spec.bigMulti ((List.range (255 / w + 1)).map (fun i => windowPts w i (fftGens (srsVectors g (2 ^ 6)) 7 j) x))
    · exact .inl (h1 hc)
    · exact .inr (h2 hc)

end

section
variable {G : Type} [AddCommGroup G] [Module Fr G]

theorem sixtyThree_ne : (63 : Fr) ≠ 0 := by decide +kernel

/-- For powers of tau the base points are the identity only if `τ` is zero or `τ^(2^13 * 63) = 1`. -/
theorem noIdentity_of_tau (g : List G) (τ : Fr) (P : G) (hg : ∀ i < 4096, g[i]? = some (τ ^ i • P)) (hP : P ≠ 0) (h0 : τ ≠ 0)
    (h1 : τ ^ (2 ^ 13 * 63) ≠ 1) : Spec.NoIdentity g := by
  intro i hi j hj h
  have hval : Spec.basePoint g i j = (τ ^ (63 - i) * ∑ b ∈ range 63, (Spec.omega 7 ^ j) ^ b * (τ ^ 64) ^ (63 - 1 - b)) • P := by
    unfold Spec.basePoint
    rw [Finset.mul_sum, Finset.sum_smul]
    apply Finset.sum_congr rfl
    intro b hb
    have hb := Finset.mem_range.1 hb
    rw [List.getD, hg _ (by omega), Option.getD_some, smul_smul]
    congr 1
    rw [← pow_mul, ← pow_mul, mul_left_comm, ← pow_add, mul_comm j b]
    congr 2
    omega
  rw [hval] at h
  rcases smul_eq_zero.1 h with h | h
  · rcases mul_eq_zero.1 h with h | h
    · exact absurd h (pow_ne_zero _ h0)
    · set z := Spec.omega 7 ^ j with hz
      set y := τ ^ 64 with hy
      by_cases hzy : z = y
      · rw [hzy] at h
        have : ∑ b ∈ range 63, y ^ b * y ^ (63 - 1 - b) = 63 * y ^ 62 := by
          rw [Finset.sum_congr rfl (g := fun _ => y ^ 62), Finset.sum_const, Finset.card_range]
          · simp
          · intro b hb
            have hb := Finset.mem_range.1 hb
            rw [← pow_add]
            congr 1
            omega
        rw [this] at h
        rcases mul_eq_zero.1 h with h | h
        · exact sixtyThree_ne h
        · exact h0 (pow_eq_zero_iff (n := 64) (by norm_num) |>.1 (pow_eq_zero_iff (n := 62) (by norm_num) |>.1 h))
      · have hgs := geom_sum₂_mul z y 63
        have hh : ∑ b ∈ range 63, z ^ b * y ^ (63 - 1 - b) = 0 := h
        rw [hh, zero_mul] at hgs
        have e : y ^ 63 = z ^ 63 := (sub_eq_zero.1 hgs.symm).symm
        apply h1
        have hz1 : z ^ 128 = 1 := by
          rw [hz, ← pow_mul, mul_comm, pow_mul, show Spec.omega 7 ^ 128 = 1 from (omega_primitive 7 (by norm_num)).pow_eq_one, one_pow]
        calc τ ^ (2 ^ 13 * 63) = (y ^ 63) ^ 128 := by rw [hy, ← pow_mul, ← pow_mul]; norm_num
          _ = (z ^ 128) ^ 63 := by rw [e, ← pow_mul z, ← pow_mul z]
          _ = 1 := by rw [hz1, one_pow]
  · exact hP h
end
end Verif
