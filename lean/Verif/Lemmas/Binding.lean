import Verif.Spec.Binding
import Verif.Lemmas.Quotient
import Verif.Lemmas.Recovery

set_option linter.unusedSectionVars false

/-! The computations of `Spec/Binding.lean` give what they promise when the claims satisfy the KZG equation. -/
namespace Verif
open Polynomial Finset

section
variable {G1 G2 GT : Type} [AddCommGroup G1] [Module Fr G1] [AddCommGroup G2] [Module Fr G2] [AddCommGroup GT]

theorem commitment_powers {g : List G1} {τ : Fr} {P : G1} (hg : ∀ i < g.length, g[i]? = some (τ ^ i • P)) (f : Fr[X])
    (hf : f.degree < g.length) : Spec.commitment g f = f.eval τ • P := by
  unfold Spec.commitment
  by_cases h0 : g.length = 0
  · have : f = 0 := by
      rw [h0] at hf
      exact degree_eq_bot.1 (Nat.WithBot.lt_zero_iff.1 (by exact_mod_cast hf))
    rw [h0, this]; simp
  have hn : f.natDegree < g.length := by
    by_cases hz : f = 0
    · rw [hz]; simpa using Nat.pos_of_ne_zero h0
    · exact (natDegree_lt_iff_degree_lt hz).2 hf
  rw [eval_eq_sum_range' hn, sum_smul]
  apply sum_congr rfl
  intro i hi
  rw [List.getD, hg i (mem_range.1 hi), Option.getD_some, mul_smul]

variable [Pairing G1 G2 GT] [LawfulPairing G1 G2 GT]

theorem sdh_identity {g1 : List G1} {g2 : List G2} {τ : Fr} {P : G1} {H : G2} (hpt : Spec.PowersOfTau g1 g2 τ P H)
    (o o' : Spec.Opening G1) (hc : o.commitment = o'.commitment) (hk : o.index = o'.index)
    (hI : o.interp.degree < 64) (hI' : o'.interp.degree < 64) (hv : o.Valid τ P) (hv' : o'.Valid τ P)
    (hτ : ∀ i < 64, τ ≠ Spec.point 13 (64 * o.index + i)) (j : Nat) (hj : j < 64)
    (hne : o.interp.eval (Spec.point 13 (64 * o.index + j)) ≠ o'.interp.eval (Spec.point 13 (64 * o.index + j))) :
    (Spec.sdhSolution g1 g2 o.index j o.interp o'.interp o.proof o'.proof : GT) =
      pair ((τ - Spec.point 13 (64 * o.index + j))⁻¹ • P) H := by
  obtain ⟨C₀, k, I, π⟩ := o
  obtain ⟨C₁, k', I', π'⟩ := o'
  simp only at hc hk hI hI' hv hv' hτ hne ⊢
  subst hc hk
  unfold Spec.Opening.Valid at hv hv'
  simp only at hv hv'
  have hroot := cellDivisor_root k j hj
  have hτj := hτ j hj
  have hZ : (cellDivisor k).eval τ ≠ 0 := by
    rw [← cellDivisor_eq]
    unfold Spec.vanishing
    rw [eval_prod, prod_ne_zero_iff]
    intro i hi
    rw [eval_sub, eval_X, eval_C]
    exact sub_ne_zero.2 (hτ i (mem_range.1 hi))
  rw [← cellDivisor_eval] at hv hv'
  unfold Spec.sdhSolution
  simp only
  rw [cellDivisor_eq]
  generalize Spec.point 13 (64 * k + j) = x at *
  generalize hD : I' - I = D at *
  have hDx : D.eval x ≠ 0 := by
    rw [← hD, eval_sub]; exact sub_ne_zero.2 (Ne.symm hne)
  have hDdeg : D.degree < 64 := by rw [← hD]; exact (degree_sub_le _ _).trans_lt (max_lt hI' hI)
  have hg2 : g2.getD 0 0 = H := by
    have := hpt.g2_eq 0 (by have := hpt.length_g2.1; omega)
    rw [List.getD, this]; simp
  have e1 : Spec.commitment g2 (cellDivisor k /ₘ (X - C x)) = (cellDivisor k /ₘ (X - C x)).eval τ • H := by
    apply commitment_powers hpt.g2_eq
    refine (degree_divByMonic_le _ _).trans_lt ?_
    rw [cellDivisor_degree]
    exact_mod_cast hpt.length_g2.1
  have e2 : Spec.commitment g1 (D /ₘ (X - C x)) = (D /ₘ (X - C x)).eval τ • P := by
    apply commitment_powers (by rw [hpt.length_g1]; exact hpt.g1_eq)
    refine (degree_divByMonic_le _ _).trans_lt (hDdeg.trans ?_)
    rw [hpt.length_g1]
    exact_mod_cast (by norm_num : 64 < 4096)
  have d1 : (cellDivisor k).eval τ = (τ - x) * (cellDivisor k /ₘ (X - C x)).eval τ := by
    have := congrArg (eval τ) (mul_divByMonic_eq_iff_isRoot.2 (show (cellDivisor k).IsRoot x from hroot))
    rw [eval_mul, eval_sub, eval_X, eval_C] at this
    exact this.symm
  have d2 : D.eval τ = D.eval x + (τ - x) * (D /ₘ (X - C x)).eval τ := by
    have := congrArg (eval τ) (modByMonic_add_div D (X - C x))
    rw [modByMonic_X_sub_C_eq_C_eval, eval_add, eval_C, eval_mul, eval_sub, eval_X, eval_C] at this
    exact this.symm
  rw [e1, e2, hg2, ← LawfulPairing.pair_smul]
  have hsub : ∀ a b : G1, (pair a H - pair b H : GT) = pair (a - b) H := by
    intro a b
    rw [sub_eq_iff_eq_add, ← LawfulPairing.pair_add_left, sub_add_cancel]
  rw [hsub]
  congr 1
  -- the difference of the proofs is `D(τ) / Z(τ) P`
  have hdiff : π - π' = (((cellDivisor k).eval τ)⁻¹ * D.eval τ) • P := by
    have : (cellDivisor k).eval τ • (π - π') = D.eval τ • P := by
      rw [smul_sub, hv, hv', ← hD, eval_sub, sub_smul]; abel
    rw [mul_smul, ← this, ← mul_smul, inv_mul_cancel₀ hZ, one_smul]
  rw [hdiff, ← mul_smul, ← mul_smul, ← mul_smul, ← sub_smul]
  congr 1
  have hx : τ - x ≠ 0 := sub_ne_zero.2 hτj
  rw [d1] at hZ ⊢
  have hq := right_ne_zero_of_mul hZ
  rw [d2]
  field_simp
  ring

end

section
variable {G1 G2 : Type} [AddCommGroup G1] [Module Fr G1] [AddCommGroup G2] [Module Fr G2]

/-- the cosets have different values of `X^64` -/
theorem cosetValue_inj {k l : Nat} (hk : k < 128) (hl : l < 128)
    (h : Spec.point 13 (64 * k) ^ 64 = Spec.point 13 (64 * l) ^ 64) : k = l := by
  have h0 : (cellDivisor l).eval (Spec.point 13 (64 * k)) = 0 := by
    rw [cellDivisor_eval, h, sub_self]
  rw [← cellDivisor_eq] at h0
  unfold Spec.vanishing at h0
  rw [eval_prod, prod_eq_zero_iff] at h0
  obtain ⟨j, hj, h0⟩ := h0
  rw [mem_range] at hj
  rw [eval_sub, eval_X, eval_C, sub_eq_zero] at h0
  norm_num at hj
  unfold Spec.point at h0
  have h1 := (omega_primitive 13 (by norm_num)).pow_inj (Spec.brev_lt 13 _) (Spec.brev_lt 13 _) h0
  have h2 := Spec.brev_injOn 13 _ _ (by norm_num; omega) (by norm_num; omega) h1
  omega

theorem allVanishing_eval (os : List (Spec.Opening G1)) (τ : Fr) :
    (Spec.allVanishing os).eval τ = ∏ i : Fin os.length, (τ ^ 64 - Spec.cosetValue os i) := by
  unfold Spec.allVanishing Spec.cosetValue
  rw [eval_list_prod, List.map_map, ← List.prod_ofFn]
  congr 1
  apply List.ext_getElem (by simp)
  intro i h1 h2
  simp [cellDivisor_eq, cellDivisor_eval]

theorem allVanishing_monic (os : List (Spec.Opening G1)) : (Spec.allVanishing os).Monic := by
  unfold Spec.allVanishing
  induction os with
  | nil => simp
  | cons o os ih =>
    rw [List.map_cons, List.prod_cons, cellDivisor_eq]
    exact (cellDivisor_monic _).mul ih

theorem allVanishing_natDegree (os : List (Spec.Opening G1)) {n : Nat} (hn : 64 * os.length = n) :
    (Spec.allVanishing os).natDegree = n := by
  unfold Spec.allVanishing
  subst hn
  induction os with
  | nil => simp
  | cons o os ih =>
    rw [List.map_cons, List.prod_cons, Monic.natDegree_mul, ih, cellDivisor_eq, cellDivisor_natDegree, List.length_cons]
    · ring
    · rw [cellDivisor_eq]; exact cellDivisor_monic _
    · exact allVanishing_monic os

theorem excess_identity {g1 : List G1} {g2 : List G2} {τ : Fr} {P : G1} {H : G2} (hpt : Spec.PowersOfTau g1 g2 τ P H)
    (os : List (Spec.Opening G1)) (C₀ : G1) (f : Fr[X]) (hf : f.degree < 4096) (hne : os ≠ [])
    (hc : ∀ o ∈ os, o.commitment = C₀) (hk : ∀ o ∈ os, o.index < 128) (hnd : (os.map (·.index)).Nodup)
    (hI : ∀ o ∈ os, o.interp = f %ₘ Spec.vanishing 13 6 o.index) (hv : ∀ o ∈ os, o.Valid τ P) :
    (Spec.allVanishing os).eval τ • Spec.excess g1 f os = C₀ - Spec.commitment g1 f := by
  have hpow : ∀ f : Fr[X], f.degree < 4096 → Spec.commitment g1 f = f.eval τ • P := fun f hf =>
    commitment_powers (by rw [hpt.length_g1]; exact hpt.g1_eq) f (by rw [hpt.length_g1]; exact_mod_cast hf)
  have hCf : Spec.commitment g1 f = f.eval τ • P := hpow f hf
  have key : ∀ i : Fin os.length, (τ ^ 64 - Spec.cosetValue os i) •
      ((os[i]).proof - Spec.openingProof g1 13 6 f (os[i]).index) = C₀ - f.eval τ • P := by
    intro i
    have hm : os[i] ∈ os := List.getElem_mem _
    have hv := hv _ hm
    have hI := hI _ hm
    have hc := hc _ hm
    have h2 : Spec.Opening.Valid τ P ⟨f.eval τ • P, (os[i]).index, f %ₘ cellDivisor (os[i]).index,
      (f /ₘ cellDivisor (os[i]).index).eval τ • P⟩ := by
      unfold Spec.Opening.Valid
      rw [← cellDivisor_eval, ← mul_smul, ← sub_smul]
      congr 1
      have := congrArg (eval τ) (modByMonic_add_div f (cellDivisor (os[i]).index))
      rw [eval_add, eval_mul] at this
      rw [← this]; ring
    unfold Spec.Opening.Valid at hv h2
    simp only at h2
    have ho : Spec.openingProof g1 13 6 f (os[i]).index = (f /ₘ cellDivisor (os[i]).index).eval τ • P := by
      unfold Spec.openingProof
      rw [cellDivisor_eq, hpow _ (quotient_degree f hf _)]
    unfold Spec.cosetValue
    rw [smul_sub, ho, hv, h2, hI, hc, cellDivisor_eq]
    abel
  have hinj : Function.Injective (Spec.cosetValue os) := by
    intro i j hij
    have := cosetValue_inj (hk _ (List.getElem_mem i.2)) (hk _ (List.getElem_mem j.2)) hij
    have h2 := (List.nodup_iff_injective_getElem.1 hnd) (a₁ := ⟨i, by simp⟩) (a₂ := ⟨j, by simp⟩) (by simpa using this)
    ext
    simpa using h2
  unfold Spec.excess
  rw [allVanishing_eval, smul_sum, hCf]
  have hsplit : ∀ i : Fin os.length, (∏ j : Fin os.length, (τ ^ 64 - Spec.cosetValue os j)) •
      (∏ j ∈ univ.erase i, (Spec.cosetValue os i - Spec.cosetValue os j))⁻¹ •
        ((os[i]).proof - Spec.openingProof g1 13 6 f (os[i]).index) =
      (Lagrange.basis univ (Spec.cosetValue os) i).eval (τ ^ 64) • (C₀ - f.eval τ • P) := by
    intro i
    rw [← key i, ← mul_smul, ← mul_smul]
    congr 1
    unfold Lagrange.basis
    rw [eval_prod, ← mul_prod_erase univ _ (mem_univ i)]
    have : ∀ j, (Lagrange.basisDivisor (Spec.cosetValue os i) (Spec.cosetValue os j)).eval (τ ^ 64) =
        (Spec.cosetValue os i - Spec.cosetValue os j)⁻¹ * (τ ^ 64 - Spec.cosetValue os j) := by
      intro j; simp [Lagrange.basisDivisor]
    simp only [this]
    rw [prod_mul_distrib, prod_inv_distrib]
    ring
  rw [sum_congr rfl (fun i _ => hsplit i), ← sum_smul, ← eval_finsetSum, Lagrange.sum_basis hinj.injOn, eval_one, one_smul]
  have : Nonempty (Fin os.length) := ⟨⟨0, List.length_pos_of_ne_nil hne⟩⟩
  exact univ_nonempty

end
end Verif
