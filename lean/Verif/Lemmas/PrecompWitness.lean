import Verif.Lemmas.PrecompPanic

set_option linter.unusedSectionVars false

/-! A polynomial on which the precomputed prover panics for the secret 7. -/
namespace Verif
open Finset Polynomial

attribute [local irreducible] Spec.coeffs

theorem pow_iterate (x : Fr) (n k m : Nat) (hm : m = n * 2 ^ k) : x ^ m = (fun y => y * y)^[k] (x ^ n) := by
  subst hm
  induction k with
  | zero => simp
  | succ k ih => rw [Function.iterate_succ_apply', ← ih, ← pow_add]; congr 1; ring

theorem seven_pow : (7 : Fr) ^ 516096 ≠ 1 := by
  rw [pow_iterate 7 63 13 516096 (by norm_num)]
  decide +kernel

/-- `249 + X + X^2 + ... + X^63` -/
noncomputable def clashPoly : Fr[X] := C 249 + ∑ k ∈ range 63, X ^ (k + 1)

theorem clashPoly_coeff (i : Nat) : clashPoly.coeff i = if i = 0 then 249 else if i < 64 then 1 else 0 := by
  unfold clashPoly
  rw [coeff_add, coeff_C, finsetSum_coeff]
  simp only [coeff_X_pow]
  by_cases h0 : i = 0
  · subst h0
    rw [if_pos rfl, if_pos rfl, Finset.sum_eq_zero, add_zero]
    intro k _
    rw [if_neg (by omega)]
  · rw [if_neg h0, if_neg h0, zero_add]
    by_cases h : i < 64
    · rw [if_pos h, Finset.sum_eq_single (i - 1)]
      · rw [if_pos (by omega)]
      · intro b _ hb
        rw [if_neg (by omega)]
      · intro hn
        exact absurd (Finset.mem_range.2 (by omega)) hn
    · rw [if_neg h, Finset.sum_eq_zero]
      intro k hk
      have := Finset.mem_range.1 hk
      rw [if_neg (by omega)]

theorem clashPoly_degree : clashPoly.degree < 4096 := by
  have : clashPoly.degree < (64 : Nat) := by
    rw [degree_lt_iff_coeff_zero]
    intro m hm
    rw [clashPoly_coeff, if_neg (by omega), if_neg (by omega)]
  exact lt_trans this (by norm_num)

theorem list_getD_sum {M : Type} [AddCommMonoid M] (l : List M) (n : Nat) (h : l.length = n) : ∑ i ∈ range n, l.getD i 0 = l.sum := by
  subst h
  induction l with
  | nil => simp
  | cons a l ih =>
    rw [List.length_cons, Finset.sum_range_succ', List.sum_cons, add_comm]
    congr 1

theorem sum_map_range {M : Type} [AddCommMonoid M] (n : Nat) (F : Nat → M) : ((List.range n).map F).sum = ∑ i ∈ range n, F i := by
  induction n with
  | zero => simp
  | succ n ih => rw [List.range_succ, List.map_append, List.sum_append, ih, Finset.sum_range_succ]; simp

theorem coeffs_getD (n : Nat) (f : Fr[X]) (i : Nat) (hi : i < n) : (Spec.coeffs n f).getD i 0 = f.coeff i := by
  unfold Spec.coeffs
  rw [List.getD_eq_getElem _ _ (by simpa using hi)]
  simp

theorem length_coeffs (n : Nat) (f : Fr[X]) : (Spec.coeffs n f).length = n := by simp [Spec.coeffs]

theorem scals_zero (f : List Fr) (q s : Nat) (hs : 1 ≤ s) (hf : ∀ i, 2 ^ q ≤ i → f.getD i 0 = 0) :
    hScals f q s 0 = (List.range (2 ^ q)).map (fun j => f.getD (2 ^ q - 1 - j) 0) := by
  have h2s : 2 ≤ 2 ^ s := by
    calc 2 = 2 ^ 1 := rfl
      _ ≤ 2 ^ s := Nat.pow_le_pow_right (by norm_num) hs
  have hqs : 2 ^ (q + s) = 2 ^ q * 2 ^ s := pow_add 2 q s
  unfold hScals fftScals
  rw [List.map_map]
  apply List.map_congr_left
  intro j hj
  have hj := List.mem_range.1 hj
  simp only [Function.comp_apply, Spec.dft, Nat.mul_zero, pow_zero, one_smul]
  rw [list_getD_sum _ _ (by rw [length_circulant _ (2 ^ s) (by simp) (by simp)]; ring)]
  unfold circulantFromToeplitz
  rw [List.sum_append, List.sum_reverse, List.sum_append, add_comm (List.sum (List.drop _ _)), ← List.sum_append,
    List.take_append_drop]
  have h1 : ((List.range (2 ^ s)).map (fun t => if t = 0 then f.getD (2 ^ (q + s) - 1 - j) 0 else 0)).sum = 0 := by
    apply List.sum_eq_zero
    intro x hx
    obtain ⟨t, -, rfl⟩ := List.mem_map.1 hx
    split_ifs with h
    · refine hf _ ?_
      have : 2 ^ q * 2 ≤ 2 ^ q * 2 ^ s := Nat.mul_le_mul_left _ h2s
      omega
    · rfl
  have h2 : ((List.range (2 ^ s)).map (fun t => f.getD (2 ^ (q + s) - 1 - (j + t * 2 ^ q)) 0)).sum = f.getD (2 ^ q - 1 - j) 0 := by
    obtain ⟨m, hm⟩ : ∃ m, 2 ^ s = m + 1 := ⟨2 ^ s - 1, by omega⟩
    rw [sum_map_range, hm, Finset.sum_range_succ, Finset.sum_eq_zero, zero_add]
    · congr 1
      rw [hqs, hm, mul_add, mul_one, mul_comm m]
      omega
    · intro t ht
      have ht := Finset.mem_range.1 ht
      refine hf _ ?_
      rw [hqs, hm]
      have : (t + 1) * 2 ^ q ≤ m * 2 ^ q := Nat.mul_le_mul_right _ ht
      rw [add_mul, one_mul] at this
      rw [mul_add, mul_one, mul_comm (2 ^ q) m]
      omega
  rw [h1, h2, zero_add]

theorem clash_scals : hScals (Spec.coeffs 4096 clashPoly) 6 6 0 = List.replicate 63 1 ++ [249] := by
  rw [scals_zero _ 6 6 (by norm_num)]
  · have : ∀ j ∈ List.range (2 ^ 6), (Spec.coeffs 4096 clashPoly).getD (2 ^ 6 - 1 - j) 0 = if j = 63 then 249 else 1 := by
      intro j hj
      have hj := List.mem_range.1 hj
      rw [coeffs_getD 4096 _ _ (by omega), clashPoly_coeff]
      by_cases h : j = 63
      · rw [if_pos h, if_pos (by omega)]
      · rw [if_neg h, if_neg (by omega), if_pos (by omega)]
    rw [List.map_congr_left this]
    decide +kernel
  · intro i hi
    by_cases h : i < 4096
    · rw [coeffs_getD 4096 _ _ h, clashPoly_coeff, if_neg (by omega), if_neg (by omega)]
    · rw [List.getD_eq_default]
      rw [length_coeffs]
      omega

theorem clash_terms : windowTerms 8 0 (List.replicate 63 1 ++ [249]) = (List.range 63).map (fun k => (63 - k, 1)) ++ [(0, -7)] := by
  decide +kernel

section
variable {ε K G : Type} [Field K] [DecidableEq K] [AddCommGroup G] [Module Fr G] [DecidableEq G] [Curve K G]

theorem sevens (B : G) : Spec.Clash Spec.bigMulti ((List.range (255 / 8 + 1)).map (fun i =>
    windowPts 8 i ((List.range 64).map (fun k => (7 : Fr) ^ (63 - k) • B)) (List.replicate 63 1 ++ [249]))) := by
  have h0 : windowPts 8 0 ((List.range 64).map (fun k => (7 : Fr) ^ (63 - k) • B)) (List.replicate 63 1 ++ [249]) =
      (List.range 63).map (fun k => ((1 : Fr) * 7 ^ (63 - k)) • B) ++ [(-7 : Fr) • B] := by
    rw [windowPts_eq_terms, clash_terms, List.map_append, List.map_map, List.map_singleton]
    simp only [Function.comp_def, pow_zero, mul_one]
  have hr : List.range (255 / 8 + 1) = 0 :: (List.range (255 / 8)).map Nat.succ := List.range_succ_eq_map
  refine .here _ ?_ _ (List.mem_map.2 ⟨0, by simp, h0⟩) ((7 : Fr) • B, (-7 : Fr) • B) ?_ ?_
  · unfold Spec.bigMulti
    rw [hr, List.map_cons, List.map_cons, List.sum_cons, h0]
    simp only [List.length_append, List.length_map, List.length_range, List.length_singleton]
    omega
  · apply List.mem_of_getElem? (i := 31)
    rw [pairs_getElem? _ 31 (by simp)]
    congr 2
    · rw [List.getElem_append_left (by simp)]
      simp
  · rw [← add_smul]
    simp

theorem clash_panics [LawfulCurve K G] (g : List G) (hl : g.length = 4096) (P : G) (hg : ∀ i < 4096, g[i]? = some ((7 : Fr) ^ i • P))
    (hn : Spec.NoIdentity g) (M : Nat → FixedBaseMSM K G)
    (hM : ∀ j < 2 ^ 7, (FixedBaseMSM.new (fftGens (srsVectors g (2 ^ 6)) 7 j) (.yes 8) : Outcome ε (FixedBaseMSM K G)) = .ok (M j)) :
    ((proverOf g 6 6 13 M).computeMultiOpeningProofsPolyCoeff (Spec.coeffs 4096 clashPoly) : Outcome ε _) = .panic := by
  have hgens : fftGens (srsVectors g (2 ^ 6)) 7 0 = (List.range 64).map (fun k => (7 : Fr) ^ (63 - k) • Spec.basePoint g 63 0) := by
    rw [fftGens_eq g hl]
    apply List.map_congr_left
    intro k hk
    exact basePoint_tau g 7 P hg k 0 (List.mem_range.1 hk)
  have h0 : ((M 0).msm (hScals (Spec.coeffs 4096 clashPoly) 6 6 0) : Outcome ε G) = .panic := by
    have hnew := hM 0 (by norm_num)
    simp only [FixedBaseMSM.new, precompWindowNew_eq 8 (by norm_num), Outcome.ok_bind, Outcome.pure_eq, Outcome.ok.injEq] at hnew
    rw [← hnew]
    simp only [FixedBaseMSM.msm]
    refine (precompWindowMsm_eq (ε := ε) (K := K) 8 (by norm_num) (by norm_num) _ _ (by rw [length_hScals, fftGens_eq g hl]; simp) ?_).1 ?_
    · rw [fftGens_eq g hl]
      intro Q hQ
      obtain ⟨k, hk, rfl⟩ := List.mem_map.1 hQ
      exact hn k (List.mem_range.1 hk) 0 (by norm_num)
    · rw [clash_scals, hgens]
      exact sevens _
  unfold FK20Prover.computeMultiOpeningProofsPolyCoeff
  have : ((computeHPolyCommitments (toeplitzOf 6 6 M) (Spec.coeffs 4096 clashPoly) (2 ^ 6)) : Outcome ε (List G)) = .panic := by
    exact computeHPoly_panic _ 6 6 (by norm_num) (by simp [length_coeffs]) M h0
  have hb : (proverOf g 6 6 13 M).batchToeplitz = toeplitzOf 6 6 M := rfl
  have hc : (proverOf g 6 6 13 M).cosetSize = 2 ^ 6 := rfl
  rw [hb, hc, this]
  rfl

end
end Verif
