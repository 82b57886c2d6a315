import Verif.Lemmas.ConsensusPoly
import Verif.Lemmas.Domain

/-! The Fourier transforms of the consensus specification. -/
namespace Verif.Consensus
open Polynomial Finset Spec

theorem getElem?_evens {α : Type} (l : List α) (i : Nat) : (evens l)[i]? = l[2 * i]? := by
  induction l using evens.induct generalizing i with
  | case1 => simp [evens]
  | case2 a => cases i <;> simp [evens]
  | case3 a b l ih =>
    cases i with
    | zero => simp [evens]
    | succ i => rw [evens, List.getElem?_cons_succ, ih, Nat.mul_succ]; rfl

theorem getElem?_odds {α : Type} (l : List α) (i : Nat) : (odds l)[i]? = l[2 * i + 1]? := by
  induction l using evens.induct generalizing i with
  | case1 => simp [odds]
  | case2 a => simp [odds]
  | case3 a b l ih =>
    cases i with
    | zero => simp [odds]
    | succ i => rw [odds, List.getElem?_cons_succ, ih, Nat.mul_succ]; rfl

theorem length_evens {α : Type} {l : List α} {m : Nat} (h : l.length = 2 * m) : (evens l).length = m := by
  induction l using evens.induct generalizing m with
  | case1 => simp at h; simp [evens]; omega
  | case2 a => simp at h; omega
  | case3 a b l ih =>
    simp only [List.length_cons] at h
    rw [evens, List.length_cons, ih (m := m - 1) (by omega)]; omega

theorem length_odds {α : Type} {l : List α} {m : Nat} (h : l.length = 2 * m) : (odds l).length = m := by
  induction l using evens.induct generalizing m with
  | case1 => simp at h; simp [odds]; omega
  | case2 a => simp at h; omega
  | case3 a b l ih =>
    simp only [List.length_cons] at h
    rw [odds, List.length_cons, ih (m := m - 1) (by omega)]; omega

theorem eval_even_odd (l : List Fr) (x : Fr) :
    (polyOf l).eval x = (polyOf (evens l)).eval (x ^ 2) + x * (polyOf (odds l)).eval (x ^ 2) := by
  induction l using evens.induct with
  | case1 => simp [evens, odds]
  | case2 a => simp [evens, odds, polyOf]
  | case3 a b l ih =>
    simp only [evens, odds, polyOf, eval_add, eval_C, eval_mul, eval_X, ih]
    ring

theorem fftRec_spec (k depth : Nat) (hd : k ≤ depth) (w : Fr) (hw : k = 0 ∨ w ^ (2 ^ (k - 1)) = -1) (vals : List Fr)
    (hl : vals.length = 2 ^ k) :
    fftFieldRec depth vals ((List.range (2 ^ k)).map (fun i => w ^ i)) =
      (List.range (2 ^ k)).map (fun j => (polyOf vals).eval (w ^ j)) := by
  induction k generalizing depth w vals with
  | zero =>
    have : ∃ a, vals = [a] := List.length_eq_one_iff.1 (by simpa using hl)
    obtain ⟨a, rfl⟩ := this
    cases depth <;> simp [fftFieldRec, polyOf]
  | succ k ih =>
    obtain ⟨depth, rfl⟩ : ∃ d, depth = d + 1 := ⟨depth - 1, by omega⟩
    have hneg : w ^ 2 ^ k = -1 := by
      rcases hw with h | h
      · omega
      · simpa using h
    have hw2 : k = 0 ∨ (w ^ 2) ^ (2 ^ (k - 1)) = -1 := by
      rcases Nat.eq_zero_or_pos k with h | h
      · exact Or.inl h
      · right
        rw [← pow_mul, ← pow_succ', Nat.sub_add_cancel h, hneg]
    have h2 : 2 ^ (k + 1) = 2 * 2 ^ k := by ring
    have hroots : evens ((List.range (2 ^ (k + 1))).map (fun i => w ^ i)) =
        (List.range (2 ^ k)).map (fun i => (w ^ 2) ^ i) := by
      apply List.ext_getElem?
      intro i
      rw [getElem?_evens]
      by_cases hi : i < 2 ^ k
      · rw [List.getElem?_map, List.getElem?_map, List.getElem?_range (by omega), List.getElem?_range hi]
        simp [pow_mul]
      · rw [List.getElem?_eq_none (by simp; omega), List.getElem?_eq_none (by simp; omega)]
    have hne : vals.length ≠ 1 := by
      rw [hl, h2]
      have : 0 < 2 ^ k := by positivity
      omega
    rw [fftFieldRec, if_neg hne, hroots, ih depth (by omega) (w ^ 2) hw2 (evens vals) (length_evens (by rw [hl, h2])),
      ih depth (by omega) (w ^ 2) hw2 (odds vals) (length_odds (by rw [hl, h2]))]
    simp only [List.length_map, List.length_range]
    rw [show (List.range (2 ^ (k + 1))).map (fun j => (polyOf vals).eval (w ^ j)) =
      (List.range (2 ^ k)).map (fun j => (polyOf vals).eval (w ^ j)) ++
        (List.range (2 ^ k)).map (fun j => (polyOf vals).eval (w ^ (2 ^ k + j))) by
      rw [h2, two_mul, List.range_add, List.map_append, List.map_map]; rfl]
    have e : ∀ j, (w ^ 2) ^ j = (w ^ j) ^ 2 := fun j => by rw [← pow_mul, ← pow_mul, mul_comm]
    congr 1
    · apply List.map_congr_left
      intro j hj
      have hj := List.mem_range.1 hj
      rw [(rep_map_range _ _).getD 0 hj, (rep_map_range _ _).getD 0 hj, (rep_map_range _ _).getD 0 (by omega),
        eval_even_odd vals, e]
      ring
    · apply List.map_congr_left
      intro j hj
      have hj := List.mem_range.1 hj
      rw [(rep_map_range _ _).getD 0 hj, (rep_map_range _ _).getD 0 hj, (rep_map_range _ _).getD 0 (by omega),
        eval_even_odd vals, e, pow_add, hneg]
      have : (-1 * w ^ j) ^ 2 = (w ^ j) ^ 2 := by ring
      rw [this]
      ring

theorem half_root {w : Fr} {k : Nat} (h : IsPrimitiveRoot w (2 ^ k)) : k = 0 ∨ w ^ (2 ^ (k - 1)) = -1 := by
  rcases Nat.eq_zero_or_pos k with h0 | h0
  · exact Or.inl h0
  · right
    have hpow : (w ^ 2 ^ (k - 1)) ^ 2 = 1 := by
      rw [← pow_mul, ← pow_succ, Nat.sub_add_cancel h0, h.pow_eq_one]
    rcases mul_self_eq_one_iff.1 (by rw [← pow_two]; exact hpow : w ^ 2 ^ (k - 1) * w ^ 2 ^ (k - 1) = 1) with h1 | h1
    · exfalso
      have := h.dvd_of_pow_eq_one _ h1
      have h3 := Nat.le_of_dvd (by positivity) this
      have h4 : 2 ^ (k - 1) < 2 ^ k := Nat.pow_lt_pow_right (by norm_num) (by omega)
      omega
    · exact h1

theorem roots_eq (k : Nat) : computeRootsOfUnity (2 ^ k) = (List.range (2 ^ k)).map (fun i => omega k ^ i) := rfl

theorem fftField_eq (k : Nat) (hk : k ≤ 32) (vals : List Fr) (hl : vals.length = 2 ^ k) :
    fftField vals (computeRootsOfUnity (2 ^ k)) =
      (List.range (2 ^ k)).map (fun j => (polyOf vals).eval (omega k ^ j)) := by
  unfold fftField
  rw [roots_eq]
  exact fftRec_spec k _ (by rw [hl]; exact Nat.lt_two_pow_self.le) _ (half_root (omega_primitive k hk)) vals hl

theorem roots_inv (w : Fr) (n : Nat) (hn : 0 < n) (hw : w ^ n = 1) :
    ((List.range n).map (fun i => w ^ i)).take 1 ++ (((List.range n).map (fun i => w ^ i)).drop 1).reverse =
      (List.range n).map (fun i => w⁻¹ ^ i) := by
  have hw0 : w ≠ 0 := by
    intro h; rw [h, zero_pow (by omega)] at hw; exact zero_ne_one hw
  apply List.ext_getElem?
  intro i
  by_cases hi : i < n
  · rw [List.getElem?_map, List.getElem?_range hi]
    rcases Nat.eq_zero_or_pos i with h | h
    · subst h
      rw [List.getElem?_append_left (by simp; omega), List.getElem?_take, if_pos (by omega), List.getElem?_map,
        List.getElem?_range hi]
      simp
    · rw [List.getElem?_append_right (by simp; omega), List.getElem?_reverse (by simp; omega)]
      simp only [List.length_take, List.length_map, List.length_range, List.length_drop]
      rw [List.getElem?_drop, List.getElem?_map, List.getElem?_range (by omega)]
      simp only [Option.map_some, Option.some.injEq]
      rw [show 1 + (n - 1 - 1 - (i - min 1 n)) = n - i by omega, inv_pow]
      apply eq_inv_of_mul_eq_one_left
      rw [← pow_add, Nat.sub_add_cancel hi.le, hw]
  · rw [List.getElem?_eq_none (by simp; omega), List.getElem?_eq_none (by simp; omega)]

theorem ifftField_eq (k : Nat) (hk : k ≤ 32) (vals : List Fr) (hl : vals.length = 2 ^ k) (f : Fr[X])
    (hf : f.degree < (2 ^ k : Nat)) (he : ∀ j, j < 2 ^ k → f.eval (omega k ^ j) = vals.getD j 0) :
    ifftField vals (computeRootsOfUnity (2 ^ k)) = Spec.coeffs (2 ^ k) f := by
  have hp := omega_primitive k hk
  unfold ifftField
  rw [roots_eq, roots_inv _ _ (by positivity) hp.pow_eq_one,
    fftRec_spec k _ (by rw [hl]; exact Nat.lt_two_pow_self.le) _ (half_root hp.inv) vals hl, List.map_map, hl]
  unfold Spec.coeffs
  apply List.map_congr_left
  intro j hj
  have hj := List.mem_range.1 hj
  have h2 := idft_dft hp (two_pow_ne_zero k) (fun i => (Spec.coeffs (2 ^ k) f).getD i 0) hj
  rw [dft_congr _ _ (y := fun i => vals.getD i 0) (by
    intro i hi
    rw [dft_eq_eval _ _ _ (by simp [Spec.coeffs]), polyOf_coeffs hf, he i hi]), dft_eq_eval _ _ _ (by rw [hl])] at h2
  simp only [Function.comp]
  rw [mul_comm]
  have h3 : (Spec.coeffs (2 ^ k) f).getD j 0 = f.coeff j := (rep_map_range _ _).getD 0 hj
  rw [← h3]
  exact h2

theorem length_shiftVals (l : List Fr) (g : Fr) : (shiftVals l g).length = l.length := by simp [shiftVals]

theorem polyOf_shiftVals (l : List Fr) (g x : Fr) : (polyOf (shiftVals l g)).eval x = (polyOf l).eval (g * x) := by
  rw [eval_polyOf, eval_polyOf, length_shiftVals]
  apply sum_congr rfl
  intro i hi
  unfold shiftVals
  rw [(rep_map_range _ _).getD 0 (mem_range.1 hi), mul_pow]
  ring

theorem cosetFftField_eq (k : Nat) (hk : k ≤ 32) (vals : List Fr) (hl : vals.length = 2 ^ k) :
    cosetFftField vals (computeRootsOfUnity (2 ^ k)) =
      (List.range (2 ^ k)).map (fun j => (polyOf vals).eval (7 * omega k ^ j)) := by
  unfold cosetFftField
  rw [fftField_eq k hk _ (by rw [length_shiftVals, hl])]
  simp only [polyOf_shiftVals]

theorem seven_ne_zero : (7 : Fr) ≠ 0 := by
  have h : ((7 : Nat) : Fr) ≠ 0 := by
    intro h
    rw [ZMod.natCast_eq_zero_iff] at h
    have := Nat.le_of_dvd (by norm_num) h
    have := frOrder_gt
    omega
  exact_mod_cast h

theorem cosetIfftField_eq (k : Nat) (hk : k ≤ 32) (vals : List Fr) (hl : vals.length = 2 ^ k) (f : Fr[X])
    (hf : f.degree < (2 ^ k : Nat)) (he : ∀ j, j < 2 ^ k → f.eval (7 * omega k ^ j) = vals.getD j 0) :
    cosetIfftField vals (computeRootsOfUnity (2 ^ k)) = Spec.coeffs (2 ^ k) f := by
  unfold cosetIfftField
  have hc : ∀ i, (f.comp (C 7 * X)).coeff i = f.coeff i * 7 ^ i := fun i => by
    rw [comp_C_mul_X_coeff]
  rw [ifftField_eq k hk vals hl (f.comp (C 7 * X)) (by
    rw [degree_lt_iff_coeff_zero] at hf ⊢
    intro m hm
    rw [hc, hf m hm, zero_mul]) (by
    intro j hj
    rw [eval_comp, ← he j hj]; simp)]
  unfold shiftVals
  have hlc : (Spec.coeffs (2 ^ k) (f.comp (C 7 * X))).length = 2 ^ k := by simp [Spec.coeffs]
  rw [hlc]
  unfold Spec.coeffs
  apply List.map_congr_left
  intro j hj
  have hj := List.mem_range.1 hj
  rw [(rep_map_range _ _).getD 0 hj, hc, mul_assoc, ← mul_pow, mul_inv_cancel₀ seven_ne_zero, one_pow, mul_one]

theorem brp_eq {α : Type} [Zero α] (k : Nat) (l : List α) (hl : l.length = 2 ^ k) :
    bitReversalPermutation l = (List.range (2 ^ k)).map (fun i => l.getD (brev k i) 0) := by
  unfold bitReversalPermutation reverseBits
  rw [hl, Nat.log2_two_pow]

end Verif.Consensus
