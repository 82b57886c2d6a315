import Verif.Props.ErasureCode

/-! C21, continued: words of the wrong length -/
namespace Verif
open Polynomial

/-- multiplying a word with `n` values and padding to `n` only sees the first `n` symbols, and zeros for those that are missing -/
theorem word_resize (z data : List Fr) (n : Nat) (hz : z.length = n) :
    resize ((z.zip data).map (fun q => q.1 * q.2)) n 0 =
      resize ((z.zip (data.take n ++ List.replicate (n - data.length) 0)).map (fun q => q.1 * q.2)) n 0 := by
  have h1 := rep_resize ((z.zip data).map (fun q => q.1 * q.2)) n 0
  have h2 := rep_resize ((z.zip (data.take n ++ List.replicate (n - data.length) 0)).map (fun q => q.1 * q.2)) n 0
  rw [h1.eq_map, h2.eq_map]
  refine List.map_congr_left (fun i hi => ?_)
  have hi : i < n := List.mem_range.1 hi
  have hgo : ∀ (w : List Fr), ((z.zip w).map (fun q => q.1 * q.2)).getD i 0 = z[i]'(by omega) * w.getD i 0 := by
    intro w
    by_cases hw : i < w.length
    · rw [List.getD_eq_getElem _ _ (by simp; omega), List.getD_eq_getElem _ _ hw]
      simp
    · rw [List.getD_eq_default _ _ (by simp; omega), List.getD_eq_default _ _ (by omega), mul_zero]
  rw [hgo, hgo]
  congr 1
  exact ((rep_resize data n 0).getD 0 hi).symm

/-- C21: the decoder never looks at the length of the word. Symbols beyond the length of a codeword are ignored, and missing ones
are taken to be zero (not erased). With this the other theorems are about words of every length. -/
theorem C21_word_length (a b c : Nat) (hc : c ≤ 32) (hab : a + b ≤ 32) (data : List Fr) (er : List Nat) :
    ∃ rs, (ReedSolomon.new (2 ^ a) (2 ^ b) (2 ^ c) : Outcome RSError ReedSolomon) = .ok rs ∧
      rs.recoverPolynomialCoefficient data er =
        rs.recoverPolynomialCoefficient (data.take (2 ^ (a + b)) ++ List.replicate (2 ^ (a + b) - data.length) 0) er ∧
      rs.recoverPolynomialCoefficientRandomErasure data er =
        rs.recoverPolynomialCoefficientRandomErasure (data.take (2 ^ (a + b)) ++ List.replicate (2 ^ (a + b) - data.length) 0) er := by
  have key : ∀ z : List Fr, (rsOf a b c).recoverFromVanishing data z =
      (rsOf a b c).recoverFromVanishing (data.take (2 ^ (a + b)) ++ List.replicate (2 ^ (a + b) - data.length) 0) z := by
    intro z
    unfold ReedSolomon.recoverFromVanishing
    have hdom : (rsOf a b c).evaluationDomain = domainOf (a + b) := rfl
    rw [hdom]
    obtain ⟨B, hB, hR⟩ := fftScalars_spec (ε := RSError) (a + b) hab z
    rw [hB]
    simp only [Outcome.ok_bind]
    have hi : ∀ w : List Fr, ((domainOf (a + b)).ifftScalars w : Outcome RSError _) = (do
        let x ← fftInplace (domainOf (a + b)).twiddleFactorsInv (resize w (2 ^ (a + b)) 0)
        pure (x.map (· * (domainOf (a + b)).domainSizeInv))) := by
      intro w
      have hsz : (domainOf (a + b)).size = 2 ^ (a + b) := by simp [domainOf, Domain.size]
      unfold Domain.ifftScalars
      rw [hsz]
    rw [hi, hi, word_resize B data (2 ^ (a + b)) hR.1]
  refine ⟨rsOf a b c, rs_new a b c hab hc, ?_, ?_⟩
  · unfold ReedSolomon.recoverPolynomialCoefficient
    simp only [key]
  · unfold ReedSolomon.recoverPolynomialCoefficientRandomErasure
    simp only [key]

/-- C21: so the empty word, with nothing marked as erased, decodes to the zero message instead of an error. -/
theorem C21_empty_word (a b c : Nat) (hc : c ≤ a + b) (hab : a + b ≤ 32) :
    ∃ rs, (ReedSolomon.new (2 ^ a) (2 ^ b) (2 ^ c) : Outcome RSError ReedSolomon) = .ok rs ∧
      rs.recoverPolynomialCoefficient [] [] = .ok (List.replicate (2 ^ a) 0) := by
  obtain ⟨rs, h1, h2, -⟩ := C21_word_length a b c (by omega) hab [] []
  obtain ⟨rs', cw, m, h1', henc, hm, hdec⟩ := C21_decodes a b c hc hab [] (by simp) (List.replicate (2 ^ (a + b)) 0) (by simp) []
    (by simp)
  obtain rfl : rs' = rs := by rw [h1] at h1'; exact (Outcome.ok.inj h1').symm
  refine ⟨rs', h1, ?_⟩
  have hcw : cw = List.replicate (2 ^ (a + b)) 0 := by
    obtain rfl : rs' = rsOf a b c := by
      rw [rs_new a b c hab (by omega)] at h1; exact (Outcome.ok.inj h1).symm
    unfold ReedSolomon.encode rsOf at henc
    simp only at henc
    rw [if_neg (by simp), fftScalars_eval (a + b) hab [] (by simp)] at henc
    have := (Outcome.ok.inj henc).symm
    rw [this]
    refine List.ext_getElem (by simp) (fun i _ _ => ?_)
    simp [Spec.polyOf]
  have := hdec (by simp) (by
    intro p hp _
    rw [hcw])
  rw [h2]
  simpa using this

/-- one symbol too many is ignored; the last symbol may be missing where it is zero -/
example : ∃ rs, (ReedSolomon.new (2 ^ 0) (2 ^ 1) (2 ^ 1) : Outcome RSError ReedSolomon) = .ok rs ∧
    rs.recoverPolynomialCoefficient [5, 5, 8] [] = rs.recoverPolynomialCoefficient [5, 5] [] ∧
    rs.recoverPolynomialCoefficient [5] [] = rs.recoverPolynomialCoefficient [5, 0] [] := by
  obtain ⟨rs, h, h1, -⟩ := C21_word_length 0 1 1 (by norm_num) (by norm_num) [5, 5, 8] []
  obtain ⟨rs', h', h2, -⟩ := C21_word_length 0 1 1 (by norm_num) (by norm_num) [5] []
  obtain rfl : rs' = rs := by rw [h] at h'; exact (Outcome.ok.inj h').symm
  exact ⟨rs', h, by simpa using h1, by simpa using h2⟩

end Verif
