import Verif.Props.CommitKey
import Verif.Lemmas.Naive
import Verif.Lemmas.Parallel
import Verif.Lemmas.RecoveryApi
import Verif.Props.Toy
import Verif.Props.AnySize

/-!
C100: the FK20 prover (fk20/prover.rs:170-207, h_poly.rs:17-58) takes polynomials with any power of two of coefficients, but its
proofs are right only for lists as long as the polynomial bound.
-/
namespace Verif
open Polynomial Finset

set_option linter.unusedSectionVars false

section
variable {ε K G : Type} [Field K] [DecidableEq K] [AddCommGroup G] [Module Fr G] [DecidableEq G] [Curve K G]

/-- the circulant columns of `X^(2^q - 1)` given with `2^q` coefficients -/
theorem oneAt_circulant_zero (q i u : Nat) (hi : i < 2 ^ q) :
    (circulantFromToeplitz ((hMats (oneAt q 0) q 0).getD i ⟨[], []⟩)).getD u 0 = if i = 0 ∧ u < 2 then 1 else 0 := by
  have hq := Nat.two_pow_pos q
  unfold hMats
  rw [(rep_map_range (2 ^ q) _).getD _ hi]
  unfold circulantFromToeplitz
  simp only [oneAt_getD, add_zero, pow_zero, List.range_one, List.map_cons, List.map_nil, zero_mul, if_true, List.drop_succ_cons,
    List.drop_zero, List.take_succ_cons, List.take_zero, List.nil_append, List.reverse_cons, List.reverse_nil, List.cons_append]
  have hz : (2 ^ q - 1 - i = 2 ^ q - 1) ↔ i = 0 := by omega
  by_cases h : i = 0
  · rw [if_pos (hz.2 h)]
    rcases u with _ | _ | u
    · simp [h]
    · simp [h]
    · simp
  · rw [if_neg (fun h' => h (hz.1 h')), if_neg (fun h' => h h'.1)]
    rcases u with _ | _ | u <;> simp

/-- the first shift commitment computed for `X^(2^q - 1)` given with `2^q` coefficients -/
theorem oneAt_hPoly_zero (g : List G) (b q e k : Nat) (hk : k + 1 ≤ 32) (hl : ∀ v ∈ srsVectors g (2 ^ q), v.length = 2 ^ k) :
    ∃ h, (computeHPolyCommitments (proverAny g b q e k : FK20Prover K G).batchToeplitz (oneAt q 0) (2 ^ q) : Outcome ε (List G)) =
        .ok h ∧ h.length = 2 ^ k ∧ h.getD 0 0 = ((srsVectors g (2 ^ q)).getD 0 []).getD 0 0 := by
  have hq := Nat.two_pow_pos q
  have h2k := Nat.two_pow_pos k
  have hN : 2 ^ (k + 1) = 2 * 2 ^ k := by rw [pow_succ]; ring
  refine ⟨_, computeHPoly_any g (oneAt q 0) b q 0 e k hk (by simp [oneAt]), by simp, ?_⟩
  rw [(rep_map_range (2 ^ k) _).getD 0 h2k, Finset.sum_eq_single 0]
  · rw [Finset.sum_eq_single 0]
    · rw [oneAt_circulant_zero q 0 _ hq, if_pos, one_smul]
      refine ⟨rfl, ?_⟩
      simp
    · intro t ht h0
      have ht := Finset.mem_range.1 ht
      rw [oneAt_circulant_zero q 0 _ hq, zero_add, Nat.mod_eq_of_lt (by omega)]
      by_cases h1 : t = 2 ^ (k + 1) - 1
      · have : ((srsVectors g (2 ^ q)).getD 0 []).getD t 0 = 0 := by
          apply List.getD_eq_default
          rw [hl _ (by
            rw [List.getD_eq_getElem _ _ (by rw [length_srsVectors]; exact hq)]
            exact List.getElem_mem _)]
          omega
        rw [this, smul_zero]
      · rw [if_neg (by omega), zero_smul]
    · intro h
      exact absurd (Finset.mem_range.2 (Nat.two_pow_pos _)) h
  · intro i hi h0
    apply Finset.sum_eq_zero
    intro t _
    rw [oneAt_circulant_zero q i _ (Finset.mem_range.1 hi), if_neg (fun h => h0 h.1), zero_smul]
  · intro h
    exact absurd (Finset.mem_range.2 hq) h

/-- a shift commitment that is not zero shows in the proofs -/
theorem proofs_nonzero (d : Nat) (hd : d ≤ 32) (hd' : d < 32) (h : List G) (a : Nat) (ha : a < 2 ^ d) (hne : h.getD a 0 ≠ 0) :
    ∃ proofs, (((domainOf d).fftG1 h : Outcome ε (List G)) >>= reverseBitOrder) = .ok proofs ∧ proofs.length = 2 ^ d ∧
      ∃ P ∈ proofs, P ≠ 0 := by
  rw [fftG1_spec d hd, Outcome.ok_bind, reverseBitOrder_eq d hd' (rep_map_range _ _)]
  refine ⟨_, rfl, by simp, ?_⟩
  by_contra hall
  push Not at hall
  apply hne
  have hz : ∀ j < 2 ^ d, Spec.dft (Spec.omega d) (2 ^ d) (fun i => h.getD i 0) j = 0 := by
    intro j hj
    have := hall _ (List.mem_map.2 ⟨Spec.brev d j, List.mem_range.2 (Spec.brev_lt _ _), rfl⟩)
    rwa [Spec.brev_brev _ _ hj] at this
  have := idft_dft (omega_primitive d hd) (two_pow_ne_zero d) (fun i => h.getD i 0) ha
  rw [dft_congr _ _ hz] at this
  rw [← this]
  simp [Spec.dft]

/-- C100: every prover the constructor gives is wrong on some short list of coefficients. For every number of
coefficients `2^(q+t)` from the size of a coset up to half of the polynomial bound, the polynomial `X^(2^q-1)` given with that many
coefficients is evaluated rightly, and at least one of the proofs is wrong. -/
theorem C100_short_wrong (g : List G) (hnz : ∀ x ∈ g, x ≠ 0) (q s t e : Nat) (hts : t < s) (hse : q + s ≤ e) (he : e < 32)
    (p : FK20Prover K G)
    (hp : (FK20Prover.new g (2 ^ (q + s)) (2 ^ q) (2 ^ e) .no : Outcome ε (FK20Prover K G)) = .ok p) :
    ∃ f : List Fr, f.length = 2 ^ (q + t) ∧ Spec.polyOf f = X ^ (2 ^ q - 1) ∧
    ∃ proofs, (p.computeMultiOpeningProofs (.polyCoeff f) : Outcome ε _) =
      .ok (proofs, (List.range (2 ^ (e - q))).map (fun k => (List.range (2 ^ q)).map (fun j =>
        (Spec.polyOf f).eval (Spec.point e (2 ^ q * k + j))))) ∧ proofs.length = 2 ^ (e - q) ∧
      ∃ k < 2 ^ (e - q), ∃ P, proofs[k]? = some P ∧ P ≠ Spec.openingProof g e q (Spec.polyOf f) k := by
  obtain ⟨k, hk, -, -, hqg, hbg, -, hl, rfl⟩ := prover_new_any g (q + s) q e p hp
  have hq := Nat.two_pow_pos q
  have hnz' : ∀ i < g.length, g.getD i 0 ≠ 0 := by
    intro i hi
    rw [List.getD_eq_getElem _ _ hi]
    exact hnz _ (List.getElem_mem _)
  have hlt : 2 ^ (q + t) < 2 ^ (q + s) := Nat.pow_lt_pow_right (by norm_num) (by omega)
  have hH : ∃ h, (computeHPolyCommitments (proverAny g (q + s) q e k : FK20Prover K G).batchToeplitz (oneAt q t) (2 ^ q) :
      Outcome ε (List G)) = .ok h ∧ ∃ a < 2 ^ (e - q), h.getD a 0 ≠ 0 := by
    rcases Nat.eq_zero_or_pos t with rfl | ht
    · obtain ⟨h, h1, -, h2⟩ := oneAt_hPoly_zero (ε := ε) (K := K) g (q + s) q e k hk hl
      refine ⟨h, h1, 0, Nat.two_pow_pos _, ?_⟩
      rw [h2, srsVectors_zero g (2 ^ q) hq hqg]
      have hlen : nextPow2 ((g.length - 1) / 2 ^ q) = 2 ^ k := by
        have := hl ((srsVectors g (2 ^ q)).getD 0 []) (by
          rw [List.getD_eq_getElem _ _ (by rw [length_srsVectors]; exact hq)]
          exact List.getElem_mem _)
        rwa [srsVectors_zero g (2 ^ q) hq hqg, length_resize] at this
      have h1q : 0 < (g.length - 1) / 2 ^ q := Nat.div_pos (by omega) hq
      rw [(rep_resize _ _ _).getD 0 (by rw [hlen]; exact Nat.two_pow_pos k), (rep_map_range _ _).getD 0 h1q]
      exact hnz' _ (by omega)
    · obtain ⟨hsk, a, ha, ha', hne⟩ := oneAt_nonzero g hnz' q t k ht (by omega) hl
      refine ⟨_, oneAt_hPoly g (q + s) q t e k ht hk hsk, a, ?_, ?_⟩
      · have h3 : 2 ^ (t + 1) ≤ 2 ^ (e - q) := Nat.pow_le_pow_right (by norm_num) (by omega)
        have h2s : 2 ≤ 2 ^ t := by
          calc 2 = 2 ^ 1 := rfl
            _ ≤ 2 ^ t := Nat.pow_le_pow_right (by norm_num) ht
        rw [pow_succ] at h3
        omega
      · rwa [(rep_map_range (2 ^ k) _).getD 0 ha]
  obtain ⟨h, h1, a, ha, hne⟩ := hH
  obtain ⟨proofs, hpr, hlen, P, hP, hPne⟩ := proofs_nonzero (ε := ε) (e - q) (by omega) (by omega) h a ha hne
  refine ⟨oneAt q t, by simp [oneAt], oneAt_polyOf q t, proofs, ?_, hlen, ?_⟩
  · have h2 := computeCosetEvaluations_eq (ε := ε) g (oneAt q t) q t e (by omega) he (by simp [oneAt])
      (fun _ => .noPrecomp [] : Nat → FixedBaseMSM K G)
    have h2' : ((proverAny g (q + s) q e k : FK20Prover K G).computeCosetEvaluations (oneAt q t) : Outcome ε _) =
        (proverOf g q t e (fun _ => .noPrecomp []) : FK20Prover K G).computeCosetEvaluations (oneAt q t) := rfl
    rw [← h2'] at h2
    unfold FK20Prover.computeMultiOpeningProofs FK20Prover.inputToPoly
    simp only [Outcome.pure_eq, Outcome.ok_bind]
    unfold FK20Prover.computeMultiOpeningProofsPolyCoeff
    have e1 : (proverAny g (q + s) q e k : FK20Prover K G).cosetSize = 2 ^ q := rfl
    have e2 : (proverAny g (q + s) q e k : FK20Prover K G).proofDomain = domainOf (e - q) := rfl
    rw [e1, e2, h1, Outcome.ok_bind, ← bind_assoc, hpr, Outcome.ok_bind, h2, Outcome.ok_bind, Outcome.pure_eq]
  · obtain ⟨i, hi, rfl⟩ := List.getElem_of_mem hP
    refine ⟨i, by omega, _, List.getElem?_eq_getElem hi, ?_⟩
    rw [openingProof_small g e q (by omega) (by omega)]
    · exact hPne
    · rw [oneAt_polyOf, degree_X_pow]
      exact_mod_cast (show 2 ^ q - 1 < 2 ^ q by omega)

/-- C100: the same polynomials with zeros for the missing coefficients get the right proofs, and the commitment is the same. -/
theorem C100_padded (g : List G) (q s e : Nat) (hse : q + s ≤ e) (he : e < 32) (hg : g.length = 2 ^ (q + s))
    (p : FK20Prover K G)
    (hp : (FK20Prover.new g (2 ^ (q + s)) (2 ^ q) (2 ^ e) .no : Outcome ε (FK20Prover K G)) = .ok p)
    (f : List Fr) (hf : f.length ≤ 2 ^ (q + s)) :
    (p.computeMultiOpeningProofs (.polyCoeff (f ++ List.replicate (2 ^ (q + s) - f.length) 0)) : Outcome ε _) =
      .ok ((List.range (2 ^ (e - q))).map (Spec.openingProof g e q (Spec.polyOf f)),
        (List.range (2 ^ (e - q))).map (fun k => (List.range (2 ^ q)).map (fun j =>
          (Spec.polyOf f).eval (Spec.point e (2 ^ q * k + j))))) ∧
    (p.commit (.polyCoeff f) : Outcome ε G) = .ok (Spec.commitment g (Spec.polyOf f)) ∧
    (p.commit (.polyCoeff (f ++ List.replicate (2 ^ (q + s) - f.length) 0)) : Outcome ε G) =
      .ok (Spec.commitment g (Spec.polyOf f)) := by
  have hpoly : Spec.polyOf (f ++ List.replicate (2 ^ (q + s) - f.length) 0) = Spec.polyOf f := by
    ext i
    rw [Spec.coeff_polyOf, Spec.coeff_polyOf]
    simp only [List.getD]
    by_cases h : i < f.length
    · rw [List.getElem?_append_left h]
    · rw [List.getElem?_append_right (by omega), List.getElem?_eq_none (show f.length ≤ i by omega), List.getElem?_replicate]
      split_ifs <;> rfl
  have hlen : (f ++ List.replicate (2 ^ (q + s) - f.length) 0).length = 2 ^ (q + s) := by simp; omega
  have hck : p.commitKey = g := by
    obtain ⟨k, -, -, -, -, -, -, -, rfl⟩ := prover_new_any g (q + s) q e p hp
    rfl
  refine ⟨?_, ?_, ?_⟩
  · unfold FK20Prover.computeMultiOpeningProofs FK20Prover.inputToPoly
    simp only [Outcome.pure_eq, Outcome.ok_bind]
    rw [C31_exact g q s e hse he hg p hp _ hlen, hpoly]
  · unfold FK20Prover.commit FK20Prover.inputToPoly
    simp only [Outcome.pure_eq, Outcome.ok_bind]
    rw [hck, commitG1_ok g f (by omega)]
  · unfold FK20Prover.commit FK20Prover.inputToPoly
    simp only [Outcome.pure_eq, Outcome.ok_bind]
    rw [hck, commitG1_ok g _ (by omega), hpoly]

/-- C100: numbers of coefficients that are not a power of two, or smaller than a coset, panic, whatever the prover is. -/
theorem C100_panics (p : FK20Prover K G) (f : List Fr) (h : (∀ t, f.length ≠ 2 ^ t) ∨ f.length < p.cosetSize) :
    (p.computeMultiOpeningProofs (.polyCoeff f) : Outcome ε _) = .panic := by
  have hH : (computeHPolyCommitments p.batchToeplitz f p.cosetSize : Outcome ε (List G)) = .panic := by
    unfold computeHPolyCommitments
    by_cases hc : isPow2 p.cosetSize = true
    · rw [assertP_true hc, Outcome.ok_bind]
      by_cases hf : isPow2 f.length = true
      · rw [assertP_true hf, Outcome.ok_bind]
        have hlt : f.length < p.cosetSize := by
          rcases h with h | h
          · obtain ⟨t, ht⟩ := (isPow2_iff _).1 hf
            exact absurd ht (h t)
          · exact h
        have : ((takeEveryNth f.reverse p.cosetSize).mapM hPolyMatrix : Outcome ε (List ToeplitzMatrix)) = .panic := by
          apply Pool.mapM_eq_panic
          · intro row
            exact NoErr.bind (NoErr.idx _ _) fun _ => NoErr.bind (NoErr.setIdx _ _ _) fun _ => NoErr.bind (NoErr.assertP _) fun _ => NoErr.pure _
          · refine ⟨[], ?_, ?_⟩
            · unfold takeEveryNth
              rw [List.mem_map]
              refine ⟨f.length, List.mem_range.2 hlt, ?_⟩
              rw [List.drop_eq_nil_of_le (by simp)]
              unfold stepByList
              apply List.eq_nil_iff_forall_not_mem.2
              intro x hx
              rw [List.mem_filterMap] at hx
              obtain ⟨t, -, ht⟩ := hx
              simp at ht
            · intro b hb
              cases hb
        simp only
        rw [this]
        rfl
      · rw [assertP_false hf]; rfl
    · rw [assertP_false hc]; rfl
  unfold FK20Prover.computeMultiOpeningProofs FK20Prover.inputToPoly
  simp only [Outcome.pure_eq, Outcome.ok_bind]
  unfold FK20Prover.computeMultiOpeningProofsPolyCoeff
  rw [hH]
  rfl
end

section
variable {ε K G1 G2 GT : Type} [Field K] [DecidableEq K] [AddCommGroup G1] [Module Fr G1] [DecidableEq G1] [Curve K G1]
  [PointCodec G1] [AddCommGroup G2] [Module Fr G2] [AddCommGroup GT] [DecidableEq GT] [Pairing G1 G2 GT]

/-- C100: the verifier of the same sizes and the same secret rejects such a proof, together with the right values and the commitment
that the prover returns. -/
theorem C100_rejected [LawfulPointCodec G1 48] [LawfulPairing G1 G2 GT] (g g1s : List G1) (g2s : List G2) (hnz : ∀ x ∈ g, x ≠ 0)
    (q s t e nc : Nat) (hts : t < s) (hse : q + s ≤ e) (he : e < 32) (τ : Fr) (hτ : τ ^ 2 ^ e ≠ 1) (P : G1) (H : G2)
    (hpg : Spec.IsPowers g τ P) (hp1 : Spec.IsPowers g1s τ P) (hp2 : Spec.IsPowers g2s τ H)
    (hnd : ∀ a : G1, pair a H = (0 : GT) → a = 0) (hg1 : 2 ^ q ≤ g1s.length) (p : FK20Prover K G1)
    (hp : (FK20Prover.new g (2 ^ (q + s)) (2 ^ q) (2 ^ e) .no : Outcome ε (FK20Prover K G1)) = .ok p) (v : FK20Verifier G1 G2)
    (hv : (verifierNew g1s g2s (2 ^ q) nc (2 ^ e) (2 ^ (e - q)) : Outcome ε (FK20Verifier G1 G2)) = .ok v) :
    ∃ f : List Fr, f.length = 2 ^ (q + t) ∧ ∃ c proofs values, (p.commit (.polyCoeff f) : Outcome ε G1) = .ok c ∧
      (p.computeMultiOpeningProofs (.polyCoeff f) : Outcome ε _) = .ok (proofs, values) ∧
      ∃ k < 2 ^ (e - q), ∃ Q ev, proofs[k]? = some Q ∧ values[k]? = some ev ∧
        ∀ sha256, v.verifyMultiOpening sha256 [c] [0] [k] [ev] [Q] = .err .InvalidProof := by
  have hq := Nat.two_pow_pos q
  obtain ⟨f, hf, hpoly, proofs, hpr, -, k, hk, Q, hQ, hne⟩ := C100_short_wrong g hnz q s t e hts hse he p hp
  obtain ⟨k', -, -, -, hqg, hbg, -, -, hpe⟩ := prover_new_any g (q + s) q e p hp
  have hlt : 2 ^ (q + t) < 2 ^ (q + s) := Nat.pow_lt_pow_right (by norm_num) (by omega)
  have hdeg : (Spec.polyOf f).degree < (2 ^ q : Nat) := by
    rw [hpoly, degree_X_pow]
    exact_mod_cast (show 2 ^ q - 1 < 2 ^ q by omega)
  rw [openingProof_small g e q (by omega) (by omega) _ hdeg] at hne
  refine ⟨f, hf, Spec.commitment g (Spec.polyOf f), proofs, _, ?_, hpr, k, hk, Q,
    (List.range (2 ^ q)).map (fun j => (Spec.polyOf f).eval (Spec.point e (2 ^ q * k + j))), hQ, ?_, ?_⟩
  · unfold FK20Prover.commit FK20Prover.inputToPoly
    simp only [Outcome.pure_eq, Outcome.ok_bind]
    have hck : p.commitKey = g := by rw [hpe]; rfl
    rw [hck, commitG1_ok g f (by omega)]
  · rw [List.getElem?_map, List.getElem?_range hk, Option.map_some]
  · intro sha256
    have hC : Spec.commitment g (Spec.polyOf f) = (Spec.polyOf f).eval τ • P :=
      commitment_isPowers g τ P hpg _ (lt_of_lt_of_le hdeg (by exact_mod_cast (show 2 ^ q ≤ g.length by omega)))
    have := C99_decides (GT := GT) g1s g2s nc e (e - q) q he.le (by omega) (by omega) τ P H hp1 hp2 hg1 v hv sha256
      [Spec.commitment g (Spec.polyOf f)] [0] [⟨Spec.commitment g (Spec.polyOf f), k, Spec.polyOf f, Q⟩]
      ⟨by simp, by simpa using hk, by simpa using hdeg⟩
    rw [if_neg] at this
    · have e2 : Spec.Opening.valuesAt e (e - q) q (⟨Spec.commitment g (Spec.polyOf f), k, Spec.polyOf f, Q⟩ : Spec.Opening G1) =
          (List.range (2 ^ q)).map (fun j => (Spec.polyOf f).eval (Spec.point e (2 ^ q * k + j))) := by
        unfold Spec.Opening.valuesAt
        refine List.map_congr_left (fun j hj => ?_)
        have h := C99_points (e - q) q k j (by omega) (List.mem_range.1 hj)
        rw [show e - q + q = e by omega] at h
        simp only
        rw [h]
      simpa only [List.map_cons, List.map_nil, e2] using this
    · intro h0
      have h0 := hnd _ h0
      unfold Spec.combinedAt at h0
      simp only [List.length_singleton, Finset.univ_unique, Fin.default_eq_zero, Finset.sum_singleton, Fin.val_zero, pow_zero,
        one_smul] at h0
      unfold Spec.Opening.defectAt at h0
      simp only [Fin.getElem_fin, Fin.val_zero, List.getElem_cons_zero] at h0
      rw [hC, sub_add_cancel] at h0
      rcases smul_eq_zero.1 h0 with h1 | h1
      · apply hτ
        have hw := (omega_primitive e he.le).pow_eq_one
        have h2 : 2 ^ e = 2 ^ q * 2 ^ (e - q) := by rw [← pow_add]; congr 1; omega
        calc τ ^ 2 ^ e = (τ ^ 2 ^ q) ^ 2 ^ (e - q) := by rw [← pow_mul, ← h2]
          _ = (Spec.cosetStart e (e - q) k ^ 2 ^ q) ^ 2 ^ (e - q) := by rw [sub_eq_zero.1 h1]
          _ = (Spec.omega e ^ 2 ^ e) ^ Spec.brev (e - q) k := by
            unfold Spec.cosetStart
            rw [← pow_mul, ← h2, ← pow_mul, ← pow_mul, mul_comm]
          _ = 1 := by rw [hw, one_pow]
      · exact hne h1
end

theorem length_coeffs_of (n : Nat) (f : Fr[X]) : (Spec.coeffs n f).length = n := by simp [Spec.coeffs]

/-- C100: the protocol is not affected. What recovery hands to the prover always has 4096 coefficients. -/
theorem C100_recovery (inds : List Nat) (cells : List (List UInt8)) (hc : ∀ c ∈ cells, c.length = 2048) (co : List Fr)
    (h : recoverPolynomialCoeff (rsOf 12 1 7) inds cells = .ok co) : co.length = 4096 := by
  obtain ⟨-, f, -, hco⟩ := (recoverPolynomialCoeff_ok_iff hc co).1 h
  rw [hco]
  exact length_coeffs_of _ _

section Examples
open Toy

theorem toy_key_nonzero (n : Nat) : ∀ x ∈ (List.range n).map ((7 : Fr) ^ ·), x ≠ 0 := by
  intro x hx
  obtain ⟨i, -, rfl⟩ := List.mem_map.1 hx
  exact pow_ne_zero _ (by decide +kernel)

/-- C100 is not vacuous: a prover for polynomials with 8 coefficients and cosets of 2 points; `X` given with 2 or 4 coefficients
gets a wrong proof, given with 8 coefficients it gets the right ones, given with 3 coefficients there is a panic. -/
example : ∃ p : FK20Prover Fr Fr,
    (FK20Prover.new ((List.range 8).map ((7 : Fr) ^ ·)) (2 ^ (1 + 2)) (2 ^ 1) (2 ^ 4) .no : Outcome Error (FK20Prover Fr Fr)) = .ok p ∧
    (∀ t < 2, ∃ f : List Fr, f.length = 2 ^ (1 + t) ∧ Spec.polyOf f = X ^ 1 ∧ ∃ r,
      (p.computeMultiOpeningProofs (.polyCoeff f) : Outcome Error _) = .ok r ∧ ∃ k < 8, ∃ P, r.1[k]? = some P ∧
        P ≠ Spec.openingProof ((List.range 8).map ((7 : Fr) ^ ·)) 4 1 (X ^ 1) k) ∧
    (∃ r, (p.computeMultiOpeningProofs (.polyCoeff [0, 1, 0, 0, 0, 0, 0, 0]) : Outcome Error _) = .ok r ∧
      r.1 = (List.range 8).map (Spec.openingProof ((List.range 8).map ((7 : Fr) ^ ·)) 4 1 (Spec.polyOf [0, 1]))) ∧
    (p.computeMultiOpeningProofs (.polyCoeff [0, 1, 0]) : Outcome Error _) = .panic := by
  obtain ⟨p, hp⟩ := C31_accepts (ε := Error) (K := Fr) ((List.range 8).map ((7 : Fr) ^ ·)) 1 2 4 (by norm_num) (by norm_num)
    (by norm_num) (by simp) (by simp)
  refine ⟨p, hp, ?_, ?_, ?_⟩
  · intro t ht
    obtain ⟨f, h1, h2, proofs, h3, -, k, hk, P, h4, h5⟩ := C100_short_wrong (ε := Error) _ (toy_key_nonzero 8) 1 2 t 4 ht
      (by norm_num) (by norm_num) p hp
    have he : 2 ^ 1 - 1 = 1 := by norm_num
    rw [h2, he] at h5
    rw [he] at h2
    exact ⟨f, h1, h2, _, h3, k, hk, P, h4, h5⟩
  · have h := (C100_padded (ε := Error) _ 1 2 4 (by norm_num) (by norm_num) (by simp) p hp [0, 1] (by simp)).1
    have hl : ([0, 1] : List Fr) ++ List.replicate (2 ^ (1 + 2) - ([0, 1] : List Fr).length) 0 = [0, 1, 0, 0, 0, 0, 0, 0] := by
      norm_num [List.replicate]
    rw [hl] at h
    exact ⟨_, h, rfl⟩
  · refine C100_panics p _ (.inl fun t h => ?_)
    have h : 3 = 2 ^ t := h
    rcases t with _ | t
    · omega
    · rw [pow_succ] at h
      omega

/-- C100_rejected is not vacuous: the same prover and a verifier for its sizes -/
example (t : Nat) (ht : t < 2) : ∃ (p : FK20Prover Fr Fr) (v : FK20Verifier Fr Fr) (f : List Fr), f.length = 2 ^ (1 + t) ∧
    ∃ c proofs values, (p.commit (.polyCoeff f) : Outcome Error Fr) = .ok c ∧
      (p.computeMultiOpeningProofs (.polyCoeff f) : Outcome Error _) = .ok (proofs, values) ∧
      ∃ k < 8, ∃ Q ev, proofs[k]? = some Q ∧ values[k]? = some ev ∧
        ∀ sha256, v.verifyMultiOpening sha256 [c] [0] [k] [ev] [Q] = .err .InvalidProof := by
  obtain ⟨p, hp⟩ := C31_accepts (ε := Error) (K := Fr) ((List.range 8).map ((7 : Fr) ^ ·)) 1 2 4 (by norm_num) (by norm_num)
    (by norm_num) (by simp) (by simp)
  obtain ⟨v, hv⟩ := (C99_new (ε := Error) ((List.range 2).map ((7 : Fr) ^ ·)) ((List.range 3).map ((7 : Fr) ^ ·)) 8 4 3 1
    (by norm_num) (by norm_num) (by norm_num)).1.2 (by simp)
  exact ⟨p, v, C100_rejected (ε := Error) (GT := Fr) _ _ _ (toy_key_nonzero 8) 1 2 t 4 8 ht (by norm_num) (by norm_num) 7
    (by decide +kernel) 1 1 (any_toy_powers 8) (any_toy_powers 2) (any_toy_powers 3) (fun a h => by simpa [pair] using h) (by simp)
    p hp v hv⟩

end Examples

end Verif
