import Verif.Lemmas.Quotient
import Verif.Props.Toy
import Verif.Props.UnitTestsCosets

set_option linter.unusedSectionVars false

/-! C91: the unit tests of the openings, of the Toeplitz products of points and of FK20, as programs. -/
namespace Verif
open UnitTests Polynomial Finset

section
variable {ε : Type} {K G1 G2 GT : Type} [Field K] [DecidableEq K] [AddCommGroup G1] [Module Fr G1] [DecidableEq G1] [Curve K G1]
  [PointCodec G1] [AddCommGroup G2] [Module Fr G2] [DecidableEq G2] [AddCommGroup GT] [DecidableEq GT] [Pairing G1 G2 GT]

/-- the keys of the tests -/
theorem testKeys (P : G1) (H : G2) : ∃ ck : List G1, ∃ g2 : List G2,
    (createInsecureCommitVerificationKeys P H : Outcome ε _) = .ok (ck, ⟨ck.take 65, g2, H, 64, 4096⟩) ∧ g2.length = 65 ∧
      Spec.PowersOfTau ck g2 (-1) P H := by
  obtain ⟨ck, ⟨g1s, g2s, gen, cs, nc⟩, h, hl, hck, hl1, h1, hl2, h2, rfl, rfl, rfl⟩ := C62_test_keys (ε := ε) P H
  have : g1s = ck.take 65 := by
    apply List.ext_getElem?
    intro i
    simp only at hl1 h1
    by_cases hi : i < 65
    · rw [h1 i (by omega), List.getElem?_take_of_lt hi, hck i (by omega)]
    · rw [List.getElem?_eq_none (by omega), List.getElem?_eq_none (by rw [List.length_take]; omega)]
  subst this
  exact ⟨ck, g2s, h, hl2, hl, fun i hi => hck i (by omega), ⟨by simp only at hl2; omega, by simp only at hl2; omega⟩, h2⟩

/-- C91: the test that compares the commitments of the shifted polynomials passes for every polynomial, all sizes of cosets up to
1024 and every generator. -/
theorem C91_h_polys (P : G1) (H : G2) (q s : Nat) (hqs : q + s = 12) (hs : 2 ≤ s) (poly : List Fr) (hf : poly.length = 4096) :
    (checkConsistencyOfToeplitzHPolys (K := K) P H 4096 (2 ^ q) poly : Outcome ε Unit) = .ok () := by
  obtain ⟨ck, g2, hk, -, hpt⟩ := testKeys (ε := ε) P H
  have h12 : (4096 : Nat) = 2 ^ (q + s) := by rw [hqs]; norm_num
  have hcl := hpt.length_g1
  obtain ⟨p, hp⟩ := C31_accepts (ε := ε) (K := K) ck q s 13 hs (by omega) (by omega) (by omega)
    ((hcl.trans h12).le.trans (Nat.le_add_right _ _))
  have hh := C62_h_polys ck q s 13 hs (by omega) (by omega) (by omega) p hp poly (by omega)
  unfold checkConsistencyOfToeplitzHPolys
  rw [hk, Outcome.ok_bind]
  simp only
  rw [show 2 * 4096 = 2 ^ 13 from rfl]
  have hn := naiveComputeHPoly_eq (ε := ε) poly q s (by omega)
  rw [hn, Outcome.ok_bind] at hh ⊢
  rw [mapM_ok (g := fun h => Spec.commitment ck (Spec.polyOf h)) (by
    intro h hm
    obtain ⟨i, -, rfl⟩ := List.mem_map.1 hm
    exact commitG1_ok ck _ (by rw [List.length_drop]; omega))] at hh ⊢
  rw [Outcome.ok_bind, h12, hp, Outcome.ok_bind, hh]
  simp

/-- C91: the test that compares FK20 with its reference passes for every polynomial, all sizes of cosets up to 1024 and every
generator. -/
theorem C91_fk20 (P : G1) (H : G2) (q s : Nat) (hqs : q + s = 12) (hs : 2 ≤ s) (poly : List Fr) (hf : poly.length = 4096) :
    (checkConsistencyOfProofsAgainstNaive (K := K) P H 4096 (2 ^ q) poly : Outcome ε Unit) = .ok () := by
  obtain ⟨ck, g2, hk, -, hpt⟩ := testKeys (ε := ε) P H
  have h12 : (4096 : Nat) = 2 ^ (q + s) := by rw [hqs]; norm_num
  have hcl := hpt.length_g1
  obtain ⟨p, hp⟩ := C31_accepts (ε := ε) (K := K) ck q s 13 hs (by omega) (by omega) (by omega)
    ((hcl.trans h12).le.trans (Nat.le_add_right _ _))
  unfold checkConsistencyOfProofsAgainstNaive
  rw [hk, Outcome.ok_bind]
  simp only
  rw [show 2 * 4096 = 2 ^ 13 from rfl, naiveOpenMultiPoint_eq ck poly q s 13 (by omega) (by omega) (by omega) (by omega) (by omega),
    Outcome.ok_bind, h12, hp, Outcome.ok_bind, C62_prover ck q s 13 (by omega) (by omega) (by omega) (by omega) p hp poly (by omega),
    naiveOpenMultiPoint_eq ck poly q s 13 (by omega) (by omega) (by omega) (by omega) (by omega)]
  simp

/-- C91: the test that compares the two reference implementations passes for every polynomial of full length,
all sizes that are powers of two up to 4096 other than cosets of one point, and every generator. -/
theorem C91_references (P : G1) (H : G2) (q s : Nat) (hq : 1 ≤ q) (hqs : q + s ≤ 12) (poly : List Fr)
    (hf : poly.length = 2 ^ (q + s)) :
    (testConsistencyBetweenNaives P H (2 ^ (q + s)) (2 ^ q) poly : Outcome ε Unit) = .ok () := by
  obtain ⟨ck, g2, hk, -, hpt⟩ := testKeys (ε := ε) P H
  have h12 : 2 ^ (q + s) ≤ 2 ^ 12 := Nat.pow_le_pow_right (by norm_num) hqs
  have hcl := hpt.length_g1
  obtain ⟨proofs, values, cosets, h1, h2, h3, h4⟩ := C62_references_agree (ε := ε) ck poly q s (q + s + 1) hq (by omega) (by omega)
    (by omega) (by omega) hf
  have h5 := naiveOpenMultiPoint_eq (ε := ε) ck poly q s (q + s + 1) (by omega) (by omega) (by omega) (by omega) hf
  have hpl : proofs.length = 2 ^ (q + s + 1 - q) := by
    rw [h1] at h5
    rw [(Prod.mk.inj (Outcome.ok.inj h5)).1]
    simp
  unfold testConsistencyBetweenNaives
  rw [hk, Outcome.ok_bind]
  simp only
  rw [show 2 * 2 ^ (q + s) = 2 ^ (q + s + 1) from (pow_succ' 2 _).symm, h2, Outcome.ok_bind, h1, Outcome.ok_bind]
  simp only
  rw [forM_ok_iff]
  intro k hk
  rw [List.mem_range, hpl] at hk
  obtain ⟨coset, proof, vals, w, e1, e2, e3, e4, e5⟩ := h4 k hk
  have idx_some : ∀ {α : Type} {l : List α} {x : α}, l[k]? = some x → (idx l k : Outcome ε α) = .ok x := by
    intro α l x h
    obtain ⟨hlt, h⟩ := List.getElem?_eq_some_iff.1 h
    rw [idx_lt hlt, h]
  rw [idx_some e1, Outcome.ok_bind, e4, Outcome.ok_bind]
  simp only
  rw [idx_some e3, Outcome.ok_bind, assertP_true (by
    unfold setEqualityScalar
    rw [e5.length_eq, bytesSet_congr fun x => e5.mem_iff]
    simp), Outcome.ok_bind, idx_some e2, Outcome.ok_bind, assertP_eq_ok]

/-- C91: the test that the data is at the front of the cells passes for all data, all sizes of cosets up to 1024 and every
generator. -/
theorem C91_data_in_cells (P : G1) (H : G2) (q s : Nat) (hqs : q + s = 12) (hs : 2 ≤ s) (data : List Fr) (hd : data.length = 4096) :
    (dataIsContainedInTheFirstSectionOfCells (K := K) P H 4096 (2 ^ q) data : Outcome ε Unit) = .ok () := by
  obtain ⟨ck, g2, hk, -, hpt⟩ := testKeys (ε := ε) P H
  have h12 : (4096 : Nat) = 2 ^ (q + s) := by rw [hqs]; norm_num
  have hcl := hpt.length_g1
  obtain ⟨p, hp⟩ := C31_accepts (ε := ε) (K := K) ck q s 13 hs (by omega) (by omega) (by omega)
    ((hcl.trans h12).le.trans (Nat.le_add_right _ _))
  obtain ⟨M, rfl, hM⟩ := prover_new_ok ck q s 13 hs (by omega) (by omega) (by omega) .no p hp
  unfold dataIsContainedInTheFirstSectionOfCells
  rw [hk, Outcome.ok_bind]
  simp only
  have hp' : (FK20Prover.new ck 4096 (2 ^ q) (2 * 4096) .no : Outcome ε (FK20Prover K G1)) = .ok (proverOf ck q s 13 M) := by
    rw [show 2 * 4096 = 2 ^ 13 from rfl, h12]; exact hp
  rw [hp', Outcome.ok_bind]
  unfold FK20Prover.computeMultiOpeningProofs FK20Prover.inputToPoly
  simp only
  have hR : Rep data (2 ^ 12) (fun i => data.getD i 0) := by
    have := rep_getD data (0 : Fr); rwa [hd] at this
  have hpd : (proverOf (K := K) ck q s 13 M).polyDomain = domainOf 12 := by rw [← hqs]; rfl
  obtain ⟨B, hB, hBl, hBe⟩ := ifftScalars_interp (ε := ε) 12 (by norm_num)
    ((List.range (2 ^ 12)).map fun i => data.getD (Spec.brev 12 i) 0)
  rw [reverseBitOrder_eq 12 (by norm_num) hR, Outcome.ok_bind, hpd, hB, Outcome.ok_bind,
    multiOpening_exact ck B q s 13 hs (by omega) (by omega) (by omega) (by rw [hBl, hqs]) M (msmExact_no ck q s M hM), Outcome.ok_bind]
  simp only
  rw [flatten_rows (2 ^ q) (2 ^ (13 - q)) (fun k j => (Spec.polyOf B).eval (Spec.point 13 (2 ^ q * k + j))), ← pow_add,
    show 13 - q + q = 13 by omega, slice_zero (by rw [List.length_map, List.length_range]; norm_num), Outcome.ok_bind, assertP_eq_ok,
    ← List.map_take, List.take_range, show min 4096 (2 ^ 13) = 2 ^ 12 by norm_num]
  conv_lhs => rw [hR.eq_map]
  apply List.map_congr_left
  intro i hi
  rw [List.mem_range] at hi
  rw [Nat.div_add_mod, Spec.point, Spec.brev_succ' 12, Nat.div_eq_of_lt hi, Nat.mod_eq_of_lt hi, Nat.zero_mod, Nat.zero_add, pow_mul]
  have := omega_pow 12 13 (by omega) (by omega)
  rw [show 13 - 12 = 1 by omega, pow_one] at this
  rw [this, hBe _ (Spec.brev_lt 12 i), (rep_map_range (2 ^ 12) _).getD 0 (Spec.brev_lt 12 i)]
  simp only [Spec.brev_brev 12 i hi]

/-- the verifier of the tests -/
theorem testVerifier (ck : List G1) (g2 : List G2) (P : G1) (H : G2) (hg2 : g2.length = 65) (hpt : Spec.PowersOfTau ck g2 (-1) P H) :
    (FK20Verifier.new ⟨ck.take 65, g2, H, 64, 4096⟩ 8192 128 : Outcome ε (FK20Verifier G1 G2)) = .ok (verifierOf ck g2) := by
  have hcl := hpt.length_g1
  have e0 : g2.getD 0 0 = H := by rw [List.getD, hpt.g2_eq 0 (by omega), Option.getD_some, pow_zero, one_smul]
  have h := verifierContext_new (ε := ε) ⟨ck, g2⟩ (by simp [hg2]) (by simp [hg2, hcl])
  unfold VerifierContext.new verificationKeyOfSetup VerificationKey.new at h
  simp only at h
  rw [slice_zero (by omega), Outcome.ok_bind, (rep_getD g2 (0 : G2)).idx (by omega), Outcome.ok_bind,
    assertP_true (by rw [hg2]; decide), Outcome.ok_bind, Outcome.pure_eq, Outcome.ok_bind, e0, hg2, bind_eq_ok] at h
  obtain ⟨v, hv, h⟩ := h
  rw [Outcome.pure_eq, Outcome.ok.injEq] at h
  have h := congrArg VerifierContext.kzgMultipointVerifier h
  simp only at h
  rw [← h]
  exact hv

/-- the verifier of the tests accepts the proofs of every polynomial -/
theorem testVerifies [LawfulPointCodec G1 48] [LawfulPairing G1 G2 GT] (sha256 : List UInt8 → List UInt8) (ck : List G1) (g2 : List G2)
    (P : G1) (H : G2) (hg2 : g2.length = 65) (hpt : Spec.PowersOfTau ck g2 (-1) P H) (f : Fr[X]) (hdeg : f.degree < 4096) :
    (verifierOf ck g2).verifyMultiOpening sha256 [Spec.commitment ck f] (List.replicate 128 0) (List.range 128)
      ((List.range 128).map fun k => (List.range 64).map fun j => f.eval (Spec.point 13 (64 * k + j)))
      ((List.range 128).map (Spec.openingProof ck 13 6 f)) = .ok () := by
  have hcl := hpt.length_g1
  have e64 : g2.getD 64 0 = (-1 : Fr) ^ 64 • H := by rw [List.getD, hpt.g2_eq 64 (by omega), Option.getD_some]
  have e0 : g2.getD 0 0 = H := by rw [List.getD, hpt.g2_eq 0 (by omega), Option.getD_some, pow_zero, one_smul]
  have hpr := (rep_map_range 128 (Spec.openingProof ck 13 6 f))
  have hce := (rep_map_range 128 (fun k => (List.range 64).map (fun j => f.eval (Spec.point 13 (64 * k + j)))))
  rw [verifyMultiOpening_eq (GT := GT) sha256 ck g2 (by omega) (by omega) [Spec.commitment ck f] (List.replicate 128 0)
    (List.range 128) _ _ 128 (by simp) (by simp) (by simp) (by simp) (by
      intro i hi
      rw [(List.mem_replicate.1 hi).2]
      simp) (by intro i hi; exact List.mem_range.1 hi) (by
      intro e he
      obtain ⟨k, -, rfl⟩ := List.mem_map.1 he
      simp) (fun i => f %ₘ cellDivisor i) (by
      intro i hi
      have e1 : (List.range 128).getD i 0 = i := by simp [List.getD, hi]
      rw [e1, hce.getD [] hi]
      refine ⟨mod_degree f i, fun j hj => ?_⟩
      rw [(rep_map_range 64 _).getD 0 hj]
      conv_rhs => rw [← modByMonic_add_div f (cellDivisor i)]
      rw [eval_add, eval_mul, cellDivisor_root i j hj, zero_mul, add_zero]) _ rfl]
  rw [e64, e0, pairing_check]
  generalize reduceBytesToScalarBias (sha256 _) = r
  have hzero : (-1 : Fr) ^ 64 • ∑ i ∈ range 128, r ^ i • ((List.range 128).map (Spec.openingProof ck 13 6 f)).getD i 0 -
      (∑ i ∈ range 128, r ^ i • [Spec.commitment ck f].getD ((List.replicate 128 0).getD i 0) 0 -
          ∑ i ∈ range 128, r ^ i • Spec.commitment ck (f %ₘ cellDivisor i) +
        ∑ i ∈ range 128, (r ^ i * Spec.point 13 (64 * (List.range 128).getD i 0) ^ 64) •
          ((List.range 128).map (Spec.openingProof ck 13 6 f)).getD i 0) = 0 := by
    rw [smul_sum, ← sum_sub_distrib, ← sum_add_distrib, ← sum_sub_distrib]
    apply sum_eq_zero
    intro i hi
    have hi := mem_range.1 hi
    have e1 : (List.range 128).getD i 0 = i := by simp [List.getD, hi]
    have e2 : (List.replicate 128 0).getD i 0 = 0 := by
      rw [List.getD, List.getElem?_replicate, if_pos hi, Option.getD_some]
    have hv := honest_valid (-1) P f i
    unfold Spec.Opening.Valid at hv
    simp only at hv
    rw [hpr.getD 0 hi, e1, e2, openingProof_eval hpt f hdeg, List.getD_cons_zero, commitment_eval hpt f hdeg,
      commitment_eval hpt _ (lt_trans (mod_degree f i) (by norm_num))]
    rw [sub_smul, sub_eq_iff_eq_add] at hv
    have hv' := congrArg (r ^ i • ·) hv
    simp only [smul_add, smul_sub] at hv'
    rw [mul_smul, smul_comm ((-1 : Fr) ^ 64), hv']
    abel
  rw [hzero, pair_zero_left, if_pos rfl]

/-- C91: the test that proves and verifies passes for all data, every generator, every pairing and every hash function. -/
theorem C91_prove_verify [LawfulPointCodec G1 48] [LawfulPairing G1 G2 GT] (sha256 : List UInt8 → List UInt8) (P : G1) (H : G2)
    (data : List Fr) (hd : data.length = 4096) :
    (smokeTestProveVerify (K := K) sha256 P H 4096 64 data : Outcome ε Unit) = .ok () := by
  obtain ⟨ck, g2, hk, hg2, hpt⟩ := testKeys (ε := ε) P H
  have hcl := hpt.length_g1
  obtain ⟨p, hp⟩ := C31_accepts (ε := ε) (K := K) ck 6 6 13 (by norm_num) (by norm_num) (by norm_num) (by omega) (by omega)
  obtain ⟨M, rfl, hM⟩ := prover_new_ok ck 6 6 13 (by norm_num) (by norm_num) (by norm_num) hcl .no p hp
  have hver := testVerifier (ε := ε) ck g2 P H hg2 hpt
  have hR : Rep data (2 ^ 12) (fun i => data.getD i 0) := by
    have := rep_getD data (0 : Fr); rwa [hd] at this
  obtain ⟨B, hB, hBl, hBe⟩ := ifftScalars_interp (ε := ε) 12 (by norm_num)
    ((List.range (2 ^ 12)).map fun i => data.getD (Spec.brev 12 i) 0)
  have hpd : (proverOf (K := K) ck 6 6 13 M).polyDomain = domainOf 12 := rfl
  have hck : (proverOf (K := K) ck 6 6 13 M).commitKey = ck := rfl
  have hdeg : (Spec.polyOf B).degree < 4096 := by
    have := Spec.degree_polyOf_lt B
    rwa [hBl] at this
  have hin : ((proverOf (K := K) ck 6 6 13 M).inputToPoly (.data data) : Outcome ε (List Fr)) = .ok B := by
    unfold FK20Prover.inputToPoly
    simp only
    rw [reverseBitOrder_eq 12 (by norm_num) hR, Outcome.ok_bind, hpd, hB]
  unfold smokeTestProveVerify
  rw [hk, Outcome.ok_bind]
  simp only
  rw [show 2 * 4096 = 8192 from rfl, show 8192 / 64 = 128 from rfl]
  have hp' : (FK20Prover.new ck 4096 64 8192 .no : Outcome ε (FK20Prover K G1)) = .ok (proverOf ck 6 6 13 M) := hp
  rw [hp', Outcome.ok_bind, hver, Outcome.ok_bind]
  unfold FK20Prover.computeMultiOpeningProofs FK20Prover.commit
  rw [hin, Outcome.ok_bind, multiOpening_exact ck B 6 6 13 (by norm_num) (by norm_num) (by norm_num) hcl hBl M
    (msmExact_no ck 6 6 M hM), Outcome.ok_bind]
  simp only
  rw [Outcome.ok_bind, hck, commitG1_ok ck B (by rw [hBl, hcl]; norm_num), Outcome.ok_bind]
  rw [show 13 - 6 = 7 from rfl, show (2 : Nat) ^ 7 = 128 from rfl, show (2 : Nat) ^ 6 = 64 from rfl]
  rw [testVerifies (GT := GT) sha256 ck g2 P H hg2 hpt (Spec.polyOf B) hdeg]
  rfl

/-- C91: the test of the reference verifier passes for given points and polynomial exactly if the changed points do not happen to
fulfil the equation of the proof at the secret of the test keys, which is `-1`. -/
theorem C91_naive_opening [LawfulPairing G1 G2 GT] (P : G1) (H : G2) (hnd : ∀ x : Fr, pair (x • P) H = (0 : GT) → x = 0)
    (points f changed : List Fr) (hf : f.length ≤ 4096) (hn : 2 ≤ points.length) (hn' : points.length ≤ 64) (hd : points.Nodup)
    (hl : changed.length = points.length) (hd' : changed.Nodup) (I : Fr[X]) (hI : I.degree < changed.length)
    (hev : ∀ p ∈ changed.zip (points.map fun z => (Spec.polyOf f).eval z), I.eval p.1 = p.2) :
    (smokeTestNaiveMultiOpening P H points f changed : Outcome ε Unit) = .ok () ↔
      (changed.map fun z => -1 - z).prod * (Spec.polyOf f /ₘ (points.map fun z => X - C z).prod).eval (-1) ≠
        (Spec.polyOf f).eval (-1) - I.eval (-1) := by
  obtain ⟨ck, vk, hk, hcl, hck, hl1, hp1, hl2, hp2, hgen, -, -⟩ := C62_test_keys (ε := ε) P H
  obtain ⟨c, π, v, h1, h2, h3⟩ := C62_honest (ε := ε) (GT := GT) ck vk (-1) P H hck hp1 hp2 hgen f points (by omega) hn hd
    (by omega) (by omega)
  have hdeg : (Spec.polyOf f).degree < 4096 := lt_of_lt_of_le (Spec.degree_polyOf_lt f) (by exact_mod_cast hf)
  obtain ⟨ck', g2, hk', -, hpt⟩ := testKeys (ε := ε) P H
  rw [hk] at hk'
  obtain rfl := (Prod.mk.inj (Outcome.ok.inj hk')).1
  have h2' := h2
  rw [naiveOpen_eq ck f points hn hd (by omega)] at h2'
  obtain ⟨rfl, rfl⟩ := Prod.mk.inj (Outcome.ok.inj h2')
  have h1' := h1
  rw [commitG1_ok ck f (by omega)] at h1'
  obtain rfl := Outcome.ok.inj h1'
  unfold smokeTestNaiveMultiOpening
  rw [hk, Outcome.ok_bind]
  simp only
  rw [h1, Outcome.ok_bind, h2, Outcome.ok_bind]
  simp only
  rw [h3, Outcome.ok_bind, assertP_true rfl, Outcome.ok_bind,
    C62_verify (GT := GT) vk (-1) P H hp1 hp2 hgen _ _ changed _ (by omega) hd' (by simp [hl]) (by omega) (by omega) I hI hev,
    Outcome.ok_bind, assertP_eq_ok, decide_eq_false_iff_not, commitment_eval hpt _ hdeg,
    commitment_eval hpt _ (lt_of_le_of_lt (degree_divByMonic_le _ _) hdeg), ← mul_smul, ← sub_smul, ← sub_smul]
  constructor
  · intro h he
    apply h
    rw [he, sub_self, zero_smul, pair_zero_left]
  · intro h he
    exact h (sub_eq_zero.1 (hnd _ he))

theorem fold_expected (k : Nat) (hk : k + 1 ≤ 32) (l : List (ToeplitzMatrix × List G1))
    (h : ∀ q ∈ l, q.1.row.length = 2 ^ k ∧ q.1.col.length = 2 ^ k ∧ q.2.length = 2 ^ k) (F : Nat → G1) :
    (l.foldlM (fun (acc : List G1) q => do
      let intermediate ← q.1.vectorMulG1 q.2
      pure (acc.zipWith (· + ·) intermediate ++ acc.drop intermediate.length)) ((List.range (2 ^ k)).map F) : Outcome ε (List G1)) =
    .ok ((List.range (2 ^ k)).map fun a => F a + (l.map fun q => Spec.toeplitzMul q.1.row q.1.col q.2 (2 ^ k) a).sum) := by
  induction l generalizing F with
  | nil => simp
  | cons q l ih =>
    obtain ⟨h1, h2, h3⟩ := h q (by simp)
    rw [List.foldlM_cons, vectorMulG1_eq q.1 q.2 k hk h1 h2 h3, Outcome.ok_bind, Outcome.pure_eq, Outcome.ok_bind]
    have : List.zipWith (· + ·) ((List.range (2 ^ k)).map F) ((List.range (2 ^ k)).map
        (Spec.toeplitzMul q.1.row q.1.col q.2 (2 ^ k))) ++ ((List.range (2 ^ k)).map F).drop
          ((List.range (2 ^ k)).map (Spec.toeplitzMul q.1.row q.1.col q.2 (2 ^ k))).length =
        (List.range (2 ^ k)).map fun a => F a + Spec.toeplitzMul q.1.row q.1.col q.2 (2 ^ k) a := by
      rw [List.drop_of_length_le (by simp), List.append_nil, List.zipWith_map, List.zipWith_self]
    rw [this, ih (fun q hq => h q (by simp [hq]))]
    congr 1
    apply List.map_congr_left
    intro a _
    rw [List.map_cons, List.sum_cons, add_assoc]

/-- C91: without precomputation the test of the batched Toeplitz product passes for all matrices and vectors of one length, a
power of two; with precomputation it passes if no base point is the identity and the product does not panic. -/
theorem C91_batch_toeplitz [LawfulCurve K G1] (k : Nat) (hk : k + 1 ≤ 32) (data : List (List Fr × List Fr × List G1)) (hne : data ≠ [])
    (h : ∀ d ∈ data, d.1.length = 2 ^ k ∧ d.2.1.length = 2 ^ k ∧ d.2.2.length = 2 ^ k) :
    (smokeAggregatedMatrixVectorMul (K := K) .no data : Outcome ε Unit) = .ok () ∧
    ∀ w, 1 ≤ w → w ≤ 24 →
      (∀ d ∈ data, ∀ j < 2 ^ (k + 1), Spec.dft (Spec.omega (k + 1)) (2 ^ (k + 1)) (fun i => d.2.2.getD i 0) j ≠ 0) →
      ∃ bt : BatchToeplitz K G1, (BatchToeplitz.new (data.map fun d => d.2.2) (.yes w) : Outcome ε _) = .ok bt ∧
        ((∃ r, (bt.sumMatrixVectorMul (data.map fun d => (⟨d.1, d.2.1⟩ : ToeplitzMatrix)) : Outcome ε (List G1)) = .ok r) →
          (smokeAggregatedMatrixVectorMul (K := K) (.yes w) data : Outcome ε Unit) = .ok ()) := by
  have hpos := Nat.two_pow_pos k
  have hnew : ((data.mapM fun d => ToeplitzMatrix.new d.1 d.2.1) : Outcome ε _) =
      .ok (data.map fun d => (⟨d.1, d.2.1⟩ : ToeplitzMatrix)) := by
    apply mapM_ok
    intro d hd
    obtain ⟨h1, h2, -⟩ := h d hd
    unfold ToeplitzMatrix.new
    rw [assertP_true ⟨by intro e; rw [e] at h1; simp at h1; omega, by intro e; rw [e] at h2; simp at h2; omega⟩]
    rfl
  set vectors := data.map fun d => d.2.2 with hv
  set matrices := data.map fun d => (⟨d.1, d.2.1⟩ : ToeplitzMatrix) with hmat
  have hmne : matrices ≠ [] := by simpa [hmat] using hne
  have hlen : vectors.length = matrices.length := by simp [hv, hmat]
  have hvl : ∀ v ∈ vectors, v.length = 2 ^ k := by
    intro v hv'
    obtain ⟨d, hd, rfl⟩ := List.mem_map.1 hv'
    exact (h d hd).2.2
  have hml : ∀ tm ∈ matrices, tm.row.length = 2 ^ k ∧ tm.col.length = 2 ^ k := by
    intro tm ht
    obtain ⟨d, hd, rfl⟩ := List.mem_map.1 ht
    exact ⟨(h d hd).1, (h d hd).2.1⟩
  have hvne : vectors ≠ [] := by simpa [hv] using hne
  have hfold : ∀ r : List G1, r = ((List.range (2 ^ k)).map fun a => ((vectors.zip matrices).map fun q =>
      Spec.toeplitzMul q.2.row q.2.col q.1 (2 ^ k) a).sum) →
      ((matrices.zip vectors).foldlM (fun (acc : List G1) q => do
        let intermediate ← q.1.vectorMulG1 q.2
        pure (acc.zipWith (· + ·) intermediate ++ acc.drop intermediate.length)) (List.replicate r.length 0) : Outcome ε (List G1)) =
      .ok r := by
    intro r hr
    have h0 : List.replicate r.length (0 : G1) = (List.range (2 ^ k)).map fun _ => 0 := by
      rw [hr, List.length_map, List.length_range, List.map_const', List.length_range]
    rw [h0, fold_expected k hk _ (by
      intro q hq
      rw [hv, hmat, List.zip_map', List.mem_map] at hq
      obtain ⟨d, hd, rfl⟩ := hq
      exact h d hd), hr]
    congr 1
    apply List.map_congr_left
    intro a _
    rw [zero_add, hv, hmat, List.zip_map', List.zip_map', List.map_map, List.map_map]
    rfl
  constructor
  · unfold smokeAggregatedMatrixVectorMul
    rw [hnew, Outcome.ok_bind]
    simp only
    rw [← hv, batchToeplitz_new vectors k hk hvne hvl .no, List.mapM_map,
      mapM_ok (g := fun j => FixedBaseMSM.noPrecomp (fftGens vectors (k + 1) j)) (by intro j _; rfl), Outcome.ok_bind,
      Outcome.ok_bind, sumMatrixVectorMul_noPrecomp vectors matrices k hk hmne hlen hvl hml, Outcome.ok_bind, hfold _ rfl,
      Outcome.ok_bind, assertP_eq_ok]
  · intro w hw hw' hid
    obtain ⟨M, hM⟩ : ∃ M : Nat → FixedBaseMSM K G1, ∀ j, (FixedBaseMSM.new (fftGens vectors (k + 1) j) (.yes w) :
        Outcome ε (FixedBaseMSM K G1)) = .ok (M j) := by
      refine ⟨fun j => .precomp (tableOf w (fftGens vectors (k + 1) j)) w, fun j => ?_⟩
      simp only [FixedBaseMSM.new, precompWindowNew_eq w hw, Outcome.ok_bind, Outcome.pure_eq]
    have hbt : (BatchToeplitz.new vectors (.yes w) : Outcome ε (BatchToeplitz K G1)) =
        .ok ⟨vectors.length, (List.range (2 ^ (k + 1))).map M, 2 ^ k, domainOf (k + 1)⟩ := by
      rw [batchToeplitz_new vectors k hk hvne hvl (.yes w), List.mapM_map, mapM_ok (g := M) (by intro j _; exact hM j),
        Outcome.ok_bind]
    refine ⟨_, hbt, ?_⟩
    rintro ⟨r, hr⟩
    have hex := sumMatrixVectorMul_exact (ε := ε) vectors matrices k hk hmne hlen hvl hml M (by
      intro j hj x hx
      have hnew := hM j
      simp only [FixedBaseMSM.new, precompWindowNew_eq w hw, Outcome.ok_bind, Outcome.pure_eq, Outcome.ok.injEq] at hnew
      rw [← hnew]
      have hne : ∀ P ∈ fftGens vectors (k + 1) j, P ≠ 0 := by
        intro P hP
        obtain ⟨v, hv', rfl⟩ := List.mem_map.1 hP
        obtain ⟨d, hd, rfl⟩ := List.mem_map.1 hv'
        exact hid d hd j hj
      obtain ⟨h1, h2⟩ := precompWindowMsm_eq (ε := ε) (K := K) w hw hw' (fftGens vectors (k + 1) j) x (by simp [fftGens, hx]) hne
      by_cases hc : Spec.Clash Spec.bigMulti ((List.range (255 / w + 1)).map (fun i => windowPts w i (fftGens vectors (k + 1) j) x))
      · exact .inl (h1 hc)
      · exact .inr (h2 hc)) _ rfl
    rw [hr] at hex
    have hr' := (hex.resolve_left (by simp))
    unfold smokeAggregatedMatrixVectorMul
    rw [hnew, Outcome.ok_bind]
    simp only
    rw [← hv, hbt, Outcome.ok_bind, hr, Outcome.ok_bind, hfold r (Outcome.ok.inj hr'), Outcome.ok_bind, assertP_eq_ok]

/-- C91: with precomputation the test passes for few matrices, whatever they are: so few that no batched addition takes place. -/
theorem C91_batch_toeplitz_few [LawfulCurve K G1] (k : Nat) (hk : k + 1 ≤ 32) (data : List (List Fr × List Fr × List G1))
    (hne : data ≠ []) (h : ∀ d ∈ data, d.1.length = 2 ^ k ∧ d.2.1.length = 2 ^ k ∧ d.2.2.length = 2 ^ k) (w : Nat) (hw : 1 ≤ w)
    (hw' : w ≤ 24)
    (hid : ∀ d ∈ data, ∀ j < 2 ^ (k + 1), Spec.dft (Spec.omega (k + 1)) (2 ^ (k + 1)) (fun i => d.2.2.getD i 0) j ≠ 0)
    (hfew : (255 / w + 1) * (data.length / 2) ≤ 16) :
    (smokeAggregatedMatrixVectorMul (K := K) (.yes w) data : Outcome ε Unit) = .ok () := by
  obtain ⟨bt, hbt, hpass⟩ := (C91_batch_toeplitz (ε := ε) (K := K) k hk data hne h).2 w hw hw' hid
  apply hpass
  set vectors := data.map fun d => d.2.2 with hv
  set matrices := data.map fun d => (⟨d.1, d.2.1⟩ : ToeplitzMatrix) with hmat
  have hmne : matrices ≠ [] := by simpa [hmat] using hne
  have hlen : vectors.length = matrices.length := by simp [hv, hmat]
  have hvl : ∀ v ∈ vectors, v.length = 2 ^ k := by
    intro v hv'
    obtain ⟨d, hd, rfl⟩ := List.mem_map.1 hv'
    exact (h d hd).2.2
  have hvne : vectors ≠ [] := by simpa [hv] using hne
  rw [batchToeplitz_new vectors k hk hvne hvl (.yes w), List.mapM_map,
    mapM_ok (g := fun j => .precomp (tableOf w (fftGens vectors (k + 1) j)) w) (by
      intro j _
      simp only [Function.comp_def, FixedBaseMSM.new, precompWindowNew_eq w hw, Outcome.ok_bind, Outcome.pure_eq]),
    Outcome.ok_bind, Outcome.ok.injEq] at hbt
  rw [← hbt, hlen, sumMatrixVectorMul_eq _ k hk matrices hmne, List.zip_map', List.mapM_map,
    mapM_ok (g := fun j => lcSum (fftGens vectors (k + 1) j) (fftScals matrices (k + 1) j)) (by
      intro j hj
      have hne : ∀ P ∈ fftGens vectors (k + 1) j, P ≠ 0 := by
        intro P hP
        obtain ⟨v, hv', rfl⟩ := List.mem_map.1 hP
        obtain ⟨d, hd, rfl⟩ := List.mem_map.1 hv'
        exact hid d hd j (List.mem_range.1 hj)
      obtain ⟨-, h2⟩ := precompWindowMsm_eq (ε := ε) (K := K) w hw hw' (fftGens vectors (k + 1) j) (fftScals matrices (k + 1) j)
        (by simp [fftGens, fftScals, hlen]) hne
      refine h2 fun hc => ?_
      have hb : Spec.bigMulti ((List.range (255 / w + 1)).map
          (fun i => windowPts w i (fftGens vectors (k + 1) j) (fftScals matrices (k + 1) j))) := by cases hc <;> assumption
      unfold Spec.bigMulti at hb
      rw [List.map_map] at hb
      refine absurd (lt_of_lt_of_le hb (List.sum_le_card_nsmul _ (data.length / 2) ?_)) (by simpa using hfew)
      intro x hx
      obtain ⟨i, -, rfl⟩ := List.mem_map.1 hx
      refine Nat.div_le_div_right (le_trans (List.length_filterMap_le _ _) ?_)
      simp [fftGens, hv]), Outcome.ok_bind,
    toeplitz_value vectors matrices k hk hlen hvl (by
      intro tm ht
      obtain ⟨d, hd, rfl⟩ := List.mem_map.1 ht
      exact ⟨(h d hd).1, (h d hd).2.1⟩)]
  exact ⟨_, rfl⟩

end

/-- C91: the test of the deduplication passes exactly if the expected list is the input without later repetitions and every
expected index is the place of the element in it. -/
theorem C91_deduplicate {ε : Type} (input expectedVec : List Int) (expectedIndices : List Nat) :
    (testDeduplicateWithIndices input expectedVec expectedIndices : Outcome ε Unit) = .ok () ↔
      expectedVec = input.eraseDups ∧ expectedIndices = input.map fun x => input.eraseDups.idxOf x := by
  unfold testDeduplicateWithIndices
  simp only [dedup_eq]
  by_cases h : expectedVec = input.eraseDups
  · rw [assertP_true h, Outcome.ok_bind, assertP_eq_ok]
    simp [h]
  · rw [assertP_false h, Outcome.panic_bind]
    simp [h]

/-- C91: the test of the check for repeated indices passes exactly if the lists of one kind are free of repetitions and those of
the other kind are not. -/
theorem C91_indices_unique {ε : Type} (distinct repeated : List (List Nat)) :
    (testCellIndicesUnique distinct repeated : Outcome ε Unit) = .ok () ↔
      (∀ l ∈ distinct, l.Nodup) ∧ ∀ l ∈ repeated, ¬ l.Nodup := by
  unfold testCellIndicesUnique
  rw [bind_eq_ok]
  constructor
  · rintro ⟨_, h1, h2⟩
    rw [forM_ok_iff] at h1 h2
    refine ⟨fun l hl => (areCellIndicesUnique_iff l).1 (assertP_eq_ok.1 (h1 l hl)), fun l hl hn => ?_⟩
    have := assertP_eq_ok.1 (h2 l hl)
    rw [(areCellIndicesUnique_iff l).2 hn] at this
    exact absurd this (by simp)
  · rintro ⟨h1, h2⟩
    refine ⟨(), (forM_ok_iff _ _).2 fun l hl => assertP_eq_ok.2 ((areCellIndicesUnique_iff l).2 (h1 l hl)),
      (forM_ok_iff _ _).2 fun l hl => assertP_eq_ok.2 ?_⟩
    rw [Bool.eq_false_iff]
    exact fun h => h2 l hl ((areCellIndicesUnique_iff l).1 h)

/-! the values of the repository -/

example : (testDeduplicateWithIndices [0, 1, 0, 2, 3, 4, 0] [0, 1, 2, 3, 4] [0, 1, 0, 2, 3, 4, 0] : Outcome Unit Unit) = .ok () :=
  (C91_deduplicate _ _ _).2 (by decide +kernel)

example : (testDeduplicateWithIndices [0, 1, 0] [1, 0] [1, 0, 1] : Outcome Unit Unit) ≠ .ok () :=
  fun h => absurd ((C91_deduplicate _ _ _).1 h) (by decide +kernel)

example : (testCellIndicesUnique [[1, 2, 3], []] [[1, 1, 2, 3], [0, 0, 0]] : Outcome Unit Unit) = .ok () :=
  (C91_indices_unique _ _).2 (by decide +kernel)

open Toy

/-- `h_poly.rs` 97-104: coefficients `0 … 4095`, cosets of 64 points -/
example : (checkConsistencyOfToeplitzHPolys (K := Fr) (1 : Fr) (1 : Fr) 4096 64 ((List.range 4096).map fun (i : Nat) => (i : Fr)) :
    Outcome Unit Unit) = .ok () :=
  C91_h_polys (K := Fr) (1 : Fr) (1 : Fr) 6 6 rfl (by norm_num) _ (by simp)

example : (checkConsistencyOfProofsAgainstNaive (K := Fr) (1 : Fr) (1 : Fr) 4096 64 ((List.range 4096).map fun (i : Nat) => -(i : Fr)) :
    Outcome Unit Unit) = .ok () :=
  C91_fk20 (K := Fr) (1 : Fr) (1 : Fr) 6 6 rfl (by norm_num) _ (by simp)

example : (testConsistencyBetweenNaives (1 : Fr) (1 : Fr) 4096 64 ((List.range 4096).map fun (i : Nat) => (i : Fr)) :
    Outcome Unit Unit) = .ok () :=
  C91_references (1 : Fr) (1 : Fr) 6 6 (by norm_num) (by norm_num) _ (by simp)

example : (dataIsContainedInTheFirstSectionOfCells (K := Fr) (1 : Fr) (1 : Fr) 4096 64
    ((List.range 4096).map fun (i : Nat) => (i : Fr)) : Outcome Unit Unit) = .ok () :=
  C91_data_in_cells (K := Fr) (1 : Fr) (1 : Fr) 6 6 rfl (by norm_num) _ (by simp)

example (sha256 : List UInt8 → List UInt8) : (smokeTestProveVerify (K := Fr) sha256 (1 : Fr) (1 : Fr) 4096 64
    ((List.range 4096).map fun (i : Nat) => (i : Fr)) : Outcome Unit Unit) = .ok () :=
  C91_prove_verify (K := Fr) sha256 (1 : Fr) (1 : Fr) _ (by simp)

/-- a small case of the test of the reference verifier: `X²` opened at `0` and `1`, checked at `0` and `2`, where `X / 2` takes the
claimed values. The repository's polynomial has 4096 coefficients. -/
example : (smokeTestNaiveMultiOpening (1 : Fr) (1 : Fr) [0, 1] [0, 0, 1] [0, 2] : Outcome Unit Unit) = .ok () := by
  have h2 : (2 : Fr)⁻¹ * 2 = 1 := inv_mul_cancel₀ (by decide +kernel)
  have hp : Spec.polyOf ([0, 0, 1] : List Fr) = X ^ 2 := by
    simp [Spec.polyOf, pow_two]
  refine (C91_naive_opening (GT := Fr) (1 : Fr) (1 : Fr) (by intro x h; simpa [pair] using h) [0, 1] [0, 0, 1] [0, 2] (by simp)
    (by simp) (by simp) (by decide +kernel) (by simp) (by decide +kernel) (C (2 : Fr)⁻¹ * X) ?_ ?_).2 ?_
  · exact lt_of_le_of_lt (degree_C_mul_X_le _) (by norm_num)
  · rw [hp]
    intro p hm
    simp only [List.map_cons, List.map_nil, List.zip_cons_cons, List.zip_nil_right, List.mem_cons, List.not_mem_nil, or_false] at hm
    rcases hm with rfl | rfl <;> simp [h2]
  · rw [hp]
    have hd : (([0, 1] : List Fr).map fun z => X - C z).prod = X ^ 2 - X := by
      simp only [List.map_cons, List.map_nil, List.prod_cons, List.prod_nil, C_0, C_1]
      ring
    have hdeg : (X ^ 2 - X : Fr[X]).natDegree = 2 := by compute_degree!
    have hm : (X ^ 2 - X : Fr[X]).Monic := by monicity!
    have : (X ^ 2 : Fr[X]) /ₘ (([0, 1] : List Fr).map fun z => X - C z).prod = 1 := by
      rw [hd]
      refine (div_modByMonic_unique 1 X hm ⟨by ring, ?_⟩).1
      rw [degree_eq_natDegree hm.ne_zero, hdeg, degree_X]
      norm_num
    rw [this]
    simp only [List.map_cons, List.map_nil, List.prod_cons, List.prod_nil, eval_one, eval_pow, eval_X, eval_mul, eval_C]
    intro h
    have h3 : (3 : Fr) = 0 := by
      linear_combination (2 : Fr) * h + h2
    exact absurd h3 (by decide +kernel)

/-- `batch_toeplitz.rs` 172-186: ten matrices of size 4 -/
def tenMatrices : List (List Fr × List Fr × List Fr) :=
  (List.range 10).map fun (i : Nat) => ([(i : Fr) + 1, i + 5, i + 6, i + 7], [(i : Fr) + 1, i + 2, i + 3, i + 4],
    [(i : Fr) + 1, i + 2, i + 3, i + 4])

example : (smokeAggregatedMatrixVectorMul (K := Fr) .no tenMatrices : Outcome Unit Unit) = .ok () :=
  (C91_batch_toeplitz (K := Fr) 2 (by norm_num) tenMatrices (by decide +kernel) (by
    intro d hd
    obtain ⟨i, -, rfl⟩ := List.mem_map.1 hd
    exact ⟨rfl, rfl, rfl⟩)).1

/-- a small case with precomputation: one matrix of size 1 and width 8; the repository's ten matrices of size 4 are not evaluated -/
example : (smokeAggregatedMatrixVectorMul (K := Fr) (.yes 8) [([3], [3], [(5 : Fr)])] : Outcome Unit Unit) = .ok () :=
  C91_batch_toeplitz_few (K := Fr) 0 (by norm_num) _ (by simp) (by simp) 8 (by norm_num) (by norm_num) (by
    intro d hd j _
    rw [List.mem_singleton.1 hd]
    simp only [Spec.dft, zero_add, pow_one, sum_range_succ, sum_range_zero, List.getD_cons_zero, List.getD_cons_succ, List.getD_nil,
      smul_zero, add_zero, zero_mul, pow_zero, one_smul]
    decide +kernel) (by norm_num)

end Verif
