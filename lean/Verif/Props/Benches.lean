import Verif.Lemmas.Benches
import Verif.Model.Benches
import Verif.Props.BlstMsm
import Verif.Props.Precomp
import Verif.Props.Recovery
import Verif.Props.Toy
import Verif.Props.Transforms
import Verif.Props.UnitTestsKzg

set_option linter.unusedSectionVars false

/-! C94: what the benchmarks measure. -/
namespace Verif
open Polynomial Finset

/-! ### erasure_codes -/

/-- In `m` rounds of `n` indices at least `m * (n - k)` lie outside of `k` residue classes. -/
theorem bench_outside_classes (m n : Nat) (hn : 0 < n) (er : List Nat) : ∃ S : Finset Nat, m * (n - er.length) ≤ S.card ∧
    ∀ p ∈ S, p < n * m ∧ p % n ∉ er := by
  refine ⟨((range m) ×ˢ (range n \ er.toFinset)).image (fun q => n * q.1 + q.2), ?_, ?_⟩
  · rw [Finset.card_image_of_injOn, Finset.card_product, Finset.card_range]
    · have h1 := Finset.le_card_sdiff er.toFinset (range n)
      have h2 := List.toFinset_card_le er
      rw [Finset.card_range] at h1
      exact Nat.mul_le_mul_left _ (by omega)
    · rintro ⟨a, b⟩ hab ⟨c, d⟩ hcd he
      simp only [coe_product, coe_range, coe_sdiff, Set.mem_prod, Set.mem_Iio, Set.mem_sdiff] at hab hcd he
      have e1 : b = d := by
        have := congrArg (· % n) he
        simpa [Nat.mul_add_mod, Nat.mod_eq_of_lt hab.2.1, Nat.mod_eq_of_lt hcd.2.1] using this
      subst e1
      have := Nat.eq_of_mul_eq_mul_left hn (Nat.add_right_cancel he)
      rw [this]
  · intro p hp
    obtain ⟨⟨a, b⟩, hab, rfl⟩ := Finset.mem_image.1 hp
    simp only [mem_product, mem_range, mem_sdiff, List.mem_toFinset] at hab ⊢
    constructor
    · calc n * a + b < n * a + n := by omega
        _ = n * (a + 1) := by ring
        _ ≤ n * m := Nat.mul_le_mul_left _ hab.1
    · rw [Nat.mul_add_mod, Nat.mod_eq_of_lt hab.2.1]
      exact hab.2.2

/-- A polynomial has no more roots among the powers of a root of unity than its degree. -/
theorem bench_powers_root_card (g : Fr[X]) (d k : Nat) (hk : k ≤ 32) (hd : g.natDegree ≤ d) (S : Finset Nat) (hS : ∀ p ∈ S, p < 2 ^ k)
    (hr : ∀ p ∈ S, g.eval (Spec.omega k ^ p) = 0) (hc : d < S.card) : g = 0 := by
  by_contra hne
  have hsub : S.image (fun p => Spec.omega k ^ p) ⊆ g.roots.toFinset := by
    intro x hx
    obtain ⟨p, hp, rfl⟩ := Finset.mem_image.1 hx
    rw [Multiset.mem_toFinset, mem_roots hne]
    exact hr p hp
  have hi : (S.image (fun p => Spec.omega k ^ p)).card = S.card := by
    apply Finset.card_image_of_injOn
    intro p hp q hq he
    exact (omega_primitive k hk).pow_inj (hS p hp) (hS q hq) he
  have h1 := Finset.card_le_card hsub
  have h2 := Multiset.toFinset_card_le g.roots
  have h3 := card_roots' g
  omega

/-- No polynomial of degree below 4096 takes the values of the benchmark outside of 32 of the 128 residue classes. -/
theorem bench_word (er : List Nat) (hl : er.length ≤ 32) (f : Fr[X]) (hdeg : f.degree < (4096 : Nat))
    (h : ∀ p < 8192, p % 128 ∉ er → f.eval (Spec.omega 13 ^ p) = -((p + 1 : Nat) : Fr)) : False := by
  obtain ⟨S, hcard, hS⟩ := bench_outside_classes 63 128 (by norm_num) er
  have hroot : ∀ p ∈ S, (f.comp (C (Spec.omega 13 ^ 128) * X) - f + C 128).eval (Spec.omega 13 ^ p) = 0 := by
    intro p hp
    obtain ⟨hp1, hp2⟩ := hS p hp
    have e1 := h p (by omega) hp2
    have e2 := h (p + 128) (by omega) (by rw [Nat.add_mod_right]; exact hp2)
    rw [eval_add, eval_sub, eval_comp, eval_mul, eval_C, eval_X, ← pow_add, Nat.add_comm 128, e1, e2, eval_C]
    push_cast
    ring
  have hf : f.natDegree ≤ 4095 := by
    by_cases h0 : f = 0
    · rw [h0, natDegree_zero]; exact Nat.zero_le _
    · have := (natDegree_lt_iff_degree_lt h0).2 hdeg
      omega
  have hgd : (f.comp (C (Spec.omega 13 ^ 128) * X) - f + C 128).natDegree ≤ 4095 := by
    refine natDegree_add_le_of_degree_le ((natDegree_sub_le_of_le ?_ hf).trans (max_self _).le) (by rw [natDegree_C]; exact Nat.zero_le _)
    refine le_trans natDegree_comp_le ?_
    calc _ ≤ f.natDegree * 1 := Nat.mul_le_mul_left _ (natDegree_C_mul_le _ _ |>.trans natDegree_X_le)
      _ ≤ 4095 := by omega
  have hg0 := bench_powers_root_card _ 4095 13 (by norm_num) hgd S (fun p hp => by have := (hS p hp).1; omega) hroot (by omega)
  have h0 := congrArg (eval 0) hg0
  rw [eval_add, eval_sub, eval_comp, eval_mul, eval_X, mul_zero, sub_self, zero_add, eval_C, eval_zero] at h0
  have : (128 : Fr) ≠ 0 := by decide +kernel
  exact this h0

/-- C94: whatever blocks the benchmark of the erasure decoder drops, every measured call returns an error: the word it decodes is
not a codeword and a quarter of the blocks is missing. The decoding that succeeds is not measured. -/
theorem C94_erasure_decoding (shuffled : List Nat) (h : shuffled.Perm (List.range 128)) :
    Benches.erasureCodeDecoding shuffled = .err (.PolynomialHasInvalidLength 8192 4096) := by
  have hl : (shuffled.take 32).length = 32 := by rw [List.length_take, h.length_eq, List.length_range]; rfl
  unfold Benches.erasureCodeDecoding Benches.generateUniqueRandomNumbers
  have hnew : (ReedSolomon.new 4096 2 128 : Outcome RSError ReedSolomon) = .ok (rsOf 12 1 7) := rs_new 12 1 7 (by norm_num) (by norm_num)
  simp only
  rw [hnew, Outcome.ok_bind]
  have hcw : (rsOf 12 1 7).codewordLength = 8192 := rfl
  rw [hcw, show 8192 / 128 / 2 = 32 by norm_num]
  rcases rs_recover 12 1 7 (by norm_num) (by norm_num) ((List.range 8192).map fun i => -((i + 1 : Nat) : Fr))
    (by rw [List.length_map, List.length_range]; norm_num) (shuffled.take 32) (by
      intro i hi
      have := h.mem_iff.1 (List.mem_of_mem_take hi)
      exact List.mem_range.1 this) (by rw [hl]; norm_num) with ⟨f, ⟨hdeg, hag⟩, -⟩ | ⟨-, hr⟩
  · exfalso
    refine bench_word (shuffled.take 32) hl.le f hdeg ?_
    intro p hp hper
    rw [hag p hp hper, (rep_map_range 8192 _).getD 0 hp]
  · exact hr

/-- C94: not even without any missing block the word of that benchmark would decode. -/
theorem C94_erasure_word : (rsOf 12 1 7).recoverPolynomialCoefficient ((List.range 8192).map fun i => -((i + 1 : Nat) : Fr)) [] =
    .err (.PolynomialHasInvalidLength 8192 4096) := by
  rcases rs_recover 12 1 7 (by norm_num) (by norm_num) ((List.range 8192).map fun i => -((i + 1 : Nat) : Fr))
    (by rw [List.length_map, List.length_range]; norm_num) [] (by simp) (by simp) with ⟨f, ⟨hdeg, hag⟩, -⟩ | ⟨-, hr⟩
  · exfalso
    refine bench_word [] (by simp) f hdeg ?_
    intro p hp hper
    rw [hag p hp hper, (rep_map_range 8192 _).getD 0 hp]
  · exact hr

/-! ### polynomial -/

/-- C94: the benchmarks of the polynomial crate measure the value of the polynomial at the point, and its values on the domain (of
scalars or of points); none of them can fail. -/
theorem C94_polynomial {ε G : Type} [AddCommGroup G] [Module Fr G] [DecidableEq G] (polynomial : List Fr) (hp : polynomial.length = 8192)
    (value : Fr) (points : List G) :
    Benches.polynomialEvaluation polynomial value = (Spec.polyOf polynomial).eval value ∧
    (∃ B, (Benches.fftScalars polynomial : Outcome ε (List Fr)) = .ok B ∧ B.length = 8192 ∧
      ∀ j < 8192, B[j]? = some ((Spec.polyOf polynomial).eval (Spec.omega 13 ^ j))) ∧
    (∃ B, (Benches.fftGroupElements points : Outcome ε (List G)) = .ok B ∧ B.length = 8192 ∧
      ∀ j < 8192, B[j]? = some (∑ i ∈ range 8192, (Spec.omega 13 ^ j) ^ i • points.getD i 0)) := by
  refine ⟨polyEval_eq _ _, ?_, ?_⟩
  · obtain ⟨d, B, hd, hB, hl, hv⟩ := C19_fft_scalars (ε := ε) 13 (by norm_num) polynomial
    refine ⟨B, ?_, hl, ?_⟩
    · unfold Benches.fftScalars
      have hd' : (Domain.new 8192 : Outcome ε Domain) = .ok d := hd
      rw [hd', Outcome.ok_bind, hB]
    · intro j hj
      rw [hv j hj, List.take_of_length_le (by rw [hp]; norm_num)]
  · obtain ⟨d, B, hd, hB, hl, hv⟩ := C19_fft_points (ε := ε) 13 (by norm_num) points
    refine ⟨B, ?_, hl, fun j hj => hv j hj⟩
    unfold Benches.fftGroupElements
    have hd' : (Domain.new 8192 : Outcome ε Domain) = .ok d := hd
    rw [hd', Outcome.ok_bind, hB]

/-! ### bls12_381 -/

/-- C94: the benchmark of the batched inversion computes the inverses and panics exactly if one of the random scalars is zero. -/
theorem C94_batch_inversion {ε : Type} (elements : List Fr) :
    ((0 : Fr) ∉ elements → (Benches.batchInversion elements : Outcome ε (List Fr)) = .ok (elements.map (·⁻¹))) ∧
    ((0 : Fr) ∈ elements → (Benches.batchInversion elements : Outcome ε (List Fr)) = .panic) :=
  ⟨fun h => batchInverse_ok _ (fun _ hx h0 => h (h0 ▸ hx)), batchInverse_panic _⟩

section
variable {ε K G : Type} [Field K] [DecidableEq K] [AddCommGroup G] [Module Fr G] [DecidableEq G] [Curve K G]

/-- C94: the two benchmarks of the precomputed multiplication, unless a random point is the identity: the one of blst computes the
sum; ours computes the sum or panics. -/
theorem C94_fixed_base_msm [LawfulCurve K G] (junk : List G) (need : Nat → Nat) (generators : List G) (hg : ∀ P ∈ generators, P ≠ 0)
    (scalars : List Fr) (hl : scalars.length = generators.length) :
    Benches.fixedBaseMsmBlst junk need generators scalars = .done ((generators.zip scalars).map (fun q => q.2 • q.1)).sum ∧
    ((Benches.fixedBaseMsmWindow K generators scalars : Outcome ε G) = .panic ∨
      (Benches.fixedBaseMsmWindow K generators scalars : Outcome ε G) = .ok ((generators.zip scalars).map (fun q => q.2 • q.1)).sum) := by
  constructor
  · unfold Benches.fixedBaseMsmBlst
    cases hm : FixedBaseMSMPrecompBLST.new junk need generators 8 with
    | done m => exact C78_msm junk need generators 8 hg scalars hl.ge m hm
    | fault => rw [blst_new_eq] at hm; split_ifs at hm
  · unfold Benches.fixedBaseMsmWindow
    rw [precompWindowNew_eq 8 (by norm_num), Outcome.ok_bind]
    obtain ⟨h1, h2⟩ := precompWindowMsm_eq (ε := ε) (K := K) 8 (by norm_num) (by norm_num) generators scalars hl.le hg
    by_cases hc : Spec.Clash Spec.bigMulti ((List.range (255 / 8 + 1)).map (fun i => windowPts 8 i generators scalars))
    · exact .inl (h1 hc)
    · exact .inr (h2 hc)

/-- C94: the benchmark of the linear combinations: the safe one computes the sum, and the unchecked one as well unless one of the
points is the identity. -/
theorem C94_msm (elements : List G) (scalars : List Fr) (hl : elements.length = scalars.length) :
    (Benches.msm elements scalars).2 = some ((elements.zip scalars).map (fun q => q.2 • q.1)).sum ∧
    ((∀ P ∈ elements, P ≠ 0) →
      (Benches.msm elements scalars).1 = some ((elements.zip scalars).map (fun q => q.2 • q.1)).sum) := by
  refine ⟨lincomb_eq _ _, fun h0 => ?_⟩
  unfold Benches.msm lincombUnsafe multiExp
  rw [if_neg (by simpa using hl), if_neg (by simpa using fun h => h0 0 h rfl)]
end

/-! ### kzg_multi_open -/

section
variable {ε : Type} {K G1 G2 GT : Type} [Field K] [DecidableEq K] [AddCommGroup G1] [Module Fr G1] [DecidableEq G1] [Curve K G1]
  [PointCodec G1] [AddCommGroup G2] [Module Fr G2] [AddCommGroup GT] [DecidableEq GT] [Pairing G1 G2 GT]

/-- the constructor of the prover accepts every key of the right length if it can build the tables -/
theorem bench_prover_new_exists (g : List G1) (q s e : Nat) (hs : 2 ≤ s) (hse : q + s ≤ e) (he : e < 32) (hg : g.length = 2 ^ (q + s))
    (w : Nat) (hw : 1 ≤ w) :
    ∃ p, (FK20Prover.new g (2 ^ (q + s)) (2 ^ q) (2 ^ e) (.yes w) : Outcome ε (FK20Prover K G1)) = .ok p := by
  have hq := Nat.two_pow_pos q
  have h3 : 2 ^ q < 2 ^ (q + s) := Nat.pow_lt_pow_right (by norm_num) (by omega)
  have h4 : 2 ^ (q + s) ≤ 2 ^ e := Nat.pow_le_pow_right (by norm_num) hse
  have hlv := length_srsVectors g (2 ^ q)
  unfold FK20Prover.new
  rw [assertP_true (isPow2_two_pow _), assertP_true (isPow2_two_pow _), assertP_true (by omega),
    assertP_true (isPow2_two_pow _), assertP_true (by omega), assertP_true (by omega)]
  simp only [Outcome.ok_bind]
  rw [batchToeplitz_new _ s (by omega) (by intro h; rw [h] at hlv; simp at hlv; omega) (srs_lengths g q s hs hg.ge (by omega)),
    Nat.pow_div (by omega) (by norm_num), domain_new_two_pow (e - q) (by omega),
    domain_new_two_pow e (by omega), domain_new_two_pow (q + s) (by omega),
    mapM_ok (f := fun v => (FixedBaseMSM.new v (.yes w) : Outcome ε (FixedBaseMSM K G1))) (g := fun v => .precomp (tableOf w v) w) (fun v _ => by
      simp only [FixedBaseMSM.new, precompWindowNew_eq w hw, Outcome.ok_bind, Outcome.pure_eq])]
  simp only [Outcome.ok_bind, Outcome.pure_eq]
  exact ⟨_, rfl⟩

/-- the prover of the benchmarks -/
theorem bench_prover (ck : List G1) (hl : ck.length = 4096) : ∃ M : Nat → FixedBaseMSM K G1,
    (FK20Prover.new ck 4096 64 (2 * 4096) (.yes 8) : Outcome ε (FK20Prover K G1)) = .ok (proverOf ck 6 6 13 M) ∧
    ∀ j < 2 ^ 7, (FixedBaseMSM.new (fftGens (srsVectors ck (2 ^ 6)) 7 j) (.yes 8) : Outcome ε (FixedBaseMSM K G1)) = .ok (M j) := by
  obtain ⟨p, hp⟩ := bench_prover_new_exists (ε := ε) (K := K) ck 6 6 13 (by norm_num) (by norm_num) (by norm_num) hl 8 (by norm_num)
  obtain ⟨M, rfl, hM⟩ := prover_new_ok ck 6 6 13 (by norm_num) (by norm_num) (by norm_num) hl (.yes 8) p hp
  exact ⟨M, hp, hM⟩

/-- both benchmarks of FK20 in terms of the prover -/
theorem bench_fk20 [LawfulPointCodec G1 48] [LawfulPairing G1 G2 GT] (sha256 : List UInt8 → List UInt8) (P : G1) (H : G2) :
    ∃ (ck : List G1) (M : Nat → FixedBaseMSM K G1), ck.length = 4096 ∧ (∀ i < 4096, ck[i]? = some ((-1 : Fr) ^ i • P)) ∧
    (∀ j < 2 ^ 7, (FixedBaseMSM.new (fftGens (srsVectors ck (2 ^ 6)) 7 j) (.yes 8) : Outcome ε (FixedBaseMSM K G1)) = .ok (M j)) ∧
    ∀ f : List Fr, f.length = 4096 →
      (Benches.computeProofFk20 (K := K) P H f : Outcome ε _) = (proverOf ck 6 6 13 M).computeMultiOpeningProofsPolyCoeff f ∧
      (((proverOf ck 6 6 13 M).computeMultiOpeningProofsPolyCoeff f : Outcome ε _) = .panic →
        (Benches.verifyProofFk20 K sha256 P H f : Outcome ε _) = .panic) ∧
      (((proverOf ck 6 6 13 M).computeMultiOpeningProofsPolyCoeff f : Outcome ε _) =
          .ok ((List.range 128).map (Spec.openingProof ck 13 6 (Spec.polyOf f)),
            (List.range 128).map fun k => (List.range 64).map fun j => (Spec.polyOf f).eval (Spec.point 13 (64 * k + j))) →
        (Benches.verifyProofFk20 K sha256 P H f : Outcome ε _) = .ok (.ok ())) := by
  classical
  obtain ⟨ck, g2, hk, hg2, hpt⟩ := testKeys (ε := ε) P H
  have hl := hpt.length_g1
  obtain ⟨M, hp, hM⟩ := bench_prover (ε := ε) (K := K) ck hl
  have hnp : (proverOf (K := K) ck 6 6 13 M).numProofs = 128 := by
    unfold FK20Prover.numProofs proverOf; norm_num
  have hin : ∀ f, ((proverOf (K := K) ck 6 6 13 M).inputToPoly (.polyCoeff f) : Outcome ε (List Fr)) = .ok f := fun f => rfl
  refine ⟨ck, M, hl, hpt.g1_eq, hM, fun f hf => ?_⟩
  have hv : (Benches.verifyProofFk20 K sha256 P H f : Outcome ε _) = (do
      let (proofs, cosetEvals) ← (proverOf ck 6 6 13 M).computeMultiOpeningProofsPolyCoeff f
      pure ((verifierOf ck g2).verifyMultiOpening sha256 [Spec.commitment ck (Spec.polyOf f)] (List.replicate 128 0) (List.range 128)
        cosetEvals proofs)) := by
    unfold Benches.verifyProofFk20
    rw [hk, Outcome.ok_bind]
    simp only
    rw [hp, Outcome.ok_bind, hnp, show 2 * 4096 = 8192 from rfl, testVerifier ck g2 P H hg2 hpt]
    unfold FK20Prover.computeMultiOpeningProofs FK20Prover.commit
    rw [hin, Outcome.ok_bind, Outcome.ok_bind, show (proverOf (K := K) ck 6 6 13 M).commitKey = ck from rfl,
      commitG1_ok ck f (by rw [hf, hl]), Outcome.ok_bind, Outcome.ok_bind]
  refine ⟨?_, fun h => ?_, fun h => ?_⟩
  · unfold Benches.computeProofFk20
    rw [hk, Outcome.ok_bind]
    simp only
    rw [hp, Outcome.ok_bind]
    unfold FK20Prover.computeMultiOpeningProofs
    rw [hin, Outcome.ok_bind]
  · rw [hv, h]
    rfl
  · rw [hv, h, Outcome.ok_bind]
    simp only
    rw [testVerifies (GT := GT) sha256 ck g2 P H hg2 hpt (Spec.polyOf f) (by
      have := Spec.degree_polyOf_lt f
      rwa [hf] at this)]
    rfl

/-- C94: the secret of the benchmarks of FK20 is `-1`, so in each table every second point is the same and the ones between are
its negatives. Both benchmarks panic for every polynomial that has, in one of the 64 even tables, scalars whose last bytes are not
zero and among which two neighbours have the same last byte. -/
theorem C94_fk20_panics [LawfulCurve K G1] [LawfulPointCodec G1 48] [LawfulPairing G1 G2 GT] (sha256 : List UInt8 → List UInt8)
    (P : G1) (hP : P ≠ 0) (H : G2) (f : List Fr) (hf : f.length = 4096) (i : Nat) (hi : i < 64) (hc : Spec.Collide (Spec.fkScalar f i)) :
    (Benches.computeProofFk20 (K := K) P H f : Outcome ε _) = .panic ∧
    (Benches.verifyProofFk20 K sha256 P H f : Outcome ε _) = .panic := by
  obtain ⟨ck, M, hl, hg, hM, h⟩ := bench_fk20 (ε := ε) (K := K) (GT := GT) sha256 P H
  obtain ⟨h1, h2, -⟩ := h f hf
  have hp := minus_one_panics ck hl P hP hg M hM f hf i hi hc
  exact ⟨h1.trans hp, h2 hp⟩

/-- C94: at most one polynomial in 400 gets through the benchmark of the proofs without a panic, and through the preparation of the
one of the verifier. -/
theorem C94_fk20_count [LawfulCurve K G1] [LawfulPointCodec G1 48] [LawfulPairing G1 G2 GT] (sha256 : List UInt8 → List UInt8)
    (P : G1) (hP : P ≠ 0) (H : G2) :
    400 * {f : Fin 4096 → Fr | (Benches.computeProofFk20 (K := K) P H (List.ofFn f) : Outcome ε _) ≠ .panic}.ncard ≤ frOrder ^ 4096 ∧
    400 * {f : Fin 4096 → Fr | (Benches.verifyProofFk20 K sha256 P H (List.ofFn f) : Outcome ε _) ≠ .panic}.ncard ≤ frOrder ^ 4096 := by
  constructor <;> refine few_without_collision _ (fun f hf i hi hc => hf ?_)
  · exact (C94_fk20_panics (ε := ε) (K := K) (GT := GT) sha256 P hP H _ List.length_ofFn i hi hc).1
  · exact (C94_fk20_panics (ε := ε) (K := K) (GT := GT) sha256 P hP H _ List.length_ofFn i hi hc).2

/-- C94: unless they panic, the benchmarks of FK20 compute the proofs of the polynomial, and the verifier accepts them. -/
theorem C94_fk20_otherwise [LawfulCurve K G1] [LawfulPointCodec G1 48] [LawfulPairing G1 G2 GT] (sha256 : List UInt8 → List UInt8)
    (P : G1) (hP : P ≠ 0) (H : G2) (f : List Fr) (hf : f.length = 4096) :
    ((Benches.computeProofFk20 (K := K) P H f : Outcome ε _) = .panic ∧
      (Benches.verifyProofFk20 K sha256 P H f : Outcome ε _) = .panic) ∨
    ∃ ck : List G1, ck.length = 4096 ∧ (∀ i < 4096, ck[i]? = some ((-1 : Fr) ^ i • P)) ∧
      (Benches.computeProofFk20 (K := K) P H f : Outcome ε _) =
        .ok ((List.range 128).map (Spec.openingProof ck 13 6 (Spec.polyOf f)),
          (List.range 128).map fun k => (List.range 64).map fun j => (Spec.polyOf f).eval (Spec.point 13 (64 * k + j))) ∧
      (Benches.verifyProofFk20 K sha256 P H f : Outcome ε _) = .ok (.ok ()) := by
  obtain ⟨ck, M, hl, hg, hM, h⟩ := bench_fk20 (ε := ε) (K := K) (GT := GT) sha256 P H
  obtain ⟨h1, h2, h3⟩ := h f hf
  have hu : Usable ck (.yes 8) := .inr ⟨8, rfl, by norm_num, by norm_num, noIdentity_minus_one ck P hg hP⟩
  rcases multiOpening_sound ck f 6 6 13 (by norm_num) (by norm_num) (by norm_num) hl hf M (msmSound_of ck hl (.yes 8) hu M hM) with hr | hr
  · exact .inl ⟨h1.trans hr, h2 hr⟩
  · exact .inr ⟨ck, hl, hg, h1.trans hr, h3 hr⟩

theorem bench_getD_zeros {l : List Fr} (h : ∀ x ∈ l, x = 0) (k : Nat) : l.getD k 0 = 0 := by
  rw [List.getD]
  cases hk : l[k]? with
  | none => rfl
  | some x => exact h x (List.mem_of_getElem? hk)

theorem bench_hScals_zero (f : List Fr) (hz : ∀ x ∈ f, x = 0) (q s j : Nat) : ∀ x ∈ hScals f q s j, x = 0 := by
  intro x hx
  unfold hScals fftScals at hx
  obtain ⟨tm, htm, rfl⟩ := List.mem_map.1 hx
  obtain ⟨i, -, rfl⟩ := List.mem_map.1 htm
  have hm : ∀ y ∈ circulantFromToeplitz
      (⟨(List.range (2 ^ s)).map (fun t => f.getD (2 ^ (q + s) - 1 - (i + t * 2 ^ q)) 0),
        (List.range (2 ^ s)).map (fun t => if t = 0 then f.getD (2 ^ (q + s) - 1 - i) 0 else 0)⟩ : ToeplitzMatrix), y = 0 := by
    intro y hy
    unfold circulantFromToeplitz at hy
    rw [List.mem_append, List.mem_reverse, List.mem_append] at hy
    rcases hy with hy | hy | hy
    · obtain ⟨t, -, rfl⟩ := List.mem_map.1 hy
      split_ifs
      · exact bench_getD_zeros hz _
      · rfl
    · obtain ⟨t, -, rfl⟩ := List.mem_map.1 (List.mem_of_mem_drop hy)
      exact bench_getD_zeros hz _
    · obtain ⟨t, -, rfl⟩ := List.mem_map.1 (List.mem_of_mem_take hy)
      exact bench_getD_zeros hz _
  unfold Spec.dft
  exact Finset.sum_eq_zero fun t _ => by simp only [bench_getD_zeros hm, smul_zero]

theorem bench_windowPts_zero (w i : Nat) (gens : List G1) (x : List Fr) (hx : ∀ s ∈ x, s = 0) : windowPts w i gens x = [] := by
  unfold windowPts
  rw [List.filterMap_eq_nil_iff]
  rintro ⟨P, s⟩ hm
  rw [hx s (List.of_mem_zip hm).2]
  simp [boothDigit, carryBit]

/-- C94: the zero polynomial is one of the few for which they do not panic. -/
theorem C94_fk20_zero [LawfulCurve K G1] [LawfulPointCodec G1 48] [LawfulPairing G1 G2 GT] (sha256 : List UInt8 → List UInt8)
    (P : G1) (hP : P ≠ 0) (H : G2) (f : List Fr) (hf : f.length = 4096) (hz : ∀ x ∈ f, x = 0) :
    (Benches.verifyProofFk20 K sha256 P H f : Outcome ε _) = .ok (.ok ()) := by
  obtain ⟨ck, M, hl, hg, hM, h⟩ := bench_fk20 (ε := ε) (K := K) (GT := GT) sha256 P H
  obtain ⟨-, -, h3⟩ := h f hf
  apply h3
  have hn := noIdentity_minus_one ck P hg hP
  rw [multiOpening_congr ck f 6 6 13 (by norm_num) hf M (fun j => .noPrecomp (fftGens (srsVectors ck (2 ^ 6)) 7 j))]
  · exact multiOpening_exact ck f 6 6 13 (by norm_num) (by norm_num) (by norm_num) hl hf _ (msmExact_no ck 6 6 _ fun j _ => rfl)
  · intro j hj
    have hnew := hM j hj
    simp only [FixedBaseMSM.new, precompWindowNew_eq 8 (by norm_num), Outcome.ok_bind, Outcome.pure_eq, Outcome.ok.injEq] at hnew
    rw [← hnew]
    simp only [FixedBaseMSM.msm]
    rw [(precompWindowMsm_eq (ε := ε) (K := K) 8 (by norm_num) (by norm_num) _ _
      (by rw [length_hScals, fftGens_eq ck hl, List.length_map, List.length_range]; norm_num) (by
        rw [fftGens_eq ck hl]
        intro Q hQ
        obtain ⟨k, hk, rfl⟩ := List.mem_map.1 hQ
        exact hn k (List.mem_range.1 hk) j hj)).2 (by
        intro hc
        obtain ⟨l, hlm, a, n, h1, h2, -⟩ := clash_segment hc
        obtain ⟨i, -, rfl⟩ := List.mem_map.1 hlm
        rw [bench_windowPts_zero _ _ _ _ (bench_hScals_zero f hz 6 6 j)] at h2
        simp at h2
        omega)]
    simp [lincomb_eq, expect]

/-! ### eip7594 -/

/-- C94: the blob of the benchmarks is the blob of the polynomial with the values `0, -1, ..., -4095`. -/
theorem C94_dummy_blob : ∃ (blob : List UInt8) (f : Fr[X]), (∀ ε : Type, (Benches.dummyBlob : Outcome ε _) = .ok blob) ∧
    Spec.IsBlobPoly blob f ∧ ∀ i < 4096, f.eval (Spec.point 12 i) = -(i : Fr) := by
  have hlen : ∀ l ∈ (List.range 4096).map (fun i : Nat => scalarToBytesBE (-(i : Fr))), l.length = 32 := by
    intro l hl
    obtain ⟨j, -, rfl⟩ := List.mem_map.1 hl
    exact length_scalarToBytesBE _
  have hb : ((List.range 4096).map fun i : Nat => -(i : Fr)).flatMap scalarToBytesBE =
      ((List.range 4096).map (fun i : Nat => scalarToBytesBE (-(i : Fr)))).flatten := by
    rw [List.flatMap, List.map_map]
    rfl
  have hl : ((List.range 4096).map (fun i : Nat => scalarToBytesBE (-(i : Fr)))).flatten.length = 131072 := by
    rw [length_flatten_const hlen, List.length_map, List.length_range]
  have henc : ∀ i < 4096, Spec.Encodes (Spec.block 32 i ((List.range 4096).map (fun i : Nat => scalarToBytesBE (-(i : Fr)))).flatten)
      (-(i : Fr)) := by
    intro i hi
    rw [block_flatten hlen (by rw [List.length_map, List.length_range]; exact hi), List.getElem_map, List.getElem_range]
    exact encodes_scalarToBytesBE _
  obtain ⟨f, hf⟩ := (blobPoly_iff hl).2 fun i hi => (exists_encodes_iff (henc i hi).1).1 ⟨_, henc i hi⟩
  refine ⟨_, f, fun ε => ?_, hf, fun i hi => encodes_inj (hf.2.2 i hi) (henc i hi)⟩
  unfold Benches.dummyBlob
  simp only
  rw [hb, assertP_true hl]
  rfl

/-- C94: creating the context with precomputed tables of width 8 succeeds with every setup of the right size. -/
theorem C94_init_context (setup : SetupPoints G1 G2) (h1 : setup.g1Monomial.length = 4096)
    (h2 : 65 ≤ setup.g2Monomial.length) (h3 : setup.g2Monomial.length ≤ 4096) :
    ∃ ctx, (Benches.initContext setup : Outcome ε (DASContext K G1 G2)) = .ok ctx ∧
      (DASContext.new setup (.yes 8) : Outcome ε (DASContext K G1 G2)) = .ok ctx := by
  obtain ⟨ctx, h⟩ := context_exists_of (ε := ε) (K := K) setup h1 h2 h3 (.yes 8) (fun v => .precomp (tableOf 8 v) 8) (fun v => by
    simp only [FixedBaseMSM.new, precompWindowNew_eq 8 (by norm_num), Outcome.ok_bind, Outcome.pure_eq])
  exact ⟨ctx, h, h⟩

/-- C94: the benchmark of the recovery measures the same computation of proofs as the one of the proofs: for every setup both end in
the same way, and if they do not panic they return the cells and proofs that the default context returns. -/
theorem C94_compute_recover [LawfulCurve K G1] (setup : SetupPoints G1 G2) (h1 : setup.g1Monomial.length = 4096)
    (h2 : 65 ≤ setup.g2Monomial.length) (h3 : setup.g2Monomial.length ≤ 4096) (defaultCtx : DASContext K G1 G2)
    (hd : (DASContext.new setup .no : Outcome Error (DASContext K G1 G2)) = .ok defaultCtx) :
    Benches.recoverCellsAndComputeKzgProofs setup defaultCtx = Benches.computeCellsAndKzgProofs (K := K) setup ∧
    (Spec.NoIdentity setup.g1Monomial → Benches.computeCellsAndKzgProofs (K := K) setup = .panic ∨
      ∃ blob r, (Benches.dummyBlob : Outcome Error _) = .ok blob ∧ defaultCtx.computeCellsAndKzgProofs blob = .ok r ∧
        Benches.computeCellsAndKzgProofs (K := K) setup = .ok r) := by
  obtain ⟨blob, f, hb, hf, -⟩ := C94_dummy_blob
  obtain ⟨ctx, -, hctx⟩ := C94_init_context (ε := Error) (K := K) setup h1 h2 h3
  obtain ⟨M, hp, hM, hrs, -⟩ := context_fields setup .no h1 defaultCtx hd
  obtain ⟨M', hp', hM', hrs', -⟩ := context_fields setup (.yes 8) h1 ctx hctx
  have hr : defaultCtx.computeCellsAndKzgProofs blob = .ok (cellsOf f, proofsOf setup.g1Monomial f) := by
    rw [cells_of_blob hp hf, prove_exact _ h1 M (msmExact_no _ 6 6 M hM) f hf.1]
  have hc : Benches.computeCellsAndKzgProofs (K := K) setup = ctx.computeCellsAndKzgProofs blob := by
    unfold Benches.computeCellsAndKzgProofs
    rw [hb, Outcome.ok_bind, hctx, Outcome.ok_bind]
  obtain ⟨-, hall⟩ := C02_cells_are_evaluations setup .no h1 defaultCtx hd blob hf.2.1 _ _ hr
  obtain ⟨hlen, hcell⟩ := hall f hf
  refine ⟨?_, fun hn => ?_⟩
  · have hic : ∀ p ∈ (List.range 64).zip ((cellsOf f).take 64), Spec.IsCell f p.1 p.2 := by
      intro p hpm
      obtain ⟨i, hi, rfl⟩ := List.mem_iff_getElem.1 hpm
      rw [List.length_zip, List.length_range, List.length_take] at hi
      rw [List.getElem_zip, List.getElem_range, List.getElem_take]
      exact hcell i (by omega)
    have hcs : ∀ c ∈ (cellsOf f).take 64, ∃ i, Spec.IsCell f i c := by
      intro c hc
      obtain ⟨i, hi, rfl⟩ := List.mem_iff_getElem.1 hc
      rw [List.length_take] at hi
      rw [List.getElem_take]
      exact ⟨i, hcell i (by omega)⟩
    have hok := (recoverPolynomialCoeff_ok_iff (inds := List.range 64) (cells := (cellsOf f).take 64) (by
      intro c hc
      obtain ⟨i, hi⟩ := hcs c hc
      exact hi.1) (Spec.coeffs 4096 f)).2 ⟨⟨by rw [List.length_range, List.length_take, hlen]; rfl,
        fun i hi => lt_trans (List.mem_range.1 hi) (by norm_num), List.nodup_range, by rw [List.length_range], by
        intro c hc j hj
        obtain ⟨i, hi⟩ := hcs c hc
        exact (exists_encodes_iff (hi.2 j hj).1).1 ⟨_, hi.2 j hj⟩⟩, f, ⟨hf.1, hic⟩, rfl⟩
    rw [hc, cells_of_blob hp' hf, ← recover_run hp' hrs' hok]
    unfold Benches.recoverCellsAndComputeKzgProofs Benches.dummyCommitmentCellsAndProofs
    rw [hb, Outcome.ok_bind, commitment_of_blob h1 hp hf, hr]
    simp only [UnitTests.unwrap, Outcome.ok_bind, Outcome.pure_eq]
    rw [hlen, slice_zero (by rw [List.length_range]; decide), Outcome.ok_bind, slice_zero (by rw [hlen]; decide), Outcome.ok_bind,
      hctx, Outcome.ok_bind, show CELLS_PER_EXT_BLOB / 2 = 64 from rfl, List.take_range]
    rfl
  · rw [hc, cells_of_blob hp' hf]
    rcases prove_sound (ε := Error) _ h1 M' (msmSound_of _ h1 (.yes 8) (.inr ⟨8, rfl, by norm_num, by norm_num, hn⟩) M' hM') f hf.1 _ rfl with h | h
    · exact .inl h
    · exact .inr ⟨blob, _, hb _, hr, h⟩

/-- C94: the benchmarks of the proofs and of the recovery can panic with no more than `2^34` secrets of a powers-of-tau setup. -/
theorem C94_few_secrets : ∃ bad : Finset Fr, bad.card ≤ 2 ^ 34 ∧
    ∀ (K G1 G2 : Type) [Field K] [DecidableEq K] [AddCommGroup G1] [Module Fr G1] [DecidableEq G1] [Curve K G1]
      [LawfulCurve K G1] [PointCodec G1] [AddCommGroup G2] [Module Fr G2]
      (τ : Fr) (_ : τ ∉ bad) (setup : SetupPoints G1 G2) (P : G1) (H : G2) (_ : P ≠ 0)
      (_ : Spec.PowersOfTau setup.g1Monomial setup.g2Monomial τ P H) (defaultCtx : DASContext K G1 G2)
      (_ : (DASContext.new setup .no : Outcome Error (DASContext K G1 G2)) = .ok defaultCtx),
      ∃ blob r, (Benches.dummyBlob : Outcome Error _) = .ok blob ∧ defaultCtx.computeCellsAndKzgProofs blob = .ok r ∧
        Benches.computeCellsAndKzgProofs (K := K) setup = .ok r ∧
        Benches.recoverCellsAndComputeKzgProofs setup defaultCtx = .ok r := by
  obtain ⟨blob, f, hb, hf, -⟩ := C94_dummy_blob
  obtain ⟨bad, hc, h⟩ := C25_few_secrets 8 (by norm_num) (by norm_num) f hf.1
  refine ⟨bad, hc, ?_⟩
  intro K G1 G2 _ _ _ _ _ _ _ _ _ _ τ hτ setup P H hP hpt ctx hctx
  obtain ⟨ctx', -, hctx'⟩ := C94_init_context (ε := Error) (K := K) setup hpt.length_g1 hpt.length_g2.1 hpt.length_g2.2
  obtain ⟨h', -⟩ := h K G1 G2 τ hτ setup P H hP hpt ctx ctx' hctx hctx'
  obtain ⟨e, r, hr⟩ := h' blob hf
  have hcomp : Benches.computeCellsAndKzgProofs (K := K) setup = .ok r := by
    unfold Benches.computeCellsAndKzgProofs
    rw [hb, Outcome.ok_bind, hctx', Outcome.ok_bind, hr]
  exact ⟨blob, r, hb _, e ▸ hr, hcomp,
    (C94_compute_recover setup hpt.length_g1 hpt.length_g2.1 hpt.length_g2.2 ctx hctx).1.trans hcomp⟩

theorem bench_map_const_range {α : Type} (n : Nat) (a : α) : (List.range n).map (fun _ => a) = List.replicate n a := by
  rw [List.map_const', List.length_range]

theorem bench_map_getD_range {α : Type} (l : List α) (d : α) (n : Nat) (hn : l.length = n) : (List.range n).map (fun k => l.getD k d) = l := by
  subst hn
  apply List.ext_getElem
  · rw [List.length_map, List.length_range]
  · intro i h h'
    rw [List.getElem_map, List.getElem_range, List.getD, List.getElem?_eq_getElem h', Option.getD_some]

/-- C94: the benchmark of the verification measures an accepting verification, for every powers-of-tau setup, every pairing and every
hash function. -/
theorem C94_verify [LawfulCurve K G1] [LawfulPointCodec G1 48] [LawfulPairing G1 G2 GT] (sha256 : List UInt8 → List UInt8)
    (setup : SetupPoints G1 G2) (τ : Fr) (P : G1) (H : G2) (hpt : Spec.PowersOfTau setup.g1Monomial setup.g2Monomial τ P H)
    (defaultCtx : DASContext K G1 G2) (hd : (DASContext.new setup .no : Outcome Error (DASContext K G1 G2)) = .ok defaultCtx) :
    Benches.verifyCellKzgProofBatch sha256 setup defaultCtx = .ok () := by
  have h1 := hpt.length_g1
  obtain ⟨blob, f, hb, hf, -⟩ := C94_dummy_blob
  obtain ⟨ctx, -, hctx⟩ := C94_init_context (ε := Error) (K := K) setup h1 hpt.length_g2.1 hpt.length_g2.2
  obtain ⟨M, hp, hM, hrs, -⟩ := context_fields setup .no h1 defaultCtx hd
  have hr : defaultCtx.computeCellsAndKzgProofs blob = .ok (cellsOf f, proofsOf setup.g1Monomial f) := by
    rw [cells_of_blob hp hf, prove_exact _ h1 M (msmExact_no _ 6 6 M hM) f hf.1]
  have hcom := commitment_of_blob h1 hp hf
  have hcl : (cellsOf f).length = 128 := by unfold cellsOf; rw [List.length_map, List.length_range]
  have hpl : (proofsOf setup.g1Monomial f).length = 128 := by unfold proofsOf; rw [List.length_map, List.length_range]
  have h := C05_completeness_precomp (GT := GT) setup τ P H hpt (.yes 8) ctx hctx sha256
    ((List.range 128).map fun k => (toCompressed (Spec.commitment setup.g1Monomial f), k, (cellsOf f).getD k [],
      (proofsOf setup.g1Monomial f).getD k [])) (by
      intro t ht
      obtain ⟨k, hk, rfl⟩ := List.mem_map.1 ht
      have hk := List.mem_range.1 hk
      exact ⟨.no, defaultCtx, .inl rfl, hd, blob, _, _, hf.2.1, hcom, hr, (rep_getD _ []).2 k (by omega), (rep_getD _ []).2 k (by omega)⟩)
  simp only [List.map_map, Function.comp_def] at h
  rw [bench_map_const_range, List.map_id', bench_map_getD_range _ _ _ hcl, bench_map_getD_range _ _ _ hpl] at h
  unfold Benches.verifyCellKzgProofBatch Benches.dummyCommitmentCellsAndProofs
  rw [hb, Outcome.ok_bind, hcom, hr]
  simp only [UnitTests.unwrap, Outcome.ok_bind, Outcome.pure_eq]
  rw [hctx, Outcome.ok_bind, show CELLS_PER_EXT_BLOB = 128 from rfl]
  exact h
end

/-! ### examples -/

section
open Toy

/-- C94: the dropped blocks of the erasure benchmark if the shuffle changes nothing, and if it reverses the list -/
example : (List.range 128).Perm (List.range 128) ∧ (List.range 128).reverse.Perm (List.range 128) :=
  ⟨List.Perm.refl _, List.reverse_perm _⟩

theorem bench_top_ones (a b : Nat) : ∃ f : List Fr, f.length = a + b ∧ (∀ k < a, f.getD k 0 = 0) ∧ ∀ k, a ≤ k → k < a + b → f.getD k 0 = 1 := by
  refine ⟨List.replicate a 0 ++ List.replicate b 1, by rw [List.length_append, List.length_replicate, List.length_replicate], ?_, ?_⟩
  · intro k h
    rw [List.getD_append _ _ _ _ (by rw [List.length_replicate]; exact h), List.getD_replicate _ h]
  · intro k h h'
    rw [List.getD_append_right _ _ _ _ (by rw [List.length_replicate]; exact h), List.length_replicate, List.getD_replicate _ (by omega)]

/-- C94: the hypotheses of `C94_fk20_panics` hold for `X^4032 + ... + X^4095` in all 64 tables, so the benchmarks panic, in particular
in the instance of the model by the scalar field. -/
example : ∃ f : List Fr, f.length = 4096 ∧ (∀ k < 4032, f.getD k 0 = 0) ∧ (∀ k, 4032 ≤ k → k < 4096 → f.getD k 0 = 1) ∧
    (∀ i, Spec.Collide (Spec.fkScalar f i)) ∧
    (Benches.computeProofFk20 (K := Fr) (1 : Fr) (1 : Fr) f : Outcome Empty _) = .panic ∧
    (Benches.verifyProofFk20 Fr (fun _ => []) (1 : Fr) (1 : Fr) f : Outcome Empty _) = .panic := by
  obtain ⟨f, hf, h0, h1⟩ := bench_top_ones 4032 64
  have hs : ∀ i, ∀ j < 64, Spec.fkScalar f i j = 2 := by
    intro i j hj
    unfold Spec.fkScalar
    have e : ∀ u ∈ range 63, Spec.omega 7 ^ ((u + 1) * (2 * i)) * f.getD (4095 - j - 64 * (63 - u)) 0 = 0 := by
      intro u hu
      have hu := Finset.mem_range.1 hu
      rw [h0 (4095 - j - 64 * (63 - u)) (by omega), mul_zero]
    rw [h1 (4095 - j) (by omega) (by omega), Finset.sum_eq_zero e, mul_one, add_zero]
  have h : ∀ i, Spec.Collide (Spec.fkScalar f i) := by
    intro i
    have h2 : (2 : Fr).val % 256 = 2 := by decide +kernel
    refine ⟨fun j hj => ?_, 0, by norm_num, ?_⟩
    · rw [hs i j hj, h2]
      norm_num
    · rw [hs i (2 * 0) (by norm_num), hs i (2 * 0 + 1) (by norm_num)]
  exact ⟨f, hf, h0, h1, h, C94_fk20_panics (GT := Fr) (fun _ => []) 1 one_ne_zero 1 f hf 0 (by norm_num) (h 0)⟩

theorem bench_zeros (n : Nat) : ∃ f : List Fr, f.length = n ∧ ∀ x ∈ f, x = 0 :=
  ⟨List.replicate n 0, List.length_replicate, fun _ hx => List.eq_of_mem_replicate hx⟩

/-- C94: the zero polynomial, in the instance -/
example : ∃ f : List Fr, f.length = 4096 ∧ (∀ x ∈ f, x = 0) ∧
    (Benches.verifyProofFk20 Fr (fun _ => []) (1 : Fr) (1 : Fr) f : Outcome Empty _) = .ok (.ok ()) := by
  obtain ⟨f, hf, hz⟩ := bench_zeros 4096
  exact ⟨f, hf, hz, C94_fk20_zero (GT := Fr) (fun _ => []) 1 one_ne_zero 1 f hf hz⟩

/-- C94: a setup with which all benchmarks of the API succeed -/
example : ∃ (τ : Fr) (defaultCtx : DASContext Fr Fr Fr), (DASContext.new (setup τ) .no : Outcome Error _) = .ok defaultCtx ∧
    (∃ r, Benches.computeCellsAndKzgProofs (K := Fr) (setup τ) = .ok r ∧
      Benches.recoverCellsAndComputeKzgProofs (setup τ) defaultCtx = .ok r) ∧
    Benches.verifyCellKzgProofBatch (fun _ => []) (setup τ) defaultCtx = .ok () := by
  obtain ⟨bad, hc, h⟩ := C94_few_secrets
  obtain ⟨τ, hτ⟩ : ∃ τ, τ ∉ bad := by
    by_contra hne
    push Not at hne
    have : bad = Finset.univ := Finset.eq_univ_iff_forall.2 hne
    rw [this, Finset.card_univ, ZMod.card] at hc
    exact absurd hc (by norm_num [frOrder])
  obtain ⟨ctx, hctx⟩ := context τ
  obtain ⟨blob, r, -, -, h1, h2⟩ := h Fr Fr Fr τ hτ (setup τ) 1 1 one_ne_zero (powersOfTau τ) ctx hctx
  exact ⟨τ, ctx, hctx, ⟨r, h1, h2⟩, C94_verify (GT := Fr) _ (setup τ) τ 1 1 (powersOfTau τ) ctx hctx⟩

/-- C94: the hypotheses of the benchmarks of the MSMs: two points, neither of them the identity, and two scalars -/
example (s t : Fr) : (∀ P ∈ ([3, 5] : List Fr), P ≠ 0) ∧ ([s, t] : List Fr).length = ([3, 5] : List Fr).length := by
  have h3 : (3 : Fr) ≠ 0 := by decide +kernel
  have h5 : (5 : Fr) ≠ 0 := by decide +kernel
  refine ⟨?_, rfl⟩
  intro P hP
  rcases List.mem_cons.1 hP with rfl | hP
  · exact h3
  · rw [List.mem_singleton.1 hP]
    exact h5
end

end Verif
