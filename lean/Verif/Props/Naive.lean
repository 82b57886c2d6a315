import Verif.Lemmas.NaiveToeplitz
import Verif.Lemmas.NaiveVerify
import Verif.Props.Algebra
import Verif.Props.CommitKey

set_option linter.unusedSectionVars false

/-! C62: the reference implementations that the repository tests its fast algorithms against are right, and the fast
algorithms agree with them on all inputs. -/
namespace Verif
open Polynomial Finset

variable {ε : Type}

section
variable {G : Type} [AddCommGroup G] [Module Fr G] [DecidableEq G]

/-- C62, opening: for distinct points, two at least, and a key long enough for the quotient, `naive::compute_multi_opening`
returns the commitment to the quotient `q` of the division by `(X - r₁)⋯(X - rₙ)`, and the values at the points. -/
theorem C62_open (g : List G) (f points : List Fr) (hn : 2 ≤ points.length) (hd : points.Nodup)
    (hg : f.length ≤ g.length + points.length) (q r : Fr[X]) (hr : r.degree < points.length)
    (hq : Spec.polyOf f = (points.map (fun z => X - C z)).prod * q + r) :
    (naiveComputeMultiOpening g f points : Outcome ε _) =
      .ok (Spec.commitment g q, points.map (fun z => (Spec.polyOf f).eval z)) := by
  rw [naiveOpen_eq g f points hn hd hg]
  have := (div_modByMonic_unique (f := Spec.polyOf f) q r (prod_monic points) ⟨by rw [hq]; ring, by rw [prod_degree]; exact hr⟩).1
  rw [this]

/-- C62, opening: fewer than two points, or a repeated point, make it panic, whatever the key and the polynomial. -/
theorem C62_open_panics (g : List G) (f points : List Fr) (h : points.length < 2 ∨ ¬points.Nodup) :
    (naiveComputeMultiOpening g f points : Outcome ε _) = .panic := naiveOpen_panic g f points h

/-- C62, FK20 reference: `naive::open_multi_point` returns the proof and the values of each coset, with any key that is long
enough. -/
theorem C62_open_multi_point (g : List G) (f : List Fr) (q s e : Nat) (hqe : q < e) (hse : q + s ≤ e) (he : e < 32)
    (hg : 2 ^ (q + s) ≤ g.length) (hf : f.length = 2 ^ (q + s)) :
    ∃ proofs values, (naiveOpenMultiPoint g f (2 ^ q) (2 ^ e) : Outcome ε _) = .ok (proofs, values) ∧
      proofs.length = 2 ^ (e - q) ∧ values.length = 2 ^ (e - q) ∧
      ∀ k < 2 ^ (e - q), proofs[k]? = some (Spec.openingProof g e q (Spec.polyOf f) k) ∧
        values[k]? = some ((List.range (2 ^ q)).map (fun j => (Spec.polyOf f).eval (Spec.point e (2 ^ q * k + j)))) := by
  refine ⟨_, _, naiveOpenMultiPoint_eq g f q s e hqe hse he hg hf, by simp, by simp, ?_⟩
  intro k hk
  simp [hk]

/-- C62, the two references agree (the test `test_consistency_between_naive_kzg_naive_fk20`): opening on the points of the `k`-th
coset that `generate_cosets` lists returns the `k`-th proof of `open_multi_point` and, in another order, its `k`-th values. -/
theorem C62_references_agree (g : List G) (f : List Fr) (q s e : Nat) (hq : 1 ≤ q) (hqe : q < e) (hse : q + s ≤ e) (he : e < 32)
    (hg : 2 ^ (q + s) ≤ g.length) (hf : f.length = 2 ^ (q + s)) :
    ∃ proofs values cosets, (naiveOpenMultiPoint g f (2 ^ q) (2 ^ e) : Outcome ε _) = .ok (proofs, values) ∧
      (generateCosets (2 ^ e) (2 ^ q) true : Outcome ε _) = .ok cosets ∧ cosets.length = 2 ^ (e - q) ∧
      ∀ k < 2 ^ (e - q), ∃ coset proof vals w, cosets[k]? = some coset ∧ proofs[k]? = some proof ∧
        values[k]? = some vals ∧ (naiveComputeMultiOpening g f coset : Outcome ε _) = .ok (proof, w) ∧ w.Perm vals := by
  refine ⟨_, _, _, naiveOpenMultiPoint_eq g f q s e hqe hse he hg hf, generateCosets_eq e q hqe.le he true, by simp, ?_⟩
  intro k hk
  have hp := coset_perm e q k hqe.le he
  refine ⟨_, _, _, _, by simp [hk]; rfl, by simp [hk]; rfl, by simp [hk]; rfl, ?_, (hp.map (fun z => (Spec.polyOf f).eval z)).trans
    (List.Perm.of_eq (by rw [List.map_map]; rfl))⟩
  have hnd : ((List.range (2 ^ q)).map (fun j => Spec.omega e ^ Spec.brev (e - q) k * Spec.omega q ^ j)).Nodup := by
    refine List.Nodup.map_on ?_ List.nodup_range
    intro a ha b hb hab
    exact (omega_primitive q (by omega)).pow_inj (List.mem_range.1 ha) (List.mem_range.1 hb)
      (mul_left_cancel₀ (pow_ne_zero _ ((omega_primitive e (by omega)).ne_zero (Nat.two_pow_pos e).ne')) hab)
  rw [naiveOpen_eq g f _ (by simpa using Nat.pow_le_pow_right (n := 2) (by norm_num) hq) hnd (by omega)]
  congr 2
  unfold Spec.openingProof Spec.vanishing
  congr 2
  rw [(hp.map _).prod_eq, List.map_map]
  rfl

/-- C62, fast products: the two fast products with a Toeplitz matrix of size a power of two are the ordinary product. -/
theorem C62_toeplitz (tm : ToeplitzMatrix) (k : Nat) (hk : k + 1 ≤ 32) (hr : tm.row.length = 2 ^ k)
    (hc : tm.col.length = 2 ^ k) (v : List G) (hv : v.length = 2 ^ k) :
    ∃ r, (tm.vectorMulG1 v : Outcome ε (List G)) = .ok r ∧ r.length = 2 ^ k ∧
      ∀ a < 2 ^ k, r[a]? = some (∑ b ∈ range (2 ^ k),
        (if b ≤ a then tm.col.getD (a - b) 0 else tm.row.getD (b - a) 0) • v.getD b 0) := by
  refine ⟨_, vectorMulG1_eq tm v k hk hr hc hv, by simp, ?_⟩
  intro a ha
  simp [ha, Spec.toeplitzMul, Spec.toeplitzEntry]

/-- C62, dense products (the test `smoke_test_circulant_matrix`): with first row and column that meet in the same corner, the product by FFT is the product with
the matrix written out. -/
theorem C62_toeplitz_dense (tm : ToeplitzMatrix) (k : Nat) (hk : k + 1 ≤ 32) (hr : tm.row.length = 2 ^ k)
    (hc : tm.col.length = 2 ^ k) (h0 : tm.row.head? = tm.col.head?) (v : List Fr) (hv : v.length = 2 ^ k) :
    ∃ r, (tm.vectorMulScalars v : Outcome ε (List Fr)) = .ok r ∧
      (do let dm ← denseFromToeplitz tm
          denseVectorMulScalar dm v : Outcome ε (List Fr)) = .ok r := by
  refine ⟨_, vectorMulScalars_eq tm v k hk hr hc hv, ?_⟩
  rw [denseVectorMul_eq tm v _ (Nat.two_pow_pos k) hr hc hv]
  congr 1
  apply List.map_congr_left
  intro a _
  unfold Spec.toeplitzMul
  apply sum_congr rfl
  intro b _
  rw [smul_eq_mul]
  congr 1
  unfold denseEntry Spec.toeplitzEntry
  have h0' : tm.row.getD 0 0 = tm.col.getD 0 0 := by
    rw [List.head?_eq_getElem?, List.head?_eq_getElem?] at h0
    simp [List.getD, h0]
  rcases lt_trichotomy a b with h | rfl | h
  · simp [h.le, not_le.2 h]
  · simpa using h0'
  · simp [h.le, not_le.2 h]

/-- C62, a defect of the dense reference: where row and column do not meet in the same corner, it takes the corner from the row
and the product by FFT takes it from the column; the two products then differ on the first unit vector. -/
theorem C62_toeplitz_corner (tm : ToeplitzMatrix) (k : Nat) (hk : k + 1 ≤ 32) (hr : tm.row.length = 2 ^ k)
    (hc : tm.col.length = 2 ^ k) (h0 : tm.row.head? ≠ tm.col.head?) :
    ∃ v : List Fr, v.length = 2 ^ k ∧ ∃ r r', r ≠ r' ∧ (tm.vectorMulScalars v : Outcome ε (List Fr)) = .ok r ∧
      (do let dm ← denseFromToeplitz tm
          denseVectorMulScalar dm v : Outcome ε (List Fr)) = .ok r' := by
  have hp := Nat.two_pow_pos k
  refine ⟨1 :: List.replicate (2 ^ k - 1) 0, by simp; omega, _, _, ?_, vectorMulScalars_eq tm _ k hk hr hc (by simp; omega),
    denseVectorMul_eq tm _ _ hp hr hc (by simp; omega)⟩
  intro he
  have h1 := congrArg (fun l => l[0]?) he
  have hv : ∀ b, (1 :: List.replicate (2 ^ k - 1) (0 : Fr)).getD b 0 = if b = 0 then 1 else 0 := by
    intro b
    cases b with
    | zero => simp
    | succ b => simp only [List.getD, List.getElem?_cons_succ, List.getElem?_replicate]; split_ifs <;> simp_all
  simp only [List.getElem?_map, List.getElem?_range hp, Option.map_some, Spec.toeplitzMul, hv, smul_eq_mul, mul_ite, mul_one,
    mul_zero, Finset.sum_ite_eq', mem_range, hp, if_true] at h1
  apply h0
  simp only [Spec.toeplitzEntry, denseEntry, le_refl, if_true, Nat.sub_self, Option.some.injEq] at h1
  rw [List.head?_eq_getElem?, List.head?_eq_getElem?, List.getElem?_eq_getElem (by omega), List.getElem?_eq_getElem (by omega)]
  rw [List.getD_eq_getElem _ _ (by omega), List.getD_eq_getElem _ _ (by omega)] at h1
  rw [h1]
end

section
variable {K G : Type} [Field K] [DecidableEq K] [AddCommGroup G] [Module Fr G] [DecidableEq G] [Curve K G]

/-- C62, batched products (the test `smoke_aggregated_matrix_vector_mul`): the batched product is the sum of the single ones. -/
theorem C62_toeplitz_batch (vectors : List (List G)) (matrices : List ToeplitzMatrix) (k : Nat) (hk : k + 1 ≤ 32)
    (hne : matrices ≠ []) (hlen : vectors.length = matrices.length) (hl : ∀ v ∈ vectors, v.length = 2 ^ k)
    (hm : ∀ tm ∈ matrices, tm.row.length = 2 ^ k ∧ tm.col.length = 2 ^ k) :
    ∃ bt r singles, (BatchToeplitz.new vectors .no : Outcome ε (BatchToeplitz K G)) = .ok bt ∧
      (bt.sumMatrixVectorMul matrices : Outcome ε (List G)) = .ok r ∧
      (vectors.zip matrices).mapM (fun q => (q.2.vectorMulG1 q.1 : Outcome ε (List G))) = .ok singles ∧
      r.length = 2 ^ k ∧ (∀ s ∈ singles, s.length = 2 ^ k) ∧
      ∀ a < 2 ^ k, r[a]? = some (singles.map (fun s => s.getD a 0)).sum := by
  obtain ⟨bt, r, h1, h2, h3, h4⟩ := C29_toeplitz (ε := ε) (K := K) vectors matrices k hk hne hlen hl hm
  refine ⟨bt, r, _, h1, h2, mapM_ok (g := fun q => (List.range (2 ^ k)).map (Spec.toeplitzMul q.2.row q.2.col q.1 (2 ^ k)))
    (fun q hq => ?_), h3, ?_, ?_⟩
  · obtain ⟨hq1, hq2⟩ := List.of_mem_zip hq
    exact vectorMulG1_eq _ _ k hk (hm _ hq2).1 (hm _ hq2).2 (hl _ hq1)
  · intro s hs
    obtain ⟨q, -, rfl⟩ := List.mem_map.1 hs
    simp
  · intro a ha
    rw [h4 a ha, List.map_map]
    congr 2
    apply List.map_congr_left
    intro q _
    simp [List.getD, ha, Spec.toeplitzMul, Spec.toeplitzEntry]

/-- C62, the fast prover (the test `check_consistency_of_proofs_against_naive_fk20_implementation`): it returns exactly what the reference returns, proofs and values, for all
polynomials of the bound, with a key of that length. -/
theorem C62_prover (g : List G) (q s e : Nat) (hqe : q < e) (hse : q + s ≤ e) (he : e < 32) (hg : g.length = 2 ^ (q + s))
    (p : FK20Prover K G)
    (hp : (FK20Prover.new g (2 ^ (q + s)) (2 ^ q) (2 ^ e) .no : Outcome ε (FK20Prover K G)) = .ok p)
    (f : List Fr) (hf : f.length = 2 ^ (q + s)) :
    (p.computeMultiOpeningProofsPolyCoeff f : Outcome ε _) = naiveOpenMultiPoint g f (2 ^ q) (2 ^ e) := by
  rw [C31_exact g q s e hse he hg p hp f hf, naiveOpenMultiPoint_eq g f q s e hqe hse he hg.ge hf]

/-- C62, with a key longer than the bound the two differ: the reference is right (`C62_open_multi_point`), the prover is not. -/
theorem C62_prover_longer_key (g : List G) (hnz : ∀ x ∈ g, x ≠ 0) (q s e : Nat) (hs : 1 ≤ s) (hse : q + s < e) (he : e < 32)
    (hg : 2 ^ (q + s) < g.length) (p : FK20Prover K G)
    (hp : (FK20Prover.new g (2 ^ (q + s)) (2 ^ q) (2 ^ e) .no : Outcome ε (FK20Prover K G)) = .ok p) :
    ∃ f : List Fr, f.length = 2 ^ (q + s) ∧ ∃ r r', r ≠ r' ∧
      (p.computeMultiOpeningProofsPolyCoeff f : Outcome ε _) = .ok r ∧
      (naiveOpenMultiPoint g f (2 ^ q) (2 ^ e) : Outcome ε _) = .ok r' := by
  obtain ⟨f, hf, -, proofs, h1, h2, k, hk, P, hP, hne⟩ := C31_longer_wrong g hnz q s e hs hse he hg p hp
  refine ⟨f, hf, _, _, ?_, h1, naiveOpenMultiPoint_eq g f q s e (by omega) hse.le he hg.le hf⟩
  intro h
  rw [Prod.mk.injEq] at h
  rw [h.1] at hP
  simp [hk] at hP
  exact hne hP.symm

/-- C62, the `h` polynomials (the test `check_consistency_of_toeplitz_h_polys`): the fast commitments are the commitments to the reference's polynomials. -/
theorem C62_h_polys (g : List G) (q s e : Nat) (hs : 2 ≤ s) (hse : q + s ≤ e) (he : e < 32) (hg : g.length = 2 ^ (q + s))
    (p : FK20Prover K G)
    (hp : (FK20Prover.new g (2 ^ (q + s)) (2 ^ q) (2 ^ e) .no : Outcome ε (FK20Prover K G)) = .ok p)
    (f : List Fr) (hf : f.length = 2 ^ (q + s)) :
    (computeHPolyCommitments p.batchToeplitz f (2 ^ q) : Outcome ε (List G)) = (do
      let hs ← naiveComputeHPoly f (2 ^ q)
      hs.mapM (fun h => commitG1 g h)) := by
  obtain ⟨M, rfl, hM⟩ := prover_new_ok g q s e hs hse he hg .no p hp
  show (computeHPolyCommitments (toeplitzOf q s M) f (2 ^ q) : Outcome ε (List G)) = _
  rw [computeHPoly_exact g f q s hs (by omega) hg hf M (msmExact_no g q s M hM), naiveComputeHPoly_eq f q s hf, Outcome.ok_bind,
    List.mapM_map]
  refine (mapM_ok (fun i _ => ?_)).symm
  simp only [Function.comp_apply]
  rw [commitG1_ok g _ (by rw [List.length_drop]; omega), commitment_drop]
end

section
variable {G1 G2 GT : Type} [AddCommGroup G1] [Module Fr G1] [DecidableEq G1] [AddCommGroup G2] [Module Fr G2]
  [DecidableEq G2] [AddCommGroup GT] [DecidableEq GT] [Pairing G1 G2 GT] [LawfulPairing G1 G2 GT]

/-- C62, verifying: with a powers-of-tau key, `naive::verify_multi_opening` decides `e(Z(τ)π - (C - I(τ)P), H) = 0`, where `Z`
vanishes on the points and `I` interpolates the values. -/
theorem C62_verify (vk : VerificationKey G1 G2) (τ : Fr) (P : G1) (H : G2) (hp1 : Spec.IsPowers vk.g1s τ P)
    (hp2 : Spec.IsPowers vk.g2s τ H) (hgen : vk.g2Gen = H) (commitment proof : G1) (points values : List Fr)
    (hn : 2 ≤ points.length) (hd : points.Nodup) (hl : values.length = points.length)
    (h1 : points.length ≤ vk.g1s.length) (h2 : points.length < vk.g2s.length)
    (I : Fr[X]) (hI : I.degree < points.length) (hev : ∀ p ∈ points.zip values, I.eval p.1 = p.2) :
    (naiveVerifyMultiOpening vk commitment proof points values : Outcome ε Bool) =
      .ok (decide (pair ((points.map (fun z => τ - z)).prod • proof - (commitment - I.eval τ • P)) H = (0 : GT))) := by
  rw [naiveVerify_eq vk commitment proof points values hn hd hl h1 h2 I hI hev,
    commitment_isPowers vk.g1s τ P hp1 I (lt_of_lt_of_le hI (by exact_mod_cast h1)),
    commitment_isPowers vk.g2s τ H hp2 _ (by rw [prod_degree]; exact_mod_cast h2), hgen, pairing_eq,
    eval_list_prod, List.map_map]
  simp [Function.comp_def]

/-- C62, verifying panics on fewer than two points and on repeated points. -/
theorem C62_verify_panics (vk : VerificationKey G1 G2) (commitment proof : G1) (points values : List Fr)
    (hl : values.length = points.length) (h : points.length < 2 ∨ ¬points.Nodup) :
    (naiveVerifyMultiOpening vk commitment proof points values : Outcome ε Bool) = .panic :=
  naiveVerify_panic vk commitment proof points values hl h

/-- C62, honest openings verify (the test `smoke_test_naive_multi_opening`): for every polynomial the key can commit to and distinct points, two at least. -/
theorem C62_honest (ck : List G1) (vk : VerificationKey G1 G2) (τ : Fr) (P : G1) (H : G2) (hck : Spec.IsPowers ck τ P)
    (hp1 : Spec.IsPowers vk.g1s τ P) (hp2 : Spec.IsPowers vk.g2s τ H) (hgen : vk.g2Gen = H) (f points : List Fr)
    (hf : f.length ≤ ck.length) (hn : 2 ≤ points.length) (hd : points.Nodup)
    (h1 : points.length ≤ vk.g1s.length) (h2 : points.length < vk.g2s.length) :
    ∃ commitment proof values, (commitG1 ck f : Outcome ε G1) = .ok commitment ∧
      (naiveComputeMultiOpening ck f points : Outcome ε _) = .ok (proof, values) ∧
      (naiveVerifyMultiOpening vk commitment proof points values : Outcome ε Bool) = .ok true := by
  refine ⟨_, _, _, commitG1_ok ck f hf, naiveOpen_eq ck f points hn hd (by omega), ?_⟩
  set Z := (points.map (fun r => (X - C r : Fr[X]))).prod with hZ
  have hm : Z.Monic := prod_monic points
  have hdiv := modByMonic_add_div (Spec.polyOf f) Z
  have hZr : ∀ z ∈ points, Z.eval z = 0 := by
    intro z hz
    rw [hZ, eval_list_prod, List.prod_eq_zero_iff, List.map_map]
    exact List.mem_map.2 ⟨z, hz, by simp⟩
  rw [C62_verify vk τ P H hp1 hp2 hgen _ _ points _ hn hd (by simp) h1 h2 (Spec.polyOf f %ₘ Z)
    (by rw [← prod_degree points]; exact degree_modByMonic_lt _ hm)]
  · rw [commitment_isPowers ck τ P hck _ (lt_of_lt_of_le (degree_polyOf_lt f) (by exact_mod_cast hf)),
      commitment_isPowers ck τ P hck _ (lt_of_le_of_lt (degree_divByMonic_le _ _) (lt_of_lt_of_le (degree_polyOf_lt f) (by exact_mod_cast hf)))]
    have he : (points.map (fun z => τ - z)).prod = Z.eval τ := by
      rw [hZ, eval_list_prod, List.map_map]
      simp [Function.comp_def]
    have h := congrArg (eval τ) hdiv
    rw [eval_add, eval_mul] at h
    rw [he, ← sub_smul, ← h, smul_smul, ← sub_smul]
    rw [show eval τ Z * eval τ (Spec.polyOf f /ₘ Z) - (eval τ (Spec.polyOf f %ₘ Z) + eval τ Z * eval τ (Spec.polyOf f /ₘ Z) -
      eval τ (Spec.polyOf f %ₘ Z)) = 0 by ring, zero_smul, pair_zero]
    simp
  · intro p hp
    obtain ⟨i, hi, rfl⟩ := List.getElem_of_mem hp
    have hi' : i < points.length := by simpa using hi
    have h := congrArg (eval points[i]) hdiv
    rw [eval_add, eval_mul, hZr _ (List.getElem_mem hi'), zero_mul, add_zero] at h
    simpa using h

/-- C62, the keys of the tests: `create_insecure_commit_verification_keys` makes keys of 4096, 65 and 65 powers of the secret -1. -/
theorem C62_test_keys (P : G1) (H : G2) :
    ∃ ck vk, (createInsecureCommitVerificationKeys P H : Outcome ε _) = .ok (ck, vk) ∧ ck.length = 4096 ∧
      Spec.IsPowers ck (-1) P ∧ vk.g1s.length = 65 ∧ Spec.IsPowers vk.g1s (-1) P ∧ vk.g2s.length = 65 ∧
      Spec.IsPowers vk.g2s (-1) H ∧ vk.g2Gen = H ∧ vk.cosetSize = 64 ∧ vk.numCoefficientsInPolynomial = 4096 := by
  have hpw : ∀ {G : Type} [AddCommGroup G] [Module Fr G] (Q : G) (n : Nat),
      Spec.IsPowers ((List.range n).map (fun i => (-1 : Fr) ^ i • Q)) (-1) Q := by
    intro G _ _ Q n i hi
    rw [List.length_map, List.length_range] at hi
    rw [List.getElem?_map, List.getElem?_range hi, Option.map_some]
  have h1 : (4096 : Nat) ≠ 0 := by norm_num
  have h2 : 65 ≤ 4096 := by norm_num
  generalize hn : 4096 = n at h1 h2
  refine ⟨(List.range n).map (fun i => (-1 : Fr) ^ i • P), ⟨(List.range 65).map (fun i => (-1 : Fr) ^ i • P),
    (List.range 65).map (fun i => (-1 : Fr) ^ i • H), H, 64, n⟩, ?_, by simp, hpw P n, by simp, hpw P 65, by simp, hpw H 65, rfl, rfl,
    rfl⟩
  unfold createInsecureCommitVerificationKeys commitKeyNew VerificationKey.new
  simp only [insecure_fold, hn]
  rw [assertP_true (by simpa using h1), Outcome.ok_bind, Outcome.pure_eq, Outcome.ok_bind, slice_zero (by simpa using h2),
    Outcome.ok_bind, idx_lt (by simp), Outcome.ok_bind, assertP_true (by simp), ← List.map_take, List.take_range, Nat.min_eq_left h2]
  simp

/-- C62, what the keys of the tests are worth: their secret is a point of the evaluation domain, the second of the first coset. A
proof for points among which it is plays no part in the check. -/
theorem C62_test_keys_weak (vk : VerificationKey G1 G2) (P : G1) (H : G2) (hp1 : Spec.IsPowers vk.g1s (-1) P)
    (hp2 : Spec.IsPowers vk.g2s (-1) H) (hgen : vk.g2Gen = H) (commitment : G1) (points values : List Fr)
    (hn : 2 ≤ points.length) (hd : points.Nodup) (hl : values.length = points.length)
    (h1 : points.length ≤ vk.g1s.length) (h2 : points.length < vk.g2s.length) (hmem : -1 ∈ points) :
    Spec.point 13 1 = -1 ∧ ∀ proof proof' : G1, (naiveVerifyMultiOpening vk commitment proof points values : Outcome ε Bool) =
      naiveVerifyMultiOpening vk commitment proof' points values := by
  refine ⟨?_, ?_⟩
  · have h := ((omega_primitive 13 (by norm_num)).pow (b := 2) (a := 4096) (by norm_num) (by norm_num)).eq_neg_one_of_two_right
    exact h
  · intro proof proof'
    obtain ⟨r, -, hrl, hrev⟩ := interpolate_zip (ε := ε) points values hl hn hd
    have hdeg : (Spec.polyOf r).degree < points.length := by rw [← hrl]; exact degree_polyOf_lt r
    have hz : (points.map (fun z => -1 - z)).prod = 0 := List.prod_eq_zero (List.mem_map.2 ⟨-1, hmem, by ring⟩)
    rw [C62_verify vk (-1) P H hp1 hp2 hgen commitment proof points values hn hd hl h1 h2 _ hdeg hrev,
      C62_verify vk (-1) P H hp1 hp2 hgen commitment proof' points values hn hd hl h1 h2 _ hdeg hrev, hz, zero_smul, zero_smul]
end

namespace Toy

/-- The hypotheses of `C62_open` are met by `X^3` at the points 1 and 2, with quotient `X + 3` and remainder `7X - 6`. -/
example : (naiveComputeMultiOpening [1, 5, 25, 125] [0, 0, 0, 1] [1, 2] : Outcome Unit (Fr × List Fr)) = .ok (8, [1, 8]) := by
  rw [C62_open (G := Fr) [1, 5, 25, 125] [0, 0, 0, 1] [1, 2] (by simp) (by decide +kernel) (by simp) (X + C 3) (C 7 * X - C 6)
    (by refine lt_of_le_of_lt (degree_sub_le _ _) (max_lt (lt_of_le_of_lt (degree_C_mul_X_le _) (by norm_num)) (lt_of_le_of_lt degree_C_le (by norm_num))))
    (by
      simp only [Spec.polyOf, List.map_cons, List.map_nil, List.prod_cons, List.prod_nil, map_zero, map_one, zero_add, mul_one, mul_zero, add_zero]
      have h2 : (C 2 : Fr[X]) = 2 := rfl
      have h3 : (C 3 : Fr[X]) = 3 := rfl
      have h6 : (C 6 : Fr[X]) = 6 := rfl
      have h7 : (C 7 : Fr[X]) = 7 := rfl
      rw [h2, h3, h6, h7]
      ring)]
  congr 1
  rw [Prod.mk.injEq]
  constructor
  · simp [Spec.commitment, Finset.sum_range_succ, coeff_X, coeff_C]
    norm_num
  · simp [Spec.polyOf]
    norm_num

/-- The keys of the tests meet the hypotheses of `C62_honest`, and 1, -1 are points of `C62_test_keys_weak`. -/
example (f : List Fr) (hf : f.length = 4096) : ∃ ck vk commitment proof values,
    (createInsecureCommitVerificationKeys (1 : Fr) (1 : Fr) : Outcome Unit (List Fr × VerificationKey Fr Fr)) = .ok (ck, vk) ∧
    (commitG1 ck f : Outcome Unit Fr) = .ok commitment ∧
    (naiveComputeMultiOpening ck f [1, -1] : Outcome Unit _) = .ok (proof, values) ∧
    ∀ any : Fr, (naiveVerifyMultiOpening vk commitment any [1, -1] values : Outcome Unit Bool) = .ok true := by
  obtain ⟨ck, vk, h, hl, hp, hl1, hp1, hl2, hp2, hgen, -, -⟩ := C62_test_keys (ε := Unit) (1 : Fr) (1 : Fr)
  have hnd : [1, (-1 : Fr)].Nodup := by decide +kernel
  obtain ⟨c, π, v, h1, h2, h3⟩ := C62_honest (ε := Unit) ck vk (-1) 1 1 hp hp1 hp2 hgen f [1, -1] (by omega) (by simp) hnd
    (by simp [hl1]) (by simp [hl2])
  refine ⟨ck, vk, c, π, v, h, h1, h2, fun any => ?_⟩
  have hvl : v.length = 2 := by
    rw [naiveOpen_eq ck f [1, -1] (by simp) hnd (by simp; omega)] at h2
    rw [← (Prod.mk.inj (Outcome.ok.inj h2)).2]
    simp
  rw [← h3]
  exact (C62_test_keys_weak (ε := Unit) vk 1 1 hp1 hp2 hgen c [1, -1] v (by simp) hnd (by simp [hvl]) (by simp [hl1])
    (by simp [hl2]) (by simp)).2 any π

/-- The bounds of `C62_prover`, `C62_h_polys` and `C62_references_agree` are met by the parameters of the tests: 4096
coefficients, cosets of 64 points, 8192 points. -/
example (τ : Fr) (f : List Fr) (hf : f.length = 4096) :
    ∃ p : FK20Prover Fr Fr, (FK20Prover.new ((List.range 4096).map (τ ^ ·)) 4096 64 8192 .no : Outcome Unit _) = .ok p ∧
      (p.computeMultiOpeningProofsPolyCoeff f : Outcome Unit _) = naiveOpenMultiPoint ((List.range 4096).map (τ ^ ·)) f 64 8192 := by
  obtain ⟨p, hp⟩ := C31_accepts (ε := Unit) (K := Fr) ((List.range 4096).map (τ ^ ·)) 6 6 13 (by norm_num) (by norm_num) (by norm_num)
    (by rw [List.length_map, List.length_range]; norm_num) (by rw [List.length_map, List.length_range]; norm_num)
  exact ⟨p, hp, C62_prover _ 6 6 13 (by norm_num) (by norm_num) (by norm_num) (by rw [List.length_map, List.length_range]; norm_num)
    p hp f (by rw [hf]; norm_num)⟩

/-- `C62_toeplitz_dense` and `C62_toeplitz_corner` on matrices of size two. -/
example : (ToeplitzMatrix.vectorMulScalars ⟨[1, 5], [1, 2]⟩ [3, 4] : Outcome Unit (List Fr)) = .ok [23, 10] := by
  rw [vectorMulScalars_eq _ _ 1 (by norm_num) rfl rfl rfl]
  simp [List.range_succ, Spec.toeplitzMul, Spec.toeplitzEntry, Finset.sum_range_succ]
  norm_num
example : (do let dm ← denseFromToeplitz ⟨[1, 5], [7, 2]⟩
              denseVectorMulScalar dm [1, 0] : Outcome Unit (List Fr)) = .ok [1, 2] := by decide +kernel

end Toy

end Verif
