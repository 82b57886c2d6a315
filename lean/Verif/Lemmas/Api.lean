import Verif.Lemmas.Recovery

set_option linter.unusedSectionVars false

/-! The prover entry points, for a context built from a setup of the protocol's size. -/
namespace Verif
open Polynomial Finset

variable {ε : Type} {K G1 G2 : Type} [Field K] [DecidableEq K] [AddCommGroup G1] [Module Fr G1] [DecidableEq G1]
  [Curve K G1] [PointCodec G1] [AddCommGroup G2] [Module Fr G2]

/-- Without precomputation the context is built. -/
theorem context_exists_of (setup : SetupPoints G1 G2) (h1 : setup.g1Monomial.length = 4096)
    (h2 : 65 ≤ setup.g2Monomial.length) (h3 : setup.g2Monomial.length ≤ 4096) (up : UsePrecomp)
    (table : List G1 → FixedBaseMSM K G1)
    (hup : ∀ v, (FixedBaseMSM.new v up : Outcome ε (FixedBaseMSM K G1)) = .ok (table v)) :
    ∃ ctx, (DASContext.new setup up : Outcome ε (DASContext K G1 G2)) = .ok ctx := by
  unfold DASContext.new
  rw [verifierContext_new setup h2 (by omega)]
  unfold ProverContext.new commitKeyNew
  rw [assertP_true (by intro h; rw [h] at h1; simp at h1)]
  have hrs : (ReedSolomon.new FIELD_ELEMENTS_PER_BLOB EXPANSION_FACTOR CELLS_PER_EXT_BLOB : Outcome ε ReedSolomon) =
      .ok (rsOf 12 1 7) := rs_new 12 1 7 (by norm_num) (by norm_num)
  have hg : setup.g1Monomial.length = 2 ^ (6 + 6) := by rw [h1]; norm_num
  have hlv : (srsVectors setup.g1Monomial (2 ^ 6)).length = 2 ^ 6 := by
    rw [srsVectors_eq setup.g1Monomial 6 6 (by norm_num) hg]; simp
  have hp : ∃ p, (FK20Prover.new setup.g1Monomial FIELD_ELEMENTS_PER_BLOB FIELD_ELEMENTS_PER_CELL
      FIELD_ELEMENTS_PER_EXT_BLOB up : Outcome ε (FK20Prover K G1)) = .ok p := by
    show ∃ p, (FK20Prover.new setup.g1Monomial (2 ^ 12) (2 ^ 6) (2 ^ 13) up : Outcome ε (FK20Prover K G1)) = .ok p
    unfold FK20Prover.new
    rw [assertP_true (isPow2_two_pow _), assertP_true (isPow2_two_pow _), assertP_true (by norm_num),
      assertP_true (isPow2_two_pow _), assertP_true (by rw [h1]; norm_num), assertP_true (by rw [h1]; norm_num)]
    simp only [Outcome.ok_bind]
    rw [batchToeplitz_new (srsVectors setup.g1Monomial (2 ^ 6)) 6 (by norm_num) (by
        intro h; rw [h] at hlv; simp at hlv) (by
        intro v hv
        rw [srsVectors_eq setup.g1Monomial 6 6 (by norm_num) hg] at hv
        obtain ⟨j, _, rfl⟩ := List.mem_map.1 hv
        simp), Nat.pow_div (by norm_num) (by norm_num), domain_new_two_pow (13 - 6) (by norm_num),
      domain_new_two_pow 13 (by norm_num), domain_new_two_pow 12 (by norm_num),
      mapM_ok (f := fun v => (FixedBaseMSM.new v up : Outcome ε (FixedBaseMSM K G1)))
        (g := table) (fun v _ => hup v)]
    simp only [Outcome.ok_bind, Outcome.pure_eq]
    exact ⟨_, rfl⟩
  obtain ⟨p, hp⟩ := hp
  simp only [Outcome.ok_bind, Outcome.pure_eq, hp, hrs]
  exact ⟨_, rfl⟩

theorem context_exists (setup : SetupPoints G1 G2) (h1 : setup.g1Monomial.length = 4096)
    (h2 : 65 ≤ setup.g2Monomial.length) (h3 : setup.g2Monomial.length ≤ 4096) :
    ∃ ctx, (DASContext.new setup .no : Outcome ε (DASContext K G1 G2)) = .ok ctx :=
  context_exists_of setup h1 h2 h3 .no .noPrecomp (fun _ => rfl)

section
variable {ctx : DASContext K G1 G2} {g : List G1} {M : Nat → FixedBaseMSM K G1}

theorem commitment_of_blob (hg : g.length = 4096) (hp : ctx.proverCtx.kzgMultipointProver = proverOf g 6 6 13 M)
    {blob : List UInt8} {f : Fr[X]} (hf : Spec.IsBlobPoly blob f) :
    ctx.blobToKzgCommitment blob = .ok (toCompressed (Spec.commitment g f)) := by
  rcases blob_cases hf.2.1 with ⟨f', xs, hf', hx, hlen, hev⟩ | ⟨hne, -⟩
  swap
  · exact absurd ⟨f, hf⟩ hne
  have := isBlobPoly_unique hf' hf
  subst this
  unfold DASContext.blobToKzgCommitment FK20Prover.commit
  rw [hx, hp]
  simp only [Outcome.mapErr, Outcome.ok_bind]
  rw [inputToPoly_data g M xs hlen f' hf.1 hev, Outcome.ok_bind]
  have hk : (proverOf g 6 6 13 M).commitKey = g := rfl
  rw [hk, commit_eq g hg]
  rfl

theorem cells_of_blob (hp : ctx.proverCtx.kzgMultipointProver = proverOf g 6 6 13 M)
    {blob : List UInt8} {f : Fr[X]} (hf : Spec.IsBlobPoly blob f) :
    ctx.computeCellsAndKzgProofs blob =
      (do let (proofs, cells) ← (proverOf g 6 6 13 M).computeMultiOpeningProofsPolyCoeff (Spec.coeffs 4096 f)
          serializeCellsAndProofs cells proofs) := by
  rcases blob_cases hf.2.1 with ⟨f', xs, hf', hx, hlen, hev⟩ | ⟨hne, -⟩
  swap
  · exact absurd ⟨f, hf⟩ hne
  have := isBlobPoly_unique hf' hf
  subst this
  unfold DASContext.computeCellsAndKzgProofs FK20Prover.computeMultiOpeningProofs
  rw [hx, hp]
  simp only [Outcome.mapErr, Outcome.ok_bind]
  rw [inputToPoly_data g M xs hlen f' hf.1 hev, Outcome.ok_bind]

/-- A blob that is not the serialization of a polynomial is rejected by both entry points. -/
theorem bad_blob {blob : List UInt8} (hl : blob.length = 131072) (hb : ¬ ∃ f, Spec.IsBlobPoly blob f) :
    ∃ i < 4096, frOrder ≤ Spec.beValue (Spec.block 32 i blob) ∧
      (∀ j, j < i → Spec.beValue (Spec.block 32 j blob) < frOrder) ∧
      ctx.blobToKzgCommitment blob = .err (.Serialization (.CouldNotDeserializeScalar (Spec.block 32 i blob))) ∧
      ctx.computeCellsAndKzgProofs blob =
        .err (.Serialization (.CouldNotDeserializeScalar (Spec.block 32 i blob))) := by
  rcases blob_cases hl with ⟨f', xs, hf', -⟩ | ⟨-, i, hi, hbad, hfirst, herr⟩
  · exact absurd ⟨f', hf'⟩ hb
  · refine ⟨i, hi, hbad, hfirst, ?_, ?_⟩
    · unfold DASContext.blobToKzgCommitment
      rw [herr]; rfl
    · unfold DASContext.computeCellsAndKzgProofs
      rw [herr]; rfl

theorem blobPoly_iff {blob : List UInt8} (hl : blob.length = 131072) :
    (∃ f, Spec.IsBlobPoly blob f) ↔ Spec.Canonical 4096 blob := by
  constructor
  · rintro ⟨f, -, -, hf⟩ i hi
    exact (exists_encodes_iff (length_block_of (n := 4096) hl hi)).1 ⟨_, hf i hi⟩
  · intro h
    rcases blob_cases hl with ⟨f', xs, hf', -⟩ | ⟨-, i, hi, hbad, -⟩
    · exact ⟨f', hf'⟩
    · exact absurd (h i hi) (by omega)

theorem multiOpening_polyCoeff (p : FK20Prover K G1) (c : List Fr) :
    (p.computeMultiOpeningProofs (.polyCoeff c) : Outcome ε _) = p.computeMultiOpeningProofsPolyCoeff c := rfl

/-- Recovery, once the polynomial is known. -/
theorem recover_run (hp : ctx.proverCtx.kzgMultipointProver = proverOf g 6 6 13 M) (hrs : ctx.proverCtx.rs = rsOf 12 1 7)
    {inds : List Nat} {cells : List (List UInt8)} {f : Fr[X]}
    (h : recoverPolynomialCoeff (rsOf 12 1 7) inds cells = .ok (Spec.coeffs 4096 f)) :
    ctx.recoverCellsAndKzgProofs inds cells =
      (do let (proofs, cells) ← (proverOf g 6 6 13 M).computeMultiOpeningProofsPolyCoeff (Spec.coeffs 4096 f)
          serializeCellsAndProofs cells proofs) := by
  unfold DASContext.recoverCellsAndKzgProofs
  rw [hrs, h, Outcome.ok_bind, hp, multiOpening_polyCoeff]

theorem recover_err (hrs : ctx.proverCtx.rs = rsOf 12 1 7) {inds : List Nat} {cells : List (List UInt8)} {e : Error}
    (h : recoverPolynomialCoeff (rsOf 12 1 7) inds cells = .err e) : ctx.recoverCellsAndKzgProofs inds cells = .err e := by
  unfold DASContext.recoverCellsAndKzgProofs
  rw [hrs, h]
  rfl

end

/-- The blob of a polynomial. -/
noncomputable def blobOf (f : Fr[X]) : List UInt8 :=
  ((List.range 4096).map (fun i => scalarToBytesBE (f.eval (Spec.point 12 i)))).flatten

theorem isBlobPoly_blobOf (f : Fr[X]) (hf : f.degree < 4096) : Spec.IsBlobPoly (blobOf f) f := by
  have hl : ∀ l ∈ (List.range 4096).map (fun i => scalarToBytesBE (f.eval (Spec.point 12 i))), l.length = 32 := by
    intro l hl
    obtain ⟨j, -, rfl⟩ := List.mem_map.1 hl
    exact length_scalarToBytesBE _
  refine ⟨hf, ?_, ?_⟩
  · unfold blobOf
    rw [length_flatten_const hl, List.length_map, List.length_range, mul_comm]
  · intro i hi
    unfold blobOf
    rw [encodes_iff, block_flatten hl (by rw [List.length_map, List.length_range]; exact hi), List.getElem_map,
      List.getElem_range]

end Verif
