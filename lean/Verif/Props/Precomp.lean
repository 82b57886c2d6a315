import Verif.Props.Recovery
import Verif.Props.Proofs
import Verif.Lemmas.PrecompWitness

set_option linter.unusedSectionVars false

/-! C25: contexts with and without precomputation. -/
namespace Verif
open Polynomial Finset

section
variable {ε K G1 G2 GT : Type} [Field K] [DecidableEq K] [AddCommGroup G1] [Module Fr G1] [DecidableEq G1]
  [Curve K G1] [PointCodec G1] [AddCommGroup G2] [Module Fr G2] [AddCommGroup GT] [DecidableEq GT]
  [Pairing G1 G2 GT]

/-- C25: the commitment and the verification do not depend on the precomputation setting at all (every two settings, every
width). -/
theorem C25_commitment_verification (setup : SetupPoints G1 G2) (h1 : setup.g1Monomial.length = 4096) (up up' : UsePrecomp)
    (ctx ctx' : DASContext K G1 G2) (hctx : (DASContext.new setup up : Outcome ε (DASContext K G1 G2)) = .ok ctx)
    (hctx' : (DASContext.new setup up' : Outcome ε (DASContext K G1 G2)) = .ok ctx') :
    (∀ blob : List UInt8, blob.length = 131072 → ctx.blobToKzgCommitment blob = ctx'.blobToKzgCommitment blob) ∧
    (∀ (sha256 : List UInt8 → List UInt8) (commitments : List (List UInt8)) (inds : List Nat) (cells proofs : List (List UInt8)),
      ctx.verifyCellKzgProofBatch sha256 commitments inds cells proofs =
        ctx'.verifyCellKzgProofBatch sha256 commitments inds cells proofs) := by
  obtain ⟨M, hp, -, -, hv⟩ := context_fields setup up h1 ctx hctx
  obtain ⟨M', hp', -, -, hv'⟩ := context_fields setup up' h1 ctx' hctx'
  refine ⟨?_, ?_⟩
  · intro blob hb
    unfold DASContext.blobToKzgCommitment FK20Prover.commit
    rw [hp, hp']
    rfl
  · intro sha256 commitments inds cells proofs
    rw [hv] at hv'
    unfold DASContext.verifyCellKzgProofBatch
    rw [Outcome.ok.inj hv']

/-- C25: errors and cells of the other two functions do not depend on the setting either (every two settings, every width). -/
theorem C25_errors_and_cells (setup : SetupPoints G1 G2) (h1 : setup.g1Monomial.length = 4096) (up up' : UsePrecomp)
    (ctx ctx' : DASContext K G1 G2) (hctx : (DASContext.new setup up : Outcome ε (DASContext K G1 G2)) = .ok ctx)
    (hctx' : (DASContext.new setup up' : Outcome ε (DASContext K G1 G2)) = .ok ctx') :
    (∀ blob : List UInt8, blob.length = 131072 →
      (∀ e, ctx.computeCellsAndKzgProofs blob = .err e → ctx'.computeCellsAndKzgProofs blob = .err e) ∧
      (∀ c p c' p', ctx.computeCellsAndKzgProofs blob = .ok (c, p) → ctx'.computeCellsAndKzgProofs blob = .ok (c', p') → c = c')) ∧
    (∀ (inds : List Nat) (cells : List (List UInt8)), (∀ c ∈ cells, c.length = 2048) →
      (∀ e, ctx.recoverCellsAndKzgProofs inds cells = .err e → ctx'.recoverCellsAndKzgProofs inds cells = .err e) ∧
      (∀ c p c' p', ctx.recoverCellsAndKzgProofs inds cells = .ok (c, p) →
        ctx'.recoverCellsAndKzgProofs inds cells = .ok (c', p') → c = c')) := by
  obtain ⟨M, hp, hM, hrs, hv⟩ := context_fields setup up h1 ctx hctx
  obtain ⟨M', hp', hM', hrs', hv'⟩ := context_fields setup up' h1 ctx' hctx'
  refine ⟨?_, ?_⟩
  · intro blob hb
    by_cases hex : ∃ f, Spec.IsBlobPoly blob f
    · obtain ⟨f, hf⟩ := hex
      rw [cells_of_blob hp hf, cells_of_blob hp' hf]
      refine ⟨?_, ?_⟩
      · intro e he
        exact absurd he ((NoErr.bind (NoErr.computeMultiOpeningProofsPolyCoeff _ _) fun _ => NoErr.serializeCellsAndProofs _ _) e)
      · intro c p c' p' hc hc'
        rw [(prove_cells _ M f hf.1 c p hc).1, (prove_cells _ M' f hf.1 c' p' hc').1]
    · obtain ⟨i, -, h2, h3, -, h4⟩ := bad_blob (ctx := ctx) hb hex
      obtain ⟨i', -, h2', h3', -, h4'⟩ := bad_blob (ctx := ctx') hb hex
      have : i = i' := by
        rcases lt_trichotomy i i' with h | h | h
        · have := h3' i h; omega
        · exact h
        · have := h3 i' h; omega
      subst this
      rw [h4, h4']
      exact ⟨fun e he => he, fun c p c' p' hc => by cases hc⟩
  · intro inds cells hc
    rcases recovery_wellFormed_or_defect inds cells hc with hw | ⟨e, he⟩
    · rcases recoverPolynomialCoeff_cases hw.1 hw.2 hc hw.3 hw.4 hw.5 with ⟨⟨f, hf, h⟩ | ⟨hne, h⟩, -⟩
      · rw [recover_run hp hrs h, recover_run hp' hrs' h]
        refine ⟨?_, ?_⟩
        · intro e he
          exact absurd he ((NoErr.bind (NoErr.computeMultiOpeningProofsPolyCoeff _ _) fun _ => NoErr.serializeCellsAndProofs _ _) e)
        · intro c p c' p' hc hc'
          rw [(prove_cells _ M f hf.1 c p hc).1, (prove_cells _ M' f hf.1 c' p' hc').1]
      · rw [recover_err hrs h, recover_err hrs' h]
        exact ⟨fun e he => he, fun c p c' p' hc => by cases hc⟩
    · rw [recover_err hrs (recoverPolynomialCoeff_defect hc he _), recover_err hrs' (recoverPolynomialCoeff_defect hc he _)]
      exact ⟨fun e he => he, fun c p c' p' hc => by cases hc⟩

/-- C25: with a width from 1 to 24 and no identity among the base points, the two proving functions panic or return exactly what
they return without precomputation. -/
theorem C25_same_or_panic [LawfulCurve K G1] (setup : SetupPoints G1 G2) (h1 : setup.g1Monomial.length = 4096) (w : Nat)
    (hw : 1 ≤ w) (hw' : w ≤ 24) (hn : Spec.NoIdentity setup.g1Monomial)
    (ctx ctx' : DASContext K G1 G2) (hctx : (DASContext.new setup .no : Outcome Error (DASContext K G1 G2)) = .ok ctx)
    (hctx' : (DASContext.new setup (.yes w) : Outcome Error (DASContext K G1 G2)) = .ok ctx') :
    (∀ blob : List UInt8, blob.length = 131072 → ctx'.computeCellsAndKzgProofs blob = .panic ∨
      ctx'.computeCellsAndKzgProofs blob = ctx.computeCellsAndKzgProofs blob) ∧
    (∀ (inds : List Nat) (cells : List (List UInt8)), (∀ c ∈ cells, c.length = 2048) →
      ctx'.recoverCellsAndKzgProofs inds cells = .panic ∨
      ctx'.recoverCellsAndKzgProofs inds cells = ctx.recoverCellsAndKzgProofs inds cells) := by
  obtain ⟨M, hp, hM, hrs, -⟩ := context_fields setup .no h1 ctx hctx
  obtain ⟨M', hp', hM', hrs', -⟩ := context_fields setup (.yes w) h1 ctx' hctx'
  have hs := msmSound_of _ h1 (.yes w) (.inr ⟨w, rfl, hw, hw', hn⟩) M' hM'
  refine ⟨?_, ?_⟩
  · intro blob hb
    by_cases hex : ∃ f, Spec.IsBlobPoly blob f
    · obtain ⟨f, hf⟩ := hex
      rw [cells_of_blob hp hf, cells_of_blob hp' hf, prove_exact _ h1 M (msmExact_no _ 6 6 M hM) f hf.1]
      exact prove_sound _ h1 M' hs f hf.1 _ rfl
    · right
      obtain ⟨i, -, h2, h3, -, h4⟩ := bad_blob (ctx := ctx) hb hex
      exact ((C25_errors_and_cells setup h1 .no (.yes w) ctx ctx' hctx hctx').1 blob hb).1 _ h4 |>.trans h4.symm
  · intro inds cells hc
    rcases recovery_wellFormed_or_defect inds cells hc with hw | ⟨e, he⟩
    · rcases recoverPolynomialCoeff_cases hw.1 hw.2 hc hw.3 hw.4 hw.5 with ⟨⟨f, hf, h⟩ | ⟨hne, h⟩, -⟩
      · rw [recover_run hp hrs h, recover_run hp' hrs' h, prove_exact _ h1 M (msmExact_no _ 6 6 M hM) f hf.1]
        exact prove_sound _ h1 M' hs f hf.1 _ rfl
      · right; rw [recover_err hrs h, recover_err hrs' h]
    · right
      rw [recover_err hrs (recoverPolynomialCoeff_defect hc he _), recover_err hrs' (recoverPolynomialCoeff_defect hc he _)]

/-- C25: for a powers-of-tau setup the condition on the base points only excludes `τ = 0` and `τ^516096 = 1`. -/
theorem C25_condition (setup : SetupPoints G1 G2) (τ : Fr) (P : G1) (H : G2)
    (hpt : Spec.PowersOfTau setup.g1Monomial setup.g2Monomial τ P H) (hP : P ≠ 0) (h0 : τ ≠ 0) (h1 : τ ^ 516096 ≠ 1) :
    Spec.NoIdentity setup.g1Monomial := noIdentity_of_tau _ τ P hpt.g1_eq hP h0 h1

/-- C25: the panics are rare. For every polynomial and width there is a set of at most `2^34` secrets (of the `2^254` or more
possible ones) such that with every powers-of-tau setup whose secret is not in the set (and every generator, group, curve) the
two proving functions return exactly what they return without precomputation, for the blob of the polynomial and for every
recovery input consistent with it. -/
theorem C25_few_secrets (w : Nat) (hw : 1 ≤ w) (hw' : w ≤ 24) (f : Fr[X]) (hf : f.degree < 4096) :
    ∃ bad : Finset Fr, bad.card ≤ 2 ^ 34 ∧
      ∀ (K G1 G2 : Type) [Field K] [DecidableEq K] [AddCommGroup G1] [Module Fr G1] [DecidableEq G1] [Curve K G1]
        [LawfulCurve K G1] [PointCodec G1] [AddCommGroup G2] [Module Fr G2]
        (τ : Fr) (_ : τ ∉ bad) (setup : SetupPoints G1 G2) (P : G1) (H : G2) (_ : P ≠ 0)
        (_ : Spec.PowersOfTau setup.g1Monomial setup.g2Monomial τ P H) (ctx ctx' : DASContext K G1 G2)
        (_ : (DASContext.new setup .no : Outcome Error (DASContext K G1 G2)) = .ok ctx)
        (_ : (DASContext.new setup (.yes w) : Outcome Error (DASContext K G1 G2)) = .ok ctx'),
        (∀ blob : List UInt8, Spec.IsBlobPoly blob f →
          ctx'.computeCellsAndKzgProofs blob = ctx.computeCellsAndKzgProofs blob ∧
          ∃ r, ctx'.computeCellsAndKzgProofs blob = .ok r) ∧
        (∀ (inds : List Nat) (cells : List (List UInt8)), (∀ c ∈ cells, c.length = 2048) →
          Spec.RecoveryWellFormed inds cells → Spec.Consistent inds cells f →
          ctx'.recoverCellsAndKzgProofs inds cells = ctx.recoverCellsAndKzgProofs inds cells ∧
          ∃ r, ctx'.recoverCellsAndKzgProofs inds cells = .ok r) := by
  refine ⟨badSecrets w (hScals (Spec.coeffs 4096 f) 6 6), card_badSecrets w hw hw' _, ?_⟩
  intro K G1 G2 _ _ _ _ _ _ _ _ _ _ τ hτ setup P H hP hpt ctx ctx' hctx hctx'
  obtain ⟨M, hp, hM, hrs, -⟩ := context_fields setup .no hpt.length_g1 ctx hctx
  obtain ⟨M', hp', hM', hrs', -⟩ := context_fields setup (.yes w) hpt.length_g1 ctx' hctx'
  have h1 := prove_exact (ε := Error) _ hpt.length_g1 M (msmExact_no _ 6 6 M hM) f hf
  have h2 := prove_exact_precomp (ε := Error) _ hpt.length_g1 τ P hpt.g1_eq hP w hw hw' M' hM' f hf hτ
  refine ⟨?_, ?_⟩
  · intro blob hb
    rw [cells_of_blob hp hb, cells_of_blob hp' hb, h1, h2]
    exact ⟨rfl, _, rfl⟩
  · intro inds cells hc hwf hcons
    have h := (recoverPolynomialCoeff_ok_iff hc (Spec.coeffs 4096 f)).2 ⟨hwf, f, hcons, rfl⟩
    rw [recover_run hp hrs h, recover_run hp' hrs' h, h1, h2]
    exact ⟨rfl, _, rfl⟩

/-- C25: the panics exist. With the secret 7 and width 8, for every group and curve, proving the blob of
`249 + X + X^2 + ... + X^63` panics, and it succeeds without precomputation. -/
theorem C25_panics [LawfulCurve K G1] (setup : SetupPoints G1 G2) (P : G1) (H : G2) (hP : P ≠ 0)
    (hpt : Spec.PowersOfTau setup.g1Monomial setup.g2Monomial 7 P H)
    (ctx ctx' : DASContext K G1 G2) (hctx : (DASContext.new setup .no : Outcome Error (DASContext K G1 G2)) = .ok ctx)
    (hctx' : (DASContext.new setup (.yes 8) : Outcome Error (DASContext K G1 G2)) = .ok ctx') (blob : List UInt8)
    (hb : Spec.IsBlobPoly blob (C 249 + ∑ k ∈ range 63, X ^ (k + 1))) :
    ctx'.computeCellsAndKzgProofs blob = .panic ∧ ∃ r, ctx.computeCellsAndKzgProofs blob = .ok r := by
  obtain ⟨M, hp, hM, -⟩ := context_fields setup .no hpt.length_g1 ctx hctx
  obtain ⟨M', hp', hM', -⟩ := context_fields setup (.yes 8) hpt.length_g1 ctx' hctx'
  rw [cells_of_blob hp hb, cells_of_blob hp' hb, prove_exact _ hpt.length_g1 M (msmExact_no _ 6 6 M hM) _ hb.1]
  refine ⟨?_, _, rfl⟩
  have hn : Spec.NoIdentity setup.g1Monomial := C25_condition setup 7 P H hpt hP (by decide +kernel) seven_pow
  have := clash_panics (ε := Error) _ hpt.length_g1 P hpt.g1_eq hn M' hM'
  unfold clashPoly at this
  rw [this]
  rfl

/-- C25: width 0 cannot be constructed. -/
theorem C25_width_0 (setup : SetupPoints G1 G2) (h1 : setup.g1Monomial.length = 4096) (ctx : DASContext K G1 G2) :
    (DASContext.new setup (.yes 0) : Outcome ε (DASContext K G1 G2)) ≠ .ok ctx := by
  intro h
  obtain ⟨M, -, hM, -⟩ := context_fields setup (.yes 0) h1 ctx h
  have := hM 0 (by norm_num)
  have hg : ∃ P t, fftGens (srsVectors setup.g1Monomial (2 ^ 6)) 7 0 = P :: t := by
    rw [fftGens_eq _ h1]
    exact ⟨_, _, rfl⟩
  obtain ⟨P, t, hg⟩ := hg
  rw [hg] at this
  simp [FixedBaseMSM.new, precompWindowNew, precomputePoints, assertP] at this

end

/-! ### the hypotheses can be met -/
section
open Toy

theorem Toy.context_precomp (τ : Fr) (w : Nat) (hw : 1 ≤ w) :
    ∃ ctx : DASContext Fr Fr Fr, (DASContext.new (setup τ) (.yes w) : Outcome Error _) = .ok ctx :=
  context_exists_of (setup τ) (length_g1 τ) (by rw [length_g2]) (by rw [length_g2]; norm_num) (.yes w)
    (fun v => .precomp (tableOf w v) w) (fun v => by
      simp only [FixedBaseMSM.new, precompWindowNew_eq w hw, Outcome.ok_bind, Outcome.pure_eq])

/-- `C25_same_or_panic` and `C25_panics` apply to the secret 7, and the two settings differ there. -/
example : ∃ (ctx ctx' : DASContext Fr Fr Fr) (blob : List UInt8), (DASContext.new (setup 7) .no : Outcome Error _) = .ok ctx ∧
    (DASContext.new (setup 7) (.yes 8) : Outcome Error _) = .ok ctx' ∧ Spec.NoIdentity (setup 7).g1Monomial ∧
    ctx'.computeCellsAndKzgProofs blob = .panic ∧ (∃ r, ctx.computeCellsAndKzgProofs blob = .ok r) := by
  obtain ⟨ctx, hctx⟩ := context 7
  obtain ⟨ctx', hctx'⟩ := Toy.context_precomp 7 8 (by norm_num)
  refine ⟨ctx, ctx', blobOf clashPoly, hctx, hctx', ?_, C25_panics (setup 7) 1 1 one_ne_zero (powersOfTau 7) ctx ctx' hctx hctx' _
    (isBlobPoly_blobOf clashPoly clashPoly_degree)⟩
  exact C25_condition (setup 7) 7 1 1 (powersOfTau 7) one_ne_zero (by decide +kernel) seven_pow

/-- `C25_few_secrets` applies: some secret makes the precomputed prover succeed on the example blob. -/
example : ∃ (τ : Fr) (ctx' : DASContext Fr Fr Fr) (r : List (List UInt8) × List (List UInt8)),
    (DASContext.new (setup τ) (.yes 8) : Outcome Error _) = .ok ctx' ∧ ctx'.computeCellsAndKzgProofs blob = .ok r := by
  obtain ⟨bad, hb, h⟩ := C25_few_secrets 8 (by norm_num) (by norm_num) poly poly_degree
  obtain ⟨τ, hτ⟩ : ∃ τ, τ ∉ bad := by
    by_contra hne
    push Not at hne
    have : bad = Finset.univ := Finset.eq_univ_iff_forall.2 hne
    rw [this, Finset.card_univ, ZMod.card] at hb
    exact absurd hb (by norm_num [frOrder])
  obtain ⟨ctx, hctx⟩ := context τ
  obtain ⟨ctx', hctx'⟩ := Toy.context_precomp τ 8 (by norm_num)
  obtain ⟨r, hr⟩ := ((h Fr Fr Fr τ hτ (setup τ) 1 1 one_ne_zero (powersOfTau τ) ctx ctx' hctx hctx').1 blob blob_poly).2
  exact ⟨τ, ctx', r, hctx', hr⟩
end
end Verif
