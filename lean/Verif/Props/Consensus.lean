import Verif.Lemmas.ConsensusRecovery
import Verif.Lemmas.ConsensusVerify
import Verif.Props.Recovery
import Verif.Props.Verification

set_option linter.unusedSectionVars false

/-! C48, C49, C50, C51: the four functions of the library against the functions of the consensus specification
(`Spec/Consensus.lean`). -/
namespace Verif
open Polynomial Finset

/-- The library returns what the specification returns, and an error where an assertion of the specification fails. -/
def Conforms {E α : Type} (library : Outcome E α) (spec : Option α) : Prop :=
  (∃ a, library = .ok a ∧ spec = some a) ∨ (∃ e, library = .err e ∧ spec = none)

section
variable {ε K G1 G2 GT : Type} [Field K] [DecidableEq K] [AddCommGroup G1] [Module Fr G1] [DecidableEq G1]
  [Curve K G1] [PointCodec G1] [AddCommGroup G2] [Module Fr G2] [AddCommGroup GT] [DecidableEq GT]
  [Pairing G1 G2 GT]

/-- C48: `blob_to_kzg_commitment`, for every blob, with and without precomputation. The library commits to the coefficients
with the powers of the secret, the specification to the values with the Lagrange basis at the secret. -/
theorem C48_commitment (setup : SetupPoints G1 G2) (up : UsePrecomp) (τ : Fr) (P : G1) (H : G2)
    (hpt : Spec.PowersOfTau setup.g1Monomial setup.g2Monomial τ P H) (g1Lagrange : List G1)
    (hlag : Consensus.LagrangeSetup g1Lagrange τ P)
    (ctx : DASContext K G1 G2) (hctx : (DASContext.new setup up : Outcome ε (DASContext K G1 G2)) = .ok ctx)
    (blob : List UInt8) (hb : blob.length = 131072) :
    Conforms (ctx.blobToKzgCommitment blob) (Consensus.blobToKzgCommitment g1Lagrange blob) := by
  by_cases hex : ∃ f, Spec.IsBlobPoly blob f
  · obtain ⟨f, hf⟩ := hex
    exact .inl ⟨_, C03_commitment setup up τ P H hpt ctx hctx blob f hf, Consensus.commitment_some _ τ P hlag hf⟩
  · obtain ⟨i, -, -, -, h, -⟩ := bad_blob (ctx := ctx) hb hex
    exact .inr ⟨_, h, Consensus.commitment_none _ hb hex⟩

/-- C49: `compute_cells_and_kzg_proofs` without precomputation, for every blob and every setup of the right size. -/
theorem C49_cells_and_proofs (setup : SetupPoints G1 G2) (h1 : setup.g1Monomial.length = 4096)
    (ctx : DASContext K G1 G2) (hctx : (DASContext.new setup .no : Outcome Error (DASContext K G1 G2)) = .ok ctx)
    (blob : List UInt8) (hb : blob.length = 131072) :
    Conforms (ctx.computeCellsAndKzgProofs blob) (Consensus.computeCellsAndKzgProofs setup.g1Monomial blob) := by
  obtain ⟨M, hp, hM, -, -⟩ := context_fields setup .no h1 ctx hctx
  by_cases hex : ∃ f, Spec.IsBlobPoly blob f
  · obtain ⟨f, hf⟩ := hex
    exact .inl ⟨_, by rw [cells_of_blob hp hf, prove_exact _ h1 M (msmExact_no _ 6 6 M hM) f hf.1],
      Consensus.computeCellsAndKzgProofs_some _ h1 hf⟩
  · obtain ⟨i, -, -, -, -, h⟩ := bad_blob (ctx := ctx) hb hex
    exact .inr ⟨_, h, Consensus.computeCellsAndKzgProofs_none _ hb hex⟩

/-- C49 with precomputation: the call panics (C25 says on which blobs it can) or agrees with the specification. -/
theorem C49_precomp [LawfulCurve K G1] (setup : SetupPoints G1 G2) (up : UsePrecomp) (hu : Usable setup.g1Monomial up)
    (h1 : setup.g1Monomial.length = 4096)
    (ctx : DASContext K G1 G2) (hctx : (DASContext.new setup up : Outcome Error (DASContext K G1 G2)) = .ok ctx)
    (blob : List UInt8) (hb : blob.length = 131072) :
    ctx.computeCellsAndKzgProofs blob = .panic ∨
      Conforms (ctx.computeCellsAndKzgProofs blob) (Consensus.computeCellsAndKzgProofs setup.g1Monomial blob) := by
  obtain ⟨M, hp, hM, -, -⟩ := context_fields setup up h1 ctx hctx
  by_cases hex : ∃ f, Spec.IsBlobPoly blob f
  · obtain ⟨f, hf⟩ := hex
    rw [cells_of_blob hp hf]
    rcases prove_sound _ h1 M (msmSound_of _ h1 up hu M hM) f hf.1 _ rfl with h | h
    · exact .inl h
    · exact .inr (.inl ⟨_, h, Consensus.computeCellsAndKzgProofs_some _ h1 hf⟩)
  · obtain ⟨i, -, -, -, -, h⟩ := bad_blob (ctx := ctx) hb hex
    exact .inr (.inr ⟨_, h, Consensus.computeCellsAndKzgProofs_none _ hb hex⟩)

/-- C49: the cells are those of `compute_cells` of the specification, with and without precomputation. -/
theorem C49_cells (setup : SetupPoints G1 G2) (up : UsePrecomp) (h1 : setup.g1Monomial.length = 4096)
    (ctx : DASContext K G1 G2) (hctx : (DASContext.new setup up : Outcome ε (DASContext K G1 G2)) = .ok ctx)
    (blob : List UInt8) (hb : blob.length = 131072) (cells proofs : List (List UInt8))
    (h : ctx.computeCellsAndKzgProofs blob = .ok (cells, proofs)) : Consensus.computeCells blob = some cells := by
  obtain ⟨M, hp, -, -, -⟩ := context_fields setup up h1 ctx hctx
  by_cases hex : ∃ f, Spec.IsBlobPoly blob f
  · obtain ⟨f, hf⟩ := hex
    rw [cells_of_blob hp hf] at h
    obtain ⟨rfl, -⟩ := prove_cells _ M f hf.1 cells proofs h
    exact Consensus.computeCells_some hf
  · obtain ⟨i, -, -, -, -, herr⟩ := bad_blob (ctx := ctx) hb hex
    rw [herr] at h; cases h

theorem defect_ne_invalid {commitments : List (List UInt8)} {inds : List Nat} {cells proofs : List (List UInt8)} {e : Error}
    (h : Spec.VerifyDefect G1 commitments inds cells proofs e) : e ≠ .Verifier (.FK20 .InvalidProof) := by
  cases h <;> simp

/-- C50: `verify_cell_kzg_proof_batch`, for every batch, every setup of the right size and every hash function. The library
accepts exactly the batches for which the specification returns true, reports an invalid proof exactly where it returns
false, and another error exactly where one of its assertions fails. -/
theorem C50_verify [LawfulPointCodec G1 48] [LawfulPairing G1 G2 GT] (setup : SetupPoints G1 G2) (up : UsePrecomp)
    (h1 : setup.g1Monomial.length = 4096)
    (ctx : DASContext K G1 G2) (hctx : (DASContext.new setup up : Outcome ε (DASContext K G1 G2)) = .ok ctx)
    (sha256 : List UInt8 → List UInt8) (commitments : List (List UInt8)) (inds : List Nat)
    (cells proofs : List (List UInt8)) (hcm : ∀ c ∈ commitments, c.length = 48) (hcl : ∀ c ∈ cells, c.length = 2048)
    (hpf : ∀ c ∈ proofs, c.length = 48) :
    let library := ctx.verifyCellKzgProofBatch sha256 commitments inds cells proofs
    let spec := Consensus.verifyCellKzgProofBatch (GT := GT) sha256 setup.g1Monomial setup.g2Monomial commitments inds cells proofs
    (library = .ok () ∧ spec = some true) ∨
    (library = .err (.Verifier (.FK20 .InvalidProof)) ∧ spec = some false) ∨
    (∃ e, library = .err e ∧ e ≠ .Verifier (.FK20 .InvalidProof) ∧ spec = none) := by
  intro library spec
  obtain ⟨hg2, hg2', hver⟩ := context_verifier setup up h1 ctx hctx
  rcases verify_wellFormed_or_defect (G1 := G1) commitments inds cells proofs hcl with hw | ⟨e, he⟩
  · obtain ⟨items, hd⟩ := exists_items hcl hw
    obtain ⟨it, hite⟩ : ∃ it : Nat → Spec.Opening G1, ∀ i, it i = items.getD i ⟨0, 0, 0, 0⟩ := ⟨_, fun _ => rfl⟩
    have hspec := Consensus.verify_eq (GT := GT) sha256 setup.g1Monomial setup.g2Monomial (by omega) commitments inds cells
      proofs hcm hpf items hd _ rfl it hite
    by_cases hne : items = []
    · left
      subst hne
      refine ⟨?_, ?_⟩
      · obtain ⟨d1, d2, d3, d4⟩ := hd
        cases d1; cases d2; cases d3; cases d4
        exact verify_empty sha256 ctx
      · refine hspec.trans ?_
        simp [pair_zero_left]
    · have hlib := verify_run (GT := GT) sha256 ctx _ _ hg2 (by omega) hver commitments inds cells proofs hcm hpf items hd hne
        _ rfl it hite
      split_ifs at hlib with hc
      · exact .inl ⟨hlib, by rw [decide_eq_true hc] at hspec; exact hspec⟩
      · exact .inr (.inl ⟨hlib, by rw [decide_eq_false hc] at hspec; exact hspec⟩)
  · refine .inr (.inr ⟨e, verify_defect sha256 ctx hcl hcm hpf he, defect_ne_invalid he, ?_⟩)
    exact Consensus.verify_none sha256 _ _ _ _ _ _ (fun hw => verify_not_both hw he)

/-! ### Recovery -/

theorem defect_not_wellFormed {inds : List Nat} {cells : List (List UInt8)} {e : Error} (h : Spec.RecoveryDefect inds cells e) :
    ¬ Spec.RecoveryWellFormed inds cells := by
  intro hw
  cases h with
  | lengths h => exact h hw.lengths
  | range h pre post i hs hpre hi =>
    have := hw.inRange i (by rw [hs]; simp)
    omega
  | duplicate h hr hd => exact hd hw.distinct
  | tooFew h hr hd hn => have := hw.enough; omega
  | scalar h hr hd hn pre post c i hs hpre hi hfirst hbad =>
    have := hw.canonical c (by rw [hs]; simp) i hi
    omega

theorem Consensus.recover_none (g1 : List G1) {inds : List Nat} {cells : List (List UInt8)}
    (hw : ¬ Spec.RecoveryWellFormed inds cells) : Consensus.recoverCellsAndKzgProofs g1 inds cells = none := by
  unfold Consensus.recoverCellsAndKzgProofs
  split_ifs with h
  · obtain ⟨h1, h2, h3, h4, h5, h6⟩ := h
    have hcan : ¬ ∀ c ∈ cells, Spec.Canonical 64 c := fun hc => hw ⟨h1, h5, h4, h2, hc⟩
    push Not at hcan
    obtain ⟨c, hc, hn⟩ := hcan
    exact Consensus.bind_none (Consensus.mapM_none _ _ c hc (Consensus.fields_none 64 c hn)) _
  · rfl

theorem Consensus.recover_some (g1 : List G1) (h1 : g1.length = 4096) {inds : List Nat} {cells : List (List UInt8)}
    (hcl : ∀ c ∈ cells, c.length = 2048) (hw : Spec.RecoveryWellFormed inds cells) :
    ∃ h : Fr[X], h.degree < 4096 ∧
      Consensus.recoverCellsAndKzgProofs g1 inds cells = some (cellsOf h, proofsOf g1 h) ∧
      ∀ f, Spec.Consistent inds cells f → h = f := by
  obtain ⟨hl, hr, hnd, hn, hcan⟩ := hw
  have hex : ∀ c ∈ cells, ∃ ev : List Fr, ev.length = 64 ∧ Consensus.cellToCosetEvals c = some ev ∧
      ∀ j < 64, Spec.Encodes (Spec.block 32 j c) (ev.getD j 0) := by
    intro c hc
    have hx : ∀ j, ∃ x : Fr, j < 64 → Spec.Encodes (Spec.block 32 j c) x := by
      intro j
      by_cases hj : j < 64
      · obtain ⟨x, hx⟩ := (exists_encodes_iff (length_block_of (n := 64) (hcl c hc) hj)).2 (hcan c hc j hj)
        exact ⟨x, fun _ => hx⟩
      · exact ⟨0, fun h => absurd h hj⟩
    choose x hx using hx
    refine ⟨(List.range 64).map x, by simp, Consensus.fields_some 64 c x hx, ?_⟩
    intro j hj
    rw [(rep_map_range 64 x).getD 0 hj]
    exact hx j hj
  obtain ⟨evs, hevs⟩ := exists_forall₂ hex
  have hel : cells.length = evs.length := hevs.length_eq
  obtain ⟨c, hc, hcl', hcf⟩ := Consensus.recoverPolynomialcoeff_eq inds evs (by omega) hr hnd hn (by
    intro e he
    obtain ⟨i, hi, rfl⟩ := List.mem_iff_getElem.1 he
    exact (forall₂_getElem hevs (by omega) hi).1)
  have h128 : inds.length ≤ 128 := by
    have := (List.subperm_of_subset hnd (show inds ⊆ List.range 128 from fun a ha => List.mem_range.2 (hr a ha))).length_le
    rwa [List.length_range] at this
  refine ⟨Spec.polyOf c, ?_, ?_, ?_⟩
  · have := Spec.degree_polyOf_lt c
    rw [hcl'] at this
    exact_mod_cast this
  · unfold Consensus.recoverCellsAndKzgProofs
    rw [if_pos ⟨hl, hn, h128, hnd, hr, hcl⟩, Consensus.bind_of (Consensus.mapM_forall₂ (hevs.imp (fun _ _ h => h.2.1))),
      Consensus.bind_of hc, Consensus.cellsAndProofs_eq g1 h1 c hcl']
  · intro f hf
    rw [hcf f hf.1 ?_, Consensus.polyOf_coeffs4096 hf.1]
    rintro ⟨k, e⟩ hp
    obtain ⟨i, hi, hik⟩ := List.mem_iff_getElem.1 hp
    rw [List.length_zip] at hi
    rw [List.getElem_zip, Prod.mk.injEq] at hik
    obtain ⟨rfl, rfl⟩ := hik
    obtain ⟨e1, -, e3⟩ := forall₂_getElem hevs (i := i) (by omega) (by omega)
    have h2 := hf.2 (inds[i]'(by omega), cells[i]'(by omega)) (by
      rw [List.mem_iff_getElem]
      exact ⟨i, by rw [List.length_zip]; omega, by rw [List.getElem_zip]⟩)
    refine List.ext_getElem (by simp [e1]) ?_
    intro j hj1 hj2
    have hj : j < 64 := by simpa using hj2
    rw [List.getElem_map, List.getElem_range]
    have h3 := encodes_inj (e3 j hj) (h2.2 j hj)
    rwa [List.getD_eq_getElem _ _ hj1] at h3

/-- C51: `recover_cells_and_kzg_proofs` without precomputation, unless the supplied cells are well-formed and not the cells
of any blob: equal results, and errors where the specification fails. -/
theorem C51_recover (setup : SetupPoints G1 G2) (h1 : setup.g1Monomial.length = 4096)
    (ctx : DASContext K G1 G2) (hctx : (DASContext.new setup .no : Outcome Error (DASContext K G1 G2)) = .ok ctx)
    (inds : List Nat) (cells : List (List UInt8)) (hcl : ∀ c ∈ cells, c.length = 2048)
    (hor : ¬ Spec.RecoveryWellFormed inds cells ∨ ∃ f, Spec.Consistent inds cells f) :
    Conforms (ctx.recoverCellsAndKzgProofs inds cells)
      (Consensus.recoverCellsAndKzgProofs setup.g1Monomial inds cells) := by
  obtain ⟨M, hp, hM, hrs, -⟩ := context_fields setup .no h1 ctx hctx
  rcases recovery_wellFormed_or_defect inds cells hcl with hw | ⟨e, he⟩
  · rcases hor with hn | ⟨f, hf⟩
    · exact absurd hw hn
    · obtain ⟨h, -, hs, hu⟩ := Consensus.recover_some setup.g1Monomial h1 hcl hw
      rw [hu f hf] at hs
      rcases recoverPolynomialCoeff_cases hw.1 hw.2 hcl hw.3 hw.4 hw.5 with ⟨⟨g, hg, hrun⟩ | ⟨hne, -⟩, huniq⟩
      · rw [huniq g f hg hf] at hrun
        refine .inl ⟨_, ?_, hs⟩
        rw [recover_run hp hrs hrun, prove_exact _ h1 M (msmExact_no _ 6 6 M hM) f hf.1]
      · exact absurd ⟨f, hf⟩ hne
  · exact .inr ⟨e, recover_err hrs (recoverPolynomialCoeff_defect hcl he _),
      Consensus.recover_none _ (defect_not_wellFormed he)⟩

/-- C51, with and without precomputation: whatever the library returns, the specification returns the same (for a context
with precomputation, of any width from 1 to 24). -/
theorem C51_results_agree [LawfulCurve K G1] (setup : SetupPoints G1 G2) (up : UsePrecomp) (hu : Usable setup.g1Monomial up)
    (h1 : setup.g1Monomial.length = 4096)
    (ctx : DASContext K G1 G2) (hctx : (DASContext.new setup up : Outcome Error (DASContext K G1 G2)) = .ok ctx)
    (inds : List Nat) (cells : List (List UInt8)) (hcl : ∀ c ∈ cells, c.length = 2048) (r : List (List UInt8) × List (List UInt8))
    (h : ctx.recoverCellsAndKzgProofs inds cells = .ok r) :
    Consensus.recoverCellsAndKzgProofs setup.g1Monomial inds cells = some r := by
  obtain ⟨M, hp, hM, hrs, -⟩ := context_fields setup up h1 ctx hctx
  rcases recovery_wellFormed_or_defect inds cells hcl with hw | ⟨e, he⟩
  · rcases recoverPolynomialCoeff_cases hw.1 hw.2 hcl hw.3 hw.4 hw.5 with ⟨⟨f, hf, hrun⟩ | ⟨hne, hrun⟩, -⟩
    · rw [recover_run hp hrs hrun] at h
      obtain ⟨g, -, hs, hu'⟩ := Consensus.recover_some setup.g1Monomial h1 hcl hw
      rw [hs, hu' f hf]
      rcases prove_sound _ h1 M (msmSound_of _ h1 up hu M hM) f hf.1 _ rfl with h2 | h2
      · rw [h2] at h; cases h
      · rw [h2] at h; cases h; rfl
    · rw [recover_err hrs hrun] at h; cases h
  · rw [recover_err hrs (recoverPolynomialCoeff_defect hcl he _)] at h; cases h

/-- C51, the difference: on well-formed cells which are not the cells of any blob the library reports a Reed–Solomon error
where the specification returns the cells and proofs of some other blob, one of which is not the supplied one. -/
theorem C51_inconsistent_differs (setup : SetupPoints G1 G2) (up : UsePrecomp) (h1 : setup.g1Monomial.length = 4096)
    (ctx : DASContext K G1 G2) (hctx : (DASContext.new setup up : Outcome ε (DASContext K G1 G2)) = .ok ctx)
    (inds : List Nat) (cells : List (List UInt8)) (hcl : ∀ c ∈ cells, c.length = 2048)
    (hw : Spec.RecoveryWellFormed inds cells) (hne : ¬ ∃ f, Spec.Consistent inds cells f) :
    ctx.recoverCellsAndKzgProofs inds cells =
      .err (.Recovery (.ReedSolomon (.PolynomialHasInvalidLength 8192 4096))) ∧
    ∃ out proofs, Consensus.recoverCellsAndKzgProofs setup.g1Monomial inds cells = some (out, proofs) ∧
      ∃ p ∈ inds.zip cells, out[p.1]? ≠ some p.2 := by
  refine ⟨C10_inconsistent_error setup up h1 ctx hctx inds cells hcl hw hne, ?_⟩
  obtain ⟨h, hdeg, hs, -⟩ := Consensus.recover_some setup.g1Monomial h1 hcl hw
  refine ⟨_, _, hs, ?_⟩
  by_contra hall
  push Not at hall
  refine hne ⟨h, hdeg, ?_⟩
  intro p hp
  have h2 := hall p hp
  rw [cellsOf_eq, List.getElem?_map, List.getElem?_range (hw.2 _ (List.of_mem_zip hp).1), Option.map_some,
    Option.some.injEq] at h2
  rw [isCell_iff, h2]

/-- C51: with exactly 64 cells there is no difference. -/
theorem C51_exactly_64 (setup : SetupPoints G1 G2) (h1 : setup.g1Monomial.length = 4096)
    (ctx : DASContext K G1 G2) (hctx : (DASContext.new setup .no : Outcome Error (DASContext K G1 G2)) = .ok ctx)
    (inds : List Nat) (cells : List (List UInt8)) (hcl : ∀ c ∈ cells, c.length = 2048) (h64 : inds.length = 64) :
    Conforms (ctx.recoverCellsAndKzgProofs inds cells)
      (Consensus.recoverCellsAndKzgProofs setup.g1Monomial inds cells) := by
  apply C51_recover setup h1 ctx hctx inds cells hcl
  by_cases hw : Spec.RecoveryWellFormed inds cells
  · exact .inr (consistent_exists hw.1 hw.2 hcl hw.3 h64 hw.5)
  · exact .inl hw

end

/-! Non-vacuity: a Lagrange setup exists for every secret. For the hypotheses of `C51_inconsistent_differs` see the example of 65
cells in `Props/Recovery.lean`. -/
section
open Toy

theorem Toy.lagrangeSetup (τ : Fr) : Consensus.LagrangeSetup ((List.range 4096).map (fun i =>
    (Lagrange.basis (Finset.range 4096) (fun j => ((7 : Fr) ^ ((frOrder - 1) / 4096)) ^ j) i).eval τ)) τ (1 : Fr) where
  length_eq := by rw [List.length_map, List.length_range]
  getElem_eq i hi := by rw [List.getElem?_map, List.getElem?_range hi, Option.map_some, smul_eq_mul, mul_one]

/-- C48, C49: the specification returns a commitment, cells and proofs for a concrete blob -/
example : ∃ (ctx : DASContext Fr Fr Fr) (g1Lagrange : List Fr) (c : List UInt8) (r : List (List UInt8) × List (List UInt8)),
    (DASContext.new (setup 7) .no : Outcome Error _) = .ok ctx ∧ Consensus.LagrangeSetup g1Lagrange 7 (1 : Fr) ∧
    ctx.blobToKzgCommitment blob = .ok c ∧ Consensus.blobToKzgCommitment g1Lagrange blob = some c ∧
    ctx.computeCellsAndKzgProofs blob = .ok r ∧ Consensus.computeCellsAndKzgProofs (setup 7).g1Monomial blob = some r := by
  obtain ⟨ctx, hctx⟩ := context 7
  have h1 := C03_commitment (setup 7) .no 7 1 1 (powersOfTau 7) ctx hctx blob poly blob_poly
  obtain ⟨cells, proofs, h2⟩ := C02_accepts (setup 7) (length_g1 7) ctx hctx blob blob_poly.2.1
    ((blobPoly_iff blob_poly.2.1).1 ⟨_, blob_poly⟩)
  refine ⟨ctx, _, _, _, hctx, lagrangeSetup 7, h1, ?_, h2, ?_⟩
  · rcases C48_commitment (setup 7) .no 7 1 1 (powersOfTau 7) _ (lagrangeSetup 7) ctx hctx blob blob_poly.2.1 with
      ⟨a, ha, hs⟩ | ⟨e, he, -⟩
    · rw [h1] at ha; cases ha; exact hs
    · rw [h1] at he; cases he
  · rcases C49_cells_and_proofs (setup 7) (length_g1 7) ctx hctx blob blob_poly.2.1 with ⟨a, ha, hs⟩ | ⟨e, he, -⟩
    · rw [h2] at ha; cases ha; exact hs
    · rw [h2] at he; cases he

/-- C50: a claim for which the specification returns false: commitment to 1, cell and proof zero -/
example (sha256 : List UInt8 → List UInt8) : Consensus.verifyCellKzgProofBatch (GT := Fr) sha256 (setup 7).g1Monomial
    (setup 7).g2Monomial [toCompressed (1 : Fr)] [0] [cellOf 0 0] [toCompressed (0 : Fr)] = some false := by
  obtain ⟨ctx, hctx⟩ := context 7
  have hcl : (cellOf 0 0).length = 2048 := cellOf_length _ _
  have hno := (C06_single (setup 7) .no 7 1 1 (powersOfTau 7) nondegenerate ctx hctx sha256 (toCompressed (1 : Fr)) 0
    (cellOf 0 0) (toCompressed (0 : Fr)) (LawfulPointCodec.length_toCompressed _) (LawfulPointCodec.length_toCompressed _)
    1 0 0 (LawfulPointCodec.fromCompressed_toCompressed _) (by norm_num) (by rw [degree_zero]; exact WithBot.bot_lt_coe _)
    ((isCell_iff _ _ _).2 rfl) (LawfulPointCodec.fromCompressed_toCompressed _))
  have hw : Spec.VerifyWellFormed Fr [toCompressed (1 : Fr)] [0] [cellOf 0 0] [toCompressed (0 : Fr)] :=
    ⟨⟨rfl, rfl, rfl⟩, by simp, by simp [LawfulPointCodec.fromCompressed_toCompressed],
      by simp [LawfulPointCodec.fromCompressed_toCompressed], by
        intro c hc j hj
        rw [List.mem_singleton.1 hc]
        have := ((isCell_iff (0 : Fr[X]) 0 _).2 rfl).2 j hj
        exact (exists_encodes_iff this.1).1 ⟨_, this⟩⟩
  rcases C50_verify (GT := Fr) (setup 7) .no (length_g1 7) ctx hctx sha256 [toCompressed (1 : Fr)] [0] [cellOf 0 0]
    [toCompressed (0 : Fr)] (by simp [LawfulPointCodec.length_toCompressed]) (by simpa using hcl)
    (by simp [LawfulPointCodec.length_toCompressed]) with ⟨h, -⟩ | ⟨-, h⟩ | ⟨e, h, hne, hs⟩
  · have := hno.1 h
    simp at this
  · exact h
  · exfalso
    obtain ⟨items, hd⟩ := exists_items (by simpa using hcl) hw
    have := (C06_batch (setup 7) .no 7 1 1 (powersOfTau 7) nondegenerate ctx hctx sha256 _ _ _ _
      (by simp [LawfulPointCodec.length_toCompressed]) (by simp [LawfulPointCodec.length_toCompressed]) items hd).2
      (by rw [h]; simp)
    rw [h] at this
    cases this
    exact hne rfl

end
end Verif
