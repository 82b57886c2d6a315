import Verif.Model.Api
import Verif.Lemmas.Fk20
import Verif.Lemmas.NoErr
import Verif.Lemmas.ReedSolomon
import Verif.Lemmas.Serialization
import Verif.Lemmas.Reassembly

set_option linter.unusedSectionVars false

/-! The fields of a context, and the prover entry points in terms of polynomials. -/
namespace Verif
open Polynomial Finset

variable {ε : Type}

section
variable {K G1 G2 : Type} [Field K] [DecidableEq K] [AddCommGroup G1] [Module Fr G1] [DecidableEq G1]
  [Curve K G1] [PointCodec G1] [AddCommGroup G2] [Module Fr G2]

/-- the verifier context built from a setup -/
def verifierOf (g1 : List G1) (g2 : List G2) : FK20Verifier G1 G2 where
  verificationKey := ⟨g1.take g2.length, g2, g2.getD 0 0, 64, 4096⟩
  cosetGensBitReversed := (List.range 128).map (fun i => Spec.omega 13 ^ Spec.brev 7 i)
  cosetDomain := domainOf 6
  tauPowN := g2.getD 64 0
  negG2Gen := -(g2.getD 0 0)
  bitReversedCosetGensPowN := (List.range 128).map (fun i => (Spec.omega 13 ^ Spec.brev 7 i) ^ 64)
  bitReversedCosetFftGens := (List.range 128).map (fun i =>
    ⟨Spec.omega 13 ^ Spec.brev 7 i, (Spec.omega 13 ^ Spec.brev 7 i)⁻¹⟩)

theorem verifierContext_new (setup : SetupPoints G1 G2) (h2 : 65 ≤ setup.g2Monomial.length)
    (h1 : setup.g2Monomial.length ≤ setup.g1Monomial.length) :
    (VerifierContext.new setup : Outcome ε (VerifierContext G1 G2)) =
      .ok ⟨verifierOf setup.g1Monomial setup.g2Monomial⟩ := by
  unfold VerifierContext.new verificationKeyOfSetup
  rw [slice_zero h1, Outcome.ok_bind]
  unfold VerificationKey.new
  have hi0 : (idx setup.g2Monomial 0 : Outcome ε G2) = .ok (setup.g2Monomial.getD 0 0) :=
    (rep_getD setup.g2Monomial 0).idx (by omega)
  have hi64 : (idx setup.g2Monomial 64 : Outcome ε G2) = .ok (setup.g2Monomial.getD 64 0) :=
    (rep_getD setup.g2Monomial 0).idx (by omega)
  rw [hi0, Outcome.ok_bind, assertP_true (by show 64 < _; omega), Outcome.ok_bind, Outcome.pure_eq, Outcome.ok_bind]
  unfold FK20Verifier.new
  have hg := cosetGens_spec (ε := ε) 13 7 (by norm_num) (by norm_num)
  have hg' : (cosetGens FIELD_ELEMENTS_PER_EXT_BLOB CELLS_PER_EXT_BLOB true : Outcome ε (List Fr)) =
      .ok ((List.range 128).map (fun i => Spec.omega 13 ^ Spec.brev 7 i)) := hg
  rw [hg', Outcome.ok_bind, assertP_true (by decide), Outcome.ok_bind]
  have hcs : FIELD_ELEMENTS_PER_EXT_BLOB / CELLS_PER_EXT_BLOB = 64 := by decide
  simp only [hcs]
  rw [assertP_true (by omega), Outcome.ok_bind]
  have hd : (Domain.new FIELD_ELEMENTS_PER_CELL : Outcome ε Domain) = .ok (domainOf 6) :=
    domain_new_two_pow 6 (by norm_num)
  rw [hd, Outcome.ok_bind]
  have hi64' : (idx setup.g2Monomial FIELD_ELEMENTS_PER_CELL : Outcome ε G2) = .ok (setup.g2Monomial.getD 64 0) := hi64
  rw [hi64', Outcome.ok_bind]
  rw [List.mapM_map, mapM_ok (g := fun i => (⟨Spec.omega 13 ^ Spec.brev 7 i, (Spec.omega 13 ^ Spec.brev 7 i)⁻¹⟩ : CosetFFT))]
  · simp only [Outcome.ok_bind, Outcome.pure_eq, List.map_map]
    rfl
  · intro i _
    have : Spec.omega 13 ^ Spec.brev 7 i ≠ 0 := pow_ne_zero _ (omega_ne_zero 13 (by norm_num))
    simp [CosetFFT.new, invertExpect, this]

/-- The fields of a context built from a setup of the protocol's size. -/
theorem context_fields (setup : SetupPoints G1 G2) (up : UsePrecomp) (h1 : setup.g1Monomial.length = 4096)
    (ctx : DASContext K G1 G2) (h : (DASContext.new setup up : Outcome ε (DASContext K G1 G2)) = .ok ctx) :
    ∃ M, ctx.proverCtx.kzgMultipointProver = proverOf setup.g1Monomial 6 6 13 M ∧
      (∀ j < 2 ^ 7, (FixedBaseMSM.new (fftGens (srsVectors setup.g1Monomial (2 ^ 6)) 7 j) up :
        Outcome ε (FixedBaseMSM K G1)) = .ok (M j)) ∧
      ctx.proverCtx.rs = rsOf 12 1 7 ∧
      (VerifierContext.new setup : Outcome ε (VerifierContext G1 G2)) = .ok ctx.verifierCtx := by
  unfold DASContext.new ProverContext.new at h
  rw [bind_eq_ok] at h
  obtain ⟨p, hp, h⟩ := h
  rw [bind_eq_ok] at h
  obtain ⟨v, hv, h⟩ := h
  simp only [Outcome.pure_eq, Outcome.ok.injEq] at h
  subst h
  rw [bind_eq_ok] at hp
  obtain ⟨ck, hck, hp⟩ := hp
  unfold commitKeyNew at hck
  rw [bind_eq_ok] at hck
  obtain ⟨u, -, hck⟩ := hck
  simp only [Outcome.pure_eq, Outcome.ok.injEq] at hck
  subst hck
  rw [bind_eq_ok] at hp
  obtain ⟨pr, hpr, hp⟩ := hp
  have hrs : (ReedSolomon.new FIELD_ELEMENTS_PER_BLOB EXPANSION_FACTOR CELLS_PER_EXT_BLOB : Outcome ε ReedSolomon) =
      .ok (rsOf 12 1 7) := rs_new 12 1 7 (by norm_num) (by norm_num)
  rw [hrs] at hp
  simp only [Outcome.ok_bind, Outcome.pure_eq, Outcome.ok.injEq] at hp
  subst hp
  obtain ⟨M, hM, hMj⟩ := prover_new_ok (ε := ε) setup.g1Monomial 6 6 13 (by norm_num) (by norm_num) (by norm_num)
    (by rw [h1]; norm_num) up pr hpr
  exact ⟨M, hM, hMj, rfl, hv⟩

/-! ### blobs -/

theorem isBlobPoly_unique {blob : List UInt8} {f g : Fr[X]} (hf : Spec.IsBlobPoly blob f) (hg : Spec.IsBlobPoly blob g) :
    f = g := by
  apply poly_eq_of_coset (omega_primitive 12 (by norm_num)) one_ne_zero (by simpa using hf.1) (by simpa using hg.1)
  intro j hj
  have hb := Spec.brev_lt 12 j
  have h1 := hf.2.2 (Spec.brev 12 j) hb
  have h2 := hg.2.2 (Spec.brev 12 j) hb
  have := encodes_inj h1 h2
  simp only [Spec.point, Spec.brev_brev 12 j hj] at this
  rw [one_mul, this]

/-- Decoding a blob. -/
theorem blob_cases {blob : List UInt8} (hl : blob.length = 131072) :
    (∃ f xs, Spec.IsBlobPoly blob f ∧ deserializeBlobToScalars blob = .ok xs ∧ xs.length = 4096 ∧
      ∀ i < 4096, xs.getD i 0 = f.eval (Spec.point 12 i)) ∨
    ((¬ ∃ f, Spec.IsBlobPoly blob f) ∧ ∃ i < 4096, frOrder ≤ Spec.beValue (Spec.block 32 i blob) ∧
      (∀ j, j < i → Spec.beValue (Spec.block 32 j blob) < frOrder) ∧
      deserializeBlobToScalars blob = .err (.CouldNotDeserializeScalar (Spec.block 32 i blob))) := by
  rw [deserializeBlobToScalars_eq hl]
  have hl' : blob.length = 32 * 4096 := hl
  rcases deserializeBytesToScalars_cases hl' with ⟨xs, hxs, -⟩ | ⟨i, hi, hbad, hpre, herr⟩
  · left
    obtain ⟨hlen, henc⟩ := (deserializeBytesToScalars_ok hl').1 hxs
    obtain ⟨f, hf, hfe⟩ := exists_interp 12 (by norm_num) 1 one_ne_zero (fun j => xs.getD (Spec.brev 12 j) 0)
    have hev : ∀ i < 4096, xs.getD i 0 = f.eval (Spec.point 12 i) := by
      intro i hi
      have := hfe (Spec.brev 12 i) (Spec.brev_lt 12 i)
      rw [one_mul, Spec.brev_brev 12 i hi] at this
      exact this.symm
    refine ⟨f, xs, ⟨by simpa using hf, hl, ?_⟩, hxs, hlen, hev⟩
    intro i hi
    rw [← hev i hi]
    exact henc i hi
  · right
    refine ⟨?_, i, hi, hbad, hpre, herr⟩
    rintro ⟨f, -, -, hf⟩
    have := (exists_encodes_iff (length_block_of hl' hi)).1 ⟨_, hf i hi⟩
    omega

theorem inputToPoly_data (g : List G1) (M : Nat → FixedBaseMSM K G1) (xs : List Fr) (hx : xs.length = 4096) (f : Fr[X])
    (hf : f.degree < 4096) (he : ∀ i < 4096, xs.getD i 0 = f.eval (Spec.point 12 i)) :
    ((proverOf g 6 6 13 M).inputToPoly (.data xs) : Outcome ε (List Fr)) = .ok (Spec.coeffs 4096 f) := by
  unfold FK20Prover.inputToPoly
  have hR : Rep xs (2 ^ 12) (fun i => xs.getD i 0) := by
    have := rep_getD xs (0 : Fr); rwa [hx] at this
  simp only
  rw [reverseBitOrder_eq 12 (by norm_num) hR, Outcome.ok_bind]
  have hd : (proverOf g 6 6 13 M).polyDomain = domainOf 12 := rfl
  rw [hd]
  refine ifftScalars_eq 12 (by norm_num) _ f (by simpa using hf) ?_
  intro j hj
  rw [(rep_map_range (2 ^ 12) _).getD 0 hj]
  rw [he _ (Spec.brev_lt 12 j)]
  simp only [Spec.point, Spec.brev_brev 12 j hj]

/-! ### cells -/

/-- the serialized cells of a polynomial -/
noncomputable def cellsOf (f : Fr[X]) : List (List UInt8) :=
  (List.range 128).map (fun k => ((List.range 64).map (fun j =>
    scalarToBytesBE (f.eval (Spec.point 13 (64 * k + j))))).flatten)

noncomputable def cellOf (f : Fr[X]) (k : Nat) : List UInt8 := ((List.range 64).map (fun j =>
    scalarToBytesBE (f.eval (Spec.point 13 (64 * k + j))))).flatten

theorem cellsOf_eq (f : Fr[X]) : cellsOf f = (List.range 128).map (cellOf f) := rfl

theorem cellOf_length (f : Fr[X]) (k : Nat) : (cellOf f k).length = 2048 := by
  unfold cellOf
  rw [length_flatten_const (w := 32)]
  · simp
  · intro l hl
    obtain ⟨j, -, rfl⟩ := List.mem_map.1 hl
    exact length_scalarToBytesBE _

theorem isCell_iff (f : Fr[X]) (k : Nat) (cell : List UInt8) : Spec.IsCell f k cell ↔ cell = cellOf f k := by
  constructor
  · rintro ⟨hl, he⟩
    rw [← flatten_blocks 32 64 cell (by rw [hl])]
    unfold cellOf
    congr 1
    apply List.map_congr_left
    intro j hj
    exact encodes_iff.1 (he j (List.mem_range.1 hj))
  · rintro rfl
    refine ⟨cellOf_length f k, fun j hj => ?_⟩
    rw [encodes_iff]
    unfold cellOf
    rw [block_flatten (by
      intro l hl
      obtain ⟨j, -, rfl⟩ := List.mem_map.1 hl
      exact length_scalarToBytesBE _) (by simpa using hj)]
    simp

theorem serialize_of (f : Fr[X]) (proofs : List G1) (hp : proofs.length = 128) :
    (serializeCellsAndProofs ((List.range (2 ^ (13 - 6))).map (fun k => (List.range (2 ^ 6)).map (fun j =>
      f.eval (Spec.point 13 (2 ^ 6 * k + j))))) proofs : Outcome ε _) = .ok (cellsOf f, proofs.map toCompressed) := by
  rw [serializeCellsAndProofs_eq (by simp) (by
    intro e he
    obtain ⟨k, -, rfl⟩ := List.mem_map.1 he
    simp) hp]
  rw [List.map_map]
  have : List.map ((fun e : List Fr => (e.map scalarToBytesBE).flatten) ∘ (fun k => (List.range (2 ^ 6)).map (fun j =>
      f.eval (Spec.point 13 (2 ^ 6 * k + j))))) (List.range (2 ^ (13 - 6))) = cellsOf f := by
    unfold cellsOf
    apply List.map_congr_left
    intro k _
    simp only [Function.comp_apply, List.map_map]
    rfl
  rw [← this]

/-- the proofs of a polynomial of degree below 4096 -/
noncomputable def proofsOf (g : List G1) (f : Fr[X]) : List (List UInt8) :=
  (List.range 128).map (fun k => toCompressed (Spec.openingProof g 13 6 f k))

/-- computing cells and proofs from coefficients, the MSM tables being exact -/
theorem prove_exact (g : List G1) (hg : g.length = 4096) (M : Nat → FixedBaseMSM K G1) (hM : MsmExact ε g 6 6 M)
    (f : Fr[X]) (hf : f.degree < 4096) :
    (do let (proofs, cells) ← (proverOf g 6 6 13 M).computeMultiOpeningProofsPolyCoeff (Spec.coeffs 4096 f)
        serializeCellsAndProofs cells proofs : Outcome ε _) = .ok (cellsOf f, proofsOf g f) := by
  have hp : Spec.polyOf (Spec.coeffs 4096 f) = f := Spec.polyOf_coeffs (by simpa using hf)
  rw [multiOpening_exact g (Spec.coeffs 4096 f) 6 6 13 (by norm_num) (by norm_num) (by norm_num)
    (by rw [hg]; norm_num) (by simp [Spec.coeffs]) M hM, Outcome.ok_bind, hp]
  simp only
  rw [serialize_of f _ (by simp), List.map_map]
  rfl

/-- the MSM tables being exact or panicking -/
theorem prove_sound (g : List G1) (hg : g.length = 4096) (M : Nat → FixedBaseMSM K G1) (hM : MsmSound ε g 6 6 M)
    (f : Fr[X]) (hf : f.degree < 4096) (r : Outcome ε (List (List UInt8) × List (List UInt8)))
    (hr : r = (do let (proofs, cells) ← (proverOf g 6 6 13 M).computeMultiOpeningProofsPolyCoeff (Spec.coeffs 4096 f)
                  serializeCellsAndProofs cells proofs : Outcome ε _)) :
    r = .panic ∨ r = .ok (cellsOf f, proofsOf g f) := by
  subst hr
  have hp : Spec.polyOf (Spec.coeffs 4096 f) = f := Spec.polyOf_coeffs (by simpa using hf)
  rcases multiOpening_sound g (Spec.coeffs 4096 f) 6 6 13 (by norm_num) (by norm_num) (by norm_num)
    (by rw [hg]; norm_num) (by simp [Spec.coeffs]) M hM with h | h
  · left; rw [h]; rfl
  · right
    rw [h, Outcome.ok_bind, hp]
    simp only
    rw [serialize_of f _ (by simp), List.map_map]
    rfl

/-- Cells are right whatever the MSM tables compute. -/
theorem prove_cells (g : List G1) (M : Nat → FixedBaseMSM K G1)
    (f : Fr[X]) (hf : f.degree < 4096) (cells proofs : List (List UInt8))
    (hr : (do let (proofs, cells) ← (proverOf g 6 6 13 M).computeMultiOpeningProofsPolyCoeff (Spec.coeffs 4096 f)
              serializeCellsAndProofs cells proofs : Outcome ε _) = .ok (cells, proofs)) :
    cells = cellsOf f ∧ proofs.length = 128 := by
  have hp : Spec.polyOf (Spec.coeffs 4096 f) = f := Spec.polyOf_coeffs (by simpa using hf)
  rw [bind_eq_ok] at hr
  obtain ⟨⟨pr, ev⟩, h1, h2⟩ := hr
  unfold FK20Prover.computeMultiOpeningProofsPolyCoeff at h1
  rw [computeCosetEvaluations_eq g (Spec.coeffs 4096 f) 6 6 13 (by norm_num) (by norm_num) (by simp [Spec.coeffs]) M] at h1
  simp only [bind_eq_ok, Outcome.ok_bind, Outcome.pure_eq, Outcome.ok.injEq, Prod.mk.injEq] at h1
  obtain ⟨_, -, _, -, _, -, rfl, rfl⟩ := h1
  simp only at h2
  unfold serializeCellsAndProofs at h2
  rw [hp, cosetEvaluationsToCells_eq (by simp) (by
    intro e he
    obtain ⟨k, -, rfl⟩ := List.mem_map.1 he
    simp)] at h2
  simp only [bind_eq_ok, Outcome.ok_bind, Outcome.pure_eq, Outcome.ok.injEq, Prod.mk.injEq, assertP_eq_ok] at h2
  obtain ⟨_, hlen, h3, rfl⟩ := h2
  refine ⟨?_, hlen⟩
  rw [← h3, List.map_map]
  unfold cellsOf
  apply List.map_congr_left
  intro k _
  simp only [Function.comp_apply, List.map_map]
  rfl

theorem prove_ne_err (g : List G1) (M : Nat → FixedBaseMSM K G1) (f : Fr[X]) {e : ε}
    (h : (do let (proofs, cells) ← (proverOf g 6 6 13 M).computeMultiOpeningProofsPolyCoeff (Spec.coeffs 4096 f)
             serializeCellsAndProofs cells proofs : Outcome ε _) = .err e) : False := by
  exact NoErr.bind (NoErr.computeMultiOpeningProofsPolyCoeff _ _) (fun _ => NoErr.serializeCellsAndProofs _ _) e h

theorem commit_eq' (g : List G1) (n : Nat) (hg : g.length = n) (f : Fr[X]) :
    (commitG1 g (Spec.coeffs n f) : Outcome ε G1) = .ok (Spec.commitment g f) := by
  have hl : (Spec.coeffs n f).length = n := by simp [Spec.coeffs]
  unfold commitG1
  rw [hl, slice_zero (by omega), Outcome.ok_bind, lincomb_eq]
  rw [List.take_of_length_le (by omega), lcSum_eq _ _ n hg hl]
  show Outcome.ok _ = _
  have : ∑ i ∈ range n, (Spec.coeffs n f).getD i 0 • g.getD i 0 = Spec.commitment g f := by
    unfold Spec.commitment
    rw [hg]
    apply sum_congr rfl
    intro i hi
    have : (Spec.coeffs n f).getD i 0 = f.coeff i := (rep_map_range n f.coeff).getD 0 (mem_range.1 hi)
    rw [this]
  rw [this]

theorem commit_eq (g : List G1) (hg : g.length = 4096) (f : Fr[X]) :
    (commitG1 g (Spec.coeffs 4096 f) : Outcome ε G1) = .ok (Spec.commitment g f) :=
  commit_eq' g 4096 hg f

end

end Verif
