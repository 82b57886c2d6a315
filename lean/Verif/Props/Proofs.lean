import Verif.Props.ProverCells
import Verif.Lemmas.Quotient
import Verif.Lemmas.Precomp

set_option linter.unusedSectionVars false

/-! C03, C04, C05: commitments, cell proofs, completeness of verification. -/
namespace Verif
open Polynomial Finset

section
variable {ε K G1 G2 GT : Type} [Field K] [DecidableEq K] [AddCommGroup G1] [Module Fr G1] [DecidableEq G1]
  [Curve K G1] [PointCodec G1] [AddCommGroup G2] [Module Fr G2] [AddCommGroup GT] [DecidableEq GT]
  [Pairing G1 G2 GT]

/-- C03: with a powers-of-tau setup the commitment of the blob of `f` is `f(τ)` times the generator, with or without
precomputation. -/
theorem C03_commitment (setup : SetupPoints G1 G2) (up : UsePrecomp) (τ : Fr) (P : G1) (H : G2)
    (hpt : Spec.PowersOfTau setup.g1Monomial setup.g2Monomial τ P H)
    (ctx : DASContext K G1 G2) (hctx : (DASContext.new setup up : Outcome ε (DASContext K G1 G2)) = .ok ctx)
    (blob : List UInt8) (f : Fr[X]) (hf : Spec.IsBlobPoly blob f) :
    ctx.blobToKzgCommitment blob = .ok (toCompressed (f.eval τ • P)) := by
  obtain ⟨M, hp, -, -, -⟩ := context_fields setup up hpt.length_g1 ctx hctx
  rw [commitment_of_blob hpt.length_g1 hp hf, commitment_eval hpt f hf.1]

theorem proofsOf_correct {setup : SetupPoints G1 G2} {τ : Fr} {P : G1} {H : G2}
    (hpt : Spec.PowersOfTau setup.g1Monomial setup.g2Monomial τ P H) (f : Fr[X]) (hf : f.degree < 4096) :
    (cellsOf f).length = 128 ∧ (proofsOf setup.g1Monomial f).length = 128 ∧
      ∀ k < 128, ∀ q I : Fr[X], f = q * (X ^ 64 - C (Spec.point 13 (64 * k) ^ 64)) + I → I.degree < 64 →
        (proofsOf setup.g1Monomial f)[k]? = some (toCompressed (q.eval τ • P)) ∧
        ∃ cell, (cellsOf f)[k]? = some cell ∧ Spec.IsCell I k cell := by
  refine ⟨by simp [cellsOf], by simp [proofsOf], ?_⟩
  intro k hk q I hfe hI
  have hdm := div_modByMonic_unique q I (cellDivisor_monic k) (f := f)
    ⟨by rw [hfe]; unfold cellDivisor; ring, by rw [cellDivisor_degree]; exact hI⟩
  constructor
  · unfold proofsOf
    rw [List.getElem?_map, List.getElem?_range hk, Option.map_some, openingProof_eval hpt f hf, hdm.1]
  · refine ⟨cellOf f k, ?_, ?_⟩
    · rw [cellsOf_eq, List.getElem?_map, List.getElem?_range hk, Option.map_some]
    · rw [← hdm.2, isCell_mod, isCell_iff]

/-- C04: the prover reports 128 proofs. -/
theorem C04_num_proofs (setup : SetupPoints G1 G2) (up : UsePrecomp) (h1 : setup.g1Monomial.length = 4096)
    (ctx : DASContext K G1 G2) (hctx : (DASContext.new setup up : Outcome ε (DASContext K G1 G2)) = .ok ctx) :
    ctx.proverCtx.kzgMultipointProver.numProofs = 128 := by
  obtain ⟨M, hp, -⟩ := context_fields setup up h1 ctx hctx
  rw [hp]
  unfold FK20Prover.numProofs proverOf
  norm_num

/-- C04: proof `k` of the blob of `f` is `q(τ)` times the generator, where `q` is the quotient of `f` by `X^64 - h^64`,
`h` being the first point of coset `k`; the remainder is the polynomial of degree below 64 that interpolates cell `k`. -/
theorem C04_proofs (setup : SetupPoints G1 G2) (τ : Fr) (P : G1) (H : G2)
    (hpt : Spec.PowersOfTau setup.g1Monomial setup.g2Monomial τ P H)
    (ctx : DASContext K G1 G2) (hctx : (DASContext.new setup .no : Outcome Error (DASContext K G1 G2)) = .ok ctx)
    (blob : List UInt8) (f : Fr[X]) (hf : Spec.IsBlobPoly blob f) :
    ∃ cells proofs, ctx.computeCellsAndKzgProofs blob = .ok (cells, proofs) ∧ cells.length = 128 ∧ proofs.length = 128 ∧
      ∀ k < 128, ∀ q I : Fr[X], f = q * (X ^ 64 - C (Spec.point 13 (64 * k) ^ 64)) + I → I.degree < 64 →
        proofs[k]? = some (toCompressed (q.eval τ • P)) ∧ ∃ cell, cells[k]? = some cell ∧ Spec.IsCell I k cell := by
  obtain ⟨M, hp, hM, -, -⟩ := context_fields setup .no hpt.length_g1 ctx hctx
  exact ⟨cellsOf f, proofsOf setup.g1Monomial f,
    by rw [cells_of_blob hp hf, prove_exact _ hpt.length_g1 M (msmExact_no _ 6 6 M hM) f hf.1], proofsOf_correct hpt f hf.1⟩

/-- The conclusion of C04. -/
def ProofsCorrect (τ : Fr) (P : G1) (f : Fr[X]) (cells proofs : List (List UInt8)) : Prop :=
  cells.length = 128 ∧ proofs.length = 128 ∧
    ∀ k < 128, ∀ q I : Fr[X], f = q * (X ^ 64 - C (Spec.point 13 (64 * k) ^ 64)) + I → I.degree < 64 →
      proofs[k]? = some (toCompressed (q.eval τ • P)) ∧ ∃ cell, cells[k]? = some cell ∧ Spec.IsCell I k cell

/-- C04 with precomputation (every width from 1 to 24, no identity among the base points of the tables): the call panics or
returns the same cells and proofs as without. -/
theorem C04_proofs_precomp [LawfulCurve K G1] (setup : SetupPoints G1 G2) (up : UsePrecomp) (hu : Usable setup.g1Monomial up)
    (τ : Fr) (P : G1) (H : G2) (hpt : Spec.PowersOfTau setup.g1Monomial setup.g2Monomial τ P H)
    (ctx : DASContext K G1 G2) (hctx : (DASContext.new setup up : Outcome Error (DASContext K G1 G2)) = .ok ctx)
    (blob : List UInt8) (f : Fr[X]) (hf : Spec.IsBlobPoly blob f) :
    ctx.computeCellsAndKzgProofs blob = .panic ∨
    ∃ cells proofs, ctx.computeCellsAndKzgProofs blob = .ok (cells, proofs) ∧ ProofsCorrect τ P f cells proofs := by
  obtain ⟨M, hp, hM, -, -⟩ := context_fields setup up hpt.length_g1 ctx hctx
  rcases prove_sound _ hpt.length_g1 M (msmSound_of _ hpt.length_g1 up hu M hM) f hf.1 _ rfl with h | h
  · left; rw [cells_of_blob hp hf]; exact h
  · right
    exact ⟨cellsOf f, proofsOf setup.g1Monomial f, by rw [cells_of_blob hp hf]; exact h, proofsOf_correct hpt f hf.1⟩

/-- A tuple (commitment, cell index, cell, proof) that an honest prover publishes for some blob. -/
def HonestTuple (ctx : DASContext K G1 G2) (t : List UInt8 × Nat × List UInt8 × List UInt8) : Prop :=
  ∃ blob cells proofs, blob.length = 131072 ∧ ctx.blobToKzgCommitment blob = .ok t.1 ∧
    ctx.computeCellsAndKzgProofs blob = .ok (cells, proofs) ∧ cells[t.2.1]? = some t.2.2.1 ∧
    proofs[t.2.1]? = some t.2.2.2

theorem exists_forall₂ {α β : Type} {R : α → β → Prop} {l : List α} (h : ∀ a ∈ l, ∃ b, R a b) : ∃ m, List.Forall₂ R l m := by
  induction l with
  | nil => exact ⟨[], .nil⟩
  | cons a l ih =>
    obtain ⟨b, hb⟩ := h a (by simp)
    obtain ⟨m, hm⟩ := ih (fun a ha => h a (by simp [ha]))
    exact ⟨b :: m, .cons hb hm⟩

/-- Batches of tuples that satisfy the equations are accepted. -/
theorem accept_correct [LawfulPointCodec G1 48] [LawfulPairing G1 G2 GT] (setup : SetupPoints G1 G2) (up : UsePrecomp)
    (τ : Fr) (P : G1) (H : G2) (hpt : Spec.PowersOfTau setup.g1Monomial setup.g2Monomial τ P H)
    (ctx : DASContext K G1 G2) (hctx : (DASContext.new setup up : Outcome ε (DASContext K G1 G2)) = .ok ctx)
    (sha256 : List UInt8 → List UInt8) (batch : List (List UInt8 × Nat × List UInt8 × List UInt8))
    (hb : ∀ t ∈ batch, ∃ (f : Fr[X]) (cells proofs : List (List UInt8)), t.1 = toCompressed (f.eval τ • P) ∧
      ProofsCorrect τ P f cells proofs ∧ cells[t.2.1]? = some t.2.2.1 ∧ proofs[t.2.1]? = some t.2.2.2) :
    ctx.verifyCellKzgProofBatch sha256 (batch.map (·.1)) (batch.map (·.2.1)) (batch.map (·.2.2.1)) (batch.map (·.2.2.2)) =
      .ok () := by
  have hver := (context_verifier setup up hpt.length_g1 ctx hctx).2.2
  have hex : ∀ t ∈ batch, ∃ o : Spec.Opening G1, (t.1 = toCompressed o.commitment ∧ (t.2.1 = o.index ∧ t.2.1 < 128) ∧
      (o.interp.degree < 64 ∧ Spec.IsCell o.interp o.index t.2.2.1) ∧ t.2.2.2 = toCompressed o.proof) ∧
      o.defect τ P = 0 := by
    intro t ht
    obtain ⟨f, cells, proofs, hc, ⟨hl1, hl2, h3⟩, hk1, hk2⟩ := hb t ht
    have hk : t.2.1 < 128 := by
      rw [← hl1]; exact (List.getElem?_eq_some_iff.1 hk1).1
    have hdecomp : f = (f /ₘ cellDivisor t.2.1) * (X ^ 64 - C (Spec.point 13 (64 * t.2.1) ^ 64)) + f %ₘ cellDivisor t.2.1 := by
      conv_lhs => rw [← modByMonic_add_div f (cellDivisor t.2.1)]
      unfold cellDivisor
      ring
    obtain ⟨h4, cell, h5, h6⟩ := h3 t.2.1 hk _ _ hdecomp (mod_degree f _)
    rw [hk2] at h4
    rw [hk1] at h5
    refine ⟨⟨f.eval τ • P, t.2.1, f %ₘ cellDivisor t.2.1, (f /ₘ cellDivisor t.2.1).eval τ • P⟩,
      ⟨hc, ⟨rfl, hk⟩, ⟨mod_degree f _, ?_⟩, Option.some.inj h4⟩, ?_⟩
    · rw [Option.some.inj h5]; exact h6
    · rw [← Spec.Opening.valid_iff]
      exact honest_valid τ P f t.2.1
  obtain ⟨items, hitems⟩ := exists_forall₂ hex
  have hd : Spec.Decodes (batch.map (·.1)) (batch.map (·.2.1)) (batch.map (·.2.2.1)) (batch.map (·.2.2.2)) items := by
    refine ⟨?_, ?_, ?_, ?_⟩ <;> rw [List.forall₂_map_left_iff] <;> refine hitems.imp (fun t o h => ?_)
    · rw [h.1.1]; exact LawfulPointCodec.fromCompressed_toCompressed _
    · exact h.1.2.1
    · exact h.1.2.2.1
    · rw [h.1.2.2.2]; exact LawfulPointCodec.fromCompressed_toCompressed _
  by_cases hne : items = []
  · subst hne
    cases hitems
    exact verify_empty sha256 ctx
  have hz : ∀ o ∈ items, o.defect τ P = 0 := by
    intro o ho
    obtain ⟨i, hi, rfl⟩ := List.mem_iff_getElem.1 ho
    exact (forall₂_getElem hitems (by rw [hitems.length_eq]; exact hi) hi).2
  have hl48 : ∀ c ∈ batch.map (·.1), c.length = 48 := by
    intro c hc
    obtain ⟨i, hi, rfl⟩ := List.mem_iff_getElem.1 hc
    have hi' : i < batch.length := by simpa using hi
    rw [List.getElem_map, (forall₂_getElem hitems hi' (by rw [← hitems.length_eq]; exact hi')).1.1]
    exact LawfulPointCodec.length_toCompressed _
  have hp48 : ∀ c ∈ batch.map (·.2.2.2), c.length = 48 := by
    intro c hc
    obtain ⟨i, hi, rfl⟩ := List.mem_iff_getElem.1 hc
    have hi' : i < batch.length := by simpa using hi
    rw [List.getElem_map, (forall₂_getElem hitems hi' (by rw [← hitems.length_eq]; exact hi')).1.2.2.2]
    exact LawfulPointCodec.length_toCompressed _
  rw [verify_decodes (GT := GT) sha256 ctx _ _ hver τ P H hpt _ _ _ _ hl48 hp48 items hd hne, if_pos]
  have : Spec.combined τ P (Spec.challenge sha256 (batch.map (·.1)) (batch.map (·.2.1)) (batch.map (·.2.2.1))
      (batch.map (·.2.2.2))) items = 0 := by
    unfold Spec.combined
    apply sum_eq_zero
    intro i _
    have hi : (items[i]).defect τ P = 0 := hz _ (List.getElem_mem i.2)
    rw [hi, smul_zero]
  rw [this, pair_zero_left]

/-- C05: every batch of tuples published by honest provers is accepted, for every hash function: any order, subset and
repetition, over any number of blobs. -/
theorem C05_completeness [LawfulPointCodec G1 48] [LawfulPairing G1 G2 GT] (setup : SetupPoints G1 G2) (τ : Fr) (P : G1) (H : G2)
    (hpt : Spec.PowersOfTau setup.g1Monomial setup.g2Monomial τ P H)
    (ctx : DASContext K G1 G2) (hctx : (DASContext.new setup .no : Outcome Error (DASContext K G1 G2)) = .ok ctx)
    (sha256 : List UInt8 → List UInt8) (batch : List (List UInt8 × Nat × List UInt8 × List UInt8))
    (hb : ∀ t ∈ batch, HonestTuple ctx t) :
    ctx.verifyCellKzgProofBatch sha256 (batch.map (·.1)) (batch.map (·.2.1)) (batch.map (·.2.2.1)) (batch.map (·.2.2.2)) =
      .ok () := by
  refine accept_correct setup .no τ P H hpt ctx hctx sha256 batch ?_
  intro t ht
  obtain ⟨blob, cells, proofs, hbl, hc, hcp, hk1, hk2⟩ := hb t ht
  obtain ⟨⟨f, hf, -⟩, -⟩ := C02_cells_are_evaluations setup .no hpt.length_g1 ctx hctx blob hbl cells proofs hcp
  rw [C03_commitment setup .no τ P H hpt ctx hctx blob f hf] at hc
  obtain ⟨cells', proofs', h1, h2⟩ := C04_proofs setup τ P H hpt ctx hctx blob f hf
  rw [hcp] at h1
  cases h1
  exact ⟨f, cells, proofs, (Outcome.ok.inj hc).symm, h2, hk1, hk2⟩

/-- C05 with precomputation: every prover and the verifier may use different settings. -/
theorem C05_completeness_precomp [LawfulCurve K G1] [LawfulPointCodec G1 48] [LawfulPairing G1 G2 GT] (setup : SetupPoints G1 G2)
    (τ : Fr) (P : G1) (H : G2) (hpt : Spec.PowersOfTau setup.g1Monomial setup.g2Monomial τ P H) (up : UsePrecomp)
    (ctx : DASContext K G1 G2) (hctx : (DASContext.new setup up : Outcome Error (DASContext K G1 G2)) = .ok ctx)
    (sha256 : List UInt8 → List UInt8) (batch : List (List UInt8 × Nat × List UInt8 × List UInt8))
    (hb : ∀ t ∈ batch, ∃ (up' : UsePrecomp) (prover : DASContext K G1 G2), Usable setup.g1Monomial up' ∧
      (DASContext.new setup up' : Outcome Error (DASContext K G1 G2)) = .ok prover ∧ HonestTuple prover t) :
    ctx.verifyCellKzgProofBatch sha256 (batch.map (·.1)) (batch.map (·.2.1)) (batch.map (·.2.2.1)) (batch.map (·.2.2.2)) =
      .ok () := by
  refine accept_correct setup up τ P H hpt ctx hctx sha256 batch ?_
  intro t ht
  obtain ⟨up', prover, hu, hpr, blob, cells, proofs, hbl, hc, hcp, hk1, hk2⟩ := hb t ht
  obtain ⟨⟨f, hf, -⟩, -⟩ := C02_cells_are_evaluations setup up' hpt.length_g1 prover hpr blob hbl cells proofs hcp
  rw [C03_commitment setup up' τ P H hpt prover hpr blob f hf] at hc
  rcases C04_proofs_precomp setup up' hu τ P H hpt prover hpr blob f hf with h1 | ⟨cells', proofs', h1, h2⟩
  · rw [hcp] at h1; cases h1
  · rw [hcp] at h1
    cases h1
    exact ⟨f, cells, proofs, (Outcome.ok.inj hc).symm, h2, hk1, hk2⟩

end

/-! Non-vacuity. -/
section
open Toy

/-- The commitment of the blob of `3X + 5` with secret 7 is the encoding of 26. -/
example : ∃ ctx : DASContext Fr Fr Fr, (DASContext.new (setup 7) .no : Outcome Error _) = .ok ctx ∧
    ctx.blobToKzgCommitment blob = .ok (toCompressed (26 : Fr)) := by
  obtain ⟨ctx, hctx⟩ := context 7
  refine ⟨ctx, hctx, ?_⟩
  rw [C03_commitment (setup 7) .no 7 1 1 (powersOfTau 7) ctx hctx blob poly blob_poly]
  have : poly.eval 7 • (1 : Fr) = 26 := by
    simp only [poly, eval_add, eval_mul, eval_X, eval_C, eval_ofNat, smul_eq_mul, mul_one]; norm_num
  rw [this]

/-- An honest batch: cell 127 of one blob, cell 3 of another, cell 127 of the first again. -/
theorem Toy.honest_batch : ∃ (ctx : DASContext Fr Fr Fr) (batch : List (List UInt8 × Nat × List UInt8 × List UInt8)),
    (DASContext.new (setup 7) .no : Outcome Error _) = .ok ctx ∧ (∀ t ∈ batch, HonestTuple ctx t) ∧
    batch.map (·.2.1) = [127, 3, 127] := by
  obtain ⟨ctx, hctx⟩ := context 7
  obtain ⟨c₁, p₁, h₁, hc₁, hp₁, -⟩ := C04_proofs (setup 7) 7 1 1 (powersOfTau 7) ctx hctx blob poly blob_poly
  obtain ⟨c₂, p₂, h₂, hc₂, hp₂, -⟩ := C04_proofs (setup 7) 7 1 1 (powersOfTau 7) ctx hctx blob' _ blob_poly'
  have e₁ := C03_commitment (setup 7) .no 7 1 1 (powersOfTau 7) ctx hctx blob poly blob_poly
  have e₂ := C03_commitment (setup 7) .no 7 1 1 (powersOfTau 7) ctx hctx blob' _ blob_poly'
  have t₁ : HonestTuple ctx (_, 127, c₁[127], p₁[127]) :=
    ⟨blob, c₁, p₁, blob_poly.2.1, e₁, h₁, List.getElem?_eq_getElem _, List.getElem?_eq_getElem _⟩
  have t₂ : HonestTuple ctx (_, 3, c₂[3], p₂[3]) :=
    ⟨blob', c₂, p₂, blob_poly'.2.1, e₂, h₂, List.getElem?_eq_getElem _, List.getElem?_eq_getElem _⟩
  refine ⟨ctx, [(toCompressed (eval 7 poly • (1 : Fr)), 127, c₁[127], p₁[127]),
    (toCompressed (eval (7 : Fr) (C 9) • (1 : Fr)), 3, c₂[3], p₂[3]),
    (toCompressed (eval 7 poly • (1 : Fr)), 127, c₁[127], p₁[127])], hctx, ?_, rfl⟩
  intro t ht
  simp only [List.mem_cons, List.not_mem_nil, or_false] at ht
  rcases ht with rfl | rfl | rfl
  · exact t₁
  · exact t₂
  · exact t₁
end
end Verif
