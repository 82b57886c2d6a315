import Verif.Props.Binding
import Verif.Props.Bls
import Verif.Props.Precomp

set_option linter.unusedSectionVars false

/-!
C10, C51, C54, C57 for contexts with precomputed tables, which is what the bindings construct unless told otherwise. The proving
functions of such contexts can panic (C25); the theorems say that this is the only difference, and that for each blob it needs one
of a few secrets.
-/
namespace Verif
open Polynomial Finset

section
variable {ε K G1 G2 GT : Type} [Field K] [DecidableEq K] [AddCommGroup G1] [Module Fr G1] [DecidableEq G1]
  [Curve K G1] [PointCodec G1] [AddCommGroup G2] [Module Fr G2] [AddCommGroup GT] [DecidableEq GT]
  [Pairing G1 G2 GT]

/-- every setup that gives a context with tables gives one without -/
theorem context_without (setup : SetupPoints G1 G2) (h1 : setup.g1Monomial.length = 4096) (up : UsePrecomp)
    (ctx' : DASContext K G1 G2) (hctx' : (DASContext.new setup up : Outcome Error (DASContext K G1 G2)) = .ok ctx') :
    ∃ ctx : DASContext K G1 G2, (DASContext.new setup .no : Outcome Error (DASContext K G1 G2)) = .ok ctx := by
  obtain ⟨h2, h3, -⟩ := context_verifier setup up h1 ctx' hctx'
  exact context_exists setup h1 h2 h3

/-- every setup of the right sizes gives a context with tables of every width from 1 on -/
theorem context_with (setup : SetupPoints G1 G2) (h1 : setup.g1Monomial.length = 4096)
    (h2 : 65 ≤ setup.g2Monomial.length) (h3 : setup.g2Monomial.length ≤ 4096) (w : Nat) (hw : 1 ≤ w) :
    ∃ ctx : DASContext K G1 G2, (DASContext.new setup (.yes w) : Outcome Error (DASContext K G1 G2)) = .ok ctx :=
  context_exists_of setup h1 h2 h3 (.yes w) (fun v => .precomp (tableOf w v) w) (fun v => by
    simp only [FixedBaseMSM.new, precompWindowNew_eq w hw, Outcome.ok_bind, Outcome.pure_eq])

/-- C10 with precomputation: well-formed input is answered with a result or a panic exactly if it is consistent. -/
theorem C10_precomp [LawfulCurve K G1] (setup : SetupPoints G1 G2) (h1 : setup.g1Monomial.length = 4096) (w : Nat)
    (hw : 1 ≤ w) (hw' : w ≤ 24) (hn : Spec.NoIdentity setup.g1Monomial)
    (ctx : DASContext K G1 G2) (hctx : (DASContext.new setup (.yes w) : Outcome Error (DASContext K G1 G2)) = .ok ctx)
    (inds : List Nat) (cells : List (List UInt8)) (hcl : ∀ c ∈ cells, c.length = 2048)
    (hwf : Spec.RecoveryWellFormed inds cells) :
    (ctx.recoverCellsAndKzgProofs inds cells = .panic ∨ ∃ r, ctx.recoverCellsAndKzgProofs inds cells = .ok r) ↔
      ∃ f, Spec.Consistent inds cells f := by
  obtain ⟨ctx0, h0⟩ := context_without setup h1 _ ctx hctx
  constructor
  · intro h
    by_contra hne
    rw [C10_inconsistent_error setup _ h1 ctx hctx inds cells hcl hwf hne] at h
    rcases h with h | ⟨r, h⟩ <;> cases h
  · intro hex
    obtain ⟨r, hr⟩ := (C10_succeeds_iff_consistent setup h1 ctx0 h0 inds cells hcl hwf).2 hex
    rcases (C25_same_or_panic setup h1 w hw hw' hn ctx0 ctx h0 hctx).2 inds cells hcl with h | h
    · exact .inl h
    · exact .inr ⟨r, by rw [h, hr]⟩

/-- C51 with precomputation: unless the cells are well-formed and not the cells of any blob, recovery panics or agrees with the
specification; malformed input never panics. -/
theorem C51_precomp [LawfulCurve K G1] (setup : SetupPoints G1 G2) (h1 : setup.g1Monomial.length = 4096) (w : Nat)
    (hw : 1 ≤ w) (hw' : w ≤ 24) (hn : Spec.NoIdentity setup.g1Monomial)
    (ctx : DASContext K G1 G2) (hctx : (DASContext.new setup (.yes w) : Outcome Error (DASContext K G1 G2)) = .ok ctx)
    (inds : List Nat) (cells : List (List UInt8)) (hcl : ∀ c ∈ cells, c.length = 2048) :
    (¬ Spec.RecoveryWellFormed inds cells → Conforms (ctx.recoverCellsAndKzgProofs inds cells)
      (Consensus.recoverCellsAndKzgProofs setup.g1Monomial inds cells)) ∧
    ((∃ f, Spec.Consistent inds cells f) → ctx.recoverCellsAndKzgProofs inds cells = .panic ∨
      Conforms (ctx.recoverCellsAndKzgProofs inds cells)
        (Consensus.recoverCellsAndKzgProofs setup.g1Monomial inds cells)) := by
  obtain ⟨ctx0, h0⟩ := context_without setup h1 _ ctx hctx
  constructor
  · intro hnw
    rcases C51_recover setup h1 ctx0 h0 inds cells hcl (.inl hnw) with ⟨r, hr, -⟩ | ⟨e, he, hs⟩
    · obtain ⟨out, proofs⟩ := r
      exact absurd (C10_cells_unchanged setup .no h1 ctx0 h0 inds cells hcl out proofs hr).1 hnw
    · exact .inr ⟨e, ((C25_errors_and_cells setup h1 _ _ ctx0 ctx h0 hctx).2 inds cells hcl).1 e he, hs⟩
  · intro hex
    rcases (C25_same_or_panic setup h1 w hw hw' hn ctx0 ctx h0 hctx).2 inds cells hcl with h | h
    · exact .inl h
    · exact .inr (h ▸ C51_recover setup h1 ctx0 h0 inds cells hcl (.inr hex))

/-- C57 with precomputation, for attackers that compute commitment and proofs as combinations of the setup points: outside of at
most `2^34 + 4159 n` secrets an accepted batch of `n` cells is available from a context with tables of width `w`; no call panics. -/
theorem C57_precomp [LawfulCurve K G1] [LawfulPointCodec G1 48] [LawfulPairing G1 G2 GT] (w : Nat) (hw : 1 ≤ w) (hw' : w ≤ 24)
    (c : Fr[X]) (hc : c.degree < 4096) (inds : List Nat) (cells : List (List UInt8)) (qs : List Fr[X])
    (hq : ∀ q ∈ qs, q.degree < 4096) (hlq : qs.length = inds.length)
    (hcl : ∀ x ∈ cells, x.length = 2048) (hwf : Spec.RecoveryWellFormed inds cells) :
    ∃ secrets : Finset Fr, secrets.card ≤ 2 ^ 34 + inds.length * 4159 ∧
      ∀ (setup : SetupPoints G1 G2) (up : UsePrecomp) (τ : Fr) (P : G1) (H : G2) (verifier ctx : DASContext K G1 G2)
        (cm : List UInt8) (proofs : List (List UInt8)),
        Spec.PowersOfTau setup.g1Monomial setup.g2Monomial τ P H → (∀ a : G1, pair a H = (0 : GT) → a = 0) → P ≠ 0 →
        (DASContext.new setup up : Outcome ε (DASContext K G1 G2)) = .ok verifier →
        (DASContext.new setup (.yes w) : Outcome Error (DASContext K G1 G2)) = .ok ctx →
        cm = toCompressed (c.eval τ • P) → proofs = qs.map (fun q => toCompressed (q.eval τ • P)) → τ ∉ secrets →
        ∃ bad : Finset Fr, bad.card ≤ inds.length - 1 ∧ ∀ sha256 : List UInt8 → List UInt8,
          verifier.verifyCellKzgProofBatch sha256 (List.replicate inds.length cm) inds cells proofs = .ok () →
          Spec.challenge sha256 (List.replicate inds.length cm) inds cells proofs ∈ bad ∨ Available ctx cm inds cells := by
  obtain ⟨s1, hs1, hA⟩ := C57_algebraic (ε := ε) (K := K) (G1 := G1) (G2 := G2) (GT := GT) c hc inds cells qs hq hlq hcl hwf
  obtain ⟨s2, hs2, hB⟩ : ∃ s2 : Finset Fr, s2.card ≤ 2 ^ 34 ∧ ∀ f, Spec.Consistent inds cells f →
      ∀ (τ : Fr) (_ : τ ∉ s2) (setup : SetupPoints G1 G2) (P : G1) (H : G2) (_ : P ≠ 0)
        (_ : Spec.PowersOfTau setup.g1Monomial setup.g2Monomial τ P H) (ctx ctx' : DASContext K G1 G2)
        (_ : (DASContext.new setup .no : Outcome Error (DASContext K G1 G2)) = .ok ctx)
        (_ : (DASContext.new setup (.yes w) : Outcome Error (DASContext K G1 G2)) = .ok ctx'),
        (∀ blob : List UInt8, Spec.IsBlobPoly blob f →
          ctx'.computeCellsAndKzgProofs blob = ctx.computeCellsAndKzgProofs blob) ∧
        ctx'.recoverCellsAndKzgProofs inds cells = ctx.recoverCellsAndKzgProofs inds cells := by
    by_cases hex : ∃ f, Spec.Consistent inds cells f
    · obtain ⟨f, hf⟩ := hex
      obtain ⟨bad, hb, h⟩ := C25_few_secrets w hw hw' f hf.1
      refine ⟨bad, hb, ?_⟩
      intro f' hf' τ hτ setup P H hP hpt ctx ctx' h0 h1
      obtain ⟨-, huniq⟩ := recoverPolynomialCoeff_cases hwf.1 hwf.2 hcl hwf.3 hwf.4 hwf.5
      rw [huniq f' f hf' hf]
      obtain ⟨ha, hr⟩ := h K G1 G2 τ hτ setup P H hP hpt ctx ctx' h0 h1
      exact ⟨fun blob hblob => (ha blob hblob).1, (hr inds cells hcl hwf hf).1⟩
    · exact ⟨∅, by simp, fun f hf => absurd ⟨f, hf⟩ hex⟩
  refine ⟨s2 ∪ s1, (card_union_le _ _).trans (Nat.add_le_add hs2 hs1), ?_⟩
  intro setup up τ P H verifier ctx cm proofs hpt hnd hP hver hctx hcm hpf hτ
  rw [mem_union, not_or] at hτ
  obtain ⟨ctx0, h0⟩ := context_without setup hpt.length_g1 _ ctx hctx
  obtain ⟨bad, hb, h⟩ := hA setup up τ P H verifier ctx0 cm proofs hpt hnd hP hver h0 hcm hpf hτ.2
  refine ⟨bad, hb, fun sha256 hok => (h sha256 hok).imp_right ?_⟩
  rintro ⟨blob, out, prs, hbl, hcom, hrec, hcomp, hsup⟩
  obtain ⟨⟨g, hg, -⟩, hgc⟩ := C02_cells_are_evaluations setup .no hpt.length_g1 ctx0 h0 blob hbl out prs hcomp
  have hcons : Spec.Consistent inds cells g := by
    refine ⟨hg.1, fun p hp => ?_⟩
    obtain ⟨hk, he⟩ := List.getElem?_eq_some_iff.1 (hsup p hp)
    exact he ▸ (hgc g hg).2 p.1 hk
  obtain ⟨h2, h3⟩ := hB g hcons τ hτ.1 setup P H hP hpt ctx0 ctx h0 hctx
  refine ⟨blob, out, prs, hbl, ?_, by rw [h3, hrec], by rw [h2 blob hg, hcomp], hsup⟩
  rw [← hcom]
  exact (C25_commitment_verification setup hpt.length_g1 (.yes w) .no ctx ctx0 hctx h0).1 blob hbl

end

section
open Bls
variable {G2 GT : Type} [AddCommGroup G2] [Module Fr G2] [AddCommGroup GT] [DecidableEq GT] [Pairing G1 G2 GT]

/-- C54 with precomputation: over G1 itself, for tables of every width from 1 to 24 and every setup of the right sizes without
the identity among the base points. Commitments and verification never panic and are as without tables; the proving functions
panic or conform, and on malformed input they do not panic. -/
theorem C54_precomp [LawfulPairing G1 G2 GT] (setup : SetupPoints G1 G2) (h1 : setup.g1Monomial.length = 4096)
    (h2 : 65 ≤ setup.g2Monomial.length) (h3 : setup.g2Monomial.length ≤ 4096) (w : Nat) (hw : 1 ≤ w) (hw' : w ≤ 24)
    (hn : Spec.NoIdentity setup.g1Monomial) :
    ∃ ctx : DASContext Fp G1 G2, (DASContext.new setup (.yes w) : Outcome Error (DASContext Fp G1 G2)) = .ok ctx ∧
    (∀ blob : List UInt8, blob.length = 131072 → ctx.blobToKzgCommitment blob ≠ .panic ∧
      (ctx.computeCellsAndKzgProofs blob = .panic ∨
      Conforms (ctx.computeCellsAndKzgProofs blob) (Consensus.computeCellsAndKzgProofs setup.g1Monomial blob))) ∧
    (∀ (sha256 : List UInt8 → List UInt8) (commitments : List (List UInt8)) (inds : List Nat)
      (cells proofs : List (List UInt8)), (∀ c ∈ commitments, c.length = 48) → (∀ c ∈ cells, c.length = 2048) →
      (∀ c ∈ proofs, c.length = 48) →
      let library := ctx.verifyCellKzgProofBatch sha256 commitments inds cells proofs
      let spec := Consensus.verifyCellKzgProofBatch (GT := GT) sha256 setup.g1Monomial setup.g2Monomial commitments inds
        cells proofs
      (library = .ok () ∧ spec = some true) ∨
      (library = .err (.Verifier (.FK20 .InvalidProof)) ∧ spec = some false) ∨
      (∃ e, library = .err e ∧ e ≠ .Verifier (.FK20 .InvalidProof) ∧ spec = none)) ∧
    (∀ (inds : List Nat) (cells : List (List UInt8)), (∀ c ∈ cells, c.length = 2048) →
      (¬ Spec.RecoveryWellFormed inds cells → Conforms (ctx.recoverCellsAndKzgProofs inds cells)
        (Consensus.recoverCellsAndKzgProofs setup.g1Monomial inds cells)) ∧
      ((∃ f, Spec.Consistent inds cells f) → ctx.recoverCellsAndKzgProofs inds cells = .panic ∨
        Conforms (ctx.recoverCellsAndKzgProofs inds cells)
          (Consensus.recoverCellsAndKzgProofs setup.g1Monomial inds cells))) := by
  obtain ⟨ctx, hctx⟩ := context_with (K := Fp) setup h1 h2 h3 w hw
  obtain ⟨ctx0, h0, hp, -⟩ := C54_library (GT := GT) setup h1 h2 h3
  refine ⟨ctx, hctx, fun blob hb => ⟨?_, ?_⟩, ?_, ?_⟩
  · rw [(C25_commitment_verification (GT := GT) setup h1 (.yes w) .no ctx ctx0 hctx h0).1 blob hb]
    exact (hp blob hb).1
  · exact C49_precomp setup (.yes w) (.inr ⟨w, rfl, hw, hw', hn⟩) h1 ctx hctx blob hb
  · intro sha256 commitments inds cells proofs hcm hcl hpf
    exact C50_verify setup (.yes w) h1 ctx hctx sha256 commitments inds cells proofs hcm hcl hpf
  · intro inds cells hcl
    exact C51_precomp setup h1 w hw hw' hn ctx hctx inds cells hcl

/-- C54 with precomputation: over G1 itself, for every width from 1 to 24 and every polynomial, all but at most `2^34` secrets give
contexts whose proving functions conform to the specification for the blob of the polynomial and every well-formed set of its
cells; neither call panics. -/
theorem C54_few_secrets (w : Nat) (hw : 1 ≤ w) (hw' : w ≤ 24) (f : Fr[X]) (hf : f.degree < 4096) :
    ∃ bad : Finset Fr, bad.card ≤ 2 ^ 34 ∧
      ∀ (τ : Fr) (_ : τ ∉ bad) (setup : SetupPoints G1 G2) (H : G2)
        (_ : Spec.PowersOfTau setup.g1Monomial setup.g2Monomial τ generator H) (ctx : DASContext Fp G1 G2)
        (_ : (DASContext.new setup (.yes w) : Outcome Error (DASContext Fp G1 G2)) = .ok ctx),
        (∀ blob : List UInt8, Spec.IsBlobPoly blob f →
          ∃ r, ctx.computeCellsAndKzgProofs blob = .ok r ∧
            Consensus.computeCellsAndKzgProofs setup.g1Monomial blob = some r) ∧
        (∀ (inds : List Nat) (cells : List (List UInt8)), (∀ c ∈ cells, c.length = 2048) →
          Spec.RecoveryWellFormed inds cells → Spec.Consistent inds cells f →
          ∃ r, ctx.recoverCellsAndKzgProofs inds cells = .ok r ∧
            Consensus.recoverCellsAndKzgProofs setup.g1Monomial inds cells = some r) := by
  obtain ⟨bad, hb, h⟩ := C25_few_secrets w hw hw' f hf
  refine ⟨bad, hb, ?_⟩
  intro τ hτ setup H hpt ctx hctx
  obtain ⟨ctx0, h0⟩ := context_without setup hpt.length_g1 _ ctx hctx
  obtain ⟨ha, hr⟩ := h Fp G1 G2 τ hτ setup generator H generator_ne hpt ctx0 ctx h0 hctx
  constructor
  · intro blob hblob
    obtain ⟨he, r, hr⟩ := ha blob hblob
    refine ⟨r, hr, ?_⟩
    rcases C49_cells_and_proofs setup hpt.length_g1 ctx0 h0 blob hblob.2.1 with ⟨a, h1, h2⟩ | ⟨e, h1, -⟩
    · rw [← he, hr] at h1
      cases h1
      exact h2
    · rw [← he, hr] at h1
      cases h1
  · intro inds cells hcl hwf hc
    obtain ⟨he, r, hr⟩ := hr inds cells hcl hwf hc
    refine ⟨r, hr, ?_⟩
    rcases C51_recover setup hpt.length_g1 ctx0 h0 inds cells hcl (.inr ⟨f, hc⟩) with ⟨a, h1, h2⟩ | ⟨e, h1, -⟩
    · rw [← he, hr] at h1
      cases h1
      exact h2
    · rw [← he, hr] at h1
      cases h1

end

/-! ### the hypotheses can be met -/
section
open Bls

/-- the secret 7 in G1 itself: contexts of every width exist, the identity is not among the base points, and one blob makes the
prover of width 8 panic while the prover without tables returns -/
example : Spec.NoIdentity (Bls.setup 7).g1Monomial ∧
    ∃ (ctx ctx' : DASContext Fp G1 Fr) (blob : List UInt8),
      (DASContext.new (Bls.setup 7) .no : Outcome Error (DASContext Fp G1 Fr)) = .ok ctx ∧
      (DASContext.new (Bls.setup 7) (.yes 8) : Outcome Error (DASContext Fp G1 Fr)) = .ok ctx' ∧
      ctx'.computeCellsAndKzgProofs blob = .panic ∧ ∃ r, ctx.computeCellsAndKzgProofs blob = .ok r := by
  have h3 : (Bls.setup 7).g2Monomial.length ≤ 4096 := by rw [Bls.length_g2]; norm_num
  refine ⟨C25_condition (Bls.setup 7) 7 generator 1 (Bls.powersOfTau 7) Bls.generator_ne (by decide +kernel) seven_pow, ?_⟩
  obtain ⟨ctx, hctx⟩ := context_exists (ε := Error) (K := Fp) (Bls.setup 7) (Bls.length_g1 7) (by rw [Bls.length_g2]) h3
  obtain ⟨ctx', hctx'⟩ := context_with (K := Fp) (Bls.setup 7) (Bls.length_g1 7) (by rw [Bls.length_g2]) h3 8 (by norm_num)
  exact ⟨ctx, ctx', blobOf clashPoly, hctx, hctx', C25_panics (Bls.setup 7) generator 1 Bls.generator_ne (Bls.powersOfTau 7) ctx
    ctx' hctx hctx' _ (isBlobPoly_blobOf clashPoly clashPoly_degree)⟩

/-- 64 cells of the blob of `3 X + 5`, in the order 127, 126, ..., are well formed and consistent (C10, C51, C57) -/
theorem Toy.supplied : ∃ (inds : List Nat) (cells : List (List UInt8)), inds.length = 64 ∧ (∀ c ∈ cells, c.length = 2048) ∧
    Spec.RecoveryWellFormed inds cells ∧ Spec.Consistent inds cells Toy.poly := by
  refine ⟨(List.range 64).map (127 - ·), ((List.range 64).map (127 - ·)).map (cellOf Toy.poly), by simp, ?_, ?_, ?_⟩
  · intro c hc
    obtain ⟨i, -, rfl⟩ := List.mem_map.1 hc
    exact cellOf_length _ _
  · refine ⟨by simp, by decide +kernel, by decide +kernel, by simp, ?_⟩
    intro c hc
    obtain ⟨i, -, rfl⟩ := List.mem_map.1 hc
    intro j hj
    have := ((isCell_iff Toy.poly i _).2 rfl).2 j hj
    exact (exists_encodes_iff this.1).1 ⟨_, this⟩
  · refine ⟨Toy.poly_degree, ?_⟩
    rintro ⟨k, c⟩ hm
    obtain ⟨i, hi, hik⟩ := List.mem_iff_getElem.1 hm
    rw [List.getElem_zip, Prod.mk.injEq, List.getElem_map (f := cellOf _)] at hik
    obtain ⟨rfl, rfl⟩ := hik
    rw [isCell_iff]
end
end Verif
