import Verif.Props.ProverCells
import Verif.Lemmas.RecoveryApi

/-! C09, C10, C11, C12, C39: `recover_cells_and_kzg_proofs`.

`hcl` in the theorems is the Rust type `&[u8; 2048]` of a cell. Indices are arbitrary naturals (`u64`). -/
namespace Verif
open Polynomial Finset

attribute [local irreducible] Spec.coeffs

section
variable {ε K G1 G2 : Type} [Field K] [DecidableEq K] [AddCommGroup G1] [Module Fr G1] [DecidableEq G1]
  [Curve K G1] [PointCodec G1] [AddCommGroup G2] [Module Fr G2]

omit [DecidableEq K] [DecidableEq G1] in
theorem zip_mem_of_forall₂ {α β : Type} {R : α → β → Prop} {l : List α} {m : List β} (h : List.Forall₂ R l m) :
    ∀ p ∈ l.zip m, R p.1 p.2 := by
  induction h with
  | nil => simp
  | cons hr _ ih =>
    intro p hp
    rw [List.zip_cons_cons] at hp
    rcases List.mem_cons.1 hp with rfl | hp
    · exact hr
    · exact ih p hp

/-- C09: any 64 or more distinct cells of a blob, in any order, give back all cells and proofs of the blob. -/
theorem C09_recovers_original (setup : SetupPoints G1 G2) (up : UsePrecomp) (h1 : setup.g1Monomial.length = 4096)
    (ctx : DASContext K G1 G2) (hctx : (DASContext.new setup up : Outcome ε (DASContext K G1 G2)) = .ok ctx)
    (blob : List UInt8) (hb : blob.length = 131072) (cells proofs : List (List UInt8))
    (h : ctx.computeCellsAndKzgProofs blob = .ok (cells, proofs))
    (inds : List Nat) (supplied : List (List UInt8)) (hr : ∀ i ∈ inds, i < 128) (hd : inds.Nodup) (hn : 64 ≤ inds.length)
    (hs : List.Forall₂ (fun i c => cells[i]? = some c) inds supplied) :
    ctx.recoverCellsAndKzgProofs inds supplied = .ok (cells, proofs) := by
  obtain ⟨⟨f, hf, -⟩, hall⟩ := C02_cells_are_evaluations setup up h1 ctx hctx blob hb cells proofs h
  obtain ⟨hlen, hcell⟩ := hall f hf
  obtain ⟨M, hp, -, hrs, -⟩ := context_fields setup up h1 ctx hctx
  have hz := zip_mem_of_forall₂ hs
  have hic : ∀ p ∈ inds.zip supplied, Spec.IsCell f p.1 p.2 := by
    intro p hpm
    have h2 := hz p hpm
    obtain ⟨hi, h3⟩ := List.getElem?_eq_some_iff.1 h2
    rw [← h3]
    exact hcell _ hi
  have hcs : ∀ c ∈ supplied, ∃ i, Spec.IsCell f i c := by
    intro c hc
    obtain ⟨i, hi, rfl⟩ := List.mem_iff_getElem.1 hc
    have hl := hs.length_eq
    exact ⟨inds[i], hic (inds[i], supplied[i]) (by
      rw [List.mem_iff_getElem]
      exact ⟨i, by rw [List.length_zip]; omega, by simp⟩)⟩
  have hok := (recoverPolynomialCoeff_ok_iff (inds := inds) (cells := supplied) (by
    intro c hc
    obtain ⟨i, hi⟩ := hcs c hc
    exact hi.1) (Spec.coeffs 4096 f)).2 ⟨⟨hs.length_eq, hr, hd, hn, by
      intro c hc j hj
      obtain ⟨i, hi⟩ := hcs c hc
      exact (exists_encodes_iff (hi.2 j hj).1).1 ⟨_, hi.2 j hj⟩⟩, f, ⟨hf.1, hic⟩, rfl⟩
  rw [recover_run hp hrs hok, ← cells_of_blob hp hf]
  exact h

/-- C12: validation is exact and has a fixed precedence, for every context. Every input is well-formed or has a
defect; a defect is reported by its error; well-formed input is never reported as defective (the only other error
is the Reed–Solomon one). -/
theorem C12_validation (setup : SetupPoints G1 G2) (up : UsePrecomp) (h1 : setup.g1Monomial.length = 4096)
    (ctx : DASContext K G1 G2) (hctx : (DASContext.new setup up : Outcome ε (DASContext K G1 G2)) = .ok ctx)
    (inds : List Nat) (cells : List (List UInt8)) (hcl : ∀ c ∈ cells, c.length = 2048) :
    (Spec.RecoveryWellFormed inds cells ∨ ∃ e, Spec.RecoveryDefect inds cells e) ∧
    (∀ e, Spec.RecoveryDefect inds cells e → ctx.recoverCellsAndKzgProofs inds cells = .err e) ∧
    (Spec.RecoveryWellFormed inds cells → ∀ e, ctx.recoverCellsAndKzgProofs inds cells = .err e →
      e = .Recovery (.ReedSolomon (.PolynomialHasInvalidLength 8192 4096))) := by
  obtain ⟨M, hp, -, hrs, -⟩ := context_fields setup up h1 ctx hctx
  refine ⟨recovery_wellFormed_or_defect inds cells hcl, ?_, ?_⟩
  · intro e he
    exact recover_err hrs (recoverPolynomialCoeff_defect hcl he _)
  · intro hw e he
    rcases recoverPolynomialCoeff_cases hw.1 hw.2 hcl hw.3 hw.4 hw.5 with ⟨⟨f, hf, h⟩ | ⟨hne, h⟩, -⟩
    · exfalso
      rw [recover_run hp hrs h] at he
      exact prove_ne_err _ M f he
    · rw [recover_err hrs h] at he
      cases he; rfl

/-- C12: "too many cells" is never reported, by any call. -/
theorem C12_too_many_is_dead (setup : SetupPoints G1 G2) (up : UsePrecomp) (h1 : setup.g1Monomial.length = 4096)
    (ctx : DASContext K G1 G2) (hctx : (DASContext.new setup up : Outcome ε (DASContext K G1 G2)) = .ok ctx)
    (inds : List Nat) (cells : List (List UInt8)) (hcl : ∀ c ∈ cells, c.length = 2048) (a b : Nat) :
    ctx.recoverCellsAndKzgProofs inds cells ≠ .err (.Recovery (.TooManyCellsReceived a b)) := by
  obtain ⟨hor, hdef, hwf⟩ := C12_validation setup up h1 ctx hctx inds cells hcl
  intro h
  rcases hor with hw | ⟨e, he⟩
  · have := hwf hw _ h
    cases this
  · rw [hdef e he] at h
    cases h
    cases he

/-- C10: on well-formed input a result exists iff some polynomial of degree below 4096 agrees with all supplied cells
(context without precomputation; with precomputation see C25). -/
theorem C10_succeeds_iff_consistent (setup : SetupPoints G1 G2) (h1 : setup.g1Monomial.length = 4096)
    (ctx : DASContext K G1 G2) (hctx : (DASContext.new setup .no : Outcome Error (DASContext K G1 G2)) = .ok ctx)
    (inds : List Nat) (cells : List (List UInt8)) (hcl : ∀ c ∈ cells, c.length = 2048)
    (hw : Spec.RecoveryWellFormed inds cells) :
    ((∃ r, ctx.recoverCellsAndKzgProofs inds cells = .ok r) ↔ ∃ f, Spec.Consistent inds cells f) := by
  obtain ⟨M, hp, hM, hrs, -⟩ := context_fields setup .no h1 ctx hctx
  rcases recoverPolynomialCoeff_cases hw.1 hw.2 hcl hw.3 hw.4 hw.5 with ⟨⟨f, hf, h⟩ | ⟨hne, h⟩, -⟩
  · rw [recover_run hp hrs h, prove_exact _ h1 M (msmExact_no _ 6 6 M hM) f hf.1]
    exact ⟨fun _ => ⟨f, hf⟩, fun _ => ⟨_, rfl⟩⟩
  · rw [recover_err hrs h]
    constructor
    · rintro ⟨r, hr⟩; cases hr
    · intro hex; exact absurd hex hne

/-- C10: inconsistent input gives the Reed–Solomon error, with and without precomputation. -/
theorem C10_inconsistent_error (setup : SetupPoints G1 G2) (up : UsePrecomp) (h1 : setup.g1Monomial.length = 4096)
    (ctx : DASContext K G1 G2) (hctx : (DASContext.new setup up : Outcome ε (DASContext K G1 G2)) = .ok ctx)
    (inds : List Nat) (cells : List (List UInt8)) (hcl : ∀ c ∈ cells, c.length = 2048)
    (hw : Spec.RecoveryWellFormed inds cells) (hne : ¬ ∃ f, Spec.Consistent inds cells f) :
    ctx.recoverCellsAndKzgProofs inds cells =
      .err (.Recovery (.ReedSolomon (.PolynomialHasInvalidLength 8192 4096))) := by
  obtain ⟨M, hp, hM, hrs, -⟩ := context_fields setup up h1 ctx hctx
  rcases recoverPolynomialCoeff_cases hw.1 hw.2 hcl hw.3 hw.4 hw.5 with ⟨⟨f, hf, h⟩ | ⟨-, h⟩, -⟩
  · exact absurd ⟨f, hf⟩ hne
  · exact recover_err hrs h

/-- C10: whatever is returned, the input was well-formed, all output cells are the evaluations of the one consistent
polynomial, and every supplied cell comes back unchanged at its index. -/
theorem C10_cells_unchanged (setup : SetupPoints G1 G2) (up : UsePrecomp) (h1 : setup.g1Monomial.length = 4096)
    (ctx : DASContext K G1 G2) (hctx : (DASContext.new setup up : Outcome ε (DASContext K G1 G2)) = .ok ctx)
    (inds : List Nat) (cells : List (List UInt8)) (hcl : ∀ c ∈ cells, c.length = 2048)
    (out proofs : List (List UInt8)) (h : ctx.recoverCellsAndKzgProofs inds cells = .ok (out, proofs)) :
    Spec.RecoveryWellFormed inds cells ∧ (∃! f, Spec.Consistent inds cells f) ∧ out.length = 128 ∧
    (∀ f, Spec.Consistent inds cells f → ∀ k (hk : k < out.length), Spec.IsCell f k out[k]) ∧
    ∀ p ∈ inds.zip cells, out[p.1]? = some p.2 := by
  obtain ⟨M, hp, hM, hrs, -⟩ := context_fields setup up h1 ctx hctx
  have hw : Spec.RecoveryWellFormed inds cells := by
    rcases recovery_wellFormed_or_defect inds cells hcl with hw | ⟨e, he⟩
    · exact hw
    · rw [recover_err hrs (recoverPolynomialCoeff_defect hcl he _)] at h
      cases h
  rcases recoverPolynomialCoeff_cases hw.1 hw.2 hcl hw.3 hw.4 hw.5 with ⟨⟨f, hf, hrun⟩ | ⟨-, hrun⟩, huniq⟩
  swap
  · rw [recover_err hrs hrun] at h; cases h
  rw [recover_run hp hrs hrun] at h
  obtain ⟨rfl, -⟩ := prove_cells _ M f hf.1 out proofs h
  refine ⟨hw, ⟨f, hf, fun g hg => huniq g f hg hf⟩, by simp [cellsOf], ?_, ?_⟩
  · intro g hg k hk
    rw [huniq g f hg hf, isCell_iff]
    simp [cellsOf_eq]
  · intro p hpm
    have h3 := (isCell_iff _ _ _).1 (hf.2 p hpm)
    have h4 : p.1 < 128 := hw.2 _ (List.of_mem_zip hpm).1
    rw [h3, cellsOf_eq, List.getElem?_map, List.getElem?_range h4]
    rfl

/-- C10: with exactly 64 well-formed cells recovery always succeeds. -/
theorem C10_exactly_64 (setup : SetupPoints G1 G2) (h1 : setup.g1Monomial.length = 4096)
    (ctx : DASContext K G1 G2) (hctx : (DASContext.new setup .no : Outcome Error (DASContext K G1 G2)) = .ok ctx)
    (inds : List Nat) (cells : List (List UInt8)) (hcl : ∀ c ∈ cells, c.length = 2048)
    (hw : Spec.RecoveryWellFormed inds cells) (h64 : inds.length = 64) :
    ∃ r, ctx.recoverCellsAndKzgProofs inds cells = .ok r :=
  (C10_succeeds_iff_consistent setup h1 ctx hctx inds cells hcl hw).2
    (consistent_exists hw.1 hw.2 hcl hw.3 h64 hw.5)

/-- C11: permuting the (index, cell) pairs does not change a successful result. -/
theorem C11_order_independent (setup : SetupPoints G1 G2) (up : UsePrecomp) (h1 : setup.g1Monomial.length = 4096)
    (ctx : DASContext K G1 G2) (hctx : (DASContext.new setup up : Outcome ε (DASContext K G1 G2)) = .ok ctx)
    (inds inds' : List Nat) (cells cells' : List (List UInt8)) (hl : inds.length = cells.length)
    (hl' : inds'.length = cells'.length) (hperm : (inds.zip cells).Perm (inds'.zip cells'))
    (hcl : ∀ c ∈ cells, c.length = 2048) (r : List (List UInt8) × List (List UInt8)) :
    ctx.recoverCellsAndKzgProofs inds cells = .ok r ↔ ctx.recoverCellsAndKzgProofs inds' cells' = .ok r := by
  obtain ⟨M, hp, hM, hrs, -⟩ := context_fields setup up h1 ctx hctx
  have key : ∀ (i₁ i₂ : List Nat) (c₁ c₂ : List (List UInt8)), i₁.length = c₁.length → i₂.length = c₂.length →
      (i₁.zip c₁).Perm (i₂.zip c₂) → (∀ c ∈ c₁, c.length = 2048) → (∀ c ∈ c₂, c.length = 2048) →
      ctx.recoverCellsAndKzgProofs i₁ c₁ = .ok r → ctx.recoverCellsAndKzgProofs i₂ c₂ = .ok r := by
    intro i₁ i₂ c₁ c₂ hl₁ hl₂ hpm hc₁ hc₂ h
    have hrun : ∃ co, recoverPolynomialCoeff (rsOf 12 1 7) i₁ c₁ = .ok co := by
      unfold DASContext.recoverCellsAndKzgProofs at h
      rw [hrs, bind_eq_ok] at h
      obtain ⟨co, hco, -⟩ := h
      exact ⟨co, hco⟩
    obtain ⟨co, hco⟩ := hrun
    obtain ⟨hw, f, hf, rfl⟩ := (recoverPolynomialCoeff_ok_iff hc₁ co).1 hco
    have h2 := (recoverPolynomialCoeff_ok_iff hc₂ (Spec.coeffs 4096 f)).2
      ⟨wellFormed_perm hl₂ hpm hw, f, consistent_perm hpm hf, rfl⟩
    rw [recover_run hp hrs h2, ← recover_run hp hrs hco]
    exact h
  have hcl' : ∀ c ∈ cells', c.length = 2048 := by
    have h2 := hperm.map Prod.snd
    rw [List.map_snd_zip (by rw [hl]), List.map_snd_zip (by rw [hl'])] at h2
    intro c hc
    exact hcl c (h2.mem_iff.2 hc)
  exact ⟨key inds inds' cells cells' hl hl' hperm hcl hcl', key inds' inds cells' cells hl' hl hperm.symm hcl' hcl⟩

end

/-- C39: reassembly in domain order, for every domain size `2^(q+d)` with `2^d` cosets of size `2^q`: coset element
`j` of coset `k` lands at the reversal of `2^q*k + j`, positions of absent cosets are zero. -/
theorem C39_reassembly {ε : Type} (q d : Nat) (hqd : q + d < 32) (inds : List Nat) (evals : List (List Fr))
    (hl : inds.length = evals.length) (hne : inds ≠ []) (hnd : inds.Nodup) (hlt : ∀ i ∈ inds, i < 2 ^ d)
    (hev : ∀ e ∈ evals, e.length = 2 ^ q) :
    ∃ y, (recoverEvaluationsInDomainOrder (2 ^ (q + d)) inds evals : Outcome ε _) =
        .ok (some (inds.map (Spec.brev d), y)) ∧
      y.length = 2 ^ (q + d) ∧
      (∀ i (hi : i < inds.length), ∀ j < 2 ^ q,
        y[Spec.brev (q + d) (2 ^ q * inds[i] + j)]? = (evals[i]'(hl ▸ hi))[j]?) ∧
      (∀ p < 2 ^ (q + d), Spec.brev (q + d) p / 2 ^ q ∉ inds → y[p]? = some 0) :=
  recoverEvaluations_spec q d hqd inds evals hl hne hnd hlt hev

/-- C39: the block indices handed to the decoder are exactly the bit-reversed missing cell indices. -/
theorem C39_missing (inds : List Nat) (hlt : ∀ i ∈ inds, i < 128) (k : Nat) (hk : k < 128) :
    (Spec.brev 7 k ∈ findMissingCellIndices (inds.map (Spec.brev 7)) ↔ k ∉ inds) ∧
    ∀ b ∈ findMissingCellIndices (inds.map (Spec.brev 7)), ∃ k < 128, k ∉ inds ∧ b = Spec.brev 7 k := by
  have hm : ∀ k < 128, Spec.brev 7 k ∈ inds.map (Spec.brev 7) ↔ k ∈ inds := by
    intro k hk
    rw [List.mem_map]
    constructor
    · rintro ⟨a, ha, hab⟩
      rwa [← Spec.brev_injOn 7 a k (hlt a ha) hk hab]
    · intro h; exact ⟨k, h, rfl⟩
  refine ⟨?_, ?_⟩
  · rw [missing_mem, hm k hk]
    have := Spec.brev_lt 7 k
    tauto
  · intro b hb
    obtain ⟨hb1, hb2⟩ := (missing_mem _ b).1 hb
    have hk' : Spec.brev 7 b < 128 := Spec.brev_lt 7 b
    refine ⟨Spec.brev 7 b, hk', ?_, (Spec.brev_brev 7 b hb1).symm⟩
    intro h
    apply hb2
    rw [List.mem_map]
    exact ⟨_, h, Spec.brev_brev 7 b hb1⟩

/-! Non-vacuity. -/
section
open Toy

/-- C09 applies to the last 64 cells of a concrete blob, in descending order. -/
example : ∃ (ctx : DASContext Fr Fr Fr) (cells proofs supplied : List (List UInt8)) (inds : List Nat),
    (DASContext.new (setup 7) .no : Outcome Error _) = .ok ctx ∧
    ctx.computeCellsAndKzgProofs blob = .ok (cells, proofs) ∧
    inds = (List.range 64).map (127 - ·) ∧ inds.Nodup ∧ (∀ i ∈ inds, i < 128) ∧ 64 ≤ inds.length ∧
    List.Forall₂ (fun i c => cells[i]? = some c) inds supplied ∧
    ctx.recoverCellsAndKzgProofs inds supplied = .ok (cells, proofs) := by
  obtain ⟨ctx, hctx⟩ := context 7
  obtain ⟨cells, proofs, h⟩ := C02_accepts (setup 7) (length_g1 7) ctx hctx blob blob_poly.2.1
    ((blobPoly_iff blob_poly.2.1).1 ⟨_, blob_poly⟩)
  obtain ⟨-, hall⟩ := C02_cells_are_evaluations (setup 7) .no (length_g1 7) ctx hctx blob blob_poly.2.1 cells proofs h
  obtain ⟨hlen, -⟩ := hall _ blob_poly
  have hnd : ((List.range 64).map (127 - ·)).Nodup := by decide +kernel
  have hlt : ∀ i ∈ (List.range 64).map (127 - ·), i < 128 := by decide +kernel
  have hs : List.Forall₂ (fun i c => cells[i]? = some c) ((List.range 64).map (127 - ·))
      ((List.range 64).map (fun i => cells.getD (127 - i) [])) := by
    rw [List.forall₂_iff_get]
    refine ⟨by simp, ?_⟩
    intro i h1 h2
    have : i < 64 := by simpa using h1
    simp [List.getD_eq_getElem?_getD, List.getElem?_eq_getElem (show 127 - i < cells.length by omega)]
  exact ⟨ctx, cells, proofs, _, _, hctx, h, rfl, hnd, hlt, by simp, hs,
    C09_recovers_original (setup 7) .no (length_g1 7) ctx hctx blob blob_poly.2.1 cells proofs h _ _ hlt hnd (by simp) hs⟩

/-- well-formed input that no polynomial explains: 65 cells, all zero but the last, which is all ones -/
example : ∃ (inds : List Nat) (cells : List (List UInt8)), (∀ c ∈ cells, c.length = 2048) ∧
    Spec.RecoveryWellFormed inds cells ∧ ¬ ∃ f, Spec.Consistent inds cells f := by
  let zero := cellOf 0 0
  let one := cellOf (C 1) 0
  have hz : ∀ k, zero = cellOf 0 k := by intro k; simp [zero, cellOf]
  have ho : ∀ k, one = cellOf (C 1) k := by intro k; simp [one, cellOf]
  have hcan : ∀ (f : Fr[X]) (i : Nat), Spec.Canonical 64 (cellOf f i) := by
    intro f i j hj
    have := ((isCell_iff f i _).2 rfl).2 j hj
    exact (exists_encodes_iff this.1).1 ⟨_, this⟩
  refine ⟨List.range 65, List.replicate 64 zero ++ [one], ?_, ⟨by simp, ?_, List.nodup_range, by simp, ?_⟩, ?_⟩
  · intro c hc
    rcases List.mem_append.1 hc with h | h
    · rw [(List.mem_replicate.1 h).2]; exact cellOf_length _ _
    · rw [List.mem_singleton.1 h]; exact cellOf_length _ _
  · intro i hi
    have := List.mem_range.1 hi
    omega
  · intro c hc
    rcases List.mem_append.1 hc with h | h
    · rw [(List.mem_replicate.1 h).2]; exact hcan _ _
    · rw [List.mem_singleton.1 h]; exact hcan _ _
  · rintro ⟨f, hf, hcell⟩
    -- the first 64 cells force the zero polynomial
    have h0 : ∀ k < 64, Spec.IsCell f k zero := by
      intro k hk
      refine hcell (k, zero) ?_
      rw [List.mem_iff_getElem]
      refine ⟨k, by simp; omega, ?_⟩
      rw [List.getElem_zip, List.getElem_range, List.getElem_append_left (by simpa using hk), List.getElem_replicate]
    have h1 : Spec.IsCell f 64 one := by
      refine hcell (64, one) ?_
      rw [List.mem_iff_getElem]
      refine ⟨64, by simp, ?_⟩
      rw [List.getElem_zip, List.getElem_range, List.getElem_append_right (by simp)]
      simp
    have hcons : ∀ g : Fr[X], g.degree < 4096 → (∀ k < 64, Spec.IsCell g k zero) →
        Spec.Consistent (List.range 64) (List.replicate 64 zero) g := by
      intro g hg hgc
      refine ⟨hg, ?_⟩
      rintro ⟨k, c⟩ hm
      obtain ⟨hk, hc⟩ := List.of_mem_zip hm
      rw [(List.mem_replicate.1 hc).2]
      exact hgc k (List.mem_range.1 hk)
    have hf0 := (recoverPolynomialCoeff_cases (inds := List.range 64) (cells := List.replicate 64 zero) (by simp)
      (by intro i hi; have := List.mem_range.1 hi; omega) (by
        intro c hc; rw [(List.mem_replicate.1 hc).2]; exact cellOf_length _ _) List.nodup_range (by simp) (by
        intro c hc; rw [(List.mem_replicate.1 hc).2]; exact hcan _ _)).2 f 0 (hcons f hf h0)
        (hcons 0 (by rw [degree_zero]; exact WithBot.bot_lt_coe _) (fun k _ => (isCell_iff _ _ _).2 (hz k)))
    subst hf0
    have h2 := h1.2 0 (by norm_num)
    have h3 := ((isCell_iff (C 1) 64 _).2 (ho 64)).2 0 (by norm_num)
    have := encodes_inj h2 h3
    simp at this

/-- C39 with two of four cosets of size two -/
example : (2 : Nat) ≤ 31 ∧ ([3, 0] : List Nat).Nodup ∧ (∀ i ∈ ([3, 0] : List Nat), i < 2 ^ 2) ∧
    (∀ e ∈ ([[5, 6], [7, 8]] : List (List Fr)), e.length = 2 ^ 1) := by decide

/-- defects exist: an index out of range -/
example : Spec.RecoveryDefect [5, 200] [[], []] (.Recovery (.CellIndexOutOfRange 200 128)) :=
  .range rfl [5] [] 200 rfl (by decide) (by decide)
end

end Verif
