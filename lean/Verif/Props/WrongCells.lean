import Verif.Props.Threshold
import Verif.Spec.WrongCells

set_option linter.unusedSectionVars false

/-!
C96: recovery from cells of which some are wrong. How many errors are always noticed, that no more are, how the wrong cells can be found by
leaving cells out, and how many inputs succeed at all.
-/
namespace Verif
open Polynomial Finset

attribute [local irreducible] Spec.wrongElements Spec.wrongCells

section
variable {ε K G1 G2 GT : Type} [Field K] [DecidableEq K] [AddCommGroup G1] [Module Fr G1] [DecidableEq G1]
  [Curve K G1] [PointCodec G1] [AddCommGroup G2] [Module Fr G2] [AddCommGroup GT] [DecidableEq GT]
  [Pairing G1 G2 GT]

/-- the call with the cells that arrived -/
def recoverFrom (ctx : DASContext K G1 G2) (inds : List (Fin 128)) (got : Fin 128 → List UInt8) :
    Outcome Error (List (List UInt8) × List (List UInt8)) :=
  ctx.recoverCellsAndKzgProofs (inds.map Fin.val) (inds.map got)

theorem wc_wellFormed {inds : List (Fin 128)} {got : Fin 128 → List UInt8} (hnd : inds.Nodup) (hn : 64 ≤ inds.length)
    (hc : ∀ k ∈ inds, Spec.Canonical 64 (got k)) : Spec.RecoveryWellFormed (inds.map Fin.val) (inds.map got) where
  lengths := by rw [List.length_map, List.length_map]
  inRange i hi := by
    obtain ⟨k, -, rfl⟩ := List.mem_map.1 hi
    exact k.2
  distinct := hnd.map Fin.val_injective
  enough := by rwa [List.length_map]
  canonical c hc' := by
    obtain ⟨k, hk, rfl⟩ := List.mem_map.1 hc'
    exact hc k hk

theorem wc_sized {inds : List (Fin 128)} {got : Fin 128 → List UInt8} (hl : ∀ k ∈ inds, (got k).length = 2048) :
    ∀ c ∈ inds.map got, c.length = 2048 := by
  intro c hc
  obtain ⟨k, hk, rfl⟩ := List.mem_map.1 hc
  exact hl k hk

theorem wc_zip (inds : List (Fin 128)) (got : Fin 128 → List UInt8) :
    (inds.map Fin.val).zip (inds.map got) = inds.map fun k => (k.val, got k) := by
  induction inds with
  | nil => rfl
  | cons k l ih => rw [List.map_cons, List.map_cons, List.zip_cons_cons, ih, List.map_cons]

theorem wc_consistent (inds : List (Fin 128)) (got : Fin 128 → List UInt8) (f : Fr[X]) :
    Spec.Consistent (inds.map Fin.val) (inds.map got) f ↔ f.degree < 4096 ∧ ∀ k ∈ inds, got k = cellOf f k := by
  unfold Spec.Consistent
  rw [wc_zip]
  refine and_congr_right fun _ => ?_
  constructor
  · intro h k hk
    exact (isCell_iff _ _ _).1 (h (k.val, got k) (List.mem_map_of_mem hk))
  · intro h p hp
    obtain ⟨k, hk, rfl⟩ := List.mem_map.1 hp
    exact (isCell_iff _ _ _).2 (h k hk)

theorem wc_block (f : Fr[X]) (p : Fin 128 × Fin 64) :
    Spec.block 32 p.2 (cellOf f p.1) = scalarToBytesBE (f.eval (columnPoint p)) :=
  encodes_iff.1 (((isCell_iff f p.1 _).2 rfl).2 p.2 p.2.2)

theorem wc_block_eq (f g : Fr[X]) (p : Fin 128 × Fin 64) :
    Spec.block 32 p.2 (cellOf f p.1) = Spec.block 32 p.2 (cellOf g p.1) ↔ f.eval (columnPoint p) = g.eval (columnPoint p) := by
  rw [wc_block, wc_block]
  constructor
  · intro h
    exact encodes_inj (encodes_scalarToBytesBE _) (h ▸ encodes_scalarToBytesBE _)
  · intro h
    rw [h]

theorem wc_cell_eq (f : Fr[X]) (k : Fin 128) (c : List UInt8) (hc : c.length = 2048) :
    c = cellOf f k ↔ ∀ j : Fin 64, Spec.block 32 j (cellOf f k) = Spec.block 32 j c := by
  constructor
  · rintro rfl j
    rfl
  · intro h
    refine (isCell_iff _ _ _).1 ⟨hc, fun j hj => ?_⟩
    have := h ⟨j, hj⟩
    rw [← this]
    exact ((isCell_iff f k _).2 rfl).2 j hj

/-- the cells of a blob -/
theorem wc_sent {setup : SetupPoints G1 G2} {up : UsePrecomp} (h1 : setup.g1Monomial.length = 4096)
    {ctx : DASContext K G1 G2} (hctx : (DASContext.new setup up : Outcome ε (DASContext K G1 G2)) = .ok ctx)
    {blob : List UInt8} (hb : blob.length = 131072) {all proofs : List (List UInt8)}
    (h : ctx.computeCellsAndKzgProofs blob = .ok (all, proofs)) :
    ∃ f : Fr[X], f.degree < 4096 ∧ Spec.IsBlobPoly blob f ∧ ∀ k : Fin 128, all[k.val]? = some (cellOf f k) := by
  obtain ⟨⟨f, hf, -⟩, hall⟩ := C02_cells_are_evaluations setup up h1 ctx hctx blob hb all proofs h
  obtain ⟨hl, hc⟩ := hall f hf
  refine ⟨f, hf.1, hf, fun k => ?_⟩
  have hk : k.val < all.length := by rw [hl]; exact k.2
  rw [List.getElem?_eq_getElem hk, (isCell_iff _ _ _).1 (hc k hk)]

theorem wc_elements {all : List (List UInt8)} {f : Fr[X]} (h : ∀ k : Fin 128, all[k.val]? = some (cellOf f k)) (inds : List (Fin 128))
    (got : Fin 128 → List UInt8) (p : Fin 128 × Fin 64) :
    p ∈ Spec.wrongElements all inds got ↔ p.1 ∈ inds ∧ Spec.block 32 p.2 (cellOf f p.1) ≠ Spec.block 32 p.2 (got p.1) := by
  unfold Spec.wrongElements
  rw [mem_filter, h p.1, Option.map_some]
  simp

theorem wc_cells {all : List (List UInt8)} {f : Fr[X]} (h : ∀ k : Fin 128, all[k.val]? = some (cellOf f k)) (inds : List (Fin 128))
    (got : Fin 128 → List UInt8) (k : Fin 128) :
    k ∈ Spec.wrongCells all inds got ↔ k ∈ inds ∧ cellOf f k ≠ got k := by
  unfold Spec.wrongCells
  rw [mem_filter, h k]
  simp

theorem wc_card {inds : List (Fin 128)} (hnd : inds.Nodup) : (inds.toFinset ×ˢ (univ : Finset (Fin 64))).card = 64 * inds.length := by
  rw [card_product, card_univ, Fintype.card_fin, List.toFinset_card_of_nodup hnd, mul_comm]

/-- C96: if at least one and at most `64 (n - 64)` elements of the `n` cells that arrived are wrong, recovery returns an error: the one of
the decoder if all elements are canonical. -/
theorem C96_elements (setup : SetupPoints G1 G2) (up : UsePrecomp) (h1 : setup.g1Monomial.length = 4096)
    (ctx : DASContext K G1 G2) (hctx : (DASContext.new setup up : Outcome ε (DASContext K G1 G2)) = .ok ctx)
    (blob : List UInt8) (hb : blob.length = 131072) (all proofs : List (List UInt8))
    (hcomp : ctx.computeCellsAndKzgProofs blob = .ok (all, proofs))
    (inds : List (Fin 128)) (hnd : inds.Nodup) (got : Fin 128 → List UInt8) (hl : ∀ k ∈ inds, (got k).length = 2048)
    (hpos : 0 < (Spec.wrongElements all inds got).card)
    (hle : (Spec.wrongElements all inds got).card + 4096 ≤ 64 * inds.length) :
    ∃ e, recoverFrom ctx inds got = .err e ∧
      ((∀ k ∈ inds, Spec.Canonical 64 (got k)) → e = .Recovery (.ReedSolomon (.PolynomialHasInvalidLength 8192 4096))) := by
  by_cases hc : ∀ k ∈ inds, Spec.Canonical 64 (got k)
  · refine ⟨_, C10_inconsistent_error setup up h1 ctx hctx _ _ (wc_sized hl) (wc_wellFormed hnd (by omega) hc) ?_, fun _ => rfl⟩
    rintro ⟨g, hg⟩
    obtain ⟨hgd, hgc⟩ := (wc_consistent inds got g).1 hg
    obtain ⟨f, hfd, -, hall⟩ := wc_sent h1 hctx hb hcomp
    obtain ⟨p, hp⟩ := card_pos.1 hpos
    obtain ⟨hp1, hp2⟩ := (wc_elements hall inds got p).1 hp
    rw [hgc _ hp1] at hp2
    refine hp2 ?_
    have hsub : Spec.wrongElements all inds got ⊆ inds.toFinset ×ˢ univ := by
      intro q hq
      exact mem_product.2 ⟨List.mem_toFinset.2 ((wc_elements hall inds got q).1 hq).1, mem_univ _⟩
    have hcard : 4096 ≤ (((inds.toFinset ×ˢ univ) \ Spec.wrongElements all inds got).image columnPoint).card := by
      rw [card_image_of_injective _ columnPoint_injective, card_sdiff_of_subset hsub, wc_card hnd]
      omega
    have : f = g := by
      refine eq_of_degrees_lt_of_eval_finset_eq (((inds.toFinset ×ˢ univ) \ Spec.wrongElements all inds got).image columnPoint)
        (lt_of_lt_of_le hfd (by exact_mod_cast hcard)) (lt_of_lt_of_le hgd (by exact_mod_cast hcard)) ?_
      intro x hx
      obtain ⟨q, hq, rfl⟩ := mem_image.1 hx
      obtain ⟨hq1, hq2⟩ := mem_sdiff.1 hq
      have hqi := List.mem_toFinset.1 (mem_product.1 hq1).1
      rw [wc_elements hall] at hq2
      push Not at hq2
      have := hq2 hqi
      rw [hgc _ hqi] at this
      exact (wc_block_eq f g q).1 this
    rw [this]
  · obtain ⟨hor, hdef, -⟩ := C12_validation setup up h1 ctx hctx (inds.map Fin.val) (inds.map got) (wc_sized hl)
    rcases hor with hw | ⟨e, he⟩
    · exact absurd (fun k hk => hw.5 _ (List.mem_map_of_mem hk)) hc
    · exact ⟨e, hdef e he, fun h => absurd h hc⟩

theorem wc_elements_cells {all : List (List UInt8)} {f : Fr[X]} (hall : ∀ k : Fin 128, all[k.val]? = some (cellOf f k))
    (inds : List (Fin 128)) (got : Fin 128 → List UInt8) (hl : ∀ k ∈ inds, (got k).length = 2048) :
    Spec.wrongElements all inds got ⊆ Spec.wrongCells all inds got ×ˢ univ ∧
      ((Spec.wrongElements all inds got).card = 0 ↔ (Spec.wrongCells all inds got).card = 0) := by
  have hsub : Spec.wrongElements all inds got ⊆ Spec.wrongCells all inds got ×ˢ univ := by
    intro p hp
    obtain ⟨hp1, hp2⟩ := (wc_elements hall inds got p).1 hp
    exact mem_product.2 ⟨(wc_cells hall inds got p.1).2 ⟨hp1, fun e => hp2 (by rw [e])⟩, mem_univ _⟩
  refine ⟨hsub, ?_⟩
  rw [card_eq_zero, card_eq_zero]
  constructor
  · intro h
    refine eq_empty_of_forall_notMem fun k hk => ?_
    obtain ⟨hk1, hk2⟩ := (wc_cells hall inds got k).1 hk
    refine hk2 (((wc_cell_eq f k (got k) (hl k hk1)).2 fun j => ?_).symm)
    by_contra hne
    have := (wc_elements hall inds got (k, j)).2 ⟨hk1, hne⟩
    rw [h] at this
    exact absurd this (notMem_empty _)
  · intro h
    rw [h, empty_product] at hsub
    exact subset_empty.1 hsub

/-- C96: the same for whole cells: at least one and at most `n - 64` wrong cells among the `n` that arrived. -/
theorem C96_cells (setup : SetupPoints G1 G2) (up : UsePrecomp) (h1 : setup.g1Monomial.length = 4096)
    (ctx : DASContext K G1 G2) (hctx : (DASContext.new setup up : Outcome ε (DASContext K G1 G2)) = .ok ctx)
    (blob : List UInt8) (hb : blob.length = 131072) (all proofs : List (List UInt8))
    (hcomp : ctx.computeCellsAndKzgProofs blob = .ok (all, proofs))
    (inds : List (Fin 128)) (hnd : inds.Nodup) (got : Fin 128 → List UInt8) (hl : ∀ k ∈ inds, (got k).length = 2048)
    (hpos : 0 < (Spec.wrongCells all inds got).card) (hle : (Spec.wrongCells all inds got).card + 64 ≤ inds.length) :
    ∃ e, recoverFrom ctx inds got = .err e ∧
      ((∀ k ∈ inds, Spec.Canonical 64 (got k)) → e = .Recovery (.ReedSolomon (.PolynomialHasInvalidLength 8192 4096))) := by
  obtain ⟨f, -, -, hall⟩ := wc_sent h1 hctx hb hcomp
  obtain ⟨hsub, hz⟩ := wc_elements_cells hall inds got hl
  have hcard := card_le_card hsub
  rw [card_product, card_univ, Fintype.card_fin] at hcard
  exact C96_elements setup up h1 ctx hctx blob hb all proofs hcomp inds hnd got hl (by omega) (by omega)

theorem wc_recover {setup : SetupPoints G1 G2} (h1 : setup.g1Monomial.length = 4096)
    {ctx : DASContext K G1 G2} (hctx : (DASContext.new setup .no : Outcome Error (DASContext K G1 G2)) = .ok ctx)
    {inds : List (Fin 128)} (hnd : inds.Nodup) (hn : 64 ≤ inds.length) {got : Fin 128 → List UInt8} {f : Fr[X]} (hf : f.degree < 4096)
    (hg : ∀ k ∈ inds, got k = cellOf f k) : recoverFrom ctx inds got = .ok (cellsOf f, proofsOf setup.g1Monomial f) := by
  obtain ⟨M, hp, hM, hrs, -⟩ := context_fields setup .no h1 ctx hctx
  have hcell : ∀ k ∈ inds, Spec.IsCell f k (got k) := fun k hk => (isCell_iff _ _ _).2 (hg k hk)
  have hw := wc_wellFormed (got := got) hnd hn fun k hk => isCell_canonical (hcell k hk)
  have hcons := (wc_consistent inds got f).2 ⟨hf, hg⟩
  unfold recoverFrom
  rcases recoverPolynomialCoeff_cases hw.1 hw.2 (wc_sized fun k hk => (hcell k hk).1) hw.3 hw.4 hw.5 with ⟨⟨g, hg', h⟩ | ⟨hne, -⟩, huniq⟩
  · rw [recover_run hp hrs h, prove_exact _ h1 M (msmExact_no _ 6 6 M hM) g hg'.1, huniq g f hg' hcons]
  · exact absurd ⟨f, hcons⟩ hne

/-- C96: beyond that nothing is guaranteed, wherever the errors are. For every blob and every set of more than `64 (n - 64)` elements of the `n`
cells there are contents, wrong in exactly this set, from which recovery returns the cells and proofs of another blob. -/
theorem C96_limit (setup : SetupPoints G1 G2) (h1 : setup.g1Monomial.length = 4096)
    (ctx : DASContext K G1 G2) (hctx : (DASContext.new setup .no : Outcome Error (DASContext K G1 G2)) = .ok ctx)
    (blob : List UInt8) (hb : blob.length = 131072) (all proofs : List (List UInt8))
    (hcomp : ctx.computeCellsAndKzgProofs blob = .ok (all, proofs))
    (inds : List (Fin 128)) (hnd : inds.Nodup) (hn : 64 ≤ inds.length) (W : Finset (Fin 128 × Fin 64)) (hW : ∀ p ∈ W, p.1 ∈ inds)
    (hlt : 64 * inds.length < W.card + 4096) :
    ∃ (got : Fin 128 → List UInt8) (blob' : List UInt8), (∀ k ∈ inds, (got k).length = 2048 ∧ Spec.Canonical 64 (got k)) ∧
      Spec.wrongElements all inds got = W ∧ blob'.length = 131072 ∧ blob' ≠ blob ∧
      ∃ r, recoverFrom ctx inds got = .ok r ∧ ctx.computeCellsAndKzgProofs blob' = .ok r := by
  obtain ⟨f, hfd, hfb, hall⟩ := wc_sent h1 hctx hb hcomp
  set D : Fr[X] := ∏ p ∈ (inds.toFinset ×ˢ univ) \ W, (X - C (columnPoint p)) with hD
  have hsub : W ⊆ inds.toFinset ×ˢ univ := fun p hp => mem_product.2 ⟨List.mem_toFinset.2 (hW p hp), mem_univ _⟩
  have hDdeg : D.degree < 4096 := by
    rw [hD, degree_prod, sum_congr rfl fun p _ => degree_X_sub_C _, sum_const, card_sdiff_of_subset hsub, wc_card hnd]
    have h2 : 64 * inds.length - W.card < 4096 := by omega
    simpa using (by exact_mod_cast h2 : ((64 * inds.length - W.card : Nat) : WithBot Nat) < 4096)
  have hDz : ∀ p : Fin 128 × Fin 64, p.1 ∈ inds → (D.eval (columnPoint p) = 0 ↔ p ∉ W) := by
    intro p hp
    rw [hD, eval_prod, prod_eq_zero_iff]
    constructor
    · rintro ⟨q, hq, hz⟩
      rw [eval_sub, eval_X, eval_C, sub_eq_zero] at hz
      rw [columnPoint_injective hz]
      exact (mem_sdiff.1 hq).2
    · intro hpW
      exact ⟨p, mem_sdiff.2 ⟨mem_product.2 ⟨List.mem_toFinset.2 hp, mem_univ _⟩, hpW⟩, by rw [eval_sub, eval_X, eval_C, sub_self]⟩
  have hgd : (f + D).degree < 4096 := lt_of_le_of_lt (degree_add_le _ _) (max_lt hfd hDdeg)
  have hcell : ∀ k : Fin 128, Spec.IsCell (f + D) k (cellOf (f + D) k) := fun k => (isCell_iff _ _ _).2 rfl
  obtain ⟨hl', hc'⟩ := (published_iff h1 hctx (blobOf (f + D)) _ _).2 ⟨f + D, hgd, rfl, rfl, rfl⟩
  have hwrong : Spec.wrongElements all inds (fun k => cellOf (f + D) k) = W := by
    ext p
    rw [wc_elements hall]
    constructor
    · rintro ⟨hp, hne⟩
      by_contra hpW
      refine hne ((wc_block_eq f (f + D) p).2 ?_)
      rw [eval_add, (hDz p hp).2 hpW, add_zero]
    · intro hp
      refine ⟨hW p hp, fun e => ?_⟩
      have := (wc_block_eq f (f + D) p).1 e
      rw [eval_add, left_eq_add] at this
      exact (hDz p (hW p hp)).1 this hp
  refine ⟨fun k => cellOf (f + D) k, blobOf (f + D), fun k _ => ⟨(hcell k).1, isCell_canonical (hcell k)⟩, hwrong, hl', ?_,
    _, wc_recover h1 hctx hnd hn hgd fun _ _ => rfl, hc'⟩
  intro e
  have hfeq : blobOf (f + D) = blobOf f := by
    rw [e]
    exact (isBlobPoly_iff.1 hfb).2
  have h0 : f + D = f := blobOf_injOn hgd hfd hfeq
  rw [h0] at hwrong
  have : W = ∅ := by
    rw [← hwrong]
    refine eq_empty_of_forall_notMem fun p hp => ?_
    exact ((wc_elements hall _ _ p).1 hp).2 rfl
  rw [this, card_empty] at hlt
  omega

/-- C96: the same for whole cells: any set of more than `n - 64` of the `n` cells can be exchanged without notice. -/
theorem C96_limit_cells (setup : SetupPoints G1 G2) (h1 : setup.g1Monomial.length = 4096)
    (ctx : DASContext K G1 G2) (hctx : (DASContext.new setup .no : Outcome Error (DASContext K G1 G2)) = .ok ctx)
    (blob : List UInt8) (hb : blob.length = 131072) (all proofs : List (List UInt8))
    (hcomp : ctx.computeCellsAndKzgProofs blob = .ok (all, proofs))
    (inds : List (Fin 128)) (hnd : inds.Nodup) (hn : 64 ≤ inds.length) (W : Finset (Fin 128)) (hW : ∀ k ∈ W, k ∈ inds)
    (hlt : inds.length < W.card + 64) :
    ∃ (got : Fin 128 → List UInt8) (blob' : List UInt8), (∀ k ∈ inds, (got k).length = 2048 ∧ Spec.Canonical 64 (got k)) ∧
      Spec.wrongCells all inds got = W ∧ blob'.length = 131072 ∧ blob' ≠ blob ∧
      ∃ r, recoverFrom ctx inds got = .ok r ∧ ctx.computeCellsAndKzgProofs blob' = .ok r := by
  obtain ⟨f, -, -, hall⟩ := wc_sent h1 hctx hb hcomp
  obtain ⟨got, blob', hs, hw, hl, hne, hr⟩ := C96_limit setup h1 ctx hctx blob hb all proofs hcomp inds hnd hn (W ×ˢ univ)
    (fun p hp => hW _ (mem_product.1 hp).1) (by rw [card_product, card_univ, Fintype.card_fin]; omega)
  refine ⟨got, blob', hs, ?_, hl, hne, hr⟩
  ext k
  constructor
  · intro hk
    obtain ⟨hk1, hk2⟩ := (wc_cells hall inds got k).1 hk
    by_contra hkW
    refine hk2 (((wc_cell_eq f k (got k) (hs k hk1).1).2 fun j => ?_).symm)
    by_contra hbl
    have := (wc_elements hall inds got (k, j)).2 ⟨hk1, hbl⟩
    rw [hw] at this
    exact hkW (mem_product.1 this).1
  · intro hk
    have : (k, (0 : Fin 64)) ∈ Spec.wrongElements all inds got := by
      rw [hw]
      exact mem_product.2 ⟨hk, mem_univ _⟩
    obtain ⟨h2, h3⟩ := (wc_elements hall inds got _).1 this
    exact (wc_cells hall inds got k).2 ⟨h2, fun e => h3 (by rw [e])⟩

/-- C96: wrong cells can be found by leaving cells out. If `w` of the cells that arrived are wrong, recovery from any part of at least `64 + w` of
them succeeds exactly if the part has none of the wrong ones, and then returns what was sent. -/
theorem C96_locate (setup : SetupPoints G1 G2) (h1 : setup.g1Monomial.length = 4096)
    (ctx : DASContext K G1 G2) (hctx : (DASContext.new setup .no : Outcome Error (DASContext K G1 G2)) = .ok ctx)
    (blob : List UInt8) (hb : blob.length = 131072) (all proofs : List (List UInt8))
    (hcomp : ctx.computeCellsAndKzgProofs blob = .ok (all, proofs))
    (inds part : List (Fin 128)) (hp : part.Nodup) (hsub : ∀ k ∈ part, k ∈ inds) (got : Fin 128 → List UInt8)
    (hl : ∀ k ∈ part, (got k).length = 2048) (hle : (Spec.wrongCells all inds got).card + 64 ≤ part.length) :
    ((∃ r, recoverFrom ctx part got = .ok r) ↔ ∀ k ∈ part, k ∉ Spec.wrongCells all inds got) ∧
    ((∀ k ∈ part, k ∉ Spec.wrongCells all inds got) → recoverFrom ctx part got = .ok (all, proofs)) := by
  have hok : (∀ k ∈ part, k ∉ Spec.wrongCells all inds got) → recoverFrom ctx part got = .ok (all, proofs) := by
    intro h
    obtain ⟨f, hfd, -, e1, e2⟩ := (published_iff h1 hctx blob all proofs).1 ⟨hb, hcomp⟩
    rw [e1, e2]
    refine wc_recover h1 hctx hp (by omega) hfd fun k hk => ?_
    have := h k hk
    rw [wc_cells (f := f) (fun k => by rw [e1, cellsOf_get])] at this
    push Not at this
    exact (this (hsub k hk)).symm
  refine ⟨⟨?_, fun h => ⟨_, hok h⟩⟩, hok⟩
  rintro ⟨r, hr⟩ k hk hkw
  have hss : Spec.wrongCells all part got ⊆ Spec.wrongCells all inds got := by
    intro x hx
    unfold Spec.wrongCells at hx ⊢
    obtain ⟨-, h2, h3⟩ := mem_filter.1 hx
    exact mem_filter.2 ⟨mem_univ _, hsub x h2, h3⟩
  have hmem : k ∈ Spec.wrongCells all part got := by
    unfold Spec.wrongCells at hkw ⊢
    exact mem_filter.2 ⟨mem_univ _, hk, (mem_filter.1 hkw).2.2⟩
  obtain ⟨e, he, -⟩ := C96_cells setup .no h1 ctx hctx blob hb all proofs hcomp part hp got hl (card_pos.2 ⟨k, hmem⟩)
    (by have := card_le_card hss; omega)
  rw [hr] at he
  cases he

theorem wc_cell_unique {f g : Fr[X]} (k : Nat) (hf : f.degree < 64) (hg : g.degree < 64) (h : cellOf f k = cellOf g k) : f = g :=
  interp_unique (c := cellOf f k) hf hg ((isCell_iff f k _).2 rfl) ((isCell_iff g k _).2 h)

/-- C96: there are `r^(64 n)` contents of `n` cells with canonical elements … -/
theorem C96_contents (inds : List (Fin 128)) (hnd : inds.Nodup) :
    {got : Fin 128 → List UInt8 | (∀ k ∈ inds, (got k).length = 2048 ∧ Spec.Canonical 64 (got k)) ∧ ∀ k, k ∉ inds → got k = []}.ncard =
      frOrder ^ (64 * inds.length) := by
  let B := {f : Fr[X] | f.degree < (64 : Nat)}
  let F : ({k // k ∈ inds} → B) → Fin 128 → List UInt8 := fun v k => if h : k ∈ inds then cellOf (v ⟨k, h⟩).1 k else []
  have hF : ∀ v k (h : k ∈ inds), F v k = cellOf (v ⟨k, h⟩).1 k := fun v k h => dif_pos h
  have hinj : Function.Injective F := by
    intro v v' h
    funext ⟨k, hk⟩
    have := congrFun h k
    rw [hF v k hk, hF v' k hk] at this
    exact Subtype.ext (wc_cell_unique k (v ⟨k, hk⟩).2 (v' ⟨k, hk⟩).2 this)
  have he : {got : Fin 128 → List UInt8 | (∀ k ∈ inds, (got k).length = 2048 ∧ Spec.Canonical 64 (got k)) ∧
      ∀ k, k ∉ inds → got k = []} = Set.range F := by
    ext got
    constructor
    · rintro ⟨h1, h2⟩
      have hex : ∀ k : {k // k ∈ inds}, ∃ f : B, got k = cellOf f.1 k := by
        rintro ⟨k, hk⟩
        obtain ⟨I, hI, hc⟩ := cell_interp k (got k) (h1 k hk).1 (h1 k hk).2
        exact ⟨⟨I, hI⟩, (isCell_iff _ _ _).1 hc⟩
      choose v hv using hex
      refine ⟨v, funext fun k => ?_⟩
      by_cases hk : k ∈ inds
      · rw [hF v k hk]
        exact (hv ⟨k, hk⟩).symm
      · rw [h2 k hk]
        exact dif_neg hk
    · rintro ⟨v, rfl⟩
      refine ⟨fun k hk => ?_, fun k hk => dif_neg hk⟩
      rw [hF v k hk]
      have h : Spec.IsCell (v ⟨k, hk⟩).1 k (cellOf (v ⟨k, hk⟩).1 k) := (isCell_iff _ _ _).2 rfl
      exact ⟨h.1, isCell_canonical h⟩
  have hc : Nat.card {k // k ∈ inds} = inds.length := by
    rw [Nat.card_eq_fintype_card, Fintype.card_subtype, ← List.toFinset_card_of_nodup hnd]
    congr 1
    ext k
    simp
  rw [he, ← Set.image_univ, Set.ncard_image_of_injective _ hinj, Set.ncard_univ, Nat.card_fun, hc, Nat.card_coe_set_eq, ncard_degree_lt,
    card_fr, ← pow_mul]

/-- C96: … and of these exactly `r^4096` are accepted, so that of random cells recovery accepts one in `r^(64 (n - 64))`. -/
theorem C96_count (setup : SetupPoints G1 G2) (h1 : setup.g1Monomial.length = 4096)
    (ctx : DASContext K G1 G2) (hctx : (DASContext.new setup .no : Outcome Error (DASContext K G1 G2)) = .ok ctx)
    (inds : List (Fin 128)) (hnd : inds.Nodup) (hn : 64 ≤ inds.length) :
    {got : Fin 128 → List UInt8 | ((∀ k ∈ inds, (got k).length = 2048 ∧ Spec.Canonical 64 (got k)) ∧ ∀ k, k ∉ inds → got k = []) ∧
      ∃ r, recoverFrom ctx inds got = .ok r}.ncard = frOrder ^ 4096 := by
  let F : Fr[X] → Fin 128 → List UInt8 := fun f k => if k ∈ inds then cellOf f k else []
  have hF : ∀ f k, k ∈ inds → F f k = cellOf f k := fun f k h => if_pos h
  have hinj : Set.InjOn F {f : Fr[X] | f.degree < (4096 : Nat)} := by
    intro f hf g hg h
    have hcard : 4096 ≤ ((inds.toFinset ×ˢ (univ : Finset (Fin 64))).image columnPoint).card := by
      rw [card_image_of_injective _ columnPoint_injective, wc_card hnd]
      omega
    refine eq_of_degrees_lt_of_eval_finset_eq ((inds.toFinset ×ˢ (univ : Finset (Fin 64))).image columnPoint)
      (lt_of_lt_of_le hf (by exact_mod_cast hcard)) (lt_of_lt_of_le hg (by exact_mod_cast hcard)) ?_
    intro x hx
    obtain ⟨q, hq, rfl⟩ := mem_image.1 hx
    have hqi := List.mem_toFinset.1 (mem_product.1 hq).1
    have := congrFun h q.1
    rw [hF f _ hqi, hF g _ hqi] at this
    exact (wc_block_eq f g q).1 (by rw [this])
  have he : {got : Fin 128 → List UInt8 | ((∀ k ∈ inds, (got k).length = 2048 ∧ Spec.Canonical 64 (got k)) ∧ ∀ k, k ∉ inds → got k = []) ∧
      ∃ r, recoverFrom ctx inds got = .ok r} = F '' {f : Fr[X] | f.degree < (4096 : Nat)} := by
    ext got
    constructor
    · rintro ⟨⟨h2, h3⟩, h4⟩
      obtain ⟨f, hf⟩ := (C10_succeeds_iff_consistent setup h1 ctx hctx _ _ (wc_sized fun k hk => (h2 k hk).1)
        (wc_wellFormed hnd hn fun k hk => (h2 k hk).2)).1 h4
      obtain ⟨hfd, hfc⟩ := (wc_consistent inds got f).1 hf
      refine ⟨f, hfd, funext fun k => ?_⟩
      by_cases hk : k ∈ inds
      · rw [hF f k hk, hfc k hk]
      · rw [h3 k hk]
        exact if_neg hk
    · rintro ⟨f, hf, rfl⟩
      refine ⟨⟨fun k hk => ?_, fun k hk => if_neg hk⟩, _, wc_recover h1 hctx hnd hn hf (hF f)⟩
      rw [hF f k hk]
      have h : Spec.IsCell f k (cellOf f k) := (isCell_iff _ _ _).2 rfl
      exact ⟨h.1, isCell_canonical h⟩
  rw [he, hinj.ncard_image, ncard_degree_lt, card_fr]

end

/-! ### a case that meets the hypotheses -/
section
open Toy

/-- the first `n` cells, in order -/
def Toy.firstInds (n : Nat) (hn : n ≤ 128) : List (Fin 128) := (List.finRange n).map (Fin.castLE hn)

theorem Toy.firstInds_nodup (n : Nat) (hn : n ≤ 128) : (Toy.firstInds n hn).Nodup :=
  (List.nodup_finRange n).map (Fin.castLE_injective hn)

theorem Toy.firstInds_length (n : Nat) (hn : n ≤ 128) : (Toy.firstInds n hn).length = n := by
  rw [Toy.firstInds, List.length_map, List.length_finRange]

theorem Toy.mem_firstInds (n : Nat) (hn : n ≤ 128) (k : Fin 128) : k ∈ Toy.firstInds n hn ↔ k.val < n := by
  unfold Toy.firstInds
  rw [List.mem_map]
  constructor
  · rintro ⟨i, -, rfl⟩
    exact i.2
  · intro h
    exact ⟨⟨k.val, h⟩, List.mem_finRange _, rfl⟩

/-- what arrives if the cell 3 is replaced by the one of the zero polynomial -/
noncomputable def Toy.oneWrong (k : Fin 128) : List UInt8 := if k = 3 then cellOf 0 k else cellOf poly k

theorem Toy.oneWrong_length (k : Fin 128) : (Toy.oneWrong k).length = 2048 := by
  unfold Toy.oneWrong
  split <;> exact cellOf_length _ _

theorem Toy.oneWrong_wrong (n : Nat) (hn : n ≤ 128) (h3 : 3 < n) :
    Spec.wrongCells (cellsOf poly) (Toy.firstInds n hn) Toy.oneWrong = {3} := by
  ext k
  rw [wc_cells (cellsOf_get poly), Toy.mem_firstInds, mem_singleton]
  unfold Toy.oneWrong
  constructor
  · rintro ⟨-, h⟩
    by_contra hk
    rw [if_neg hk] at h
    exact h rfl
  · rintro rfl
    refine ⟨h3, ?_⟩
    rw [if_pos rfl]
    intro e
    have hp : poly.degree < 64 := by
      have h1 : poly.degree ≤ 1 := by
        unfold poly
        compute_degree
      exact lt_of_le_of_lt h1 (by norm_num)
    have h0 := congrArg (eval 0) (wc_cell_unique 3 hp (by rw [degree_zero]; exact WithBot.bot_lt_coe _) e)
    rw [poly, eval_add, eval_mul, eval_X, mul_zero, zero_add, eval_C, eval_zero] at h0
    have h5 : ((5 : Nat) : Fr) = 0 := by exact_mod_cast h0
    rw [ZMod.natCast_eq_zero_iff] at h5
    exact absurd (Nat.le_of_dvd (by norm_num) h5) (by decide +kernel)

/-- Of the cells of `3 X + 5` the fourth is wrong. Recovery from the first 65 cells fails and recovery from the first 66 without it returns what was
sent; with 64 cells another blob can come out, and 66 cells have `r^4224` contents of which `r^4096` are accepted. -/
example : ∃ ctx : DASContext Fr Fr Fr, (DASContext.new (setup 7) .no : Outcome Error _) = .ok ctx ∧
    ∃ blob all proofs, ctx.computeCellsAndKzgProofs blob = .ok (all, proofs) ∧
    recoverFrom ctx (Toy.firstInds 65 (by decide)) Toy.oneWrong = .err (.Recovery (.ReedSolomon (.PolynomialHasInvalidLength 8192 4096))) ∧
    recoverFrom ctx ((Toy.firstInds 66 (by decide)).erase 3) Toy.oneWrong = .ok (all, proofs) ∧
    (∃ (got : Fin 128 → List UInt8) (blob' : List UInt8), Spec.wrongCells all (Toy.firstInds 64 (by decide)) got = {3} ∧ blob' ≠ blob ∧
      ∃ r, recoverFrom ctx (Toy.firstInds 64 (by decide)) got = .ok r ∧ ctx.computeCellsAndKzgProofs blob' = .ok r) := by
  obtain ⟨ctx, hctx⟩ := context 7
  obtain ⟨hb, hcomp⟩ := (published_iff (length_g1 7) hctx (blobOf poly) _ _).2 ⟨poly, poly_degree, rfl, rfl, rfl⟩
  refine ⟨ctx, hctx, _, _, _, hcomp, ?_, ?_, ?_⟩
  · obtain ⟨e, he, hc⟩ := C96_cells (setup 7) .no (length_g1 7) ctx hctx _ hb _ _ hcomp (Toy.firstInds 65 (by decide))
      (Toy.firstInds_nodup 65 (by decide)) Toy.oneWrong (fun k _ => Toy.oneWrong_length k)
      (by rw [Toy.oneWrong_wrong 65 (by decide) (by decide), card_singleton]; exact Nat.one_pos)
      (by rw [Toy.oneWrong_wrong 65 (by decide) (by decide), card_singleton, Toy.firstInds_length])
    rw [he, hc]
    intro k _
    unfold Toy.oneWrong
    split
    · exact isCell_canonical ((isCell_iff (0 : Fr[X]) k _).2 rfl)
    · exact isCell_canonical ((isCell_iff poly k _).2 rfl)
  · refine (C96_locate (setup 7) (length_g1 7) ctx hctx _ hb _ _ hcomp (Toy.firstInds 66 (by decide)) _
      ((Toy.firstInds_nodup 66 (by decide)).erase 3) (fun k hk => List.mem_of_mem_erase hk) Toy.oneWrong
      (fun k _ => Toy.oneWrong_length k) ?_).2 ?_
    · rw [Toy.oneWrong_wrong 66 (by decide) (by decide), card_singleton, List.length_erase_of_mem, Toy.firstInds_length]
      exact (Toy.mem_firstInds 66 (by decide) 3).2 (by decide)
    · intro k hk
      rw [Toy.oneWrong_wrong 66 (by decide) (by decide), mem_singleton]
      exact ((Toy.firstInds_nodup 66 (by decide)).mem_erase_iff.1 hk).1
  · obtain ⟨got, blob', -, h1, -, h2, h3⟩ := C96_limit_cells (setup 7) (length_g1 7) ctx hctx _ hb _ _ hcomp
      (Toy.firstInds 64 (by decide)) (Toy.firstInds_nodup 64 (by decide)) (by rw [Toy.firstInds_length]) {3}
      (fun k hk => by rw [mem_singleton.1 hk]; exact (Toy.mem_firstInds 64 (by decide) 3).2 (by decide))
      (by rw [Toy.firstInds_length, card_singleton]; decide)
    exact ⟨got, blob', h1, h2, h3⟩

/-- The numbers for 66 cells. -/
example : ∃ ctx : DASContext Fr Fr Fr, (DASContext.new (setup 7) .no : Outcome Error _) = .ok ctx ∧
    ∃ A B : Set (Fin 128 → List UInt8), A.ncard = frOrder ^ 4224 ∧ B.ncard = frOrder ^ 4096 ∧ B ⊆ A ∧
      ∀ got ∈ A, got ∈ B ↔ ∃ r, recoverFrom ctx (Toy.firstInds 66 (by decide)) got = .ok r := by
  obtain ⟨ctx, hctx⟩ := context 7
  refine ⟨ctx, hctx, _, _, ?_, C96_count (setup 7) (length_g1 7) ctx hctx (Toy.firstInds 66 (by decide))
    (Toy.firstInds_nodup 66 (by decide)) (by rw [Toy.firstInds_length]; decide), fun got h => h.1, fun got h => ⟨fun h' => h'.2, fun h' => ⟨h, h'⟩⟩⟩
  have h := C96_contents _ (Toy.firstInds_nodup 66 (by decide))
  rw [Toy.firstInds_length, show 64 * 66 = 4224 from rfl] at h
  exact h

end

end Verif
