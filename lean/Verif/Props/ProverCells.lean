import Verif.Props.Toy

/-! C01, C02, C40: the cells returned by `compute_cells_and_kzg_proofs`. -/
namespace Verif
open Polynomial Finset

section
variable {ε K G1 G2 : Type} [Field K] [DecidableEq K] [AddCommGroup G1] [Module Fr G1] [DecidableEq G1]
  [Curve K G1] [PointCodec G1] [AddCommGroup G2] [Module Fr G2]

/-- C02: every context of the right size, with or without precomputation. If the call returns, the blob is the
evaluation list of exactly one polynomial of degree below 4096, and cell `k` is the serialization of the values
of this polynomial on coset `k`. -/
theorem C02_cells_are_evaluations (setup : SetupPoints G1 G2) (up : UsePrecomp) (h1 : setup.g1Monomial.length = 4096)
    (ctx : DASContext K G1 G2) (hctx : (DASContext.new setup up : Outcome ε (DASContext K G1 G2)) = .ok ctx)
    (blob : List UInt8) (hb : blob.length = 131072) (cells proofs : List (List UInt8))
    (h : ctx.computeCellsAndKzgProofs blob = .ok (cells, proofs)) :
    (∃! f, Spec.IsBlobPoly blob f) ∧ ∀ f, Spec.IsBlobPoly blob f →
      cells.length = 128 ∧ ∀ k (hk : k < cells.length), Spec.IsCell f k cells[k] := by
  obtain ⟨M, hp, -, -, -⟩ := context_fields setup up h1 ctx hctx
  have hex : ∃ f, Spec.IsBlobPoly blob f := by
    by_contra hne
    obtain ⟨i, -, -, -, -, herr⟩ := bad_blob (ctx := ctx) hb hne
    rw [herr] at h; cases h
  obtain ⟨f, hf⟩ := hex
  refine ⟨⟨f, hf, fun g hg => isBlobPoly_unique hg hf⟩, ?_⟩
  intro g hg
  rw [cells_of_blob hp hg] at h
  obtain ⟨rfl, -⟩ := prove_cells _ M g hg.1 cells proofs h
  refine ⟨by simp [cellsOf], ?_⟩
  intro k hk
  rw [isCell_iff]
  simp [cellsOf_eq]

/-- C02, acceptance: without precomputation the call returns for every blob of canonical field elements. -/
theorem C02_accepts (setup : SetupPoints G1 G2) (h1 : setup.g1Monomial.length = 4096)
    (ctx : DASContext K G1 G2) (hctx : (DASContext.new setup .no : Outcome Error (DASContext K G1 G2)) = .ok ctx)
    (blob : List UInt8) (hb : blob.length = 131072) (hc : ∀ i < 4096, Spec.beValue (Spec.block 32 i blob) < frOrder) :
    ∃ cells proofs, ctx.computeCellsAndKzgProofs blob = .ok (cells, proofs) := by
  obtain ⟨M, hp, hM, -, -⟩ := context_fields setup .no h1 ctx hctx
  obtain ⟨f, hf⟩ := (blobPoly_iff hb).2 hc
  rw [cells_of_blob hp hf, prove_exact _ h1 M (msmExact_no _ 6 6 M hM) f hf.1]
  exact ⟨_, _, rfl⟩

theorem point_13_12 (i : Nat) (hi : i < 4096) : Spec.point 13 i = Spec.point 12 i := by
  unfold Spec.point
  have h1 := Spec.brev_concat 12 1 i 0 hi
  simp only [mul_zero, add_zero] at h1
  rw [h1]
  have h2 := omega_pow 12 13 (by norm_num) (by norm_num)
  have h3 : Spec.brev 1 0 = 0 := by decide
  rw [h3, zero_add, pow_mul]
  norm_num at h2 ⊢
  rw [h2]

theorem block_block (k j : Nat) (hj : j < 64) (b : List UInt8) :
    Spec.block 32 j (Spec.block 2048 k b) = Spec.block 32 (64 * k + j) b := by
  unfold Spec.block
  rw [List.drop_take, List.take_take, List.drop_drop]
  congr 1
  · omega
  · congr 1; omega

/-- C01: concatenating the first 64 cells gives back the blob. -/
theorem C01_first_cells_are_the_blob (setup : SetupPoints G1 G2) (up : UsePrecomp)
    (h1 : setup.g1Monomial.length = 4096)
    (ctx : DASContext K G1 G2) (hctx : (DASContext.new setup up : Outcome ε (DASContext K G1 G2)) = .ok ctx)
    (blob : List UInt8) (hb : blob.length = 131072) (cells proofs : List (List UInt8))
    (h : ctx.computeCellsAndKzgProofs blob = .ok (cells, proofs)) :
    (cells.take 64).flatten = blob := by
  obtain ⟨⟨f, hf, -⟩, hall⟩ := C02_cells_are_evaluations setup up h1 ctx hctx blob hb cells proofs h
  obtain ⟨hlen, hcell⟩ := hall f hf
  rw [← flatten_blocks 2048 64 blob (by rw [hb])]
  congr 1
  refine List.ext_getElem (by simp [hlen]) ?_
  intro k hk hk'
  have hk64 : k < 64 := by simp at hk'; exact hk'
  rw [List.getElem_take, List.getElem_map, List.getElem_range]
  have h2 := hcell k (by omega)
  rw [isCell_iff] at h2
  rw [h2]
  symm
  rw [← isCell_iff]
  refine ⟨block_length (by omega), ?_⟩
  intro j hj
  rw [block_block k j hj, point_13_12 _ (by omega)]
  exact hf.2.2 _ (by omega)

/-- C40: two different accepted blobs agree on fewer than 64 of their 128 cells. -/
theorem C40_distance (setup : SetupPoints G1 G2) (up : UsePrecomp) (h1 : setup.g1Monomial.length = 4096)
    (ctx : DASContext K G1 G2) (hctx : (DASContext.new setup up : Outcome ε (DASContext K G1 G2)) = .ok ctx)
    (blob₁ blob₂ : List UInt8) (hb₁ : blob₁.length = 131072) (hb₂ : blob₂.length = 131072) (hne : blob₁ ≠ blob₂)
    (cells₁ proofs₁ cells₂ proofs₂ : List (List UInt8))
    (hc₁ : ctx.computeCellsAndKzgProofs blob₁ = .ok (cells₁, proofs₁))
    (hc₂ : ctx.computeCellsAndKzgProofs blob₂ = .ok (cells₂, proofs₂)) :
    ((List.range 128).filter (fun k => cells₁[k]? = cells₂[k]?)).length < 64 := by
  obtain ⟨⟨f, hf, -⟩, hall₁⟩ := C02_cells_are_evaluations setup up h1 ctx hctx blob₁ hb₁ cells₁ proofs₁ hc₁
  obtain ⟨⟨g, hg, -⟩, hall₂⟩ := C02_cells_are_evaluations setup up h1 ctx hctx blob₂ hb₂ cells₂ proofs₂ hc₂
  obtain ⟨hl₁, hf'⟩ := hall₁ f hf
  obtain ⟨hl₂, hg'⟩ := hall₂ g hg
  by_contra hge
  set inds := (List.range 128).filter (fun k => cells₁[k]? = cells₂[k]?) with hinds
  have hnd : inds.Nodup := List.nodup_range.filter _
  have hlt : ∀ i ∈ inds, i < 128 := fun i hi => List.mem_range.1 (List.mem_filter.1 hi).1
  have hag : ∀ i ∈ inds, cellOf f i = cellOf g i := by
    intro i hi
    have hi128 := hlt i hi
    have he := (List.mem_filter.1 hi).2
    rw [decide_eq_true_eq, List.getElem?_eq_getElem (by omega), List.getElem?_eq_getElem (by omega),
      Option.some.injEq, (isCell_iff _ _ _).1 (hf' i (by omega)), (isCell_iff _ _ _).1 (hg' i (by omega))] at he
    exact he
  have hcan : ∀ i, Spec.Canonical 64 (cellOf f i) := by
    intro i j hj
    have := ((isCell_iff f i _).2 rfl).2 j hj
    exact (exists_encodes_iff this.1).1 ⟨_, this⟩
  have hcons : ∀ p : Fr[X], p.degree < 4096 → (∀ i ∈ inds, cellOf f i = cellOf p i) →
      Spec.Consistent inds (inds.map (cellOf f)) p := by
    intro p hp hpc
    refine ⟨hp, ?_⟩
    rintro ⟨k, c⟩ hm
    obtain ⟨i, hi, hik⟩ := List.mem_iff_getElem.1 hm
    rw [List.getElem_zip, Prod.mk.injEq, List.getElem_map] at hik
    obtain ⟨rfl, rfl⟩ := hik
    rw [isCell_iff]
    exact hpc _ (List.getElem_mem _)
  have := (recoverPolynomialCoeff_cases (inds := inds) (cells := inds.map (cellOf f)) (by simp) hlt (by
      intro c hc
      obtain ⟨i, -, rfl⟩ := List.mem_map.1 hc
      exact cellOf_length f i) hnd (by omega) (by
      intro c hc
      obtain ⟨i, -, rfl⟩ := List.mem_map.1 hc
      exact hcan i)).2 f g (hcons f hf.1 (fun _ _ => rfl)) (hcons g hg.1 hag)
  subst this
  apply hne
  have e1 := flatten_blocks 32 4096 blob₁ (by rw [hb₁])
  have e2 := flatten_blocks 32 4096 blob₂ (by rw [hb₂])
  rw [← e1, ← e2]
  have : (List.range 4096).map (fun i => Spec.block 32 i blob₁) = (List.range 4096).map (fun i => Spec.block 32 i blob₂) := by
    apply List.map_congr_left
    intro i hi
    have hi : i < 4096 := List.mem_range.1 hi
    rw [encodes_iff.1 (hf.2.2 i hi), encodes_iff.1 (hg.2.2 i hi)]
  rw [this]

end

/-! Non-vacuity: the hypotheses hold for a concrete setup and the blob of `3X + 5`. -/
section
open Toy

example : ∃ (ctx : DASContext Fr Fr Fr) (cells proofs : List (List UInt8)),
    (DASContext.new (setup 7) .no : Outcome Error _) = .ok ctx ∧ blob.length = 131072 ∧
    ctx.computeCellsAndKzgProofs blob = .ok (cells, proofs) := by
  obtain ⟨ctx, hctx⟩ := context 7
  obtain ⟨cells, proofs, h⟩ := C02_accepts (setup 7) (length_g1 7) ctx hctx blob blob_poly.2.1
    ((blobPoly_iff blob_poly.2.1).1 ⟨_, blob_poly⟩)
  exact ⟨ctx, cells, proofs, hctx, blob_poly.2.1, h⟩

/-- the two blobs differ -/
theorem Toy.blob_ne : blob ≠ blob' := by
  intro h
  have h1 := blob_poly
  rw [h] at h1
  have := isBlobPoly_unique h1 blob_poly'
  have h2 := congrArg (fun p => p.eval 0) this
  simp [poly] at h2
  exact absurd h2 (by decide +kernel)

example : ∃ (ctx : DASContext Fr Fr Fr) (c₁ p₁ c₂ p₂ : List (List UInt8)),
    (DASContext.new (setup 7) .no : Outcome Error _) = .ok ctx ∧ blob ≠ blob' ∧
    ctx.computeCellsAndKzgProofs blob = .ok (c₁, p₁) ∧ ctx.computeCellsAndKzgProofs blob' = .ok (c₂, p₂) := by
  obtain ⟨ctx, hctx⟩ := context 7
  obtain ⟨c₁, p₁, h₁⟩ := C02_accepts (setup 7) (length_g1 7) ctx hctx blob blob_poly.2.1
    ((blobPoly_iff blob_poly.2.1).1 ⟨_, blob_poly⟩)
  obtain ⟨c₂, p₂, h₂⟩ := C02_accepts (setup 7) (length_g1 7) ctx hctx blob' blob_poly'.2.1
    ((blobPoly_iff blob_poly'.2.1).1 ⟨_, blob_poly'⟩)
  exact ⟨ctx, c₁, p₁, c₂, p₂, hctx, blob_ne, h₁, h₂⟩
end

end Verif
