import Verif.Lemmas.Nim
import Verif.Props.ToyHeap

set_option linter.unusedSectionVars false

/-! C42 and C43: the Nim bindings. -/
namespace Verif
open Spec (Holds HoldsWords Extends OutOfMemory ItemsHold GetsText AnswersText Verdict seqSizes)

section
variable {K G1 G2 GT : Type} [Field K] [DecidableEq K] [AddCommGroup G1] [Module Fr G1] [DecidableEq G1]
  [Curve K G1] [PointCodec G1] [AddCommGroup G2] [Module Fr G2] [AddCommGroup GT] [DecidableEq GT]
  [Pairing G1 G2 GT] [LawfulPointCodec G1 48]
variable (H : Heap (DASContext K G1 G2)) (A : Allocator (DASContext K G1 G2)) (dollar : CResult → List UInt8)
  (s : CState (DASContext K G1 G2))

/-- C42: `blobToKZGCommitment`. -/
theorem C42_nim_blob_to_kzg_commitment (ctxp : Nat) (ctx : DASContext K G1 G2) (h0 : ctxp ≠ 0) (hctx : s.ctxs ctxp = some ctx)
    (blob : Nat) (bytes : List UInt8) (hl : bytes.length = 131072) (hb0 : blob ≠ 0) (hb : Holds s.mem blob bytes) :
    AnswersText H A s [48] (ctx.blobToKzgCommitment bytes) dollar (nimBlobToKZGCommitment H A dollar ctxp blob) := by
  unfold nimBlobToKZGCommitment AnswersText
  refine newArray_bind (P := GetsText A s (ctx.blobToKzgCommitment bytes) dollar) H A (List.replicate 48 0) List.length_replicate ?_
  intro out s₁ h1 _ _
  have hm := mapped_of_holds h1.holds
  rw [List.length_replicate] at hm
  obtain ⟨t1, t2, t3⟩ := C32_blob_to_kzg_commitment A s₁ ctxp blob out ctx h0 (by rw [h1.ext.ctxs, hctx]) bytes hl
    hb0 (holds_mono h1.ext hb) h1.ne hm
  rcases hr : ctx.blobToKzgCommitment bytes with c | e | _
  · right
    obtain ⟨⟨s', hs', hw, hc, hst⟩, hcl⟩ := t1 c hr
    refine ⟨s', (verifyResultNim_ok hs' _).trans (readBytes_ok' hcl (hw.1 _ (List.mem_singleton.2 rfl))), ?_⟩
    refine extends_of_wrote h1.ext hw hc hst ?_
    intro r hrm
    rw [List.mem_singleton] at hrm
    subst hrm
    have := h1.unmapped
    rwa [List.length_replicate, ← hcl] at this
  · rcases verifyResultNim_err H A (t2 e hr) (fun _ => readBytes out 48) with h' | ⟨p, hp, h'⟩
    · exact .inl h'
    · exact .inr ⟨p, s₁, hp, h', h1.ext⟩
  · exact .inr (verifyResultNim_panic (t3 hr) _)

/-- C42: `computeCellsAndProofs`. -/
theorem C42_nim_compute_cells_and_proofs (ctxp : Nat) (ctx : DASContext K G1 G2) (h0 : ctxp ≠ 0) (hctx : s.ctxs ctxp = some ctx)
    (blob : Nat) (bytes : List UInt8) (hl : bytes.length = 131072) (hb0 : blob ≠ 0) (hb : Holds s.mem blob bytes) :
    AnswersText H A s [268288, 1024, 1024] (ctx.computeCellsAndKzgProofs bytes) dollar
      (nimComputeCellsAndProofs H A dollar ctxp blob) := by
  unfold nimComputeCellsAndProofs AnswersText
  refine newArray_bind (P := GetsText A s (ctx.computeCellsAndKzgProofs bytes) dollar) H A
    (List.replicate (CELLS_PER_EXT_BLOB * BYTES_PER_CELL + CELLS_PER_EXT_BLOB * 48) 0) List.length_replicate ?_
  intro ret s₁ hret _ he
  obtain ⟨s₀, h1, h2⟩ := allocated_cellsAndProofs hret he
  refine toPtrPtr_bind (P := GetsText A s (ctx.computeCellsAndKzgProofs bytes) dollar) H A BYTES_PER_CELL ⟨ret, CELLS_PER_EXT_BLOB⟩ ?_
  intro oc s₂ h3
  refine toPtrPtr_bind (P := GetsText A s (ctx.computeCellsAndKzgProofs bytes) dollar) (ns := []) H A 48
    ⟨ret + CELLS_PER_EXT_BLOB * BYTES_PER_CELL, CELLS_PER_EXT_BLOB⟩ ?_
  intro op s₃ h4
  replace h3 := h3.full (by norm_num [CELLS_PER_EXT_BLOB])
  replace h4 := h4.full (by norm_num [CELLS_PER_EXT_BLOB])
  have e3 : Extends s s₃ := (hret.ext.trans h3.ext).trans h4.ext
  have lc : (NimArray.items BYTES_PER_CELL ⟨ret, CELLS_PER_EXT_BLOB⟩).length = 128 := length_items _ _
  have lp : (NimArray.items 48 ⟨ret + CELLS_PER_EXT_BLOB * BYTES_PER_CELL, CELLS_PER_EXT_BLOB⟩).length = 128 := length_items _ _
  unfold readCellsAndProofs
  generalize NimArray.items BYTES_PER_CELL ⟨ret, CELLS_PER_EXT_BLOB⟩ = cp at h1 h3 lc ⊢
  generalize NimArray.items 48 ⟨ret + CELLS_PER_EXT_BLOB * BYTES_PER_CELL, CELLS_PER_EXT_BLOB⟩ = pp at h2 h4 lp ⊢
  have hout := managed_outBuffers h1 (Extends.refl _) h2 (Extends.refl _) h3 h4 lc lp
  obtain ⟨t1, t2, t3⟩ := C32_compute_cells_and_kzg_proofs A s₃ ctxp blob oc op ctx h0 (by rw [e3.ctxs, hctx]) bytes hl
    hb0 (holds_mono e3 hb) cp pp hout
  rcases hr : ctx.computeCellsAndKzgProofs bytes with ⟨cells, proofs⟩ | e | _
  · right
    obtain ⟨⟨s', hs', hw, hc, hst⟩, hcl, hcs, hpl, hps⟩ := t1 cells proofs hr
    rw [verifyResultNim_ok hs']
    refine ⟨s', ?_, ?_⟩
    · rw [CM.bind_ok (readAll_ok (n := BYTES_PER_CELL) (by rw [lc, hcl]) hcs fun r hrm => hw.1 r (by simp [hrm])),
        CM.bind_ok (readAll_ok (n := 48) (by rw [lp, hpl]) hps fun r hrm => hw.1 r (by simp [hrm]))]
      rfl
    · refine extends_of_wrote e3 hw hc hst ?_
      rintro ⟨q, x⟩ hrm i hi
      rcases List.mem_append.1 hrm with hrm | hrm
      · have := List.of_mem_zip hrm
        exact (h1.each q this.1).2.2.2 i (by rw [hcs x this.2] at hi; exact hi)
      · have := List.of_mem_zip hrm
        exact unmapped_before h1.ext ((h2.each q this.1).2.2.2 i (by rw [hps x this.2] at hi; exact hi))
  · rcases verifyResultNim_err H A (t2 e hr) _ with h' | ⟨p, hp, h'⟩
    · exact .inl h'
    · exact .inr ⟨p, s₃, hp, h', e3⟩
  · exact .inr (verifyResultNim_panic (t3 hr) _)

/-- C42: `recoverCellsAndProofs`. -/
theorem C42_nim_recover_cells_and_proofs (ctxp : Nat) (ctx : DASContext K G1 G2) (h0 : ctxp ≠ 0) (hctx : s.ctxs ctxp = some ctx)
    (cellIds : NimArray) (inds : List Nat) (hil : inds.length = cellIds.length) (hi : HoldsWords s.mem cellIds.addr inds)
    (cells : NimArray) (cellBytes : List (List UInt8)) (hc : ItemsHold s.mem cells.addr cells.length 2048 cellBytes) :
    AnswersText H A s (268288 :: 1024 :: 1024 :: seqSizes cells.length) (ctx.recoverCellsAndKzgProofs inds cellBytes) dollar
      (nimRecoverCellsAndProofs H A dollar ctxp cellIds cells) := by
  unfold nimRecoverCellsAndProofs AnswersText
  refine newArray_bind (P := GetsText A s (ctx.recoverCellsAndKzgProofs inds cellBytes) dollar) H A
    (List.replicate (CELLS_PER_EXT_BLOB * BYTES_PER_CELL + CELLS_PER_EXT_BLOB * 48) 0) List.length_replicate ?_
  intro ret s₁ hret _ he
  obtain ⟨s₀, h1, h2⟩ := allocated_cellsAndProofs hret he
  refine toPtrPtr_bind (P := GetsText A s (ctx.recoverCellsAndKzgProofs inds cellBytes) dollar) H A BYTES_PER_CELL
    ⟨ret, CELLS_PER_EXT_BLOB⟩ ?_
  intro oc s₂ h3
  refine toPtrPtr_bind (P := GetsText A s (ctx.recoverCellsAndKzgProofs inds cellBytes) dollar) H A 48
    ⟨ret + CELLS_PER_EXT_BLOB * BYTES_PER_CELL, CELLS_PER_EXT_BLOB⟩ ?_
  intro op s₃ h4
  change OutOfMemory H A s₃ (seqSizes cells.length) _ ∧ _ ∨ _
  rw [← List.append_nil (seqSizes cells.length)]
  refine toPtrPtr_bind (P := GetsText A s (ctx.recoverCellsAndKzgProofs inds cellBytes) dollar) H A BYTES_PER_CELL cells ?_
  intro ic s₄ h5
  replace h3 := h3.full (by norm_num [CELLS_PER_EXT_BLOB])
  replace h4 := h4.full (by norm_num [CELLS_PER_EXT_BLOB])
  have e3 : Extends s s₃ := (hret.ext.trans h3.ext).trans h4.ext
  have e4 : Extends s s₄ := e3.trans h5.ext
  have lc : (NimArray.items BYTES_PER_CELL ⟨ret, CELLS_PER_EXT_BLOB⟩).length = 128 := length_items _ _
  have lp : (NimArray.items 48 ⟨ret + CELLS_PER_EXT_BLOB * BYTES_PER_CELL, CELLS_PER_EXT_BLOB⟩).length = 128 := length_items _ _
  unfold readCellsAndProofs
  generalize NimArray.items BYTES_PER_CELL ⟨ret, CELLS_PER_EXT_BLOB⟩ = cp at h1 h3 lc ⊢
  generalize NimArray.items 48 ⟨ret + CELLS_PER_EXT_BLOB * BYTES_PER_CELL, CELLS_PER_EXT_BLOB⟩ = pp at h2 h4 lp ⊢
  have hout := outBuffers_mono h5.ext (managed_outBuffers h1 (Extends.refl _) h2 (Extends.refl _) h3 h4 lc lp)
  have hit := holdsItems_of_ptrPtr (by norm_num) hc e3 h5
  have hiw : HoldsWords s.mem cellIds.safeGetPtr inds := by
    unfold NimArray.safeGetPtr
    split_ifs with hlen
    · exact hi
    · have : inds = [] := List.eq_nil_of_length_eq_zero (by omega)
      subst this
      exact ⟨fun h => absurd rfl h, fun i v hv => by simp at hv⟩
  obtain ⟨t1, t2, t3⟩ := C32_recover_cells_and_proofs A s₄ ctxp cells.length ic cellIds.length
    cellIds.safeGetPtr oc op ctx h0 (by rw [e4.ctxs, hctx]) cellBytes hc.length.symm hc.sized hit
    inds hil (holdsWords_mono e4 hiw) cp pp hout
  rcases hr : ctx.recoverCellsAndKzgProofs inds cellBytes with ⟨outC, outP⟩ | e | _
  · right
    obtain ⟨⟨s', hs', hw, hc, hst⟩, hcl, hcs, hpl, hps⟩ := t1 outC outP hr
    rw [verifyResultNim_ok hs']
    refine ⟨s', ?_, ?_⟩
    · rw [CM.bind_ok (readAll_ok (n := BYTES_PER_CELL) (by rw [lc, hcl]) hcs fun r hrm => hw.1 r (by simp [hrm])),
        CM.bind_ok (readAll_ok (n := 48) (by rw [lp, hpl]) hps fun r hrm => hw.1 r (by simp [hrm]))]
      rfl
    · refine extends_of_wrote e4 hw hc hst ?_
      rintro ⟨q, x⟩ hrm i hi
      rcases List.mem_append.1 hrm with hrm | hrm
      · have := List.of_mem_zip hrm
        exact (h1.each q this.1).2.2.2 i (by rw [hcs x this.2] at hi; exact hi)
      · have := List.of_mem_zip hrm
        exact unmapped_before h1.ext ((h2.each q this.1).2.2.2 i (by rw [hps x this.2] at hi; exact hi))
  · rcases verifyResultNim_err H A (t2 e hr) _ with h' | ⟨p, hp, h'⟩
    · exact .inl h'
    · exact .inr ⟨p, s₄, hp, h', e4⟩
  · exact .inr (verifyResultNim_panic (t3 hr) _)

/-- C42: `verifyCellKZGProofBatch`. -/
theorem C42_nim_verify_cell_kzg_proof_batch (sha256 : List UInt8 → List UInt8) (ctxp : Nat) (ctx : DASContext K G1 G2)
    (h0 : ctxp ≠ 0) (hctx : s.ctxs ctxp = some ctx)
    (cellIndices : NimArray) (inds : List Nat) (hil : inds.length = cellIndices.length) (hi : HoldsWords s.mem cellIndices.addr inds)
    (commitments cells proofs : NimArray) (commitmentBytes cellBytes proofBytes : List (List UInt8))
    (hm : ItemsHold s.mem commitments.addr commitments.length 48 commitmentBytes)
    (hc : ItemsHold s.mem cells.addr cells.length 2048 cellBytes)
    (hp : ItemsHold s.mem proofs.addr proofs.length 48 proofBytes)
    (verdict : Outcome Error Bool)
    (hverdict : Verdict (ctx.verifyCellKzgProofBatch sha256 commitmentBytes inds cellBytes proofBytes) verdict) :
    AnswersText H A s (1 :: (seqSizes cells.length ++ (seqSizes proofs.length ++ seqSizes commitments.length))) verdict dollar
      (nimVerifyCellKZGProofBatch H A dollar sha256 ctxp commitments cellIndices cells proofs) := by
  unfold nimVerifyCellKZGProofBatch AnswersText
  refine newArray_bind (P := GetsText A s verdict dollar) H A (List.replicate 1 0) List.length_replicate ?_
  intro vf s₁ h1 _ _
  refine toPtrPtr_bind (P := GetsText A s verdict dollar) H A BYTES_PER_CELL cells ?_
  intro cl s₂ h2
  refine toPtrPtr_bind (P := GetsText A s verdict dollar) H A 48 proofs ?_
  intro pf s₃ h3
  rw [← List.append_nil (seqSizes commitments.length)]
  refine toPtrPtr_bind (P := GetsText A s verdict dollar) H A 48 commitments ?_
  intro cm s₄ h4
  have e4 : Extends s s₄ := ((h1.ext.trans h2.ext).trans h3.ext).trans h4.ext
  have i2 := holdsItems_of_ptrPtr (by norm_num) hc h1.ext h2
  have i3 := holdsItems_of_ptrPtr (by norm_num) hp (h1.ext.trans h2.ext) h3
  have i4 := holdsItems_of_ptrPtr (by norm_num) hm ((h1.ext.trans h2.ext).trans h3.ext) h4
  have hiw : HoldsWords s.mem cellIndices.safeGetPtr inds := by
    unfold NimArray.safeGetPtr
    split_ifs with hlen
    · exact hi
    · have : inds = [] := List.eq_nil_of_length_eq_zero (by omega)
      subst this
      exact ⟨fun h => absurd rfl h, fun i v hv => by simp at hv⟩
  obtain ⟨t1, t2, t3, t4⟩ := C32_verify_cell_kzg_proof_batch A s₄ sha256 ctxp commitments.length
    cm cellIndices.length cellIndices.safeGetPtr cells.length cl
    proofs.length pf vf ctx h0 (by rw [e4.ctxs, hctx])
    commitmentBytes hm.length.symm hm.sized i4
    inds hil (holdsWords_mono e4 hiw)
    cellBytes hc.length.symm hc.sized (holdsItems_mono (h3.ext.trans h4.ext) i2)
    proofBytes hp.length.symm hp.sized (holdsItems_mono h4.ext i3) h1.ne
    (mapped_mono ((h2.ext.trans h3.ext).trans h4.ext) (mapped_of_holds h1.holds))
  have good : ∀ (b : UInt8) (v : Bool) call, (decide (b ≠ 0)) = v → Spec.Returns call s₄ [(vf, [b])] →
      GetsText A s (.ok v) dollar ((callC call >>= fun r => verifyResultNim dollar r >>= fun _ => do
        let b ← readByte vf
        pure (decide (b ≠ 0))) s₄) := by
    rintro b v call hv ⟨s', hs', hw, hc, hst⟩
    rw [verifyResultNim_ok hs']
    refine ⟨s', ?_, ?_⟩
    · rw [CM.bind_ok (readByte_ok (p := vf) (b := b) (hw.1 (vf, [b]) (by simp) 0 b rfl)), hv]
      rfl
    · refine extends_of_wrote e4 hw hc hst ?_
      intro r hrm i hi
      rw [List.mem_singleton] at hrm
      subst hrm
      exact h1.unmapped i hi
  generalize hlib : ctx.verifyCellKzgProofBatch sha256 commitmentBytes inds cellBytes proofBytes = lib at hverdict
  cases hverdict with
  | valid => exact .inr (good 1 true _ rfl (t1 hlib))
  | invalid e => exact .inr (good 0 false _ rfl (t2 e hlib))
  | error e hne =>
    rcases verifyResultNim_err H A (t3 e hlib hne) (fun _ => do
        let b ← readByte vf
        pure (decide (b ≠ 0))) with h' | ⟨p, hp, h'⟩
    · exact .inl h'
    · exact .inr ⟨p, s₄, hp, h', e4⟩
  | panic => exact .inr (verifyResultNim_panic (t4 hlib) _)

end

section
variable {K G1 G2 GT : Type} [Field K] [DecidableEq K] [AddCommGroup G1] [Module Fr G1] [DecidableEq G1]
  [Curve K G1] [PointCodec G1] [AddCommGroup G2] [Module Fr G2] [AddCommGroup GT] [DecidableEq GT]
  [Pairing G1 G2 GT] [LawfulPointCodec G1 48]

/-- C43: refuted, for every context and every way to render a status and an address. There is a process in which a recovery with no cells
and one with an index but no cells fail for different reasons, which the library tells apart, and the caller of the Nim bindings gets the
same text for both. -/
theorem C43_nim_refuted (dollar : CResult → List UInt8) (ctx : DASContext K G1 G2) :
    ∃ (H : Heap (DASContext K G1 G2)) (A : Allocator (DASContext K G1 G2)) (s : CState (DASContext K G1 G2)) (ctxp : Nat)
      (noIds oneId cells : NimArray) (e₁ e₂ : Error) (text : List UInt8) (s₁ s₂ : CState (DASContext K G1 G2)),
      ctxp ≠ 0 ∧ s.ctxs ctxp = some ctx ∧ ItemsHold s.mem cells.addr cells.length 2048 [] ∧
      noIds.length = 0 ∧ oneId.length = 1 ∧ HoldsWords s.mem oneId.addr [7] ∧
      ctx.recoverCellsAndKzgProofs [] [] = .err e₁ ∧ ctx.recoverCellsAndKzgProofs [7] [] = .err e₂ ∧ e₁.debug ≠ e₂.debug ∧
      nimRecoverCellsAndProofs H A dollar ctxp noIds cells s = .err text s₁ ∧
      nimRecoverCellsAndProofs H A dollar ctxp oneId cells s = .err text s₂ := by
  set s := ToyHeap.start ctx ([7, 0, 0, 0, 0, 0, 0, 0] : List UInt8) with hs
  have hcells : ItemsHold s.mem 4096 0 2048 [] :=
    ⟨rfl, by simp, by norm_num, by norm_num, fun i b hb => by simp at hb⟩
  have hone : HoldsWords s.mem 4096 [7] := by
    refine ⟨fun _ => ⟨by norm_num, by norm_num⟩, ?_⟩
    intro i v hv
    cases i with
    | succ i => simp at hv
    | zero =>
      cases hv
      exact ⟨![7, 0, 0, 0, 0, 0, 0, 0], fun i => by fin_cases i <;> rfl, by decide⟩
  have hnone : HoldsWords s.mem 4096 [] := ⟨fun h => absurd rfl h, fun i v hv => by simp at hv⟩
  have hrun : ∀ (ids : NimArray) (inds : List Nat) (e : Error), inds.length = ids.length → HoldsWords s.mem ids.addr inds →
      ctx.recoverCellsAndKzgProofs inds [] = .err e → e.debug.length < 1000 →
      ∃ s', nimRecoverCellsAndProofs (ToyHeap.heap _) (ToyHeap.fixedAllocator _) dollar 16 ids ⟨4096, 0⟩ s =
        .err (dollar ⟨.Err, 2 ^ 60⟩) s' := by
    intro ids inds e hl hw he hsz
    have := C42_nim_recover_cells_and_proofs (ToyHeap.heap _) (ToyHeap.fixedAllocator _) dollar s 16 ctx (by norm_num)
      (by simp [hs, ToyHeap.start]) ids inds hl hw ⟨4096, 0⟩ [] hcells
    rcases this with ⟨ho, -⟩ | h
    · refine absurd ho (ToyHeap.not_outOfMemory_of (c := 2 ^ 60) (ToyHeap.start_top _ _) (by decide) (by norm_num) ?_)
      intro t ht n hn
      rw [he] at hn
      cases hn
      exact ToyHeap.fixedAllocator_ok ht (by omega)
    · rw [he] at h
      obtain ⟨p, s', hp, h, -⟩ := h
      rw [ToyHeap.fixedAllocator_place hp] at h
      exact ⟨s', h⟩
  obtain ⟨s₁, h₁⟩ := hrun ⟨4096, 0⟩ [] (.Recovery (.NotEnoughCellsToReconstruct 0 64)) rfl hnone rfl (by decide +kernel)
  obtain ⟨s₂, h₂⟩ := hrun ⟨4096, 1⟩ [7] (.Recovery (.NumCellIndicesNotEqualToNumCells 1 0)) rfl hone rfl (by decide +kernel)
  exact ⟨_, _, s, 16, ⟨4096, 0⟩, ⟨4096, 1⟩, ⟨4096, 0⟩, _, _, _, s₁, s₂, by norm_num, by simp [hs, ToyHeap.start], hcells, rfl, rfl, hone,
    rfl, rfl, by decide +kernel, h₁, h₂⟩

/-- C43, the part that holds, for any two calls described by C42 and any injective rendering: the texts of two failures differ exactly if
the allocator gave the two messages different addresses. Missing for the property: that messages of different failures have different
addresses, which no allocator guarantees because the first message is freed before the second is made. -/
theorem C43_nim_partial {α β : Type} (H : Heap (DASContext K G1 G2)) (A : Allocator (DASContext K G1 G2)) (dollar : CResult → List UInt8)
    (hinj : Function.Injective dollar) {s₁ s₂ s₁' s₂' : CState (DASContext K G1 G2)} {sizes₁ sizes₂ : List Nat} {e₁ e₂ : Error}
    {call₁ : CM (DASContext K G1 G2) (List UInt8) α} {call₂ : CM (DASContext K G1 G2) (List UInt8) β} {text₁ text₂ : List UInt8}
    (h₁ : AnswersText H A s₁ sizes₁ (.err e₁) dollar call₁) (h₂ : AnswersText H A s₂ sizes₂ (.err e₂) dollar call₂)
    (c₁ : call₁ s₁ = .err text₁ s₁') (c₂ : call₂ s₂ = .err text₂ s₂') :
    ∃ p₁ p₂, A.place s₁' (e₁.debug.length + 1) = some p₁ ∧ A.place s₂' (e₂.debug.length + 1) = some p₂ ∧
      (text₁ = text₂ ↔ p₁ = p₂) := by
  have key : ∀ {γ : Type} {s s' : CState (DASContext K G1 G2)} {sizes : List Nat} {e : Error}
      {call : CM (DASContext K G1 G2) (List UInt8) γ} {text : List UInt8}, AnswersText H A s sizes (.err e) dollar call →
      call s = .err text s' → ∃ p, A.place s' (e.debug.length + 1) = some p ∧ text = dollar ⟨.Err, p⟩ := by
    intro γ s s' sizes e call text h c
    rcases h with ⟨-, h⟩ | ⟨p, t, hp, h, -⟩
    · rw [c] at h; cases h
    · rw [c] at h
      cases h
      exact ⟨p, hp, rfl⟩
  obtain ⟨p₁, hp₁, rfl⟩ := key h₁ c₁
  obtain ⟨p₂, hp₂, rfl⟩ := key h₂ c₂
  refine ⟨p₁, p₂, hp₁, hp₂, fun h => ?_, fun h => by rw [h]⟩
  have := hinj h
  cases this
  rfl

end

open Toy in
/-- With allocators that have room, the call of `C42_nim_compute_cells_and_proofs` gives exactly the answer of the library; the hypotheses
of the theorem are met by a concrete process. -/
example (dollar : CResult → List UInt8) (ctx : DASContext Fr Fr Fr) (blob : List UInt8) (hlen : blob.length = 131072)
    (r : List (List UInt8) × List (List UInt8)) (hr : ctx.computeCellsAndKzgProofs blob = .ok r) :
    ∃ s', nimComputeCellsAndProofs (ToyHeap.heap _) (ToyHeap.allocator _) dollar 16 4096 (ToyHeap.start ctx blob) = .ok r s' := by
  rcases C42_nim_compute_cells_and_proofs (ToyHeap.heap _) (ToyHeap.allocator _) dollar (ToyHeap.start ctx blob) 16
    ctx (by decide) (by simp [ToyHeap.start]) 4096 blob hlen (by decide) (ToyHeap.start_holds _ _) with ⟨ho, -⟩ | h
  · refine absurd ho (ToyHeap.not_outOfMemory (ToyHeap.start_top _ _) ?_)
    rw [hlen, hr, show Spec.messageSize (.ok r : Outcome Error _) = none from rfl]
    decide +kernel
  · rw [hr] at h
    obtain ⟨s', h, -⟩ := h
    exact ⟨s', h⟩

open Toy in
/-- `C42_nim_verify_cell_kzg_proof_batch` on an empty batch: true, as in the library. -/
example (dollar : CResult → List UInt8) (sha256 : List UInt8 → List UInt8) (ctx : DASContext Fr Fr Fr) :
    ∃ s', nimVerifyCellKZGProofBatch (ToyHeap.heap _) (ToyHeap.allocator _) dollar sha256 16 ⟨4096, 0⟩ ⟨4096, 0⟩ ⟨4096, 0⟩ ⟨4096, 0⟩
      (ToyHeap.start ctx []) = .ok true s' := by
  have he : ∀ n, ItemsHold (ToyHeap.start ctx []).mem 4096 0 n [] := fun n =>
    ⟨rfl, by simp, by norm_num, by norm_num, fun i b hb => by simp at hb⟩
  have hlib : ctx.verifyCellKzgProofBatch sha256 [] [] [] [] = .ok () := rfl
  rcases C42_nim_verify_cell_kzg_proof_batch (ToyHeap.heap _) (ToyHeap.allocator _) dollar (ToyHeap.start ctx []) sha256 16
    ctx (by decide) (by simp [ToyHeap.start]) ⟨4096, 0⟩ [] rfl ⟨fun h => absurd rfl h, fun i v hv => by simp at hv⟩
    ⟨4096, 0⟩ ⟨4096, 0⟩ ⟨4096, 0⟩ [] [] [] (he 48) (he 2048) (he 48) (.ok true) (hlib ▸ .valid) with ⟨ho, -⟩ | ⟨s', h, -⟩
  · exact absurd ho (ToyHeap.not_outOfMemory (ToyHeap.start_top _ _) (by decide +kernel))
  · exact ⟨s', h⟩

end Verif
