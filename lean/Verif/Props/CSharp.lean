import Verif.Lemmas.Managed
import Verif.Props.ToyHeap

set_option linter.unusedSectionVars false

/-! C34 for the C# bindings, in executions where the garbage collector does not run between taking the addresses of the arrays and the
return of the native call. -/
namespace Verif
open Spec (Holds HoldsWords Extends OutOfMemory ArrayHolds Gets Answers Verdict Sized)

/-- the exception for an error of the library -/
def csError (e : Error) : CsException := .argument (ascii "an error occurred from the bindings: " ++ e.debug)

section
variable {K G1 G2 GT : Type} [Field K] [DecidableEq K] [AddCommGroup G1] [Module Fr G1] [DecidableEq G1]
  [Curve K G1] [PointCodec G1] [AddCommGroup G2] [Module Fr G2] [AddCommGroup GT] [DecidableEq GT]
  [Pairing G1 G2 GT] [LawfulPointCodec G1 48]
variable (H : Heap (DASContext K G1 G2)) (A : Allocator (DASContext K G1 G2)) (s : CState (DASContext K G1 G2))

/-- C34 (C#): `BlobToKzgCommitment`. -/
theorem C34_csharp_blob_to_kzg_commitment (ctxp : Nat) (ctx : DASContext K G1 G2) (h0 : ctxp ≠ 0) (hctx : s.ctxs ctxp = some ctx)
    (blob : CsArray) (bytes : List UInt8) (hb : ArrayHolds s.mem blob.addr blob.length bytes) :
    (blob.length ≠ 131072 → csBlobToKzgCommitment H A ctxp blob s = .err (.argument (ascii "blob has an invalid length")) s) ∧
    (blob.length = 131072 → Answers H A s [48] (ctx.blobToKzgCommitment bytes) csError (csBlobToKzgCommitment H A ctxp blob)) := by
  have hl := hb.length
  unfold csBlobToKzgCommitment Answers
  constructor
  · intro h
    rw [if_pos (show blob.length ≠ BYTES_PER_BLOB from h)]
    rfl
  · intro h
    rw [if_neg (show ¬ blob.length ≠ BYTES_PER_BLOB from fun hn => hn h)]
    have hfix : blob.fixed = blob.addr := by unfold CsArray.fixed; rw [if_neg (by omega)]
    refine newArray_bind (P := Gets s (ctx.blobToKzgCommitment bytes) csError) H A (List.replicate BYTES_PER_COMMITMENT 0)
      List.length_replicate ?_
    intro out s₁ h1 _ _
    have hm := mapped_of_holds h1.holds
    rw [List.length_replicate] at hm
    obtain ⟨t1, t2, t3⟩ := C32_blob_to_kzg_commitment A s₁ ctxp blob.addr out ctx h0 (by rw [h1.ext.ctxs, hctx]) bytes (by omega)
      hb.ne (holds_mono h1.ext hb.holds) h1.ne hm
    rw [hfix]
    rcases hr : ctx.blobToKzgCommitment bytes with c | e | _
    · right
      obtain ⟨⟨s', hs', hw, hc, hst⟩, hcl⟩ := t1 c hr
      refine ⟨s', (throwOnError_ok hs' _).trans (readBytes_ok' hcl (hw.1 _ (List.mem_singleton.2 rfl))), ?_⟩
      refine extends_of_wrote h1.ext hw hc hst ?_
      intro r hrm
      rw [List.mem_singleton] at hrm
      subst hrm
      have := h1.unmapped
      rwa [List.length_replicate, ← show c.length = BYTES_PER_COMMITMENT from hcl] at this
    · rcases throwOnError_err H A (t2 e hr) (fun _ => readBytes out BYTES_PER_COMMITMENT) with h' | h'
      · exact .inl h'
      · exact .inr ⟨s₁, h', h1.ext⟩
    · exact .inr (throwOnError_panic (t3 hr) _)

/-- C34 (C#): `ComputeCellsAndKZGProofs`. -/
theorem C34_csharp_compute_cells_and_kzg_proofs (ctxp : Nat) (ctx : DASContext K G1 G2) (h0 : ctxp ≠ 0)
    (hctx : s.ctxs ctxp = some ctx) (blob : CsArray) (bytes : List UInt8) (hb : ArrayHolds s.mem blob.addr blob.length bytes) :
    (blob.length ≠ 131072 → ∀ gc, csComputeCellsAndKZGProofs H A gc ctxp blob s = .err (.argument (ascii "blob has an invalid length")) s) ∧
    (blob.length = 131072 →
      Answers H A s (List.replicate 128 2048 ++ (List.replicate 128 48 ++ [1024, 1024])) (ctx.computeCellsAndKzgProofs bytes) csError (csComputeCellsAndKZGProofs H A noGc ctxp blob)) := by
  have hl := hb.length
  unfold csComputeCellsAndKZGProofs Answers
  constructor
  · intro h gc
    rw [if_pos (show blob.length ≠ BYTES_PER_BLOB from h)]
    rfl
  · intro h
    rw [if_neg (show ¬ blob.length ≠ BYTES_PER_BLOB from fun hn => hn h)]
    have hfix : blob.fixed = blob.addr := by unfold CsArray.fixed; rw [if_neg (by omega)]
    refine newAll_bind (P := Gets s (ctx.computeCellsAndKzgProofs bytes) csError) H A BYTES_PER_CELL (by decide) (List.range CELLS_PER_EXT_BLOB) ?_
    intro cp s₁ lc h1
    replace lc : cp.length = 128 := by rw [lc, List.length_range]; rfl
    refine newAll_bind (P := Gets s (ctx.computeCellsAndKzgProofs bytes) csError) H A BYTES_PER_COMMITMENT (by decide) (List.range CELLS_PER_EXT_BLOB) ?_
    intro pp s₂ lp h2
    replace lp : pp.length = 128 := by rw [lp, List.length_range]; rfl
    refine newArray_bind (P := Gets s (ctx.computeCellsAndKzgProofs bytes) csError) H A (cp.flatMap wordBytes)
      (by rw [length_flatMap_wordBytes, lc]) ?_
    intro oc s₃ h3 _ _
    refine newArray_bind (P := Gets s (ctx.computeCellsAndKzgProofs bytes) csError) H A (pp.flatMap wordBytes)
      (by rw [length_flatMap_wordBytes, lp]) ?_
    intro op s₄ h4 _ _
    have e4 : Extends s s₄ := ((h1.ext.trans h2.ext).trans h3.ext).trans h4.ext
    have hout := managed_outBuffers h1 (Extends.refl _) h2 (Extends.refl _) h3 h4 lc lp
    obtain ⟨t1, t2, t3⟩ := C32_compute_cells_and_kzg_proofs A s₄ ctxp blob.addr oc op ctx h0 (by rw [e4.ctxs, hctx]) bytes (by omega)
      hb.ne (holds_mono e4 hb.holds) cp pp hout
    have hcol : (collect noGc (cp ++ pp) : CM (DASContext K G1 G2) CsException (List Nat)) s₄ = .ok (cp ++ pp) s₄ := rfl
    rw [CM.bind_ok hcol, hfix]
    rcases hr : ctx.computeCellsAndKzgProofs bytes with ⟨cells, proofs⟩ | e | _
    · right
      obtain ⟨⟨s', hs', hw, hc, hst⟩, hcl, hcs, hpl, hps⟩ := t1 cells proofs hr
      rw [throwOnError_ok hs']
      refine ⟨s', ?_, ?_⟩
      · rw [List.take_left' (show cp.length = CELLS_PER_EXT_BLOB from lc), List.drop_left' (show cp.length = CELLS_PER_EXT_BLOB from lc), CM.bind_ok (readAll_ok (n := BYTES_PER_CELL) (by rw [lc, hcl]) hcs fun r hrm => hw.1 r (by simp [hrm])),
          CM.bind_ok (readAll_ok (n := BYTES_PER_COMMITMENT) (by rw [lp, hpl]) hps fun r hrm => hw.1 r (by simp [hrm]))]
        rfl
      · refine extends_of_wrote e4 hw hc hst ?_
        rintro ⟨q, x⟩ hrm i hi
        rcases List.mem_append.1 hrm with hrm | hrm
        · have := List.of_mem_zip hrm
          exact (h1.each q this.1).2.2.2 i (by rw [hcs x this.2] at hi; exact hi)
        · have := List.of_mem_zip hrm
          exact unmapped_before h1.ext ((h2.each q this.1).2.2.2 i (by rw [hps x this.2] at hi; exact hi))
    · rcases throwOnError_err H A (t2 e hr) _ with h' | h'
      · exact .inl h'
      · exact .inr ⟨s₄, h', e4⟩
    · exact .inr (throwOnError_panic (t3 hr) _)

/-- C34 (C#): `RecoverCellsAndKZGProofs`. -/
theorem C34_csharp_recover_cells_and_kzg_proofs (ctxp : Nat) (ctx : DASContext K G1 G2) (h0 : ctxp ≠ 0)
    (hctx : s.ctxs ctxp = some ctx) (cellIds : CsArray) (inds : List Nat) (hil : inds.length = cellIds.length)
    (hi : HoldsWords s.mem cellIds.fixed inds)
    (cells : List CsArray) (cellBytes : List (List UInt8))
    (hc : List.Forall₂ (fun a b => ArrayHolds s.mem a.addr a.length b) cells cellBytes) :
    (∀ pre a post, cells = pre ++ a :: post → (∀ b ∈ pre, b.length = 2048) → a.length ≠ 2048 →
      ∀ gc, csRecoverCellsAndKZGProofs H A gc ctxp cellIds cells s =
        .err (.argument (ascii "cell at index " ++ debugNat pre.length ++ ascii " has an invalid length")) s) ∧
    ((∀ a ∈ cells, a.length = 2048) →
      Answers H A s (List.replicate 128 2048 ++ (List.replicate 128 48 ++ [8 * cells.length, 1024, 1024]))
        (ctx.recoverCellsAndKzgProofs inds cellBytes) csError (csRecoverCellsAndKZGProofs H A noGc ctxp cellIds cells)) := by
  unfold csRecoverCellsAndKZGProofs Answers
  constructor
  · rintro pre a post rfl hpre ha gc
    rw [CM.bind_err (checkLengths_err (n := BYTES_PER_CELL) "cell" pre post a hpre ha)]
    rfl
  · intro h
    have hsz : Sized 2048 cellBytes := by
      intro b hb
      obtain ⟨a, ha, hab⟩ := forall₂_mem_left hc.flip hb
      rw [← hab.length, h a ha]
    rw [CM.bind_ok (checkLengths_ok (n := BYTES_PER_CELL) "cell" h)]
    refine newAll_bind (P := Gets s (ctx.recoverCellsAndKzgProofs inds cellBytes) csError) H A BYTES_PER_CELL (by decide) (List.range CELLS_PER_EXT_BLOB) ?_
    intro cp s₁ lc h1
    replace lc : cp.length = 128 := by rw [lc, List.length_range]; rfl
    refine newAll_bind (P := Gets s (ctx.recoverCellsAndKzgProofs inds cellBytes) csError) H A BYTES_PER_COMMITMENT (by decide) (List.range CELLS_PER_EXT_BLOB) ?_
    intro pp s₂ lp h2
    replace lp : pp.length = 128 := by rw [lp, List.length_range]; rfl
    refine newArray_bind (P := Gets s (ctx.recoverCellsAndKzgProofs inds cellBytes) csError) H A ((cells.map CsArray.fixed).flatMap wordBytes)
      (by rw [length_flatMap_wordBytes, List.length_map]) ?_
    intro ic s₃ h3 _ _
    refine newArray_bind (P := Gets s (ctx.recoverCellsAndKzgProofs inds cellBytes) csError) H A (cp.flatMap wordBytes)
      (by rw [length_flatMap_wordBytes, lc]) ?_
    intro oc s₄ h4 _ _
    refine newArray_bind (P := Gets s (ctx.recoverCellsAndKzgProofs inds cellBytes) csError) H A (pp.flatMap wordBytes)
      (by rw [length_flatMap_wordBytes, lp]) ?_
    intro op s₅ h5 _ _
    have e5 : Extends s s₅ := (((h1.ext.trans h2.ext).trans h3.ext).trans h4.ext).trans h5.ext
    have hout := managed_outBuffers h1 (Extends.refl _) h2 h3.ext h4 h5 lc lp
    have hit := holdsItems_of_arrays (by norm_num) hc hsz (h1.ext.trans h2.ext) h3
    obtain ⟨t1, t2, t3⟩ := C32_recover_cells_and_proofs A s₅ ctxp cells.length (CsArray.fixed ⟨ic, cells.length⟩) cellIds.length
      cellIds.fixed oc op ctx h0 (by rw [e5.ctxs, hctx]) cellBytes hc.length_eq.symm hsz (holdsItems_mono (h4.ext.trans h5.ext) hit)
      inds hil (holdsWords_mono e5 hi) cp pp hout
    have hcol : (collect noGc (cp ++ pp ++ cells.map CsArray.addr) : CM (DASContext K G1 G2) CsException (List Nat)) s₅ =
      .ok (cp ++ pp ++ cells.map CsArray.addr) s₅ := rfl
    rw [CM.bind_ok hcol]
    rcases hr : ctx.recoverCellsAndKzgProofs inds cellBytes with ⟨outC, outP⟩ | e | _
    · right
      obtain ⟨⟨s', hs', hw, hc, hst⟩, hcl, hcs, hpl, hps⟩ := t1 outC outP hr
      rw [throwOnError_ok hs']
      refine ⟨s', ?_, ?_⟩
      · rw [List.append_assoc, List.take_left' (show cp.length = CELLS_PER_EXT_BLOB from lc), List.drop_left' (show cp.length = CELLS_PER_EXT_BLOB from lc), List.take_left' (show pp.length = CELLS_PER_EXT_BLOB from lp),
          CM.bind_ok (readAll_ok (n := BYTES_PER_CELL) (by rw [lc, hcl]) hcs fun r hrm => hw.1 r (by simp [hrm])),
          CM.bind_ok (readAll_ok (n := BYTES_PER_COMMITMENT) (by rw [lp, hpl]) hps fun r hrm => hw.1 r (by simp [hrm]))]
        rfl
      · refine extends_of_wrote e5 hw hc hst ?_
        rintro ⟨q, x⟩ hrm i hi
        rcases List.mem_append.1 hrm with hrm | hrm
        · have := List.of_mem_zip hrm
          exact (h1.each q this.1).2.2.2 i (by rw [hcs x this.2] at hi; exact hi)
        · have := List.of_mem_zip hrm
          exact unmapped_before h1.ext ((h2.each q this.1).2.2.2 i (by rw [hps x this.2] at hi; exact hi))
    · rcases throwOnError_err H A (t2 e hr) _ with h' | h'
      · exact .inl h'
      · exact .inr ⟨s₅, h', e5⟩
    · exact .inr (throwOnError_panic (t3 hr) _)

/-- C34 (C#): `VerifyCellKZGProofBatch`. -/
theorem C34_csharp_verify_cell_kzg_proof_batch (sha256 : List UInt8 → List UInt8) (ctxp : Nat) (ctx : DASContext K G1 G2)
    (h0 : ctxp ≠ 0) (hctx : s.ctxs ctxp = some ctx)
    (cellIndices : CsArray) (inds : List Nat) (hil : inds.length = cellIndices.length) (hi : HoldsWords s.mem cellIndices.fixed inds)
    (commitments cells proofs : List CsArray) (commitmentBytes cellBytes proofBytes : List (List UInt8))
    (hm : List.Forall₂ (fun a b => ArrayHolds s.mem a.addr a.length b) commitments commitmentBytes)
    (hc : List.Forall₂ (fun a b => ArrayHolds s.mem a.addr a.length b) cells cellBytes)
    (hp : List.Forall₂ (fun a b => ArrayHolds s.mem a.addr a.length b) proofs proofBytes)
    (verdict : Outcome Error Bool)
    (hverdict : Verdict (ctx.verifyCellKzgProofBatch sha256 commitmentBytes inds cellBytes proofBytes) verdict) :
    (∀ pre a post, cells = pre ++ a :: post → (∀ b ∈ pre, b.length = 2048) → a.length ≠ 2048 →
      ∀ gc, csVerifyCellKZGProofBatch H A gc sha256 ctxp commitments cellIndices cells proofs s =
        .err (.argument (ascii "cell at index " ++ debugNat pre.length ++ ascii " has an invalid length")) s) ∧
    ((∀ a ∈ cells, a.length = 2048) → ∀ pre a post, proofs = pre ++ a :: post → (∀ b ∈ pre, b.length = 48) → a.length ≠ 48 →
      ∀ gc, csVerifyCellKZGProofBatch H A gc sha256 ctxp commitments cellIndices cells proofs s =
        .err (.argument (ascii "proof at index " ++ debugNat pre.length ++ ascii " has an invalid length")) s) ∧
    ((∀ a ∈ cells, a.length = 2048) → (∀ a ∈ proofs, a.length = 48) →
      ∀ pre a post, commitments = pre ++ a :: post → (∀ b ∈ pre, b.length = 48) → a.length ≠ 48 →
      ∀ gc, csVerifyCellKZGProofBatch H A gc sha256 ctxp commitments cellIndices cells proofs s =
        .err (.argument (ascii "commitments at index " ++ debugNat pre.length ++ ascii " has an invalid length")) s) ∧
    ((∀ a ∈ cells, a.length = 2048) → (∀ a ∈ proofs, a.length = 48) → (∀ a ∈ commitments, a.length = 48) →
      Answers H A s [8 * commitments.length, 8 * cells.length, 8 * proofs.length, 1] verdict csError (csVerifyCellKZGProofBatch H A noGc sha256 ctxp commitments cellIndices cells proofs)) := by
  unfold csVerifyCellKZGProofBatch Answers
  refine ⟨?_, fun w1 => ?_, fun w1 w2 => ?_, fun w1 w2 w3 => ?_⟩
  · rintro pre a post rfl hpre ha gc
    rw [CM.bind_err (checkLengths_err (n := BYTES_PER_CELL) "cell" pre post a hpre ha)]
    rfl
  · rintro pre a post rfl hpre ha gc
    rw [CM.bind_ok (checkLengths_ok (n := BYTES_PER_CELL) "cell" w1), CM.bind_err (checkLengths_err (n := BYTES_PER_COMMITMENT) "proof" pre post a hpre ha)]
    rfl
  · rintro pre a post rfl hpre ha gc
    rw [CM.bind_ok (checkLengths_ok (n := BYTES_PER_CELL) "cell" w1), CM.bind_ok (checkLengths_ok (n := BYTES_PER_COMMITMENT) "proof" w2),
      CM.bind_err (checkLengths_err (n := BYTES_PER_COMMITMENT) "commitments" pre post a hpre ha)]
    rfl
  · have sized : ∀ {n : Nat} {arrays : List CsArray} {contents : List (List UInt8)},
        List.Forall₂ (fun a b => ArrayHolds s.mem a.addr a.length b) arrays contents → (∀ a ∈ arrays, a.length = n) →
        Sized n contents := by
      intro n arrays contents hf h b hb
      obtain ⟨a, ha, hab⟩ := forall₂_mem_left hf.flip hb
      rw [← hab.length, h a ha]
    rw [CM.bind_ok (checkLengths_ok (n := BYTES_PER_CELL) "cell" w1), CM.bind_ok (checkLengths_ok (n := BYTES_PER_COMMITMENT) "proof" w2),
      CM.bind_ok (checkLengths_ok (n := BYTES_PER_COMMITMENT) "commitments" w3)]
    refine newArray_bind (P := Gets s verdict csError) H A ((commitments.map CsArray.fixed).flatMap wordBytes)
      (by rw [length_flatMap_wordBytes, List.length_map]) ?_
    intro cm s₁ h1 _ _
    refine newArray_bind (P := Gets s verdict csError) H A ((cells.map CsArray.fixed).flatMap wordBytes)
      (by rw [length_flatMap_wordBytes, List.length_map]) ?_
    intro cl s₂ h2 _ _
    refine newArray_bind (P := Gets s verdict csError) H A ((proofs.map CsArray.fixed).flatMap wordBytes)
      (by rw [length_flatMap_wordBytes, List.length_map]) ?_
    intro pf s₃ h3 _ _
    refine newArray_bind (P := Gets s verdict csError) H A (List.replicate 1 0)
      List.length_replicate ?_
    intro vf s₄ h4 _ _
    have e4 : Extends s s₄ := ((h1.ext.trans h2.ext).trans h3.ext).trans h4.ext
    have i1 := holdsItems_of_arrays (by norm_num) hm (sized hm w3) (Extends.refl s) h1
    have i2 := holdsItems_of_arrays (by norm_num) hc (sized hc w1) h1.ext h2
    have i3 := holdsItems_of_arrays (by norm_num) hp (sized hp w2) (h1.ext.trans h2.ext) h3
    obtain ⟨t1, t2, t3, t4⟩ := C32_verify_cell_kzg_proof_batch A s₄ sha256 ctxp commitments.length
      (CsArray.fixed ⟨cm, commitments.length⟩) cellIndices.length cellIndices.fixed cells.length (CsArray.fixed ⟨cl, cells.length⟩)
      proofs.length (CsArray.fixed ⟨pf, proofs.length⟩) vf ctx h0 (by rw [e4.ctxs, hctx])
      commitmentBytes hm.length_eq.symm (sized hm w3) (holdsItems_mono ((h2.ext.trans h3.ext).trans h4.ext) i1)
      inds hil (holdsWords_mono e4 hi)
      cellBytes hc.length_eq.symm (sized hc w1) (holdsItems_mono (h3.ext.trans h4.ext) i2)
      proofBytes hp.length_eq.symm (sized hp w2) (holdsItems_mono h4.ext i3) h4.ne (mapped_of_holds h4.holds)
    have hcol : (collect noGc ((commitments ++ cells ++ proofs).map CsArray.addr) : CM (DASContext K G1 G2) CsException (List Nat)) s₄ =
      .ok ((commitments ++ cells ++ proofs).map CsArray.addr) s₄ := rfl
    rw [CM.bind_ok hcol]
    have good : ∀ (b : UInt8) (v : Bool) call, (decide (b ≠ 0)) = v → Spec.Returns call s₄ [(vf, [b])] →
        Gets s (.ok v) csError ((callC call >>= fun r => throwOnErrorCs r >>= fun _ => do
          let b ← readByte vf
          pure (decide (b ≠ 0))) s₄) := by
      rintro b v call hv ⟨s', hs', hw, hc, hst⟩
      rw [throwOnError_ok hs']
      refine ⟨s', ?_, ?_⟩
      · rw [CM.bind_ok (readByte_ok (p := vf) (b := b) (hw.1 (vf, [b]) (by simp) 0 b rfl)), hv]
        rfl
      · refine extends_of_wrote e4 hw hc hst ?_
        intro r hrm i hi
        rw [List.mem_singleton] at hrm
        subst hrm
        exact unmapped_before ((h1.ext.trans h2.ext).trans h3.ext) (h4.unmapped i hi)
    generalize hlib : ctx.verifyCellKzgProofBatch sha256 commitmentBytes inds cellBytes proofBytes = lib at hverdict
    cases hverdict with
    | valid => exact .inr (good 1 true _ rfl (t1 hlib))
    | invalid e => exact .inr (good 0 false _ rfl (t2 e hlib))
    | error e hne =>
      rcases throwOnError_err H A (t3 e hlib hne) (fun _ => do
          let b ← readByte vf
          pure (decide (b ≠ 0))) with h' | h'
      · exact .inl h'
      · exact .inr ⟨s₄, h', e4⟩
    | panic => exact .inr (throwOnError_panic (t4 hlib) _)

end

open Toy in
/-- With allocators that have room, the call of `C34_csharp_compute_cells_and_kzg_proofs` gives exactly the answer of the library; the
hypotheses of the theorem are met by a concrete process. -/
example (ctx : DASContext Fr Fr Fr) (blob : List UInt8) (hlen : blob.length = 131072) (r : List (List UInt8) × List (List UInt8))
    (hr : ctx.computeCellsAndKzgProofs blob = .ok r) :
    ∃ s', csComputeCellsAndKZGProofs (ToyHeap.heap _) (ToyHeap.allocator _) noGc 16 ⟨4096, 131072⟩ (ToyHeap.start ctx blob) =
      .ok r s' := by
  have hb : ArrayHolds (ToyHeap.start ctx blob).mem 4096 131072 blob :=
    ⟨hlen.symm, by decide, by rw [hlen]; norm_num, ToyHeap.start_holds _ _⟩
  rcases (C34_csharp_compute_cells_and_kzg_proofs (ToyHeap.heap _) (ToyHeap.allocator _) (ToyHeap.start ctx blob) 16
    ctx (by decide) (by simp [ToyHeap.start]) ⟨4096, 131072⟩ _ hb).2 rfl with ⟨ho, -⟩ | h
  · refine absurd ho (ToyHeap.not_outOfMemory (ToyHeap.start_top _ _) ?_)
    rw [hlen, hr, show Spec.messageSize (.ok r : Outcome Error _) = none from rfl]
    decide +kernel
  · rw [hr] at h
    obtain ⟨s', h, -⟩ := h
    exact ⟨s', h⟩

open Toy in
/-- Two proofs, the second one byte short: the exception names index 1. -/
example (ctx : DASContext Fr Fr Fr) (sha256 : List UInt8 → List UInt8) (gc : Gc (DASContext Fr Fr Fr)) :
    csVerifyCellKZGProofBatch (ToyHeap.heap _) (ToyHeap.allocator _) gc sha256 16 [] ⟨0, 0⟩ [] [⟨4096, 48⟩, ⟨4096, 47⟩]
      (ToyHeap.start ctx (List.replicate 48 0)) = .err (.argument (ascii "proof at index 1 has an invalid length"))
      (ToyHeap.start ctx (List.replicate 48 0)) := by
  have hl : ∀ n, n ≤ 48 → ArrayHolds (ToyHeap.start ctx (List.replicate 48 0)).mem 4096 n (List.replicate n 0) := by
    intro n hn
    refine ⟨List.length_replicate.symm, by decide, by rw [List.length_replicate]; omega, fun i b hib => ?_⟩
    refine ToyHeap.start_holds ctx (List.replicate 48 0) i b ?_
    rw [List.getElem?_replicate] at hib ⊢
    split_ifs at hib with h1
    rw [if_pos (by omega), hib]
  obtain ⟨v, hv⟩ : ∃ v, Verdict (ctx.verifyCellKzgProofBatch sha256 [] [] [] [List.replicate 48 0, List.replicate 47 0]) v := by
    rcases ctx.verifyCellKzgProofBatch sha256 [] [] [] [List.replicate 48 0, List.replicate 47 0] with u | e | _
    · exact ⟨_, .valid⟩
    · by_cases he : ∃ e', e = .Verifier (.FK20 e')
      · obtain ⟨e', rfl⟩ := he
        exact ⟨_, .invalid e'⟩
      · exact ⟨_, .error e fun e' h => he ⟨e', h⟩⟩
    · exact ⟨_, .panic⟩
  have := (C34_csharp_verify_cell_kzg_proof_batch (ToyHeap.heap _) (ToyHeap.allocator _) (ToyHeap.start ctx (List.replicate 48 0)) sha256
    16 ctx (by decide) (by simp [ToyHeap.start]) ⟨0, 0⟩ [] rfl ⟨fun h => absurd rfl h, fun i v hv => by simp at hv⟩ [] []
    [⟨4096, 48⟩, ⟨4096, 47⟩] [] [] [List.replicate 48 0, List.replicate 47 0] .nil .nil
    (.cons (hl 48 le_rfl) (.cons (hl 47 (by norm_num)) .nil)) v hv).2.1 (by simp) [⟨4096, 48⟩] ⟨4096, 47⟩ [] rfl (by simp) (by norm_num) gc
  exact this

end Verif
