import Verif.Props.CSharpGc
import Verif.Props.Recovery

set_option linter.unusedSectionVars false

/-! C41 for `RecoverCellsAndKZGProofs` of the C# wrapper. -/
namespace Verif
open Spec (Holds HoldsWords Mapped Extends OutOfMemory ArrayHolds Sized)

section
variable {K G1 G2 GT : Type} [Field K] [DecidableEq K] [AddCommGroup G1] [Module Fr G1] [DecidableEq G1]
  [Curve K G1] [PointCodec G1] [AddCommGroup G2] [Module Fr G2] [AddCommGroup GT] [DecidableEq GT]
  [Pairing G1 G2 GT] [LawfulPointCodec G1 48]

/-- If the collector moves the output arrays before the native call, the caller gets arrays of zeros and no exception, for all cells from
which the library recovers. -/
theorem C41_csharp_recover_collected (s : CState (DASContext K G1 G2)) (b : Nat) (ht : ToyHeap.Top s b) (hb : b ≤ 2 ^ 60) (ctxp : Nat)
    (ctx : DASContext K G1 G2) (h0 : ctxp ≠ 0) (hctx : s.ctxs ctxp = some ctx) (cellIds : CsArray) (inds : List Nat)
    (hil : inds.length = cellIds.length) (hi : HoldsWords s.mem cellIds.fixed inds)
    (cells : List CsArray) (cellBytes : List (List UInt8)) (hn : cells.length ≤ 128)
    (hc : List.Forall₂ (fun a b => ArrayHolds s.mem a.addr a.length b) cells cellBytes) (hcl : ∀ a ∈ cells, a.length = 2048)
    (outCells outProofs : List (List UInt8)) (hr : ctx.recoverCellsAndKzgProofs inds cellBytes = .ok (outCells, outProofs)) :
    ∃ s', csRecoverCellsAndKZGProofs (ToyHeap.heap _) (ToyHeap.allocator _) moveUp ctxp cellIds cells s =
      .ok (List.replicate 128 (List.replicate 2048 0), List.replicate 128 (List.replicate 48 0)) s' := by
  have hu : UpperFree s := fun a ha => (ht a (by omega)).1
  have hsz : Sized 2048 cellBytes := by
    intro b hb
    obtain ⟨a, ha, hab⟩ := forall₂_mem_left hc.flip hb
    rw [← hab.length, hcl a ha]
  let P : COut (DASContext K G1 G2) CsException (List (List UInt8) × List (List UInt8)) → Prop := fun r =>
    ∃ s', r = .ok (List.replicate 128 (List.replicate 2048 0), List.replicate 128 (List.replicate 48 0)) s'
  have key : (OutOfMemory (ToyHeap.heap _) (ToyHeap.allocator _) s
      (List.replicate 128 2048 ++ (List.replicate 128 48 ++ [8 * cells.length, 1024, 1024])) none ∧
      csRecoverCellsAndKZGProofs (ToyHeap.heap _) (ToyHeap.allocator _) moveUp ctxp cellIds cells s = .panic) ∨
      P (csRecoverCellsAndKZGProofs (ToyHeap.heap _) (ToyHeap.allocator _) moveUp ctxp cellIds cells s) := by
    unfold csRecoverCellsAndKZGProofs
    rw [CM.bind_ok (checkLengths_ok (n := BYTES_PER_CELL) "cell" hcl)]
    have hinv : ∀ n (s : CState (DASContext K G1 G2)) p, UpperFree s → (ToyHeap.heap _).place s n = some p →
        UpperFree { s with mem := overwrite s.mem p (List.replicate n 0) } := fun n s p h hp =>
      upperFree_overwrite h (by rw [List.length_replicate]; exact hp)
    refine newAll_bind' (P := P) _ _ BYTES_PER_CELL (by decide) (List.range CELLS_PER_EXT_BLOB) (I := UpperFree) (hinv _) hu ?_
    intro cp s₁ lc h1 u1
    replace lc : cp.length = 128 := by rw [lc, List.length_range]; rfl
    refine newAll_bind' (P := P) _ _ BYTES_PER_COMMITMENT (by decide) (List.range CELLS_PER_EXT_BLOB) (I := UpperFree) (hinv _) u1 ?_
    intro pp s₂ lp h2 u2
    replace lp : pp.length = 128 := by rw [lp, List.length_range]; rfl
    have lI : ((cells.map CsArray.fixed).flatMap wordBytes).length = 8 * cells.length := by rw [length_flatMap_wordBytes, List.length_map]
    have lC : (cp.flatMap wordBytes).length = 1024 := by rw [length_flatMap_wordBytes, lc]
    have lP : (pp.flatMap wordBytes).length = 1024 := by rw [length_flatMap_wordBytes, lp]
    refine newArray_bind (P := P) _ _ ((cells.map CsArray.fixed).flatMap wordBytes) lI ?_
    intro ic s₃ h3 hp3 he3
    have u3 : UpperFree s₃ := he3 ▸ upperFree_overwrite u2 (by rw [lI]; exact hp3)
    refine newArray_bind (P := P) _ _ (cp.flatMap wordBytes) lC ?_
    intro oc s₄ h4 hp4 he4
    have u4 : UpperFree s₄ := he4 ▸ upperFree_overwrite u3 (by rw [lC]; exact hp4)
    refine newArray_bind (P := P) _ _ (pp.flatMap wordBytes) lP ?_
    intro op s₅ h5 hp5 he5
    have u5 : UpperFree s₅ := he5 ▸ upperFree_overwrite u4 (by rw [lP]; exact hp5)
    have e5 : Extends s s₅ := (((h1.ext.trans h2.ext).trans h3.ext).trans h4.ext).trans h5.ext
    right
    set l := cp ++ pp ++ cells.map CsArray.addr with hl
    have hcol : (collect moveUp l : CM (DASContext K G1 G2) CsException (List Nat)) s₅ = .ok (moveUp s₅ l).2 (moveUp s₅ l).1 := rfl
    rw [CM.bind_ok hcol]
    set t := (moveUp s₅ l).1 with ht
    have e6 : Extends s₅ t := moveUp_keeps.ext s₅ l
    have hout := managed_outBuffers h1 (Extends.refl _) h2 h3.ext h4 h5 lc lp
    have hout' : Spec.OutBuffers t.mem oc op cp pp := { hout with
      cells := holdsWords_mono e6 hout.cells
      proofs := holdsWords_mono e6 hout.proofs
      cellMapped := fun q hq => ⟨(hout.cellMapped q hq).1, mapped_mono e6 (hout.cellMapped q hq).2⟩
      proofMapped := fun q hq => ⟨(hout.proofMapped q hq).1, mapped_mono e6 (hout.proofMapped q hq).2⟩ }
    have hit := holdsItems_of_arrays (by norm_num) hc hsz (h1.ext.trans h2.ext) h3
    obtain ⟨t1, -, -⟩ := C32_recover_cells_and_proofs (ToyHeap.allocator _) t ctxp cells.length (CsArray.fixed ⟨ic, cells.length⟩)
      cellIds.length cellIds.fixed oc op ctx h0 (by rw [e6.ctxs, e5.ctxs, hctx]) cellBytes hc.length_eq.symm hsz
      (holdsItems_mono ((h4.ext.trans h5.ext).trans e6) hit) inds hil (holdsWords_mono (e5.trans e6) hi) cp pp hout'
    obtain ⟨⟨s', hs', hw, -, -⟩, hcl', hcs, hpl, hps⟩ := t1 outCells outProofs hr
    rw [throwOnError_ok hs']
    have below : ∀ q n, Mapped s₅.mem q n → 0 < n → q + n ≤ 2 ^ 62 := by
      intro q n hm hn
      by_contra hc
      obtain ⟨b, hb⟩ := hm (n - 1) (by omega)
      rw [u5 _ (by omega)] at hb
      cases hb
    have same : ∀ a, 2 ^ 62 ≤ a → s'.mem a = t.mem a := by
      intro a ha
      refine hw.2 a ?_
      rintro ⟨q, x⟩ hrm
      rcases List.mem_append.1 hrm with hrm | hrm
      · have := List.of_mem_zip hrm
        have hlt := below q 2048 (hout.cellMapped q this.1).2 (by norm_num)
        have := hcs x this.2
        right; show q + x.length ≤ a
        omega
      · have := List.of_mem_zip hrm
        have hlt := below q 48 (hout.proofMapped q this.1).2 (by norm_num)
        have := hps x this.2
        right; show q + x.length ≤ a
        omega
    have zero : ∀ i p n, n ≤ 2048 → l[i]? = some p → Holds s₅.mem p (List.replicate n 0) →
        Holds s'.mem (2 ^ 62 + 2048 * i) (List.replicate n 0) := by
      intro i p n hn hi hp j b hj
      have hjn : j < n := by
        have := (List.getElem?_eq_some_iff.1 hj).1
        rwa [List.length_replicate] at this
      rw [same _ (by omega), ht, moveUp_mem u5 _ hi (by omega)]
      exact hp j b hj
    have hsplit : (moveUp s₅ l).2 = (List.range 128).map (fun i => 2 ^ 62 + 2048 * i) ++
        ((List.range 128).map (fun i => 2 ^ 62 + 2048 * (128 + i)) ++
          (List.range cells.length).map (fun i => 2 ^ 62 + 2048 * (128 + 128 + i))) := by
      rw [moveUp_addrs u5, hl, List.length_append, List.length_append, lc, lp, List.length_map, List.range_add, List.range_add,
        List.map_append, List.map_append, List.map_map, List.map_map, List.append_assoc]
      rfl
    have l1 : ((List.range 128).map (fun i => 2 ^ 62 + 2048 * i)).length = 128 := by rw [List.length_map, List.length_range]
    have l2 : ((List.range 128).map (fun i => 2 ^ 62 + 2048 * (128 + i))).length = 128 := by rw [List.length_map, List.length_range]
    refine ⟨s', ?_⟩
    rw [hsplit, List.take_left' (show ((List.range 128).map (fun i => 2 ^ 62 + 2048 * i)).length = CELLS_PER_EXT_BLOB from l1),
      List.drop_left' (show ((List.range 128).map (fun i => 2 ^ 62 + 2048 * i)).length = CELLS_PER_EXT_BLOB from l1),
      List.take_left' (show ((List.range 128).map (fun i => 2 ^ 62 + 2048 * (128 + i))).length = CELLS_PER_EXT_BLOB from l2),
      CM.bind_ok (readAll_ok (n := BYTES_PER_CELL) (items := List.replicate 128 (List.replicate 2048 0)) (by rw [List.length_map, List.length_range, List.length_replicate])
        (by intro x hx; rw [List.eq_of_mem_replicate hx, List.length_replicate]; rfl) ?_),
      CM.bind_ok (readAll_ok (n := BYTES_PER_COMMITMENT) (items := List.replicate 128 (List.replicate 48 0)) (by rw [List.length_map, List.length_range, List.length_replicate])
        (by intro x hx; rw [List.eq_of_mem_replicate hx, List.length_replicate]) ?_)]
    · rfl
    · rintro ⟨q, x⟩ hrm
      obtain ⟨m1, m2⟩ := List.of_mem_zip hrm
      obtain ⟨i, hi, rfl⟩ := List.mem_map.1 m1
      rw [List.eq_of_mem_replicate m2]
      rw [List.mem_range] at hi
      have hg : l[128 + i]? = some (pp[i]'(by omega)) := by
        rw [hl, List.append_assoc, List.getElem?_append_right (by omega), lc, Nat.add_sub_cancel_left, List.getElem?_append_left (by omega)]
        exact List.getElem?_eq_getElem _
      exact zero _ _ _ (by norm_num) hg (holds_mono ((h3.ext.trans h4.ext).trans h5.ext) (h2.each _ (List.getElem_mem _)).2.2.1)
    · rintro ⟨q, x⟩ hrm
      obtain ⟨m1, m2⟩ := List.of_mem_zip hrm
      obtain ⟨i, hi, rfl⟩ := List.mem_map.1 m1
      rw [List.eq_of_mem_replicate m2]
      rw [List.mem_range] at hi
      have hg : l[i]? = some (cp[i]'(by omega)) := by
        rw [hl, List.append_assoc, List.getElem?_append_left (by omega)]
        exact List.getElem?_eq_getElem _
      exact zero _ _ _ le_rfl hg (holds_mono (((h2.ext.trans h3.ext).trans h4.ext).trans h5.ext) (h1.each _ (List.getElem_mem _)).2.2.1)
  rcases key with ⟨ho, -⟩ | h
  · refine absurd ho (ToyHeap.not_outOfMemory ht ?_)
    have hsum : ((List.replicate 128 2048 ++ (List.replicate 128 48 ++ [8 * cells.length, 1024, 1024]) : List Nat).map (· + 8)).sum =
        128 * 2056 + (128 * 56 + (8 * cells.length + 8 + (1032 + 1032))) := by
      rw [List.map_append, List.map_append, List.map_replicate, List.map_replicate, List.sum_append, List.sum_append,
        List.sum_replicate, List.sum_replicate]
      rfl
    rw [hsum]
    simp only [Option.getD_none]
    omega
  · exact h

/-- C41 for `RecoverCellsAndKZGProofs`, the part that holds: if the collector moves none of the arrays, the caller gets the recovered
cells and proofs, unless one of the allocations fails. -/
theorem C41_csharp_recover_partial (H : Heap (DASContext K G1 G2)) (A : Allocator (DASContext K G1 G2)) (gc : Gc (DASContext K G1 G2))
    (hgc : ∀ s l, Extends s (gc s l).1 ∧ (gc s l).2 = l) (s : CState (DASContext K G1 G2)) (ctxp : Nat)
    (ctx : DASContext K G1 G2) (h0 : ctxp ≠ 0) (hctx : s.ctxs ctxp = some ctx) (cellIds : CsArray) (inds : List Nat)
    (hil : inds.length = cellIds.length) (hi : HoldsWords s.mem cellIds.fixed inds)
    (cells : List CsArray) (cellBytes : List (List UInt8))
    (hc : List.Forall₂ (fun a b => ArrayHolds s.mem a.addr a.length b) cells cellBytes) (hcl : ∀ a ∈ cells, a.length = 2048)
    (outCells outProofs : List (List UInt8)) (hr : ctx.recoverCellsAndKzgProofs inds cellBytes = .ok (outCells, outProofs)) :
    (OutOfMemory H A s (List.replicate 128 2048 ++ (List.replicate 128 48 ++ [8 * cells.length, 1024, 1024])) none ∧
      csRecoverCellsAndKZGProofs H A gc ctxp cellIds cells s = .panic) ∨
    ∃ s', csRecoverCellsAndKZGProofs H A gc ctxp cellIds cells s = .ok (outCells, outProofs) s' ∧ Extends s s' := by
  have hsz : Sized 2048 cellBytes := by
    intro b hb
    obtain ⟨a, ha, hab⟩ := forall₂_mem_left hc.flip hb
    rw [← hab.length, hcl a ha]
  let P : COut (DASContext K G1 G2) CsException (List (List UInt8) × List (List UInt8)) → Prop := fun r =>
    ∃ s', r = .ok (outCells, outProofs) s' ∧ Extends s s'
  show _ ∨ P _
  unfold csRecoverCellsAndKZGProofs
  rw [CM.bind_ok (checkLengths_ok (n := BYTES_PER_CELL) "cell" hcl)]
  refine newAll_bind (P := P) H A BYTES_PER_CELL (by decide) (List.range CELLS_PER_EXT_BLOB) ?_
  intro cp s₁ lc h1
  replace lc : cp.length = 128 := by rw [lc, List.length_range]; rfl
  refine newAll_bind (P := P) H A BYTES_PER_COMMITMENT (by decide) (List.range CELLS_PER_EXT_BLOB) ?_
  intro pp s₂ lp h2
  replace lp : pp.length = 128 := by rw [lp, List.length_range]; rfl
  refine newArray_bind (P := P) H A ((cells.map CsArray.fixed).flatMap wordBytes) (by rw [length_flatMap_wordBytes, List.length_map]) ?_
  intro ic s₃ h3 _ _
  refine newArray_bind (P := P) H A (cp.flatMap wordBytes) (by rw [length_flatMap_wordBytes, lc]) ?_
  intro oc s₄ h4 _ _
  refine newArray_bind (P := P) H A (pp.flatMap wordBytes) (by rw [length_flatMap_wordBytes, lp]) ?_
  intro op s₅ h5 _ _
  right
  have hcol : (collect gc (cp ++ pp ++ cells.map CsArray.addr) : CM (DASContext K G1 G2) CsException (List Nat)) s₅ =
    .ok (gc s₅ (cp ++ pp ++ cells.map CsArray.addr)).2 (gc s₅ (cp ++ pp ++ cells.map CsArray.addr)).1 := rfl
  rw [CM.bind_ok hcol, (hgc s₅ _).2]
  generalize ht : (gc s₅ (cp ++ pp ++ cells.map CsArray.addr)).1 = t
  have e6 : Extends s₅ t := ht ▸ (hgc s₅ _).1
  have e5 : Extends s t := ((((h1.ext.trans h2.ext).trans h3.ext).trans h4.ext).trans h5.ext).trans e6
  have hout := managed_outBuffers h1 (Extends.refl _) h2 h3.ext h4 h5 lc lp
  have hout' : Spec.OutBuffers t.mem oc op cp pp := { hout with
    cells := holdsWords_mono e6 hout.cells
    proofs := holdsWords_mono e6 hout.proofs
    cellMapped := fun q hq => ⟨(hout.cellMapped q hq).1, mapped_mono e6 (hout.cellMapped q hq).2⟩
    proofMapped := fun q hq => ⟨(hout.proofMapped q hq).1, mapped_mono e6 (hout.proofMapped q hq).2⟩ }
  have hit := holdsItems_of_arrays (by norm_num) hc hsz (h1.ext.trans h2.ext) h3
  obtain ⟨t1, -, -⟩ := C32_recover_cells_and_proofs A t ctxp cells.length (CsArray.fixed ⟨ic, cells.length⟩) cellIds.length
    cellIds.fixed oc op ctx h0 (by rw [e5.ctxs, hctx]) cellBytes hc.length_eq.symm hsz
    (holdsItems_mono ((h4.ext.trans h5.ext).trans e6) hit) inds hil (holdsWords_mono e5 hi) cp pp hout'
  obtain ⟨⟨s', hs', hw, hcx, hst⟩, hcl', hcs, hpl, hps⟩ := t1 outCells outProofs hr
  rw [throwOnError_ok hs']
  refine ⟨s', ?_, ?_⟩
  · rw [List.append_assoc, List.take_left' (show cp.length = CELLS_PER_EXT_BLOB from lc), List.drop_left' (show cp.length = CELLS_PER_EXT_BLOB from lc), List.take_left' (show pp.length = CELLS_PER_EXT_BLOB from lp),
      CM.bind_ok (readAll_ok (n := BYTES_PER_CELL) (by rw [lc, hcl']) hcs fun r hrm => hw.1 r (by simp [hrm])),
      CM.bind_ok (readAll_ok (n := BYTES_PER_COMMITMENT) (by rw [lp, hpl]) hps fun r hrm => hw.1 r (by simp [hrm]))]
    rfl
  · refine extends_of_wrote e5 hw hcx hst ?_
    rintro ⟨q, x⟩ hrm i hi
    rcases List.mem_append.1 hrm with hrm | hrm
    · have := List.of_mem_zip hrm
      exact (h1.each q this.1).2.2.2 i (by rw [hcs x this.2] at hi; exact hi)
    · have := List.of_mem_zip hrm
      exact unmapped_before h1.ext ((h2.each q this.1).2.2.2 i (by rw [hps x this.2] at hi; exact hi))

end

open Toy in
/-- C41 is false for `RecoverCellsAndKZGProofs` too: there are a process, a collector that keeps all contents, and 64 cells, such that the
library recovers the cells of a blob and the wrapper returns other cells, and no exception. -/
theorem C41_csharp_recover_refuted : ∃ (H : Heap (DASContext Fr Fr Fr)) (A : Allocator (DASContext Fr Fr Fr)) (gc : Gc (DASContext Fr Fr Fr))
    (s s' : CState (DASContext Fr Fr Fr)) (ctxp : Nat) (ctx : DASContext Fr Fr Fr) (cellIds : CsArray) (inds : List Nat) (cells : List CsArray)
    (cellBytes outCells outProofs : List (List UInt8)) (r : List (List UInt8) × List (List UInt8)), Spec.KeepsContents gc ∧
      s.ctxs ctxp = some ctx ∧ inds.length = cellIds.length ∧ HoldsWords s.mem cellIds.fixed inds ∧
      List.Forall₂ (fun a b => ArrayHolds s.mem a.addr a.length b) cells cellBytes ∧
      ctx.recoverCellsAndKzgProofs inds cellBytes = .ok (outCells, outProofs) ∧
      csRecoverCellsAndKZGProofs H A gc ctxp cellIds cells s = .ok r s' ∧ r.1 ≠ outCells := by
  obtain ⟨ctx, hctx⟩ := context 7
  have h1 := (powersOfTau 7).length_g1
  have hlen : blob'.length = 131072 := blob_poly'.2.1
  obtain ⟨c, p, h, -⟩ := C04_proofs (setup 7) 7 1 1 (powersOfTau 7) ctx hctx blob' _ blob_poly'
  obtain ⟨hcl, hcell⟩ := (C02_cells_are_evaluations (setup 7) .no h1 ctx hctx blob' hlen c p h).2 _ blob_poly'
  -- all cells of a constant polynomial are the same
  have hconst : ∀ k, cellOf (Polynomial.C 9) k = cellOf (Polynomial.C 9) 0 := by
    intro k
    unfold cellOf
    simp only [Polynomial.eval_C]
  have hall : ∀ i < 128, c[i]? = some (cellOf (Polynomial.C 9) 0) := by
    intro i hi
    rw [List.getElem?_eq_getElem (by rw [hcl]; exact hi), (isCell_iff _ i _).1 (hcell i (by rw [hcl]; exact hi)), hconst]
  have lz : (cellOf (Polynomial.C 9) 0).length = 2048 := cellOf_length _ _
  have hne : cellOf (Polynomial.C 9) 0 ≠ List.replicate 2048 0 := by
    intro he
    have h9 := ((isCell_iff (Polynomial.C 9) 0 _).2 rfl).2 0 (by norm_num)
    have hb : Spec.block 32 0 (cellOf (Polynomial.C 9) 0) = List.replicate 32 0 := by
      rw [List.eq_replicate_iff]
      exact ⟨h9.1, fun b hb => by
        have := List.mem_of_mem_drop (List.mem_of_mem_take hb)
        rw [he] at this
        exact List.eq_of_mem_replicate this⟩
    have h0 : Spec.beValue (List.replicate 32 0) = 0 := by decide
    have h2 := h9.2
    rw [hb, h0, Polynomial.eval_C] at h2
    exact absurd h2 (by decide +kernel)
  generalize cellOf (Polynomial.C 9) 0 = z at hall lz hne
  have hrec : ctx.recoverCellsAndKzgProofs (List.range 64) (List.replicate 64 z) = .ok (c, p) := by
    refine C09_recovers_original (setup 7) .no h1 ctx hctx blob' hlen c p h _ _ (fun i hi => ?_) List.nodup_range (by rw [List.length_range]) ?_
    · rw [List.mem_range] at hi
      omega
    · rw [List.forall₂_iff_get]
      refine ⟨by rw [List.length_range, List.length_replicate], fun i h1 h2 => ?_⟩
      rw [List.length_range] at h1
      rw [List.get_eq_getElem, List.get_eq_getElem, List.getElem_range, List.getElem_replicate]
      exact hall i (by omega)
  -- one cell, and the 64 indices
  have lw : ((List.range 64).flatMap wordBytes).length = 512 := by rw [length_flatMap_wordBytes, List.length_range]
  set s := ToyHeap.start ctx (z ++ (List.range 64).flatMap wordBytes) with hs
  have hst := ToyHeap.start_holds ctx (z ++ (List.range 64).flatMap wordBytes)
  have htop := ToyHeap.start_top ctx (z ++ (List.range 64).flatMap wordBytes)
  rw [← hs, List.length_append, lz, lw] at htop
  rw [← hs] at hst
  have hz : Holds s.mem 4096 z := by
    intro i b hb
    exact hst i b (by rw [List.getElem?_append_left (List.getElem?_eq_some_iff.1 hb).1, hb])
  have hw : HoldsWords s.mem 6144 (List.range 64) := by
    refine ⟨fun _ => ⟨by norm_num, by norm_num⟩, fun i v hv => ?_⟩
    have hv64 : v < 64 := List.mem_range.1 (List.mem_of_getElem? hv)
    refine holdsWord_wordBytes (by omega) fun j b hj => ?_
    have hj8 : j < 8 := by
      have := (List.getElem?_eq_some_iff.1 hj).1
      rwa [length_wordBytes] at this
    rw [show 6144 + 8 * i + j = 4096 + (2048 + (8 * i + j)) by omega]
    refine hst _ b ?_
    rw [List.getElem?_append_right (by omega), lz, Nat.add_sub_cancel_left, getElem?_flatMap_wordBytes _ i v hv j hj8, hj]
  have hc : List.Forall₂ (fun (a : CsArray) b => ArrayHolds s.mem a.addr a.length b) (List.replicate 64 ⟨4096, 2048⟩) (List.replicate 64 z) := by
    rw [List.forall₂_iff_get]
    refine ⟨by rw [List.length_replicate, List.length_replicate], fun i h1 h2 => ?_⟩
    rw [List.get_eq_getElem, List.get_eq_getElem, List.getElem_replicate, List.getElem_replicate]
    exact ⟨lz.symm, by norm_num, by rw [lz]; norm_num, hz⟩
  have hctx' : s.ctxs 16 = some ctx := by simp [hs, ToyHeap.start]
  obtain ⟨s', hs'⟩ := C41_csharp_recover_collected s _ htop (by norm_num) 16 ctx (by decide) hctx' ⟨6144, 64⟩ (List.range 64) List.length_range
    hw (List.replicate 64 ⟨4096, 2048⟩) _ (by rw [List.length_replicate]; norm_num) hc (fun a ha => by rw [List.eq_of_mem_replicate ha]) c p hrec
  refine ⟨_, _, moveUp, s, s', 16, ctx, ⟨6144, 64⟩, _, _, _, c, p, _, moveUp_keeps, hctx', List.length_range, hw, hc, hrec, hs', fun he => ?_⟩
  have h0 := hall 0 (by norm_num)
  rw [← he, List.getElem?_replicate, if_pos (by norm_num)] at h0
  exact hne (Option.some.inj h0).symm

end Verif
