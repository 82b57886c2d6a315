import Verif.Props.CSharp
import Verif.Props.Proofs

set_option linter.unusedSectionVars false

/-! C41: the arrays of the C# wrapper are not pinned during the native call. -/
namespace Verif
open Spec (Holds Mapped Extends OutOfMemory ArrayHolds Wrote)

namespace Spec
/-- A garbage collection that keeps all contents: memory in use is unchanged, and the arrays (of at most 2048 bytes) have their
contents at the new addresses. -/
structure KeepsContents {Ctx : Type} (gc : Gc Ctx) : Prop where
  ext : ∀ s l, Extends s (gc s l).1
  length : ∀ s l, (gc s l).2.length = l.length
  contents : ∀ s l (i : Nat) p q, l[i]? = some p → (gc s l).2[i]? = some q → ∀ j < 2048, s.mem (p + j) ≠ none →
    (gc s l).1.mem (q + j) = s.mem (p + j)
end Spec

variable {Ctx : Type}

/-- nothing is used from 2^62 on -/
def UpperFree (s : CState Ctx) : Prop := ∀ a, 2 ^ 62 ≤ a → s.mem a = none

open Classical in
/-- a collector that moves the arrays to the addresses from 2^62 on, if these are free -/
noncomputable def moveUp : Gc Ctx := fun s l =>
  if UpperFree s then
    ({ s with mem := fun a => if 2 ^ 62 ≤ a then (l[(a - 2 ^ 62) / 2048]?).bind (fun p => s.mem (p + (a - 2 ^ 62) % 2048)) else s.mem a },
      (List.range l.length).map (fun i => 2 ^ 62 + 2048 * i))
  else (s, l)

theorem moveUp_mem {s : CState Ctx} (h : UpperFree s) (l : List Nat) {i p : Nat} (hi : l[i]? = some p) {j : Nat} (hj : j < 2048) :
    (moveUp s l).1.mem (2 ^ 62 + 2048 * i + j) = s.mem (p + j) := by
  unfold moveUp
  rw [if_pos h]
  show (if 2 ^ 62 ≤ 2 ^ 62 + 2048 * i + j then _ else _) = _
  rw [if_pos (by omega), show (2 ^ 62 + 2048 * i + j - 2 ^ 62) / 2048 = i by omega,
    show (2 ^ 62 + 2048 * i + j - 2 ^ 62) % 2048 = j by omega, hi]
  rfl

theorem moveUp_addrs {s : CState Ctx} (h : UpperFree s) (l : List Nat) :
    (moveUp s l).2 = (List.range l.length).map (fun i => 2 ^ 62 + 2048 * i) := by
  unfold moveUp
  rw [if_pos h]

theorem moveUp_keeps : Spec.KeepsContents (moveUp : Gc Ctx) where
  ext s l := by
    by_cases h : UpperFree s
    · unfold moveUp
      rw [if_pos h]
      refine ⟨fun a ha => ?_, rfl, rfl⟩
      have : ¬ 2 ^ 62 ≤ a := fun hle => ha (h a hle)
      exact if_neg this
    · unfold moveUp
      rw [if_neg h]
      exact Extends.refl s
  length s l := by
    by_cases h : UpperFree s
    · rw [moveUp_addrs h]; simp
    · unfold moveUp
      rw [if_neg h]
  contents s l i p q hp hq j hj hm := by
    by_cases h : UpperFree s
    · rw [moveUp_addrs h, List.getElem?_map] at hq
      obtain ⟨k, hk, rfl⟩ := Option.map_eq_some_iff.1 hq
      obtain ⟨hil, rfl⟩ := List.getElem?_eq_some_iff.1 hk
      rw [List.getElem_range]
      exact moveUp_mem h l hp hj
    · unfold moveUp at hq ⊢
      rw [if_neg h] at hq ⊢
      rw [hp] at hq
      cases hq
      rfl

theorem upperFree_overwrite {s : CState Ctx} {p : Nat} {data : List UInt8} (h : UpperFree s)
    (hp : (ToyHeap.heap Ctx).place s data.length = some p) : UpperFree { s with mem := overwrite s.mem p data } := by
  intro a ha
  have := (ToyHeap.bump_some hp).2.2.1
  show overwrite s.mem p data a = none
  rw [overwrite_outside (Or.inr (by omega))]
  exact h a ha

section
variable {K G1 G2 GT : Type} [Field K] [DecidableEq K] [AddCommGroup G1] [Module Fr G1] [DecidableEq G1]
  [Curve K G1] [PointCodec G1] [AddCommGroup G2] [Module Fr G2] [AddCommGroup GT] [DecidableEq GT]
  [Pairing G1 G2 GT] [LawfulPointCodec G1 48]

/-- If the collector moves the output arrays before the native call, the caller gets arrays of zeros and no exception, for every blob
that the library accepts: the library writes to the old addresses. -/
theorem C41_csharp_collected (ctx : DASContext K G1 G2) (blob : List UInt8) (hlen : blob.length = 131072)
    (cells proofs : List (List UInt8)) (hr : ctx.computeCellsAndKzgProofs blob = .ok (cells, proofs)) :
    ∃ s', csComputeCellsAndKZGProofs (ToyHeap.heap _) (ToyHeap.allocator _) moveUp 16 ⟨4096, 131072⟩ (ToyHeap.start ctx blob) =
      .ok (List.replicate 128 (List.replicate 2048 0), List.replicate 128 (List.replicate 48 0)) s' := by
  set s := ToyHeap.start ctx blob with hs
  have hb : Holds s.mem 4096 blob := ToyHeap.start_holds _ _
  have hu : UpperFree s := fun a ha => (ToyHeap.start_top ctx blob a (by rw [hlen]; omega)).1
  let P : COut (DASContext K G1 G2) CsException (List (List UInt8) × List (List UInt8)) → Prop := fun r =>
    ∃ s', r = .ok (List.replicate 128 (List.replicate 2048 0), List.replicate 128 (List.replicate 48 0)) s'
  have key : (OutOfMemory (ToyHeap.heap _) (ToyHeap.allocator _) s (List.replicate 128 2048 ++ (List.replicate 128 48 ++ [1024, 1024])) none ∧
      csComputeCellsAndKZGProofs (ToyHeap.heap _) (ToyHeap.allocator _) moveUp 16 ⟨4096, 131072⟩ s = .panic) ∨
      P (csComputeCellsAndKZGProofs (ToyHeap.heap _) (ToyHeap.allocator _) moveUp 16 ⟨4096, 131072⟩ s) := by
    unfold csComputeCellsAndKZGProofs
    rw [if_neg (show ¬ (⟨4096, 131072⟩ : CsArray).length ≠ BYTES_PER_BLOB from fun hn => hn rfl)]
    have hinv : ∀ n (s : CState (DASContext K G1 G2)) p, UpperFree s → (ToyHeap.heap _).place s n = some p →
        UpperFree { s with mem := overwrite s.mem p (List.replicate n 0) } := fun n s p h hp =>
      upperFree_overwrite h (by rw [List.length_replicate]; exact hp)
    refine newAll_bind' (P := P) _ _ BYTES_PER_CELL (by decide) (List.range CELLS_PER_EXT_BLOB) (I := UpperFree) (hinv _) hu ?_
    intro cp s₁ lc h1 u1
    replace lc : cp.length = 128 := by rw [lc, List.length_range]; rfl
    refine newAll_bind' (P := P) _ _ BYTES_PER_COMMITMENT (by decide) (List.range CELLS_PER_EXT_BLOB) (I := UpperFree) (hinv _) u1 ?_
    intro pp s₂ lp h2 u2
    replace lp : pp.length = 128 := by rw [lp, List.length_range]; rfl
    have lC : (cp.flatMap wordBytes).length = 1024 := by rw [length_flatMap_wordBytes, lc]
    have lP : (pp.flatMap wordBytes).length = 1024 := by rw [length_flatMap_wordBytes, lp]
    refine newArray_bind (P := P) _ _ (cp.flatMap wordBytes) lC ?_
    intro oc s₃ h3 hp3 he3
    have u3 : UpperFree s₃ := he3 ▸ upperFree_overwrite u2 (by rw [lC]; exact hp3)
    refine newArray_bind (P := P) _ _ (pp.flatMap wordBytes) lP ?_
    intro op s₄ h4 hp4 he4
    have u4 : UpperFree s₄ := he4 ▸ upperFree_overwrite u3 (by rw [lP]; exact hp4)
    have e4 : Extends s s₄ := ((h1.ext.trans h2.ext).trans h3.ext).trans h4.ext
    right
    have hcol : (collect moveUp (cp ++ pp) : CM (DASContext K G1 G2) CsException (List Nat)) s₄ =
      .ok (moveUp s₄ (cp ++ pp)).2 (moveUp s₄ (cp ++ pp)).1 := rfl
    rw [CM.bind_ok hcol]
    set t := (moveUp s₄ (cp ++ pp)).1 with ht
    have e5 : Extends s₄ t := moveUp_keeps.ext s₄ (cp ++ pp)
    have hout := managed_outBuffers h1 (Extends.refl _) h2 (Extends.refl _) h3 h4 lc lp
    have hout' : Spec.OutBuffers t.mem oc op cp pp := { hout with
      cells := holdsWords_mono e5 hout.cells
      proofs := holdsWords_mono e5 hout.proofs
      cellMapped := fun q hq => ⟨(hout.cellMapped q hq).1, mapped_mono e5 (hout.cellMapped q hq).2⟩
      proofMapped := fun q hq => ⟨(hout.proofMapped q hq).1, mapped_mono e5 (hout.proofMapped q hq).2⟩ }
    obtain ⟨t1, -, -⟩ := C32_compute_cells_and_kzg_proofs (ToyHeap.allocator _) t 16 4096 oc op ctx (by decide)
      (by rw [e5.ctxs, e4.ctxs, hs]; simp [ToyHeap.start]) blob hlen (by decide) (holds_mono (e4.trans e5) hb) cp pp hout'
    obtain ⟨⟨s', hs', hw, -, -⟩, hcl, hcs, hpl, hps⟩ := t1 cells proofs hr
    rw [show (⟨4096, 131072⟩ : CsArray).fixed = 4096 from rfl, throwOnError_ok hs']
    -- the new copies are not written by the call
    have below : ∀ q n, Mapped s₄.mem q n → 0 < n → q + n ≤ 2 ^ 62 := by
      intro q n hm hn
      by_contra hc
      obtain ⟨b, hb⟩ := hm (n - 1) (by omega)
      rw [u4 _ (by omega)] at hb
      cases hb
    have same : ∀ a, 2 ^ 62 ≤ a → s'.mem a = t.mem a := by
      intro a ha
      refine hw.2 a ?_
      rintro ⟨q, x⟩ hrm
      rcases List.mem_append.1 hrm with hrm | hrm
      · have := List.of_mem_zip hrm
        have hlt := below q 2048 (hout.cellMapped q this.1).2 (by norm_num)
        have := hcs x this.2
        right; show q + x.length ≤ a
        omega
      · have := List.of_mem_zip hrm
        have hlt := below q 48 (hout.proofMapped q this.1).2 (by norm_num)
        have := hps x this.2
        right; show q + x.length ≤ a
        omega
    have zero : ∀ i p n, n ≤ 2048 → (cp ++ pp)[i]? = some p → Holds s₄.mem p (List.replicate n 0) →
        Holds s'.mem (2 ^ 62 + 2048 * i) (List.replicate n 0) := by
      intro i p n hn hi hp j b hj
      have hjn : j < n := by
        have := (List.getElem?_eq_some_iff.1 hj).1
        rwa [List.length_replicate] at this
      rw [same _ (by omega), ht, moveUp_mem u4 _ hi (by omega)]
      exact hp j b hj
    have hsplit : (moveUp s₄ (cp ++ pp)).2 = (List.range 128).map (fun i => 2 ^ 62 + 2048 * i) ++
        (List.range 128).map (fun i => 2 ^ 62 + 2048 * (128 + i)) := by
      rw [moveUp_addrs u4, List.length_append, lc, lp, List.range_add, List.map_append, List.map_map]
      rfl
    have hlen128 : ((List.range 128).map (fun i => 2 ^ 62 + 2048 * i)).length = 128 := by rw [List.length_map, List.length_range]
    refine ⟨s', ?_⟩
    rw [hsplit, List.take_left' (show ((List.range 128).map (fun i => 2 ^ 62 + 2048 * i)).length = CELLS_PER_EXT_BLOB from hlen128),
      List.drop_left' (show ((List.range 128).map (fun i => 2 ^ 62 + 2048 * i)).length = CELLS_PER_EXT_BLOB from hlen128),
      CM.bind_ok (readAll_ok (n := BYTES_PER_CELL) (items := List.replicate 128 (List.replicate 2048 0)) (by rw [List.length_map, List.length_range, List.length_replicate])
        (by intro x hx; rw [List.eq_of_mem_replicate hx, List.length_replicate]; rfl) ?_),
      CM.bind_ok (readAll_ok (n := BYTES_PER_COMMITMENT) (items := List.replicate 128 (List.replicate 48 0)) (by rw [List.length_map, List.length_range, List.length_replicate])
        (by intro x hx; rw [List.eq_of_mem_replicate hx, List.length_replicate]) ?_)]
    · rfl
    · rintro ⟨q, x⟩ hrm
      obtain ⟨m1, m2⟩ := List.of_mem_zip hrm
      obtain ⟨i, hi, rfl⟩ := List.mem_map.1 m1
      rw [List.eq_of_mem_replicate m2]
      rw [List.mem_range] at hi
      have hg : (cp ++ pp)[128 + i]? = some (pp[i]'(by omega)) := by
        rw [List.getElem?_append_right (by omega), lc, Nat.add_sub_cancel_left]
        exact List.getElem?_eq_getElem _
      exact zero _ _ _ (by norm_num) hg (holds_mono (h3.ext.trans h4.ext) (h2.each _ (List.getElem_mem _)).2.2.1)
    · rintro ⟨q, x⟩ hrm
      obtain ⟨m1, m2⟩ := List.of_mem_zip hrm
      obtain ⟨i, hi, rfl⟩ := List.mem_map.1 m1
      rw [List.eq_of_mem_replicate m2]
      rw [List.mem_range] at hi
      have hg : (cp ++ pp)[i]? = some (cp[i]'(by omega)) := by
        rw [List.getElem?_append_left (by omega)]
        exact List.getElem?_eq_getElem _
      exact zero _ _ _ le_rfl hg (holds_mono ((h2.ext.trans h3.ext).trans h4.ext) (h1.each _ (List.getElem_mem _)).2.2.1)
  rcases key with ⟨ho, -⟩ | h
  · refine absurd ho (ToyHeap.not_outOfMemory (ToyHeap.start_top _ _) ?_)
    rw [hlen]
    decide +kernel
  · exact h

/-- C41, the part that holds: if the collector moves none of the arrays (it may change memory that was not in use), the caller gets the cells
and proofs of the blob, unless one of the allocations fails. -/
theorem C41_csharp_partial (H : Heap (DASContext K G1 G2)) (A : Allocator (DASContext K G1 G2)) (gc : Gc (DASContext K G1 G2))
    (hgc : ∀ s l, Extends s (gc s l).1 ∧ (gc s l).2 = l) (s : CState (DASContext K G1 G2)) (ctxp : Nat) (ctx : DASContext K G1 G2)
    (h0 : ctxp ≠ 0) (hctx : s.ctxs ctxp = some ctx) (blob : CsArray) (bytes : List UInt8)
    (hb : ArrayHolds s.mem blob.addr blob.length bytes) (hlen : blob.length = 131072)
    (cells proofs : List (List UInt8)) (hr : ctx.computeCellsAndKzgProofs bytes = .ok (cells, proofs)) :
    (OutOfMemory H A s (List.replicate 128 2048 ++ (List.replicate 128 48 ++ [1024, 1024])) none ∧
      csComputeCellsAndKZGProofs H A gc ctxp blob s = .panic) ∨
    ∃ s', csComputeCellsAndKZGProofs H A gc ctxp blob s = .ok (cells, proofs) s' ∧ Extends s s' := by
  have hl := hb.length
  let P : COut (DASContext K G1 G2) CsException (List (List UInt8) × List (List UInt8)) → Prop := fun r =>
    ∃ s', r = .ok (cells, proofs) s' ∧ Extends s s'
  show _ ∨ P _
  unfold csComputeCellsAndKZGProofs
  rw [if_neg (show ¬ blob.length ≠ BYTES_PER_BLOB from fun hn => hn hlen)]
  have hfix : blob.fixed = blob.addr := by unfold CsArray.fixed; rw [if_neg (by omega)]
  refine newAll_bind (P := P) H A BYTES_PER_CELL (by decide) (List.range CELLS_PER_EXT_BLOB) ?_
  intro cp s₁ lc h1
  replace lc : cp.length = 128 := by rw [lc, List.length_range]; rfl
  refine newAll_bind (P := P) H A BYTES_PER_COMMITMENT (by decide) (List.range CELLS_PER_EXT_BLOB) ?_
  intro pp s₂ lp h2
  replace lp : pp.length = 128 := by rw [lp, List.length_range]; rfl
  refine newArray_bind (P := P) H A (cp.flatMap wordBytes) (by rw [length_flatMap_wordBytes, lc]) ?_
  intro oc s₃ h3 _ _
  refine newArray_bind (P := P) H A (pp.flatMap wordBytes) (by rw [length_flatMap_wordBytes, lp]) ?_
  intro op s₄ h4 _ _
  right
  have hcol : (collect gc (cp ++ pp) : CM (DASContext K G1 G2) CsException (List Nat)) s₄ = .ok (gc s₄ (cp ++ pp)).2 (gc s₄ (cp ++ pp)).1 := rfl
  rw [CM.bind_ok hcol, (hgc s₄ (cp ++ pp)).2, hfix]
  generalize ht : (gc s₄ (cp ++ pp)).1 = t
  have e5 : Extends s₄ t := ht ▸ (hgc s₄ (cp ++ pp)).1
  have e4 : Extends s t := (((h1.ext.trans h2.ext).trans h3.ext).trans h4.ext).trans e5
  have hout := managed_outBuffers h1 (Extends.refl _) h2 (Extends.refl _) h3 h4 lc lp
  have hout' : Spec.OutBuffers t.mem oc op cp pp := { hout with
    cells := holdsWords_mono e5 hout.cells
    proofs := holdsWords_mono e5 hout.proofs
    cellMapped := fun q hq => ⟨(hout.cellMapped q hq).1, mapped_mono e5 (hout.cellMapped q hq).2⟩
    proofMapped := fun q hq => ⟨(hout.proofMapped q hq).1, mapped_mono e5 (hout.proofMapped q hq).2⟩ }
  obtain ⟨t1, -, -⟩ := C32_compute_cells_and_kzg_proofs A t ctxp blob.addr oc op ctx h0 (by rw [e4.ctxs, hctx]) bytes (by omega)
    hb.ne (holds_mono e4 hb.holds) cp pp hout'
  obtain ⟨⟨s', hs', hw, hc, hst⟩, hcl, hcs, hpl, hps⟩ := t1 cells proofs hr
  rw [throwOnError_ok hs']
  refine ⟨s', ?_, ?_⟩
  · rw [List.take_left' (show cp.length = CELLS_PER_EXT_BLOB from lc), List.drop_left' (show cp.length = CELLS_PER_EXT_BLOB from lc),
      CM.bind_ok (readAll_ok (n := BYTES_PER_CELL) (by rw [lc, hcl]) hcs fun r hrm => hw.1 r (by simp [hrm])),
      CM.bind_ok (readAll_ok (n := BYTES_PER_COMMITMENT) (by rw [lp, hpl]) hps fun r hrm => hw.1 r (by simp [hrm]))]
    rfl
  · refine extends_of_wrote e4 hw hc hst ?_
    rintro ⟨q, x⟩ hrm i hi
    rcases List.mem_append.1 hrm with hrm | hrm
    · have := List.of_mem_zip hrm
      exact (h1.each q this.1).2.2.2 i (by rw [hcs x this.2] at hi; exact hi)
    · have := List.of_mem_zip hrm
      exact unmapped_before h1.ext ((h2.each q this.1).2.2.2 i (by rw [hps x this.2] at hi; exact hi))

/-- no collection at all is such a collector -/
example (s : CState Ctx) (l : List Nat) : Extends s (noGc s l).1 ∧ (noGc s l).2 = l := ⟨Extends.refl s, rfl⟩

end

open Toy in
/-- C41 is false: there are a process, a collector that keeps all contents, a context and a blob, such that the wrapper returns cells that
are not the cells of the blob, and no exception. -/
theorem C41_csharp_refuted : ∃ (H : Heap (DASContext Fr Fr Fr)) (A : Allocator (DASContext Fr Fr Fr)) (gc : Gc (DASContext Fr Fr Fr))
    (s s' : CState (DASContext Fr Fr Fr)) (ctxp addr : Nat) (ctx : DASContext Fr Fr Fr) (b : List UInt8)
    (cells proofs : List (List UInt8)) (r : List (List UInt8) × List (List UInt8)), Spec.KeepsContents gc ∧ s.ctxs ctxp = some ctx ∧
      ArrayHolds s.mem addr 131072 b ∧ ctx.computeCellsAndKzgProofs b = .ok (cells, proofs) ∧
      csComputeCellsAndKZGProofs H A gc ctxp ⟨addr, 131072⟩ s = .ok r s' ∧ r.1 ≠ cells := by
  obtain ⟨ctx, hctx⟩ := context 7
  obtain ⟨c, p, h, -⟩ := C04_proofs (setup 7) 7 1 1 (powersOfTau 7) ctx hctx blob' _ blob_poly'
  have hlen : blob'.length = 131072 := blob_poly'.2.1
  obtain ⟨s', hs'⟩ := C41_csharp_collected ctx blob' hlen c p h
  refine ⟨_, _, moveUp, ToyHeap.start ctx blob', s', 16, 4096, ctx, blob', c, p, _, moveUp_keeps, by simp [ToyHeap.start],
    ⟨hlen.symm, by decide, by rw [hlen]; norm_num, ToyHeap.start_holds _ _⟩, h, hs', ?_⟩
  intro he
  have hc := C01_first_cells_are_the_blob (setup 7) .no (powersOfTau 7).length_g1 ctx hctx blob' hlen c p h
  rw [← he] at hc
  have hz : ∀ b ∈ blob', b = 0 := by
    intro b hb
    rw [← hc] at hb
    obtain ⟨l, hl, hbl⟩ := List.mem_flatten.1 hb
    rw [List.eq_of_mem_replicate (List.mem_of_mem_take hl)] at hbl
    exact List.eq_of_mem_replicate hbl
  have h9 := blob_poly'.2.2 0 (by norm_num)
  have hblock : Spec.block 32 0 blob' = List.replicate 32 0 := by
    rw [List.eq_replicate_iff]
    exact ⟨h9.1, fun b hb => hz b (List.mem_of_mem_drop (List.mem_of_mem_take hb))⟩
  have h0 : Spec.beValue (List.replicate 32 0) = 0 := by decide
  have h2 := h9.2
  rw [hblock, h0, Polynomial.eval_C] at h2
  exact absurd h2 (by decide +kernel)

end Verif
