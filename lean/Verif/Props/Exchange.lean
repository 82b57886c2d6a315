import Verif.Lemmas.Exchange
import Verif.Props.Bindings
import Verif.Props.CApi
import Verif.Props.CSharp
import Verif.Props.Go
import Verif.Props.Nim
import Verif.Props.Precomp
import Verif.Props.Proofs
import Verif.Props.Recovery

set_option linter.unusedSectionVars false

/-! C72: parties that use the library through different languages exchange commitments, cells and proofs. -/
namespace Verif
open Spec

section
variable {K G1 G2 GT : Type} [Field K] [DecidableEq K] [AddCommGroup G1] [Module Fr G1] [DecidableEq G1]
  [Curve K G1] [PointCodec G1] [AddCommGroup G2] [Module Fr G2] [AddCommGroup GT] [DecidableEq GT]
  [Pairing G1 G2 GT] [LawfulPointCodec G1 48]
variable {ctx : DASContext K G1 G2}

/-- C72: whatever the language, the caller gets the commitment of the library or an error when the library gives an error; a blob of the
wrong size gives an error. -/
theorem C72_commit {blob : List UInt8} {r : Option (List UInt8)} (h : CommitEnds ctx blob r) :
    (blob.length = 131072 ∧ Reports (ctx.blobToKzgCommitment blob) r) ∨ (blob.length ≠ 131072 ∧ r = none) := by
  cases h with
  | rust hl hr => exact .inl ⟨hl, hr⟩
  | node hr =>
    obtain ⟨h1, h2⟩ := C34_node_blob ctx blob
    by_cases hl : blob.length = 131072
    · obtain ⟨h3, -⟩ := h2 hl
      rw [h3] at hr
      exact .inl ⟨hl, reports_mapErr hr⟩
    · obtain ⟨h3, -⟩ := h1 hl
      rw [h3] at hr
      cases hr
      exact .inr ⟨hl, rfl⟩
  | java P debug arg rj ha hr hrel =>
    obtain ⟨h1, h2⟩ := C34_java_blob_to_kzg_commitment P.state debug ⟨P.ptr⟩ ctx P.ne P.has arg blob ha
    rw [javaBytes_length ha] at h1 h2
    by_cases hl : blob.length = 131072
    · refine .inl ⟨hl, ?_⟩
      obtain ⟨h3, h4, h5⟩ := h2 hl
      rcases hlib : ctx.blobToKzgCommitment blob with c | e | _
      · obtain ⟨x, hx, hc⟩ := h3 c hlib
        rw [hx] at hr
        cases hr
        cases hrel with
        | some hb => rw [javaBytes_unique hb hc]; exact .value c
      · rw [h4 e hlib] at hr
        cases hr
        cases hrel
        exact .error e
      · rw [h5 hlib] at hr
        cases hr
    · rw [h1 hl] at hr
      cases hr
      cases hrel
      exact .inr ⟨hl, rfl⟩
  | csharp P arg ha hr =>
    obtain ⟨h1, h2⟩ := C34_csharp_blob_to_kzg_commitment P.heap P.allocator P.state P.ptr ctx P.ne P.has arg blob ha
    rw [ha.length] at h1 h2
    by_cases hl : blob.length = 131072
    · exact .inl ⟨hl, reports_of_answers (h2 hl) hr⟩
    · rw [h1 hl] at hr
      cases hr
      exact .inr ⟨hl, rfl⟩
  | nim P dollar arg hl h0 ha hr =>
    exact .inl ⟨hl, reports_of_answersText
      (C42_nim_blob_to_kzg_commitment P.heap P.allocator dollar P.state P.ptr ctx P.ne P.has arg blob hl h0 ha) hr⟩
  | cOk P arg out msg s' c hl h0 ha ho hm hcall hcl hc =>
    obtain ⟨h1, h2, h3⟩ := C32_blob_to_kzg_commitment P.allocator P.state P.ptr arg out ctx P.ne P.has blob hl h0 ha ho hm
    refine .inl ⟨hl, ?_⟩
    rcases hlib : ctx.blobToKzgCommitment blob with c' | e | _
    · obtain ⟨⟨s'', hs, hw, -⟩, hl'⟩ := h1 c' hlib
      rw [hs] at hcall
      cases hcall
      rw [holds_unique (hcl.trans hl'.symm) hc (hw.1 (out, c') (by simp))]
      exact .value c'
    · rcases h2 e hlib with ⟨-, hs⟩ | ⟨p, s'', hs, -⟩ <;> rw [hs] at hcall <;> cases hcall
    · rw [h3 hlib] at hcall
      cases hcall
  | cErr P arg out msg s' hl h0 ha ho hm hcall =>
    obtain ⟨h1, h2, h3⟩ := C32_blob_to_kzg_commitment P.allocator P.state P.ptr arg out ctx P.ne P.has blob hl h0 ha ho hm
    refine .inl ⟨hl, ?_⟩
    rcases hlib : ctx.blobToKzgCommitment blob with c' | e | _
    · obtain ⟨⟨s'', hs, -⟩, -⟩ := h1 c' hlib
      rw [hs] at hcall
      cases hcall
    · exact .error e
    · rw [h3 hlib] at hcall
      cases hcall

/-- C72 (Go): the commitment of a blob that the library accepts is the commitment of the library. For a blob that it rejects the wrapper
returns zero bytes and no error, see C35. -/
theorem C72_commit_go {blob c : List UInt8} (h : GoCommits ctx blob c) (c' : List UInt8) (hlib : ctx.blobToKzgCommitment blob = .ok c')
    : c = c' := by
  obtain ⟨P, addr, len, s', hb, hcall⟩ := h
  obtain ⟨h1, h2⟩ := C35_go_partial P.heap P.allocator P.state P.ptr ctx P.ne P.has addr len blob hb
  by_cases hl : len = 131072
  · rcases h2 hl c' hlib with ⟨-, h⟩ | ⟨s'', h, -⟩ <;> rw [h] at hcall <;> cases hcall
    rfl
  · rw [h1 hl] at hcall
    cases hcall

/-- C72: whatever the language, the caller gets the cells and proofs of the library or an error when the library gives an error; a blob
of the wrong size gives an error. -/
theorem C72_prove {blob : List UInt8} {r : Option (List (List UInt8) × List (List UInt8))} (h : ProveEnds ctx blob r) :
    (blob.length = 131072 ∧ Reports (ctx.computeCellsAndKzgProofs blob) r) ∨ (blob.length ≠ 131072 ∧ r = none) := by
  cases h with
  | rust hl hr => exact .inl ⟨hl, hr⟩
  | node hr =>
    obtain ⟨h1, h2⟩ := C34_node_blob ctx blob
    by_cases hl : blob.length = 131072
    · obtain ⟨-, h3, -⟩ := h2 hl
      rw [h3] at hr
      exact .inl ⟨hl, reports_mapErr hr⟩
    · obtain ⟨-, h3, -⟩ := h1 hl
      rw [h3] at hr
      cases hr
      exact .inr ⟨hl, rfl⟩
  | java P debug arg rj ha hr hrel =>
    obtain ⟨h1, h2⟩ := C34_java_compute_cells_and_kzg_proofs P.state debug ⟨P.ptr⟩ ctx P.ne P.has arg blob ha
    rw [javaBytes_length ha] at h1 h2
    by_cases hl : blob.length = 131072
    · refine .inl ⟨hl, ?_⟩
      obtain ⟨h3, h4, h5⟩ := h2 hl
      rcases hlib : ctx.computeCellsAndKzgProofs blob with ⟨c, p⟩ | e | _
      · obtain ⟨cj, pj, hx, hc, hp⟩ := h3 c p hlib
        rw [hx] at hr
        cases hr
        cases hrel with
        | @some _ b hb =>
          obtain ⟨b1, b2⟩ := b
          obtain ⟨hb1, hb2⟩ := hb
          rw [show b1 = c from javaItems_unique hb1 hc, show b2 = p from javaItems_unique hb2 hp]
          exact .value _
      · rw [h4 e hlib] at hr
        cases hr
        cases hrel
        exact .error e
      · rw [h5 hlib] at hr
        cases hr
    · rw [h1 hl] at hr
      cases hr
      cases hrel
      exact .inr ⟨hl, rfl⟩
  | csharp P arg ha hr =>
    obtain ⟨h1, h2⟩ := C34_csharp_compute_cells_and_kzg_proofs P.heap P.allocator P.state P.ptr ctx P.ne P.has arg blob ha
    rw [ha.length] at h1 h2
    by_cases hl : blob.length = 131072
    · exact .inl ⟨hl, reports_of_answers (h2 hl) hr⟩
    · rw [h1 hl] at hr
      cases hr
      exact .inr ⟨hl, rfl⟩
  | nim P dollar arg hl h0 ha hr =>
    exact .inl ⟨hl, reports_of_answersText
      (C42_nim_compute_cells_and_proofs P.heap P.allocator dollar P.state P.ptr ctx P.ne P.has arg blob hl h0 ha) hr⟩
  | cOk P arg outCells outProofs msg cp pp s' cells proofs hl h0 ha ho hcall hc hp =>
    obtain ⟨h1, h2, h3⟩ := C32_compute_cells_and_kzg_proofs P.allocator P.state P.ptr arg outCells outProofs ctx P.ne P.has blob hl h0
      ha cp pp ho
    refine .inl ⟨hl, ?_⟩
    rcases hlib : ctx.computeCellsAndKzgProofs blob with ⟨c', p'⟩ | e | _
    · obtain ⟨⟨s'', hs, hw, -⟩, n1, n2, n3, n4⟩ := h1 c' p' hlib
      rw [hs] at hcall
      cases hcall
      rw [buffersHold_unique hc (buffersHold_of (ho.cellsLength.trans n1.symm) n2 (fun r hr => hw.1 r (List.mem_append_left _ hr))),
        buffersHold_unique hp (buffersHold_of (ho.proofsLength.trans n3.symm) n4 (fun r hr => hw.1 r (List.mem_append_right _ hr)))]
      exact .value _
    · rcases h2 e hlib with ⟨-, hs⟩ | ⟨p, s'', hs, -⟩ <;> rw [hs] at hcall <;> cases hcall
    · rw [h3 hlib] at hcall
      cases hcall
  | cErr P arg outCells outProofs msg cp pp s' hl h0 ha ho hcall =>
    obtain ⟨h1, h2, h3⟩ := C32_compute_cells_and_kzg_proofs P.allocator P.state P.ptr arg outCells outProofs ctx P.ne P.has blob hl h0
      ha cp pp ho
    refine .inl ⟨hl, ?_⟩
    rcases hlib : ctx.computeCellsAndKzgProofs blob with ⟨c', p'⟩ | e | _
    · obtain ⟨⟨s'', hs, -⟩, -⟩ := h1 c' p' hlib
      rw [hs] at hcall
      cases hcall
    · exact .error e
    · rw [h3 hlib] at hcall
      cases hcall

/-- C72: the same for recovery. -/
theorem C72_recover {inds : List Nat} {cells : List (List UInt8)} {r : Option (List (List UInt8) × List (List UInt8))}
    (h : RecoverEnds ctx inds cells r) :
    (Sized 2048 cells ∧ Reports (ctx.recoverCellsAndKzgProofs inds cells) r) ∨ (¬ Sized 2048 cells ∧ r = none) := by
  cases h with
  | rust hl hr => exact .inl ⟨hl, hr⟩
  | node is hi hr =>
    obtain ⟨h1, h2⟩ := C34_node_recover_cells_and_kzg_proofs ctx cells is inds hi
    by_cases hl : Sized 2048 cells
    · rw [h2 hl] at hr
      exact .inl ⟨hl, reports_mapErr hr⟩
    · obtain ⟨got, hg⟩ := firstWrong_of_not_sized hl
      rw [h1 got hg] at hr
      cases hr
      exact .inr ⟨hl, rfl⟩
  | java P debug is arg rj hi ha hr hrel =>
    obtain ⟨h1, h2⟩ := C34_java_recover_cells_and_kzg_proofs P.state debug ⟨P.ptr⟩ ctx P.ne P.has arg is cells inds ha hi _ rfl
    by_cases hl : Sized 2048 cells
    · refine .inl ⟨hl, ?_⟩
      obtain ⟨h3, h4, h5⟩ := h2 ((sized_javaItems ha).2 hl)
      rcases hlib : ctx.recoverCellsAndKzgProofs inds cells with ⟨c, p⟩ | e | _
      · obtain ⟨cj, pj, hx, hc, hp⟩ := h3 c p hlib
        rw [hx] at hr
        cases hr
        cases hrel with
        | @some _ b hb =>
          obtain ⟨b1, b2⟩ := b
          obtain ⟨hb1, hb2⟩ := hb
          rw [show b1 = c from javaItems_unique hb1 hc, show b2 = p from javaItems_unique hb2 hp]
          exact .value _
      · rw [h4 e hlib] at hr
        cases hr
        cases hrel
        exact .error e
      · rw [h5 hlib] at hr
        cases hr
    · obtain ⟨got, hg⟩ := firstWrong_of_not_sized (fun hs => hl ((sized_javaItems ha).1 hs))
      rw [h1 got hg] at hr
      cases hr
      cases hrel
      exact .inr ⟨hl, rfl⟩
  | csharp P is arg hil hi ha hr =>
    obtain ⟨h1, h2⟩ := C34_csharp_recover_cells_and_kzg_proofs P.heap P.allocator P.state P.ptr ctx P.ne P.has is inds hil hi arg cells ha
    by_cases hl : Sized 2048 cells
    · exact .inl ⟨hl, reports_of_answers (h2 ((sized_csItems ha).2 hl)) hr⟩
    · obtain ⟨pre, a, post, hg, hpre, hne⟩ := firstWrong_arrays (fun hs => hl ((sized_csItems ha).1 hs))
      rw [h1 pre a post hg hpre hne noGc] at hr
      cases hr
      exact .inr ⟨hl, rfl⟩
  | nim P dollar is arg hil hi ha hr =>
    exact .inl ⟨ha.sized, reports_of_answersText
      (C42_nim_recover_cells_and_proofs P.heap P.allocator dollar P.state P.ptr ctx P.ne P.has is inds hil hi arg cells ha) hr⟩
  | cOk P cellsp indsp outCells outProofs msg cp pp s' cells' proofs' hl ha hi ho hcall hc hp =>
    obtain ⟨h1, h2, h3⟩ := C32_recover_cells_and_proofs P.allocator P.state P.ptr cells.length cellsp inds.length indsp outCells
      outProofs ctx P.ne P.has cells rfl hl ha inds rfl hi cp pp ho
    refine .inl ⟨hl, ?_⟩
    rcases hlib : ctx.recoverCellsAndKzgProofs inds cells with ⟨c', p'⟩ | e | _
    · obtain ⟨⟨s'', hs, hw, -⟩, n1, n2, n3, n4⟩ := h1 c' p' hlib
      rw [hs] at hcall
      cases hcall
      rw [buffersHold_unique hc (buffersHold_of (ho.cellsLength.trans n1.symm) n2 (fun r hr => hw.1 r (List.mem_append_left _ hr))),
        buffersHold_unique hp (buffersHold_of (ho.proofsLength.trans n3.symm) n4 (fun r hr => hw.1 r (List.mem_append_right _ hr)))]
      exact .value _
    · rcases h2 e hlib with ⟨-, hs⟩ | ⟨p, s'', hs, -⟩ <;> rw [hs] at hcall <;> cases hcall
    · rw [h3 hlib] at hcall
      cases hcall
  | cErr P cellsp indsp outCells outProofs msg cp pp s' hl ha hi ho hcall =>
    obtain ⟨h1, h2, h3⟩ := C32_recover_cells_and_proofs P.allocator P.state P.ptr cells.length cellsp inds.length indsp outCells
      outProofs ctx P.ne P.has cells rfl hl ha inds rfl hi cp pp ho
    refine .inl ⟨hl, ?_⟩
    rcases hlib : ctx.recoverCellsAndKzgProofs inds cells with ⟨c', p'⟩ | e | _
    · obtain ⟨⟨s'', hs, -⟩, -⟩ := h1 c' p' hlib
      rw [hs] at hcall
      cases hcall
    · exact .error e
    · rw [h3 hlib] at hcall
      cases hcall

/-- C72: the same for verification; an invalid proof is the answer false in every language. -/
theorem C72_verify {sha256 : List UInt8 → List UInt8} {commitments : List (List UInt8)} {inds : List Nat}
    {cells proofs : List (List UInt8)} {r : Option Bool} (h : VerifyEnds ctx sha256 commitments inds cells proofs r)
    (v : Outcome Error Bool) (hv : Verdict (ctx.verifyCellKzgProofBatch sha256 commitments inds cells proofs) v) :
    ((Sized 48 commitments ∧ Sized 2048 cells ∧ Sized 48 proofs) ∧ Reports v r) ∨
      (¬ (Sized 48 commitments ∧ Sized 2048 cells ∧ Sized 48 proofs) ∧ r = none) := by
  cases h with
  | rust h1 h2 h3 hv' hr => exact .inl ⟨⟨h1, h2, h3⟩, verdict_functional hv hv' ▸ hr⟩
  | node is hi hr =>
    obtain ⟨h1, h2, h3, h4⟩ := C34_node_verify_cell_kzg_proof_batch sha256 ctx commitments cells proofs is inds hi _ rfl _ rfl
    by_cases l1 : Sized 48 commitments
    swap
    · obtain ⟨got, hg⟩ := firstWrong_of_not_sized l1
      rw [h1 got hg] at hr
      cases hr
      exact .inr ⟨fun h => l1 h.1, rfl⟩
    by_cases l2 : Sized 2048 cells
    swap
    · obtain ⟨got, hg⟩ := firstWrong_of_not_sized l2
      rw [h2 l1 got hg] at hr
      cases hr
      exact .inr ⟨fun h => l2 h.2.1, rfl⟩
    by_cases l3 : Sized 48 proofs
    swap
    · obtain ⟨got, hg⟩ := firstWrong_of_not_sized l3
      rw [h3 l1 l2 got hg] at hr
      cases hr
      exact .inr ⟨fun h => l3 h.2.2, rfl⟩
    refine .inl ⟨⟨l1, l2, l3⟩, ?_⟩
    obtain ⟨k1, k2, k3, k4⟩ := h4 l1 l2 l3
    generalize ctx.verifyCellKzgProofBatch sha256 commitments inds cells proofs = lib at hv k1 k2 k3 k4
    cases hv with
    | valid => rw [k1 rfl] at hr; cases hr; exact .value _
    | invalid e => rw [k2 e rfl] at hr; cases hr; exact .value _
    | error e hne => rw [k3 e rfl hne] at hr; cases hr; exact .error _
    | panic => rw [k4 rfl] at hr; cases hr
  | java P debug is cmj clj pfj hi hcm hcl hpf hr =>
    obtain ⟨h1, h2, h3, h4⟩ := C34_java_verify_cell_kzg_proof_batch P.state debug sha256 ⟨P.ptr⟩ ctx P.ne P.has cmj clj pfj is commitments
      cells proofs inds hcm hcl hpf hi _ rfl _ rfl
    by_cases l2 : Sized 2048 cells
    swap
    · obtain ⟨got, hg⟩ := firstWrong_of_not_sized (fun hs => l2 ((sized_javaItems hcl).1 hs))
      rw [h1 got hg] at hr
      cases hr
      exact .inr ⟨fun h => l2 h.2.1, rfl⟩
    have l2' := (sized_javaItems hcl).2 l2
    by_cases l1 : Sized 48 commitments
    swap
    · obtain ⟨got, hg⟩ := firstWrong_of_not_sized (fun hs => l1 ((sized_javaItems hcm).1 hs))
      rw [h2 l2' got hg] at hr
      cases hr
      exact .inr ⟨fun h => l1 h.1, rfl⟩
    have l1' := (sized_javaItems hcm).2 l1
    by_cases l3 : Sized 48 proofs
    swap
    · obtain ⟨got, hg⟩ := firstWrong_of_not_sized (fun hs => l3 ((sized_javaItems hpf).1 hs))
      rw [h3 l2' l1' got hg] at hr
      cases hr
      exact .inr ⟨fun h => l3 h.2.2, rfl⟩
    refine .inl ⟨⟨l1, l2, l3⟩, ?_⟩
    obtain ⟨k1, k2, k3, k4⟩ := h4 l2' l1' ((sized_javaItems hpf).2 l3)
    generalize ctx.verifyCellKzgProofBatch sha256 commitments inds cells proofs = lib at hv k1 k2 k3 k4
    cases hv with
    | valid => rw [k1 rfl] at hr; cases hr; exact .value _
    | invalid e => rw [k2 e rfl] at hr; cases hr; exact .value _
    | error e hne => rw [k3 e rfl hne] at hr; cases hr; exact .error _
    | panic => rw [k4 rfl] at hr; cases hr
  | csharp P is cma cla pfa hil hi hcm hcl hpf hr =>
    obtain ⟨h1, h2, h3, h4⟩ := C34_csharp_verify_cell_kzg_proof_batch P.heap P.allocator P.state sha256 P.ptr ctx P.ne P.has is inds hil hi
      cma cla pfa commitments cells proofs hcm hcl hpf v hv
    by_cases l2 : Sized 2048 cells
    swap
    · obtain ⟨pre, a, post, hg, hpre, hne⟩ := firstWrong_arrays (fun hs => l2 ((sized_csItems hcl).1 hs))
      rw [h1 pre a post hg hpre hne noGc] at hr
      cases hr
      exact .inr ⟨fun h => l2 h.2.1, rfl⟩
    have l2' := (sized_csItems hcl).2 l2
    by_cases l3 : Sized 48 proofs
    swap
    · obtain ⟨pre, a, post, hg, hpre, hne⟩ := firstWrong_arrays (fun hs => l3 ((sized_csItems hpf).1 hs))
      rw [h2 l2' pre a post hg hpre hne noGc] at hr
      cases hr
      exact .inr ⟨fun h => l3 h.2.2, rfl⟩
    have l3' := (sized_csItems hpf).2 l3
    by_cases l1 : Sized 48 commitments
    swap
    · obtain ⟨pre, a, post, hg, hpre, hne⟩ := firstWrong_arrays (fun hs => l1 ((sized_csItems hcm).1 hs))
      rw [h3 l2' l3' pre a post hg hpre hne noGc] at hr
      cases hr
      exact .inr ⟨fun h => l1 h.1, rfl⟩
    exact .inl ⟨⟨l1, l2, l3⟩, reports_of_answers (h4 l2' l3' ((sized_csItems hcm).2 l1)) hr⟩
  | nim P dollar is cma cla pfa hil hi hcm hcl hpf hr =>
    exact .inl ⟨⟨hcm.sized, hcl.sized, hpf.sized⟩, reports_of_answersText
      (C42_nim_verify_cell_kzg_proof_batch P.heap P.allocator dollar P.state sha256 P.ptr ctx P.ne P.has is inds hil hi cma cla pfa
        commitments cells proofs hcm hcl hpf v hv) hr⟩
  | cOk P cmp indsp clp pfp out msg s' b l1 l2 l3 hcm hi hcl hpf h0 hm hcall hb =>
    obtain ⟨h1, h2, h3, h4⟩ := C32_verify_cell_kzg_proof_batch P.allocator P.state sha256 P.ptr commitments.length cmp inds.length indsp
      cells.length clp proofs.length pfp out ctx P.ne P.has commitments rfl l1 hcm inds rfl hi cells rfl l2 hcl proofs rfl l3 hpf h0 hm
    refine .inl ⟨⟨l1, l2, l3⟩, ?_⟩
    generalize ctx.verifyCellKzgProofBatch sha256 commitments inds cells proofs = lib at hv h1 h2 h3 h4
    cases hv with
    | valid =>
      obtain ⟨s'', hs, hw, -⟩ := h1 rfl
      rw [hs] at hcall
      cases hcall
      have := hw.1 (out, [1]) (by simp) 0 1 rfl
      rw [Nat.add_zero, hb] at this
      cases this
      exact .value true
    | invalid e =>
      obtain ⟨s'', hs, hw, -⟩ := h2 e rfl
      rw [hs] at hcall
      cases hcall
      have := hw.1 (out, [0]) (by simp) 0 0 rfl
      rw [Nat.add_zero, hb] at this
      cases this
      exact .value false
    | error e hne => rcases h3 e rfl hne with ⟨-, hs⟩ | ⟨p, s'', hs, -⟩ <;> rw [hs] at hcall <;> cases hcall
    | panic => rw [h4 rfl] at hcall; cases hcall
  | cErr P cmp indsp clp pfp out msg s' l1 l2 l3 hcm hi hcl hpf h0 hm hcall =>
    obtain ⟨h1, h2, h3, h4⟩ := C32_verify_cell_kzg_proof_batch P.allocator P.state sha256 P.ptr commitments.length cmp inds.length indsp
      cells.length clp proofs.length pfp out ctx P.ne P.has commitments rfl l1 hcm inds rfl hi cells rfl l2 hcl proofs rfl l3 hpf h0 hm
    refine .inl ⟨⟨l1, l2, l3⟩, ?_⟩
    generalize ctx.verifyCellKzgProofBatch sha256 commitments inds cells proofs = lib at hv h1 h2 h3 h4
    cases hv with
    | valid =>
      obtain ⟨s'', hs, -⟩ := h1 rfl
      rw [hs] at hcall
      cases hcall
    | invalid e =>
      obtain ⟨s'', hs, -⟩ := h2 e rfl
      rw [hs] at hcall
      cases hcall
    | error e hne => exact .error e
    | panic => rw [h4 rfl] at hcall; cases hcall

/-- C72: two parties that verify the same batch, in any two languages and with any two settings of precomputation, never disagree: both
get true, both get false, or both get an error. -/
theorem C72_verifiers_agree (setup : SetupPoints G1 G2) (h1 : setup.g1Monomial.length = 4096) (up up' : UsePrecomp)
    (ctx ctx' : DASContext K G1 G2) (hctx : (DASContext.new setup up : Outcome Error (DASContext K G1 G2)) = .ok ctx)
    (hctx' : (DASContext.new setup up' : Outcome Error (DASContext K G1 G2)) = .ok ctx') (sha256 : List UInt8 → List UInt8)
    (commitments : List (List UInt8)) (inds : List Nat) (cells proofs : List (List UInt8)) (r r' : Option Bool)
    (h : VerifyEnds ctx sha256 commitments inds cells proofs r) (h' : VerifyEnds ctx' sha256 commitments inds cells proofs r') :
    r = r' := by
  obtain ⟨v, hv⟩ := verdict_exists (ctx.verifyCellKzgProofBatch sha256 commitments inds cells proofs)
  have hv' := hv
  rw [(C25_commitment_verification setup h1 up up' ctx ctx' hctx hctx').2] at hv'
  rcases C72_verify h v hv with ⟨hs, hr⟩ | ⟨hs, rfl⟩ <;> rcases C72_verify h' v hv' with ⟨hs', hr'⟩ | ⟨hs', rfl⟩
  · exact reports_functional hr hr'
  · exact absurd hs hs'
  · exact absurd hs' hs
  · rfl

/-- Contexts of the same setup with usable precomputation never give different answers. -/
theorem same_reports [LawfulCurve K G1] (setup : SetupPoints G1 G2) (h1 : setup.g1Monomial.length = 4096) (up up' : UsePrecomp)
    (hu : Usable setup.g1Monomial up) (hu' : Usable setup.g1Monomial up') (ctx ctx' : DASContext K G1 G2)
    (hctx : (DASContext.new setup up : Outcome Error (DASContext K G1 G2)) = .ok ctx)
    (hctx' : (DASContext.new setup up' : Outcome Error (DASContext K G1 G2)) = .ok ctx') :
    (∀ blob : List UInt8, blob.length = 131072 → ∀ r r', Reports (ctx.computeCellsAndKzgProofs blob) r →
      Reports (ctx'.computeCellsAndKzgProofs blob) r' → r = r') ∧
    (∀ (inds : List Nat) (cells : List (List UInt8)), Sized 2048 cells → ∀ r r', Reports (ctx.recoverCellsAndKzgProofs inds cells) r →
      Reports (ctx'.recoverCellsAndKzgProofs inds cells) r' → r = r') := by
  obtain ⟨M, hp, hM, hrs, -⟩ := context_fields setup up h1 ctx hctx
  obtain ⟨M', hp', hM', hrs', -⟩ := context_fields setup up' h1 ctx' hctx'
  have hS := msmSound_of _ h1 up hu M hM
  have hS' := msmSound_of _ h1 up' hu' M' hM'
  have sound : ∀ {x x' y : Outcome Error (List (List UInt8) × List (List UInt8))} {r r'}, (x = .panic ∨ x = y) → (x' = .panic ∨ x' = y) →
      Reports x r → Reports x' r' → r = r' := by
    rintro x x' y r r' (rfl | rfl) (rfl | rfl) h h'
    · cases h
    · cases h
    · cases h'
    · exact reports_functional h h'
  refine ⟨?_, ?_⟩
  · intro blob hb r r' hr hr'
    by_cases hex : ∃ f, Spec.IsBlobPoly blob f
    · obtain ⟨f, hf⟩ := hex
      rw [cells_of_blob hp hf] at hr
      rw [cells_of_blob hp' hf] at hr'
      exact sound (prove_sound _ h1 M hS f hf.1 _ rfl) (prove_sound _ h1 M' hS' f hf.1 _ rfl) hr hr'
    · obtain ⟨i, -, -, -, -, h4⟩ := bad_blob (ctx := ctx) hb hex
      rw [((C25_errors_and_cells setup h1 up up' ctx ctx' hctx hctx').1 blob hb).1 _ h4] at hr'
      rw [h4] at hr
      exact reports_functional hr hr'
  · intro inds cells hc r r' hr hr'
    rcases recovery_wellFormed_or_defect inds cells hc with hw | ⟨e, he⟩
    · rcases recoverPolynomialCoeff_cases hw.1 hw.2 hc hw.3 hw.4 hw.5 with ⟨⟨f, hf, h⟩ | ⟨hne, h⟩, -⟩
      · rw [recover_run hp hrs h] at hr
        rw [recover_run hp' hrs' h] at hr'
        exact sound (prove_sound _ h1 M hS f hf.1 _ rfl) (prove_sound _ h1 M' hS' f hf.1 _ rfl) hr hr'
      · rw [recover_err hrs h] at hr
        rw [recover_err hrs' h] at hr'
        exact reports_functional hr hr'
    · rw [recover_err hrs (recoverPolynomialCoeff_defect hc he _)] at hr
      rw [recover_err hrs' (recoverPolynomialCoeff_defect hc he _)] at hr'
      exact reports_functional hr hr'

/-- Commitments do not depend on the precomputation. -/
theorem same_commitment (setup : SetupPoints G1 G2) (h1 : setup.g1Monomial.length = 4096) (up up' : UsePrecomp)
    (ctx ctx' : DASContext K G1 G2) (hctx : (DASContext.new setup up : Outcome Error (DASContext K G1 G2)) = .ok ctx)
    (hctx' : (DASContext.new setup up' : Outcome Error (DASContext K G1 G2)) = .ok ctx') (blob : List UInt8) :
    ctx.blobToKzgCommitment blob = ctx'.blobToKzgCommitment blob := by
  obtain ⟨M, hp, -⟩ := context_fields setup up h1 ctx hctx
  obtain ⟨M', hp', -⟩ := context_fields setup up' h1 ctx' hctx'
  unfold DASContext.blobToKzgCommitment FK20Prover.commit
  rw [hp, hp']
  rfl

/-- C72: two parties that ask for the cells and proofs of the same blob, or recover from the same cells, in any two languages and with
any two usable settings of precomputation, never get different bytes, and never one an error and the other not. -/
theorem C72_provers_agree [LawfulCurve K G1] (setup : SetupPoints G1 G2) (h1 : setup.g1Monomial.length = 4096) (up up' : UsePrecomp)
    (hu : Usable setup.g1Monomial up) (hu' : Usable setup.g1Monomial up') (ctx ctx' : DASContext K G1 G2)
    (hctx : (DASContext.new setup up : Outcome Error (DASContext K G1 G2)) = .ok ctx)
    (hctx' : (DASContext.new setup up' : Outcome Error (DASContext K G1 G2)) = .ok ctx') :
    (∀ blob r r', CommitEnds ctx blob r → CommitEnds ctx' blob r' → r = r') ∧
    (∀ blob r r', ProveEnds ctx blob r → ProveEnds ctx' blob r' → r = r') ∧
    (∀ inds cells r r', RecoverEnds ctx inds cells r → RecoverEnds ctx' inds cells r' → r = r') := by
  obtain ⟨h2, h3⟩ := same_reports setup h1 up up' hu hu' ctx ctx' hctx hctx'
  refine ⟨fun blob r r' h h' => ?_, fun blob r r' h h' => ?_, fun inds cells r r' h h' => ?_⟩
  · rcases C72_commit h with ⟨hs, hr⟩ | ⟨hs, rfl⟩ <;> rcases C72_commit h' with ⟨hs', hr'⟩ | ⟨hs', rfl⟩
    · rw [same_commitment setup h1 up up' ctx ctx' hctx hctx' blob] at hr
      exact reports_functional hr hr'
    · exact absurd hs hs'
    · exact absurd hs' hs
    · rfl
  · rcases C72_prove h with ⟨hs, hr⟩ | ⟨hs, rfl⟩ <;> rcases C72_prove h' with ⟨hs', hr'⟩ | ⟨hs', rfl⟩
    · exact h2 blob hs r r' hr hr'
    · exact absurd hs hs'
    · exact absurd hs' hs
    · rfl
  · rcases C72_recover h with ⟨hs, hr⟩ | ⟨hs, rfl⟩ <;> rcases C72_recover h' with ⟨hs', hr'⟩ | ⟨hs', rfl⟩
    · exact h3 inds cells hs r r' hr hr'
    · exact absurd hs hs'
    · exact absurd hs' hs
    · rfl

/-- C72: every batch of tuples that parties got from the library in any languages, with commitments that may come from other parties and
languages (Go among them), is accepted by every verifier in every language: no verifier gets false or an error. -/
theorem C72_exchange [LawfulCurve K G1] [LawfulPairing G1 G2 GT] (setup : SetupPoints G1 G2) (τ : Fr) (P : G1) (H : G2)
    (hpt : Spec.PowersOfTau setup.g1Monomial setup.g2Monomial τ P H) (up : UsePrecomp) (ctx : DASContext K G1 G2)
    (hctx : (DASContext.new setup up : Outcome Error (DASContext K G1 G2)) = .ok ctx) (sha256 : List UInt8 → List UInt8)
    (batch : List (List UInt8 × Nat × List UInt8 × List UInt8))
    (hb : ∀ t ∈ batch, PublishedTuple (K := K) setup (Usable setup.g1Monomial) t) (r : Option Bool)
    (hr : VerifyEnds ctx sha256 (batch.map (·.1)) (batch.map (·.2.1)) (batch.map (·.2.2.1)) (batch.map (·.2.2.2)) r) : r = some true := by
  have honest : ∀ t ∈ batch, ∃ (up' : UsePrecomp) (prover : DASContext K G1 G2), Usable setup.g1Monomial up' ∧
      (DASContext.new setup up' : Outcome Error (DASContext K G1 G2)) = .ok prover ∧ HonestTuple prover t := by
    intro t ht
    obtain ⟨up₁, up₂, ctx₁, ctx₂, blob, cells, proofs, hu, h1, h2, hc, hp, hk1, hk2⟩ := hb t ht
    rcases C72_prove hp with ⟨hl, hp⟩ | ⟨-, hp⟩
    swap
    · cases hp
    have hp : ctx₁.computeCellsAndKzgProofs blob = .ok (cells, proofs) := by
      rcases reports_iff.1 hp with ⟨v, hv, h⟩ | ⟨e, -, h⟩ <;> cases h
      exact hv
    obtain ⟨⟨f, hf, -⟩, -⟩ := C02_cells_are_evaluations setup up₁ hpt.length_g1 ctx₁ h1 blob hl cells proofs hp
    have hcm := C03_commitment setup up₂ τ P H hpt ctx₂ h2 blob f hf
    have ht1 : ctx₂.blobToKzgCommitment blob = .ok t.1 := by
      rcases hc with hc | hc
      · rcases C72_commit hc with ⟨-, hc⟩ | ⟨hn, -⟩
        · rcases reports_iff.1 hc with ⟨v, hv, h⟩ | ⟨e, -, h⟩ <;> cases h
          exact hv
        · exact absurd hl hn
      · rw [C72_commit_go hc _ hcm]
        exact hcm
    exact ⟨up₁, ctx₁, hu, h1, blob, cells, proofs, hl,
      (same_commitment setup hpt.length_g1 up₁ up₂ ctx₁ ctx₂ h1 h2 blob).trans ht1, hp, hk1, hk2⟩
  have hlib := C05_completeness_precomp setup τ P H hpt up ctx hctx sha256 batch honest
  have hsz : Sized 48 (batch.map (·.1)) ∧ Sized 2048 (batch.map (·.2.2.1)) ∧ Sized 48 (batch.map (·.2.2.2)) := by
    have key : ∀ t ∈ batch, t.1.length = 48 ∧ t.2.2.1.length = 2048 ∧ t.2.2.2.length = 48 := by
      intro t ht
      obtain ⟨-, ctx₁, -, -, blob, cells, proofs, -, hc, hp, hk1, hk2⟩ := honest t ht
      obtain ⟨-, n2, -, n4⟩ := computeCellsAndKzgProofs_sizes hp
      exact ⟨blobToKzgCommitment_size hc, n2 _ (List.mem_of_getElem? hk1), n4 _ (List.mem_of_getElem? hk2)⟩
    simp only [Sized, List.forall_mem_map]
    exact ⟨fun t ht => (key t ht).1, fun t ht => (key t ht).2.1, fun t ht => (key t ht).2.2⟩
  rcases C72_verify hr (.ok true) (hlib ▸ .valid) with ⟨-, h⟩ | ⟨h, -⟩
  · cases h; rfl
  · exact absurd hsz h

/-- C72: whoever recovers from 64 or more distinct cells that parties got for a blob, in any language, gets the cells and proofs that
every other party got for the blob in any language, and no error. -/
theorem C72_recovery [LawfulCurve K G1] (setup : SetupPoints G1 G2) (h1 : setup.g1Monomial.length = 4096) (up up' : UsePrecomp)
    (hu : Usable setup.g1Monomial up) (hu' : Usable setup.g1Monomial up') (ctx ctx' : DASContext K G1 G2)
    (hctx : (DASContext.new setup up : Outcome Error (DASContext K G1 G2)) = .ok ctx)
    (hctx' : (DASContext.new setup up' : Outcome Error (DASContext K G1 G2)) = .ok ctx') (blob : List UInt8)
    (cells proofs : List (List UInt8)) (h : ProveEnds ctx blob (some (cells, proofs))) (inds : List Nat) (supplied : List (List UInt8))
    (hd : inds.Nodup) (hn : 64 ≤ inds.length) (hs : List.Forall₂ (fun i c => cells[i]? = some c) inds supplied)
    (r : Option (List (List UInt8) × List (List UInt8))) (hr : RecoverEnds ctx' inds supplied r) : r = some (cells, proofs) := by
  rcases C72_prove h with ⟨hl, hp⟩ | ⟨-, hp⟩
  swap
  · cases hp
  have hp : ctx.computeCellsAndKzgProofs blob = .ok (cells, proofs) := by
    rcases reports_iff.1 hp with ⟨v, hv, h⟩ | ⟨e, -, h⟩ <;> cases h
    exact hv
  obtain ⟨n1, n2, -⟩ := computeCellsAndKzgProofs_sizes hp
  have hsz : Sized 2048 supplied := by
    intro c hc
    obtain ⟨i, hi, rfl⟩ := List.mem_iff_getElem.1 hc
    have hl := hs.length_eq
    exact n2 _ (List.mem_of_getElem? (forall₂_getElem hs (by omega) hi))
  have hrange : ∀ i ∈ inds, i < 128 := by
    intro i hi
    obtain ⟨j, hj, rfl⟩ := List.mem_iff_getElem.1 hi
    have hl := hs.length_eq
    rw [← n1]
    exact (List.getElem?_eq_some_iff.1 (forall₂_getElem hs hj (by omega))).1
  have hrec := C09_recovers_original setup up h1 ctx hctx blob hl cells proofs hp inds supplied hrange hd hn hs
  rcases C72_recover hr with ⟨-, hr⟩ | ⟨hns, -⟩
  · exact ((same_reports setup h1 up up' hu hu' ctx ctx' hctx hctx').2 inds supplied hsz _ _ (hrec ▸ .value _) hr).symm
  · exact absurd hsz hns

end

/-! Non-vacuity: a commitment from Go, a cell and a proof from C#, a verifier in Node, another in Java; recovery in Java. -/
section
open Toy

/-- the process of a party -/
noncomputable def ToyHeap.process (ctx : DASContext Fr Fr Fr) (blob : List UInt8) : Process _ ctx :=
  ⟨ToyHeap.heap _, ToyHeap.allocator _, ToyHeap.start ctx blob, 16, by decide, by simp [ToyHeap.start]⟩

theorem ToyHeap.csharp_proves (ctx : DASContext Fr Fr Fr) (blob : List UInt8) (hlen : blob.length = 131072)
    (r : List (List UInt8) × List (List UInt8)) (hr : ctx.computeCellsAndKzgProofs blob = .ok r) : ProveEnds ctx blob (some r) := by
  have hb : ArrayHolds (ToyHeap.start ctx blob).mem 4096 131072 blob :=
    ⟨hlen.symm, by decide, by rw [hlen]; norm_num, ToyHeap.start_holds _ _⟩
  refine .csharp (ToyHeap.process ctx blob) ⟨4096, 131072⟩ hb ?_
  rcases (C34_csharp_compute_cells_and_kzg_proofs (ToyHeap.heap _) (ToyHeap.allocator _) (ToyHeap.start ctx blob) 16
    ctx (by decide) (by simp [ToyHeap.start]) ⟨4096, 131072⟩ _ hb).2 rfl with ⟨ho, -⟩ | h
  · refine absurd ho (ToyHeap.not_outOfMemory (ToyHeap.start_top _ _) ?_)
    rw [hlen, hr, show Spec.messageSize (.ok r : Outcome Error _) = none from rfl]
    decide +kernel
  · rw [hr] at h
    obtain ⟨s', h, -⟩ := h
    exact (show csComputeCellsAndKZGProofs (ToyHeap.heap _) (ToyHeap.allocator _) noGc 16 ⟨4096, 131072⟩ (ToyHeap.start ctx blob) = _
      from h) ▸ .value r s'

theorem ToyHeap.go_commits (ctx : DASContext Fr Fr Fr) (blob : List UInt8) (hlen : blob.length = 131072) (c : List UInt8)
    (hc : ctx.blobToKzgCommitment blob = .ok c) : GoCommits ctx blob c := by
  have hb : ArrayHolds (ToyHeap.start ctx blob).mem 4096 131072 blob :=
    ⟨hlen.symm, by decide, by rw [hlen]; norm_num, ToyHeap.start_holds _ _⟩
  rcases (C35_go_partial (ToyHeap.heap _) (ToyHeap.allocator _) (ToyHeap.start ctx blob) 16 ctx (by decide) (by simp [ToyHeap.start])
    4096 131072 blob hb).2 rfl c hc with ⟨ho, -⟩ | ⟨s', h, -⟩
  · refine absurd ho (ToyHeap.not_outOfMemory (ToyHeap.start_top _ _) ?_)
    rw [hlen]
    decide +kernel
  · exact ⟨ToyHeap.process ctx blob, 4096, 131072, s', hb, h⟩

/-- The hypotheses of `C72_exchange`: the batch of `Toy.honest_batch`, proved in C# and committed to in Go; the verifier in Node gets an
answer, which is true by the theorem. -/
example (sha256 : List UInt8 → List UInt8) : ∃ (ctx : DASContext Fr Fr Fr) (batch : List (List UInt8 × Nat × List UInt8 × List UInt8)),
    (DASContext.new (setup 7) .no : Outcome Error _) = .ok ctx ∧ batch.map (·.2.1) = [127, 3, 127] ∧
    (∀ t ∈ batch, PublishedTuple (K := Fr) (setup 7) (Usable (setup 7).g1Monomial) t) ∧
    VerifyEnds ctx sha256 (batch.map (·.1)) (batch.map (·.2.1)) (batch.map (·.2.2.1)) (batch.map (·.2.2.2)) (some true) ∧
    Reports (verifyCellKzgProofBatchN sha256 ctx (batch.map (·.1)) [127, 3, 127] (batch.map (·.2.2.1)) (batch.map (·.2.2.2)))
      (some true) := by
  obtain ⟨ctx, batch, hctx, hb, hi⟩ := honest_batch
  have hlib := C05_completeness (setup 7) 7 1 1 (powersOfTau 7) ctx hctx sha256 batch hb
  have hsz : Sized 48 (batch.map (·.1)) ∧ Sized 2048 (batch.map (·.2.2.1)) ∧ Sized 48 (batch.map (·.2.2.2)) := by
    have key : ∀ t ∈ batch, t.1.length = 48 ∧ t.2.2.1.length = 2048 ∧ t.2.2.2.length = 48 := by
      intro t ht
      obtain ⟨blob, cells, proofs, -, hc, hp, hk1, hk2⟩ := hb t ht
      obtain ⟨-, n2, -, n4⟩ := computeCellsAndKzgProofs_sizes hp
      exact ⟨blobToKzgCommitment_size hc, n2 _ (List.mem_of_getElem? hk1), n4 _ (List.mem_of_getElem? hk2)⟩
    simp only [Sized, List.forall_mem_map]
    exact ⟨fun t ht => (key t ht).1, fun t ht => (key t ht).2.1, fun t ht => (key t ht).2.2⟩
  have hind : List.Forall₂ (fun (x : Int) (i : Nat) => 0 ≤ x ∧ (i : Int) = x % 2 ^ 64) [127, 3, 127] (batch.map (·.2.1)) := by
    rw [hi]
    exact .cons (by decide) (.cons (by decide) (.cons (by decide) .nil))
  obtain ⟨-, -, -, h4⟩ := C34_node_verify_cell_kzg_proof_batch sha256 ctx _ _ _ [127, 3, 127] _ hind _ rfl _ rfl
  obtain ⟨h5, -⟩ := h4 hsz.1 hsz.2.1 hsz.2.2
  have h6 : Reports (verifyCellKzgProofBatchN sha256 ctx (batch.map (·.1)) [127, 3, 127] (batch.map (·.2.2.1)) (batch.map (·.2.2.2)))
      (some true) := by
    rw [h5 hlib]
    exact .value true
  refine ⟨ctx, batch, hctx, hi, fun t ht => ?_, .node [127, 3, 127] hind h6, h6⟩
  obtain ⟨blob, cells, proofs, hl, hc, hp, hk1, hk2⟩ := hb t ht
  exact ⟨.no, .no, ctx, ctx, blob, cells, proofs, .inl rfl, hctx, hctx, .inr (ToyHeap.go_commits ctx blob hl _ hc),
    ToyHeap.csharp_proves ctx blob hl _ hp, hk1, hk2⟩

/-- The hypotheses of `C72_recovery`: cells proved in C#, the last 64 recovered in Java from long indices. -/
example : ∃ (ctx : DASContext Fr Fr Fr) (cells proofs : List (List UInt8)) (r : Option (List (List UInt8) × List (List UInt8))),
    (DASContext.new (setup 7) .no : Outcome Error _) = .ok ctx ∧ ProveEnds ctx blob (some (cells, proofs)) ∧
    RecoverEnds ctx ((List.range 64).map (64 + ·)) (cells.drop 64) r := by
  obtain ⟨ctx, hctx⟩ := context 7
  obtain ⟨cells, proofs, h, -⟩ := C04_proofs (setup 7) 7 1 1 (powersOfTau 7) ctx hctx blob poly blob_poly
  obtain ⟨n1, n2, -⟩ := computeCellsAndKzgProofs_sizes h
  have hs : List.Forall₂ (fun i c => cells[i]? = some c) ((List.range 64).map (64 + ·)) (cells.drop 64) := by
    rw [List.forall₂_iff_get]
    refine ⟨by simp [n1], fun i h1 h2 => ?_⟩
    simp only [List.get_eq_getElem, List.getElem_map, List.getElem_range, List.getElem_drop]
    exact List.getElem?_eq_getElem _
  have hrec := C09_recovers_original (setup 7) .no (powersOfTau 7).length_g1 ctx hctx blob blob_poly.2.1 cells proofs h
    ((List.range 64).map (64 + ·)) (cells.drop 64) (by decide) (by decide) (by decide) hs
  have hi : List.Forall₂ (fun (x : Int64) (i : Nat) => (i : Int) = x.toInt % 2 ^ 64)
      ((List.range 64).map fun i => Int64.ofNat (64 + i)) ((List.range 64).map (64 + ·)) := by
    decide +kernel
  have hj : JavaItems ((cells.drop 64).map byteArrayFromSlice) (cells.drop 64) := forall₂_byteArrayFromSlice _
  have hsz : Sized 2048 ((cells.drop 64).map byteArrayFromSlice) :=
    (sized_javaItems hj).2 (fun c hc => n2 c (List.mem_of_mem_drop hc))
  obtain ⟨-, h2⟩ := C34_java_recover_cells_and_kzg_proofs (ToyHeap.start ctx []) [] ⟨16⟩ ctx (by decide) (by simp [ToyHeap.start])
    _ _ (cells.drop 64) _ hj hi _ rfl
  obtain ⟨h3, -⟩ := h2 hsz
  obtain ⟨cj, pj, hcall, hcj, hpj⟩ := h3 _ _ hrec
  refine ⟨ctx, cells, proofs, some (cells, proofs), hctx, ToyHeap.csharp_proves ctx blob blob_poly.2.1 _ h,
    .java (ToyHeap.process ctx []) [] _ _ (some (cj, pj)) hi hj ?_ (.some ⟨hcj, hpj⟩)⟩
  exact (show LibEthKZG.recoverCellsAndKZGProofs [] ⟨16⟩ _ _ (ToyHeap.start ctx []) = _ from hcall) ▸ .value _ _

end

end Verif
