import Verif.Lemmas.InPlace
import Verif.Props.Proofs
import Verif.Props.Toy
import Verif.Props.Verification

set_option linter.unusedSectionVars false

/-! C82: the methods of `DASContext` on memory that other threads write during the call (C, C#, Go, Nim, and Node with asynchronous
methods, hand over references to the memory of the caller). -/
namespace Verif
open Spec InPlace

variable {K G1 G2 GT : Type} [Field K] [DecidableEq K] [AddCommGroup G1] [Module Fr G1] [DecidableEq G1]
  [Curve K G1] [PointCodec G1] [AddCommGroup G2] [Module Fr G2] [AddCommGroup GT] [DecidableEq GT]
  [Pairing G1 G2 GT]

/-- C82: the two methods that take a blob do what they do with a blob each byte of which was in its place at some moment. An error
quotes bytes that were seen in the place of those that were refused; they need not be the same. -/
theorem C82_blob (H : MemHistory) (ctx : DASContext K G1 G2) (blob t : Nat) :
    (∃ b, SeenAt H 131072 blob b ∧ SameAnswer H [(131072, blob)] (blobToKzgCommitmentP H ctx blob t) (ctx.blobToKzgCommitment b)) ∧
    (∃ b, SeenAt H 131072 blob b ∧
      SameAnswer H [(131072, blob)] (computeCellsAndKzgProofsP H ctx blob t) (ctx.computeCellsAndKzgProofs b)) := by
  constructor
  · obtain ⟨p, hp, e⟩ := sees_bind (Q := fun _ : Unit => True) ⟨(), trivial⟩ (sees_blob H blob (List.mem_singleton.2 rfl))
      (fun scalars => sees_noLook ⟨(), trivial⟩ (do
        let commitment ← ctx.proverCtx.kzgMultipointProver.commit (.data scalars)
        pure (serializeG1Compressed commitment))) t
    exact ⟨p.1, hp.1, e⟩
  · obtain ⟨p, hp, e⟩ := sees_bind (Q := fun _ : Unit => True) ⟨(), trivial⟩ (sees_blob H blob (List.mem_singleton.2 rfl))
      (fun scalars => sees_noLook ⟨(), trivial⟩ (do
        let (proofs, cells) ← ctx.proverCtx.kzgMultipointProver.computeMultiOpeningProofs (.data scalars)
        serializeCellsAndProofs cells proofs)) t
    exact ⟨p.1, hp.1, e⟩

/-- C82: so does recovery. -/
theorem C82_recover (H : MemHistory) (ctx : DASContext K G1 G2) (inds cells : List Nat) (t : Nat) :
    ∃ bs, List.Forall₂ (SeenAt H 2048) cells bs ∧
      SameAnswer H (cells.map (2048, ·)) (recoverCellsAndKzgProofsP H ctx inds cells t) (ctx.recoverCellsAndKzgProofs inds bs) := by
  have h1 := sees_bind (seen_all_exists H 2048 cells)
    (sees_noLook (H := H) (A := cells.map (2048, ·)) (P := fun _ : Unit => True) ⟨(), trivial⟩
      ((validateRecover inds (sliceOfLength 2048 cells)).mapErr Error.Recovery))
    (fun _ => sees_congr (sees_bind (Q := fun _ : Unit => True) ⟨(), trivial⟩ (sees_cells H cells (fun p hp => List.mem_map.2 ⟨p, hp, rfl⟩))
      (fun cosetEvaluations => sees_noLook ⟨(), trivial⟩ (do
        let res ← recoverEvaluationsInDomainOrder FIELD_ELEMENTS_PER_EXT_BLOB inds cosetEvaluations
        let (cellIndicesNormalOrder, flattened) ← expect res
        let missing := findMissingCellIndices cellIndicesNormalOrder
        let polyCoeff ← (ctx.proverCtx.rs.recoverPolynomialCoefficient flattened missing).mapErr (fun e => Error.Recovery (.ReedSolomon e))
        let (proofs, cosetEvaluations) ← ctx.proverCtx.kzgMultipointProver.computeMultiOpeningProofs (.polyCoeff polyCoeff)
        serializeCellsAndProofs cosetEvaluations proofs)))
      (Q := List.Forall₂ (SeenAt H 2048) cells) (w := fun bs => (deserializeCells bs).mapErr Error.Serialization >>= fun evs => (do
        let res ← recoverEvaluationsInDomainOrder FIELD_ELEMENTS_PER_EXT_BLOB inds evs
        let (cellIndicesNormalOrder, flattened) ← expect res
        let missing := findMissingCellIndices cellIndicesNormalOrder
        let polyCoeff ← (ctx.proverCtx.rs.recoverPolynomialCoefficient flattened missing).mapErr (fun e => Error.Recovery (.ReedSolomon e))
        let (proofs, cosetEvaluations) ← ctx.proverCtx.kzgMultipointProver.computeMultiOpeningProofs (.polyCoeff polyCoeff)
        serializeCellsAndProofs cosetEvaluations proofs)) Prod.fst (fun b hb => ⟨hb.1, rfl⟩)) t
  obtain ⟨p, hp, e⟩ := h1
  refine ⟨p.2, hp.2, ?_⟩
  have e2 : ctx.recoverCellsAndKzgProofs inds p.2 =
      ((validateRecover inds (sliceOfLength 2048 cells)).mapErr Error.Recovery >>= fun _ =>
        (deserializeCells p.2).mapErr Error.Serialization >>= fun evs => (do
        let res ← recoverEvaluationsInDomainOrder FIELD_ELEMENTS_PER_EXT_BLOB inds evs
        let (cellIndicesNormalOrder, flattened) ← expect res
        let missing := findMissingCellIndices cellIndicesNormalOrder
        let polyCoeff ← (ctx.proverCtx.rs.recoverPolynomialCoefficient flattened missing).mapErr (fun e => Error.Recovery (.ReedSolomon e))
        let (proofs, cosetEvaluations) ← ctx.proverCtx.kzgMultipointProver.computeMultiOpeningProofs (.polyCoeff polyCoeff)
        serializeCellsAndProofs cosetEvaluations proofs)) := by
    unfold DASContext.recoverCellsAndKzgProofs recoverPolynomialCoeff
    rw [validateRecover_seen H inds hp.2]
    simp only [bind_assoc]
  rw [e2]
  exact e

/-- what `verify_cell_kzg_proof_batch` does with the commitments without repetitions and the number of the commitment of each claim -/
def verifyRows (sha256 : List UInt8 → List UInt8) (ctx : DASContext K G1 G2) (rowBytes : List (List UInt8)) (rowIndices cellIndices : List Nat)
    (cells proofsBytes : List (List UInt8)) : Outcome Error Unit := do
  (validateVerify rowBytes rowIndices cellIndices cells proofsBytes).mapErr Error.Verifier
  if cells.isEmpty then pure ()
  else do
    let rowCommitments : List G1 ← (deserializeCompressedG1Points rowBytes).mapErr Error.Serialization
    let proofs : List G1 ← (deserializeCompressedG1Points proofsBytes).mapErr Error.Serialization
    let cosetEvals ← (deserializeCells cells).mapErr Error.Serialization
    (ctx.verifierCtx.kzgMultipointVerifier.verifyMultiOpening sha256 rowCommitments rowIndices cellIndices cosetEvals proofs).mapErr
      (fun e => Error.Verifier (.FK20 e))

/-- the method is `verifyRows` after deduplication -/
theorem verify_eq_verifyRows (sha256 : List UInt8 → List UInt8) (ctx : DASContext K G1 G2) (commitments : List (List UInt8))
    (inds : List Nat) (cells proofs : List (List UInt8)) : ctx.verifyCellKzgProofBatch sha256 commitments inds cells proofs =
      verifyRows sha256 ctx (deduplicateWithIndices commitments).1 (deduplicateWithIndices commitments).2 inds cells proofs := rfl

/-- the slices of a batch -/
def batchSlices (commitments cells proofs : List Nat) : List (Nat × Nat) :=
  commitments.map (48, ·) ++ cells.map (2048, ·) ++ proofs.map (48, ·)

/-- the method after the deduplication -/
theorem verify_rest (H : MemHistory) (A : List (Nat × Nat)) (sha256 : List UInt8 → List UInt8) (ctx : DASContext K G1 G2)
    (U rows inds cells proofs : List Nat) (hU : ∀ p ∈ U, (48, p) ∈ A) (hc : ∀ p ∈ cells, (2048, p) ∈ A) (hp : ∀ p ∈ proofs, (48, p) ∈ A) :
    Sees H A (do
      noLook ((validateVerify (sliceOfLength 48 U) rows inds (sliceOfLength 2048 cells) (sliceOfLength 48 proofs)).mapErr Error.Verifier)
      if cells.isEmpty then pure ()
      else do
        let rowCommitments : List G1 ← deserializeCompressedG1PointsP H U
        let proofs : List G1 ← deserializeCompressedG1PointsP H proofs
        let cosetEvals ← deserializeCellsP H cells
        noLook ((ctx.verifierCtx.kzgMultipointVerifier.verifyMultiOpening sha256 rowCommitments rows inds cosetEvals proofs).mapErr
          (fun e => Error.Verifier (.FK20 e))) : LookM Unit)
      (fun b : List (List UInt8) × List (List UInt8) × List (List UInt8) => List.Forall₂ (SeenAt H 48) U b.1 ∧
        List.Forall₂ (SeenAt H 2048) cells b.2.1 ∧ List.Forall₂ (SeenAt H 48) proofs b.2.2)
      (fun b => verifyRows sha256 ctx b.1 rows inds b.2.1 b.2.2) := by
  obtain ⟨b0, hb0⟩ := seen_all_exists H 48 U
  obtain ⟨c0, hc0⟩ := seen_all_exists H 2048 cells
  obtain ⟨p0, hp0⟩ := seen_all_exists H 48 proofs
  have hval : ∀ b : List (List UInt8) × List (List UInt8) × List (List UInt8), List.Forall₂ (SeenAt H 48) U b.1 ∧
      List.Forall₂ (SeenAt H 2048) cells b.2.1 ∧ List.Forall₂ (SeenAt H 48) proofs b.2.2 →
      validateVerify (sliceOfLength 48 U) rows inds (sliceOfLength 2048 cells) (sliceOfLength 48 proofs) =
        validateVerify b.1 rows inds b.2.1 b.2.2 := by
    intro b hb
    exact validateVerify_length (by rw [sliceOfLength_length, hb.1.length_eq]) (by rw [sliceOfLength_length, hb.2.1.length_eq])
      (by rw [sliceOfLength_length, hb.2.2.length_eq]) _ _
  have hempty : ∀ bs, List.Forall₂ (SeenAt H 2048) cells bs → bs.isEmpty = cells.isEmpty := by
    intro bs h
    cases h <;> rfl
  have inner : Sees H A (if cells.isEmpty then pure ()
      else do
        let rowCommitments : List G1 ← deserializeCompressedG1PointsP H U
        let proofs : List G1 ← deserializeCompressedG1PointsP H proofs
        let cosetEvals ← deserializeCellsP H cells
        noLook ((ctx.verifierCtx.kzgMultipointVerifier.verifyMultiOpening sha256 rowCommitments rows inds cosetEvals proofs).mapErr
          (fun e => Error.Verifier (.FK20 e))) : LookM Unit)
      (fun b : List (List UInt8) × List (List UInt8) × List (List UInt8) => List.Forall₂ (SeenAt H 48) U b.1 ∧
        List.Forall₂ (SeenAt H 2048) cells b.2.1 ∧ List.Forall₂ (SeenAt H 48) proofs b.2.2)
      (fun b => if cells.isEmpty then pure () else do
        let rowCommitments : List G1 ← (deserializeCompressedG1Points b.1).mapErr Error.Serialization
        let proofs : List G1 ← (deserializeCompressedG1Points b.2.2).mapErr Error.Serialization
        let cosetEvals ← (deserializeCells b.2.1).mapErr Error.Serialization
        (ctx.verifierCtx.kzgMultipointVerifier.verifyMultiOpening sha256 rowCommitments rows inds cosetEvals proofs).mapErr
          (fun e => Error.Verifier (.FK20 e))) := by
    by_cases he : cells.isEmpty = true
    · simp only [he, if_true]
      exact sees_pure ⟨(b0, c0, p0), hb0, hc0, hp0⟩ ()
    · simp only [he, if_false, Bool.false_eq_true]
      refine sees_congr (sees_bind (Q := fun q : List (List UInt8) × List (List UInt8) × Unit => List.Forall₂ (SeenAt H 48) proofs q.1 ∧
          List.Forall₂ (SeenAt H 2048) cells q.2.1 ∧ True) ⟨(p0, c0, ()), hp0, hc0, trivial⟩ (sees_points H U hU)
        (fun rowCommitments => sees_bind (Q := fun q : List (List UInt8) × Unit => List.Forall₂ (SeenAt H 2048) cells q.1 ∧ True)
          ⟨(c0, ()), hc0, trivial⟩ (sees_points H proofs hp) (fun proofs => sees_bind (Q := fun _ : Unit => True) ⟨(), trivial⟩
            (sees_cells H cells hc) (fun cosetEvals => sees_noLook ⟨(), trivial⟩
              ((ctx.verifierCtx.kzgMultipointVerifier.verifyMultiOpening sha256 rowCommitments rows inds cosetEvals proofs).mapErr
                (fun e => Error.Verifier (.FK20 e)))))))
        (fun q => (q.1, q.2.2.1, q.2.1)) ?_
      intro q hq
      exact ⟨⟨hq.1, hq.2.2.1, hq.2.1⟩, rfl⟩
  refine sees_congr (sees_bind (P := fun _ : Unit => True) ⟨(b0, c0, p0), hb0, hc0, hp0⟩ (sees_noLook ⟨(), trivial⟩
    ((validateVerify (sliceOfLength 48 U) rows inds (sliceOfLength 2048 cells) (sliceOfLength 48 proofs)).mapErr Error.Verifier))
    (fun _ => inner)) Prod.snd ?_
  intro q hq
  refine ⟨hq.2, ?_⟩
  unfold verifyRows
  rw [hval _ hq.2, hempty _ hq.2.2.1]

/-- C82: verification. The claims are verified against bytes seen at some of the addresses of the commitments: claim `i` against
those seen at an address that is linked to its own by addresses at which the same string could be seen. Cells and proofs are read once. -/
theorem C82_verify (H : MemHistory) (M : HashChoices) (sha256 : List UInt8 → List UInt8) (ctx : DASContext K G1 G2)
    (commitments inds cells proofs : List Nat) (t : Nat) :
    ∃ (U rows : List Nat) (rowBytes cellBytes proofBytes : List (List UInt8)), U.Sublist commitments ∧
      List.Forall₂ (fun p i => ∃ u, U[i]? = some u ∧ Linked H 48 p u) commitments rows ∧
      List.Forall₂ (SeenAt H 48) U rowBytes ∧ List.Forall₂ (SeenAt H 2048) cells cellBytes ∧ List.Forall₂ (SeenAt H 48) proofs proofBytes ∧
      SameAnswer H (batchSlices commitments cells proofs)
        (verifyCellKzgProofBatchP H M sha256 ctx commitments inds cells proofs t)
        (verifyRows sha256 ctx rowBytes rows inds cellBytes proofBytes) := by
  obtain ⟨⟨U, rows⟩, t', e, hsub, hrows⟩ := dedup_yields H M commitments t
  obtain ⟨b, ⟨h1, h2, h3⟩, e2⟩ := verify_rest H (batchSlices commitments cells proofs) sha256 ctx U rows inds cells proofs
    (fun p hp => by simp [batchSlices, hsub.subset hp]) (fun p hp => by simp [batchSlices, hp]) (fun p hp => by simp [batchSlices, hp]) t'
  refine ⟨U, rows, b.1, b.2.1, b.2.2, hsub, hrows, h1, h2, h3, ?_⟩
  unfold verifyCellKzgProofBatchP
  rw [bind_ok e]
  exact e2

/-- C82: if nobody writes the commitments, the verdict is that on the commitments, with cells and proofs each byte of which was in its
place at some moment. -/
theorem C82_commitments_unwritten (H : MemHistory) (M : HashChoices) (sha256 : List UInt8 → List UInt8) (ctx : DASContext K G1 G2)
    (commitments inds cells proofs : List Nat) (hcm : ∀ p ∈ commitments, Unwritten H 48 p) (t : Nat) :
    ∃ (cellBytes proofBytes : List (List UInt8)), List.Forall₂ (SeenAt H 2048) cells cellBytes ∧
      List.Forall₂ (SeenAt H 48) proofs proofBytes ∧
      SameAnswer H (batchSlices commitments cells proofs)
        (verifyCellKzgProofBatchP H M sha256 ctx commitments inds cells proofs t)
        (ctx.verifyCellKzgProofBatch sha256 (commitments.map (bytesAt H 0 48)) inds cellBytes proofBytes) := by
  obtain ⟨U, rows, t', e, hsub, hd⟩ := dedup_fixed H M commitments hcm t
  obtain ⟨b, ⟨h1, h2, h3⟩, e2⟩ := verify_rest H (batchSlices commitments cells proofs) sha256 ctx U rows inds cells proofs
    (fun p hp => by simp [batchSlices, hsub.subset hp]) (fun p hp => by simp [batchSlices, hp]) (fun p hp => by simp [batchSlices, hp]) t'
  refine ⟨b.2.1, b.2.2, h2, h3, ?_⟩
  have hb : b.1 = U.map (start H) := by
    have : List.Forall₂ (fun p v => v = start H p) U b.1 := by
      refine List.forall₂_iff_get.2 ⟨h1.length_eq, fun i hi hi' => ?_⟩
      exact seenAt_unwritten H (hcm _ (hsub.subset (List.get_mem _ _))) ((List.forall₂_iff_get.1 h1).2 i hi hi')
    clear * - this
    generalize b.1 = bs at this
    induction this with
    | nil => rfl
    | cons h _ ih => rw [List.map_cons, h, ih]
  rw [verify_eq_verifyRows, ← hd]
  unfold verifyCellKzgProofBatchP
  rw [bind_ok e, ← hb]
  exact e2

/-- C82: if nobody writes the arguments, the methods do what `Model/Api` says, including the bytes that the errors quote: `SameAnswer`
is equality, and only the contents are seen. -/
theorem C82_unwritten (H : MemHistory) (slices : List (Nat × Nat)) (h : ∀ s ∈ slices, Unwritten H s.1 s.2) :
    (∀ (n p : Nat) (v : List UInt8), (n, p) ∈ slices → (SeenAt H n p v ↔ v = bytesAt H 0 n p)) ∧
    (∀ {α : Type} (x : Outcome Error (α × Nat)) (y : Outcome Error α), SameAnswer H slices x y →
      (x >>= fun r => .ok r.1) = y) := by
  refine ⟨fun n p v hs => ⟨fun hv => seenAt_unwritten H (h _ hs) hv, fun hv => hv ▸ seenAt_bytesAt H 0 n p⟩, ?_⟩
  have within : ∀ n p, Within slices n p → Unwritten H n p := by
    rintro n p ⟨s, hs, h1, h2⟩ t j hj
    have := h s hs t (p - s.2 + j) (by omega)
    rwa [show s.2 + (p - s.2 + j) = p + j by omega] at this
  intro α x y hxy
  cases hxy with
  | ok a t => rfl
  | panic => rfl
  | err e e' he =>
    cases he with
    | same => rfl
    | scalar p b b' hw h1 h2 => rw [seenAt_unwritten H (within _ _ hw) h1, seenAt_unwritten H (within _ _ hw) h2]; rfl
    | point p b b' hw h1 h2 => rw [seenAt_unwritten H (within _ _ hw) h1, seenAt_unwritten H (within _ _ hw) h2]; rfl

/-! ### The gap between the comparison and the decoding -/

/-- the memory of a batch with two claims: first both commitments are `g`; after `192` looks the first one is `z` -/
def gapHistory (g z c π : List UInt8) : MemHistory := fun t a =>
  if a < 48 then (if t < 192 then g else z).getD a 0
  else if a < 96 then g.getD (a - 48) 0
  else if a < 144 then π.getD (a - 96) 0
  else c.getD (a - 144) 0

theorem map_getD_range (l : List UInt8) (n : Nat) (h : l.length = n) : (List.range n).map (fun j => l.getD j 0) = l := by
  refine List.ext_getElem (by simp [h]) ?_
  intro i h1 h2
  simp [h2]

section gap
variable (g z c π : List UInt8) (hg : g.length = 48) (hz : z.length = 48) (hc : c.length = 2048) (hπ : π.length = 48)
include hg hz hc hπ

theorem gap_first (t : Nat) (ht : t + 48 ≤ 192) : lookBytes (gapHistory g z c π) 48 0 t = .ok (g, t + 48) := by
  rw [lookBytes_run]
  congr 2
  rw [← map_getD_range g 48 hg]
  refine List.map_congr_left fun j hj => ?_
  have := List.mem_range.1 hj
  unfold gapHistory
  rw [if_pos (by omega), if_pos (by omega), Nat.zero_add, map_getD_range g 48 hg]

theorem gap_later (t : Nat) (ht : 192 ≤ t) : lookBytes (gapHistory g z c π) 48 0 t = .ok (z, t + 48) := by
  rw [lookBytes_run]
  congr 2
  rw [← map_getD_range z 48 hz]
  refine List.map_congr_left fun j hj => ?_
  have := List.mem_range.1 hj
  unfold gapHistory
  rw [if_pos (by omega), if_neg (by omega), Nat.zero_add, map_getD_range z 48 hz]

theorem gap_second_unwritten : Unwritten (gapHistory g z c π) 48 48 ∧ bytesAt (gapHistory g z c π) 0 48 48 = g := by
  constructor
  · intro t j hj
    unfold gapHistory
    rw [if_neg (by omega), if_pos (by omega), if_neg (by omega)]
  · refine Eq.trans (List.map_congr_left fun j hj => ?_) (map_getD_range g 48 hg)
    have := List.mem_range.1 hj
    unfold gapHistory
    rw [if_neg (by omega), if_pos (by omega), show 48 + j - 48 = j by omega]

theorem gap_proof_unwritten : Unwritten (gapHistory g z c π) 48 96 ∧ bytesAt (gapHistory g z c π) 0 48 96 = π := by
  constructor
  · intro t j hj
    unfold gapHistory
    rw [if_neg (by omega), if_neg (by omega), if_pos (by omega), if_neg (by omega)]
  · refine Eq.trans (List.map_congr_left fun j hj => ?_) (map_getD_range π 48 hπ)
    have := List.mem_range.1 hj
    unfold gapHistory
    rw [if_neg (by omega), if_neg (by omega), if_pos (by omega), show 96 + j - 96 = j by omega]

theorem gap_cell_unwritten : Unwritten (gapHistory g z c π) 2048 144 ∧ bytesAt (gapHistory g z c π) 0 2048 144 = c := by
  constructor
  · intro t j hj
    unfold gapHistory
    rw [if_neg (by omega), if_neg (by omega), if_neg (by omega), if_neg (by omega)]
  · refine Eq.trans (List.map_congr_left fun j hj => ?_) (map_getD_range c 2048 hc)
    have := List.mem_range.1 hj
    unfold gapHistory
    rw [if_neg (by omega), if_neg (by omega), if_neg (by omega), show 144 + j - 144 = j by omega]

theorem gap_dedup (M : HashChoices) : deduplicateWithIndicesP (gapHistory g z c π) M [0, 48] 0 = .ok (([0], [0, 0]), 192) := by
  have h48 : ∀ t, lookBytes (gapHistory g z c π) 48 48 t = .ok (g, t + 48) := by
    intro t
    obtain ⟨h1, h2⟩ := gap_second_unwritten g z c π hg hz hc hπ
    rw [lookBytes_unwritten _ h1, h2]
  have hh0 : hashP (gapHistory g z c π) M 0 0 = .ok (M.hash g, 48) := by
    unfold hashP
    rw [bind_ok (gap_first g z c π hg hz hc hπ 0 (by norm_num)), pure_run]
  have hr : reserve (gapHistory g z c π) M [] 48 = .ok ([], 48) := by
    unfold reserve
    split <;> rfl
  have hins : mapInsert (gapHistory g z c π) M [] 0 0 0 = .ok ([⟨M.hash g, 0, 0⟩], 48) := by
    unfold mapInsert
    rw [bind_ok hh0, bind_ok hr]
    rfl
  have hh1 : hashP (gapHistory g z c π) M 48 48 = .ok (M.hash g, 96) := by
    unfold hashP
    rw [bind_ok (h48 48), pure_run]
  have hm : entryMatches (gapHistory g z c π) M (M.hash g) 48 ⟨M.hash g, 0, 0⟩ 96 = .ok (true, 192) := by
    unfold entryMatches
    rw [if_pos (M.probes_self _)]
    unfold eqP
    rw [bind_ok (gap_first g z c π hg hz hc hπ 96 (by norm_num)), bind_ok (h48 _), pure_run, decide_eq_true rfl]
  have hf : findEntry (gapHistory g z c π) M (M.hash g) 48 [⟨M.hash g, 0, 0⟩] 96 = .ok (some 0, 192) := by
    unfold findEntry
    rw [bind_ok hm]; rfl
  have hget : mapGet (gapHistory g z c π) M [⟨M.hash g, 0, 0⟩] 48 48 = .ok (some 0, 192) := by
    unfold mapGet
    rw [if_neg (by simp), bind_ok hh1, bind_ok hf]; rfl
  have hget0 : mapGet (gapHistory g z c π) M [] 0 0 = .ok (none, 0) := rfl
  unfold deduplicateWithIndicesP
  refine bind_ok (a := ([0], [⟨M.hash g, 0, 0⟩], [0, 0])) (t' := 192) ?_
  rw [List.foldlM_cons]
  refine (bind_ok (a := ([0], [⟨M.hash g, 0, 0⟩], [0])) (t' := 48) ?_).trans ?_
  · rw [bind_ok hget0]
    exact bind_ok hins
  · rw [List.foldlM_cons]
    refine (bind_ok (a := ([0], [⟨M.hash g, 0, 0⟩], [0, 0])) (t' := 192) ?_).trans rfl
    rw [bind_ok hget]; rfl

end gap

/-- C82: the comparison of the commitments and the decoding look at different moments, and the decoding looks at one of the equal
commitments only. Let `g` not be an encoding of a point and let two claims with commitment `z` hold. There is a history in which the
second commitment is `g` all the time and the batch is accepted, whatever the hash map does; no batch each byte of which was in its
place at some moment is accepted. -/
theorem C82_gap (M : HashChoices) (sha256 : List UInt8 → List UInt8) (ctx : DASContext K G1 G2) (g z c π : List UInt8) (k : Nat)
    (hg : g.length = 48) (hz : z.length = 48) (hc : c.length = 2048) (hπ : π.length = 48) (hbad : (fromCompressed g : Option G1) = none)
    (hok : ctx.verifyCellKzgProofBatch sha256 [z, z] [k, k] [c, c] [π, π] = .ok ()) :
    ∃ (H : MemHistory) (t : Nat), (∀ t, bytesAt H t 48 48 = g) ∧
      verifyCellKzgProofBatchP H M sha256 ctx [0, 48] [k, k] [144, 144] [96, 96] 0 = .ok ((), t) ∧
      ∀ cms cells proofs, List.Forall₂ (SeenAt H 48) [0, 48] cms → List.Forall₂ (SeenAt H 2048) [144, 144] cells →
        List.Forall₂ (SeenAt H 48) [96, 96] proofs → ctx.verifyCellKzgProofBatch sha256 cms [k, k] cells proofs ≠ .ok () := by
  obtain ⟨u1, e1⟩ := gap_second_unwritten g z c π hg hz hc hπ
  obtain ⟨u2, e2⟩ := gap_proof_unwritten g z c π hg hz hc hπ
  obtain ⟨u3, e3⟩ := gap_cell_unwritten g z c π hg hz hc hπ
  have hd := gap_dedup g z c π hg hz hc hπ M
  have hlater := gap_later g z c π hg hz hc hπ
  generalize hH : gapHistory g z c π = H at *
  have hzz : deduplicateWithIndices [z, z] = ([z], [0, 0]) := by
    simp [deduplicateWithIndices]
  rw [verify_eq_verifyRows, hzz] at hok
  unfold verifyRows at hok
  obtain ⟨_, hval, hok⟩ := bind_eq_ok.1 hok
  rw [if_neg (by simp)] at hok
  obtain ⟨rowC, hrow, hok⟩ := bind_eq_ok.1 hok
  obtain ⟨prf, hprf, hok⟩ := bind_eq_ok.1 hok
  obtain ⟨evs, hevs, hok⟩ := bind_eq_ok.1 hok
  have hcells : ∀ bs, List.Forall₂ (SeenAt H 2048) [144, 144] bs → bs = [c, c] := by
    rintro bs (_ | ⟨h1, _ | ⟨h2, _ | _⟩⟩)
    rw [seenAt_unwritten H u3 h1, seenAt_unwritten H u3 h2, e3]
  have hproofs : ∀ bs, List.Forall₂ (SeenAt H 48) [96, 96] bs → bs = [π, π] := by
    rintro bs (_ | ⟨h1, _ | ⟨h2, _ | _⟩⟩)
    rw [seenAt_unwritten H u2 h1, seenAt_unwritten H u2 h2, e2]
  have hdec : ∀ b : List UInt8, ∀ rs : List G1, (deserializeCompressedG1Points [b] : SerOutcome (List G1)).mapErr Error.Serialization = .ok rs →
      b.length = 48 → ∃ C, fromCompressed b = some C ∧ rs = [C] := by
    intro b rs h hb
    unfold deserializeCompressedG1Points deserializeCompressedG1 at h
    rw [List.mapM_cons, if_neg (not_not.2 hb)] at h
    cases hC : (fromCompressed b : Option G1) with
    | none => rw [hC] at h; cases h
    | some C =>
      rw [hC] at h
      exact ⟨C, rfl, (Outcome.ok.inj h).symm⟩
  obtain ⟨C, hC, rfl⟩ := hdec z rowC hrow hz
  have r1 : deserializeCompressedG1PointsP H [0] 192 = .ok ([C], 240) := by
    unfold deserializeCompressedG1PointsP
    rw [List.mapM_cons]
    have : deserializeCompressedG1P H 0 192 = .ok (C, 240) := by
      unfold deserializeCompressedG1P
      rw [bind_ok (hlater 192 le_rfl), hC]; rfl
    rw [bind_ok this]; rfl
  obtain ⟨t2, r2⟩ := sees_ok (sees_points (G1 := G1) H (A := [(48, 96)]) [96, 96] (by simp))
    (a := prf) (fun bs hb => by rw [hproofs bs hb]; exact hprf) 240
  obtain ⟨t3, r3⟩ := sees_ok (sees_cells H (A := [(2048, 144)]) [144, 144] (by simp))
    (a := evs) (fun bs hb => by rw [hcells bs hb]; exact hevs) t2
  refine ⟨H, t3, ?_, ?_, ?_⟩
  · intro t
    rw [← e1]
    exact List.map_congr_left fun j hj => u1 t j (List.mem_range.1 hj)
  · unfold verifyCellKzgProofBatchP
    rw [bind_ok hd]
    have hv : (noLook ((validateVerify (sliceOfLength 48 [0]) [0, 0] [k, k] (sliceOfLength 2048 [144, 144])
        (sliceOfLength 48 [96, 96])).mapErr Error.Verifier) : LookM Unit) 192 = .ok ((), 192) := by
      rw [validateVerify_length (u := sliceOfLength 48 [0]) (u' := [z]) (c := sliceOfLength 2048 [144, 144]) (c' := [c, c])
        (p := sliceOfLength 48 [96, 96]) (p' := [π, π]) rfl rfl rfl, hval]; rfl
    show (_ >>= _ : LookM Unit) 192 = _
    rw [bind_ok hv]
    show (deserializeCompressedG1PointsP H [0] >>= _ : LookM Unit) 192 = _
    rw [bind_ok r1, bind_ok r2, bind_ok r3, hok]; rfl
  · intro cms cells proofs h1 h2 h3 hacc
    rw [verify_eq_verifyRows] at hacc
    unfold verifyRows at hacc
    obtain ⟨_, -, hacc⟩ := bind_eq_ok.1 hacc
    rw [hcells _ h2, if_neg (by simp)] at hacc
    obtain ⟨rs, hrs, -⟩ := bind_eq_ok.1 hacc
    have hmem : g ∈ (deduplicateWithIndices cms).1 := by
      rw [dedup_bytes]
      refine (mem_eraseDups_bytes _ _).2 ?_
      rcases h1 with _ | ⟨-, _ | ⟨h, _ | _⟩⟩
      rw [seenAt_unwritten H u1 h, e1]; simp
    cases hm : (deserializeCompressedG1Points (deduplicateWithIndices cms).1 : SerOutcome (List G1)) with
    | err e => rw [hm] at hrs; cases hrs
    | panic => rw [hm] at hrs; cases hrs
    | ok rs' =>
      obtain ⟨i, hi, he⟩ := List.getElem_of_mem hmem
      have hl := mapM_length hm
      have := mapM_getElem hm hi (by rw [hl]; exact hi)
      rw [he, deserializeCompressedG1, if_neg (not_not.2 hg), hbad] at this
      cases this

/-! ### The hypotheses can be met -/

open Toy

/-- C82: a batch whose second commitment is never an encoding of a point is accepted -/
example (M : HashChoices) (sha256 : List UInt8 → List UInt8) : ∃ (ctx : DASContext Fr Fr Fr) (H : MemHistory) (t : Nat),
    (∀ t, bytesAt H t 48 48 = List.replicate 48 255) ∧ (fromCompressed (List.replicate 48 255) : Option Fr) = none ∧
    verifyCellKzgProofBatchP H M sha256 ctx [0, 48] [5, 5] [144, 144] [96, 96] 0 = .ok ((), t) := by
  obtain ⟨ctx, hctx⟩ := context 7
  have hl : (toCompressed (0 : Fr)).length = 48 := LawfulPointCodec.length_toCompressed (size := 48) (0 : Fr)
  have hd : fromCompressed (toCompressed (0 : Fr)) = some (0 : Fr) :=
    LawfulPointCodec.fromCompressed_toCompressed (size := 48) (0 : Fr)
  have h64 : (Polynomial.C (0 : Fr)).degree < 64 := lt_of_le_of_lt Polynomial.degree_C_le (by norm_num)
  have hbad : (fromCompressed (List.replicate 48 255) : Option Fr) = none := by
    show (if (List.replicate 48 255).take 16 = List.replicate 16 0 then _ else none) = _
    rw [if_neg (by decide)]
  have hok : ctx.verifyCellKzgProofBatch sha256 [toCompressed (0 : Fr), toCompressed (0 : Fr)] [5, 5]
      [cellOf (Polynomial.C 0) 5, cellOf (Polynomial.C 0) 5] [toCompressed (0 : Fr), toCompressed (0 : Fr)] = .ok () := by
    have hds : Spec.Decodes [toCompressed (0 : Fr), toCompressed (0 : Fr)] [5, 5] [cellOf (Polynomial.C 0) 5, cellOf (Polynomial.C 0) 5]
        [toCompressed (0 : Fr), toCompressed (0 : Fr)] [(⟨0, 5, Polynomial.C 0, 0⟩ : Spec.Opening Fr), ⟨0, 5, Polynomial.C 0, 0⟩] :=
      ⟨.cons hd (.cons hd .nil), .cons ⟨rfl, by norm_num⟩ (.cons ⟨rfl, by norm_num⟩ .nil),
        .cons ⟨h64, (isCell_iff _ 5 _).2 rfl⟩ (.cons ⟨h64, (isCell_iff _ 5 _).2 rfl⟩ .nil), .cons hd (.cons hd .nil)⟩
    refine (C06_batch (setup 7) .no 7 1 1 (powersOfTau 7) nondegenerate ctx hctx sha256 _ _ _ _ (by simpa using hl) (by simpa using hl)
      _ hds).1.2 ?_
    simp [Spec.combined, Spec.Opening.defect]
  obtain ⟨H, t, h1, h2, -⟩ := C82_gap M sha256 ctx (List.replicate 48 255) _ _ _ 5 (by simp) hl (cellOf_length _ _) hl hbad hok
  exact ⟨ctx, H, t, h1, hbad, h2⟩

/-- C82: a blob that nobody writes is committed to -/
example : ∃ (ctx : DASContext Fr Fr Fr) (H : MemHistory), Unwritten H 131072 64 ∧
    (blobToKzgCommitmentP H ctx 64 0 >>= fun r => .ok r.1) = .ok (toCompressed (poly.eval 7 • (1 : Fr))) := by
  obtain ⟨ctx, hctx⟩ := context 7
  have h1 := C03_commitment (setup 7) .no 7 1 1 (powersOfTau 7) ctx hctx blob poly blob_poly
  have hb : Toy.blob.length = 131072 := Toy.blob_poly.2.1
  generalize Toy.blob = blob at h1 hb
  let H : MemHistory := fun _ a => blob.getD (a - 64) 0
  have hu : Unwritten H 131072 64 := fun _ _ _ => rfl
  obtain ⟨b, hs, e⟩ := (C82_blob H ctx 64 0).1
  obtain ⟨c1, c2⟩ := C82_unwritten H [(131072, 64)] (by
    intro s hs
    rw [List.mem_singleton.1 hs]
    exact hu)
  have hbb : b = blob := by
    rw [(c1 131072 64 b (List.mem_singleton.2 rfl)).1 hs]
    refine Eq.trans (List.map_congr_left fun j _ => ?_) (map_getD_range blob 131072 hb)
    show blob.getD (64 + j - 64) 0 = _
    rw [Nat.add_sub_cancel_left]
  refine ⟨ctx, H, hu, ?_⟩
  rw [c2 _ _ e, hbb, h1]

end Verif
