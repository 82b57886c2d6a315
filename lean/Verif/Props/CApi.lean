import Verif.Lemmas.CBinding
import Verif.Props.ProverCells

set_option linter.unusedSectionVars false

/-! C32: the C API reports success and failure faithfully and writes exactly its documented outputs. -/
namespace Verif
open Spec (Holds Mapped HoldsWord HoldsWords HoldsItems Apart Wrote FailsWith Returns)

section
variable {K G1 G2 GT : Type} [Field K] [DecidableEq K] [AddCommGroup G1] [Module Fr G1] [DecidableEq G1]
  [Curve K G1] [PointCodec G1] [AddCommGroup G2] [Module Fr G2] [AddCommGroup GT] [DecidableEq GT]
  [Pairing G1 G2 GT] [LawfulPointCodec G1 48]
variable (A : Allocator (DASContext K G1 G2)) (s : CState (DASContext K G1 G2))

/-- C32: `eth_kzg_blob_to_kzg_commitment` with valid pointers. -/
theorem C32_blob_to_kzg_commitment (ctxp blobp out : Nat) (ctx : DASContext K G1 G2) (h0 : ctxp ≠ 0)
    (hctx : s.ctxs ctxp = some ctx) (blob : List UInt8) (hlen : blob.length = 131072) (hb0 : blobp ≠ 0)
    (hb : Holds s.mem blobp blob) (ho0 : out ≠ 0) (ho : Mapped s.mem out 48) :
    (∀ c, ctx.blobToKzgCommitment blob = .ok c →
      Returns (ethKzgBlobToKzgCommitment A ctxp blobp out) s [(out, c)] ∧ c.length = 48) ∧
    (∀ e, ctx.blobToKzgCommitment blob = .err e → FailsWith A (ethKzgBlobToKzgCommitment A ctxp blobp out) s e.debug) ∧
    (ctx.blobToKzgCommitment blob = .panic → ethKzgBlobToKzgCommitment A ctxp blobp out s = .panic) := by
  have hg : blobToKzgCommitmentC A ctxp blobp out s = (tryRust A (ctx.blobToKzgCommitment blob) >>= fun c => do
      CM.assert (c.length = BYTES_PER_COMMITMENT)
      writeToSlice out c) s := by
    unfold blobToKzgCommitmentC
    rw [CM.assert_true h0, pure_bind, CM.bind_ok (a := ctx) (s' := s) (by simp [derefCtx, hctx]),
      CM.bind_ok (createArrayRef_ok (n := BYTES_PER_BLOB) hlen hb0 hb)]
  refine ⟨fun c hc => ?_, fun e he => tryRust_err he _ _ hg, fun hp => tryRust_panic hp _ _ hg⟩
  have hcl := blobToKzgCommitment_size hc
  refine ⟨returns_of (regions := [(out, c)]) ?_ (by simp), hcl⟩
  rw [hg, hc, tryRust, pure_bind, CM.assert_true hcl, pure_bind]
  exact writeToSlice_ok ho0 (hcl ▸ ho)

/-- C32: `eth_kzg_compute_cells_and_kzg_proofs` with valid pointers. -/
theorem C32_compute_cells_and_kzg_proofs (ctxp blobp outCells outProofs : Nat) (ctx : DASContext K G1 G2) (h0 : ctxp ≠ 0)
    (hctx : s.ctxs ctxp = some ctx) (blob : List UInt8) (hlen : blob.length = 131072) (hb0 : blobp ≠ 0)
    (hb : Holds s.mem blobp blob) (cp pp : List Nat) (hout : Spec.OutBuffers s.mem outCells outProofs cp pp) :
    (∀ cells proofs, ctx.computeCellsAndKzgProofs blob = .ok (cells, proofs) →
      Returns (ethKzgComputeCellsAndKzgProofs A ctxp blobp outCells outProofs) s (cp.zip cells ++ pp.zip proofs) ∧
        cells.length = 128 ∧ (∀ c ∈ cells, c.length = 2048) ∧ proofs.length = 128 ∧ ∀ p ∈ proofs, p.length = 48) ∧
    (∀ e, ctx.computeCellsAndKzgProofs blob = .err e →
      FailsWith A (ethKzgComputeCellsAndKzgProofs A ctxp blobp outCells outProofs) s e.debug) ∧
    (ctx.computeCellsAndKzgProofs blob = .panic →
      ethKzgComputeCellsAndKzgProofs A ctxp blobp outCells outProofs s = .panic) := by
  have hg : computeCellsAndKzgProofsC A ctxp blobp outCells outProofs s =
      (tryRust A (ctx.computeCellsAndKzgProofs blob) >>= fun r => do
        writeTo2dSlice outCells r.1
        writeTo2dSlice outProofs r.2) s := by
    unfold computeCellsAndKzgProofsC
    rw [CM.assert_true h0, pure_bind, CM.bind_ok (a := ctx) (s' := s) (by simp [derefCtx, hctx]),
      CM.bind_ok (createArrayRef_ok (n := BYTES_PER_BLOB) hlen hb0 hb)]
  refine ⟨fun cells proofs hc => ?_, fun e he => tryRust_err he _ _ hg, fun hp => tryRust_panic hp _ _ hg⟩
  have hsz := computeCellsAndKzgProofs_sizes hc
  obtain ⟨hw, hap⟩ := write_cells_and_proofs (ε := CResult) hout hsz
  refine ⟨returns_of ?_ hap, hsz⟩
  rw [hg, hc, tryRust, pure_bind]
  exact hw

/-- C32: `eth_kzg_recover_cells_and_proofs` with valid pointers. -/
theorem C32_recover_cells_and_proofs (ctxp cellsLength cellsp cellIndicesLength cellIndicesp outCells outProofs : Nat)
    (ctx : DASContext K G1 G2) (h0 : ctxp ≠ 0) (hctx : s.ctxs ctxp = some ctx)
    (cellsIn : List (List UInt8)) (hcl : cellsIn.length = cellsLength) (hcs : ∀ c ∈ cellsIn, c.length = 2048)
    (hcells : HoldsItems s.mem cellsp cellsIn) (inds : List Nat) (hil : inds.length = cellIndicesLength)
    (hinds : HoldsWords s.mem cellIndicesp inds) (cp pp : List Nat) (hout : Spec.OutBuffers s.mem outCells outProofs cp pp) :
    (∀ cells proofs, ctx.recoverCellsAndKzgProofs inds cellsIn = .ok (cells, proofs) →
      Returns (ethKzgRecoverCellsAndProofs A ctxp cellsLength cellsp cellIndicesLength cellIndicesp outCells outProofs) s
          (cp.zip cells ++ pp.zip proofs) ∧
        cells.length = 128 ∧ (∀ c ∈ cells, c.length = 2048) ∧ proofs.length = 128 ∧ ∀ p ∈ proofs, p.length = 48) ∧
    (∀ e, ctx.recoverCellsAndKzgProofs inds cellsIn = .err e →
      FailsWith A (ethKzgRecoverCellsAndProofs A ctxp cellsLength cellsp cellIndicesLength cellIndicesp outCells outProofs) s
        e.debug) ∧
    (ctx.recoverCellsAndKzgProofs inds cellsIn = .panic →
      ethKzgRecoverCellsAndProofs A ctxp cellsLength cellsp cellIndicesLength cellIndicesp outCells outProofs s = .panic) := by
  have hg : recoverCellsAndProofsC A ctxp cellsLength cellsp cellIndicesLength cellIndicesp outCells outProofs s =
      (tryRust A (ctx.recoverCellsAndKzgProofs inds cellsIn) >>= fun r => do
        writeTo2dSlice outCells r.1
        writeTo2dSlice outProofs r.2) s := by
    unfold recoverCellsAndProofsC
    rw [CM.assert_true h0, pure_bind, CM.bind_ok (a := ctx) (s' := s) (by simp [derefCtx, hctx]),
      CM.bind_ok (ptrPtr_ok (inner := BYTES_PER_CELL) hcl hcs hcells), CM.bind_ok (createSliceViewU64_ok hil hinds)]
  refine ⟨fun cells proofs hc => ?_, fun e he => tryRust_err he _ _ hg, fun hp => tryRust_panic hp _ _ hg⟩
  have hsz := recoverCellsAndKzgProofs_sizes hc
  obtain ⟨hw, hap⟩ := write_cells_and_proofs (ε := CResult) hout hsz
  refine ⟨returns_of ?_ hap, hsz⟩
  rw [hg, hc, tryRust, pure_bind]
  exact hw

/-- C32: `eth_kzg_verify_cell_kzg_proof_batch` with valid pointers: the status is `Ok` and `*verified` is 1 if the batch verifies,
`Ok` and 0 if a proof is invalid, and `Err` for every other error. -/
theorem C32_verify_cell_kzg_proof_batch (sha256 : List UInt8 → List UInt8)
    (ctxp commitmentsLength commitmentsp cellIndicesLength cellIndicesp cellsLength cellsp proofsLength proofsp verified : Nat)
    (ctx : DASContext K G1 G2) (h0 : ctxp ≠ 0) (hctx : s.ctxs ctxp = some ctx)
    (commitments : List (List UInt8)) (hml : commitments.length = commitmentsLength) (hms : ∀ c ∈ commitments, c.length = 48)
    (hm : HoldsItems s.mem commitmentsp commitments)
    (inds : List Nat) (hil : inds.length = cellIndicesLength) (hi : HoldsWords s.mem cellIndicesp inds)
    (cells : List (List UInt8)) (hcl : cells.length = cellsLength) (hcs : ∀ c ∈ cells, c.length = 2048)
    (hc : HoldsItems s.mem cellsp cells)
    (proofs : List (List UInt8)) (hpl : proofs.length = proofsLength) (hps : ∀ p ∈ proofs, p.length = 48)
    (hp : HoldsItems s.mem proofsp proofs) (hv0 : verified ≠ 0) (hv : Mapped s.mem verified 1) :
    (ctx.verifyCellKzgProofBatch sha256 commitments inds cells proofs = .ok () →
      Returns (ethKzgVerifyCellKzgProofBatch A sha256 ctxp commitmentsLength commitmentsp cellIndicesLength cellIndicesp cellsLength
        cellsp proofsLength proofsp verified) s [(verified, [1])]) ∧
    (∀ e, ctx.verifyCellKzgProofBatch sha256 commitments inds cells proofs = .err (.Verifier (.FK20 e)) →
      Returns (ethKzgVerifyCellKzgProofBatch A sha256 ctxp commitmentsLength commitmentsp cellIndicesLength cellIndicesp cellsLength
        cellsp proofsLength proofsp verified) s [(verified, [0])]) ∧
    (∀ e, ctx.verifyCellKzgProofBatch sha256 commitments inds cells proofs = .err e → (∀ e', e ≠ .Verifier (.FK20 e')) →
      FailsWith A (ethKzgVerifyCellKzgProofBatch A sha256 ctxp commitmentsLength commitmentsp cellIndicesLength cellIndicesp
        cellsLength cellsp proofsLength proofsp verified) s e.debug) ∧
    (ctx.verifyCellKzgProofBatch sha256 commitments inds cells proofs = .panic →
      ethKzgVerifyCellKzgProofBatch A sha256 ctxp commitmentsLength commitmentsp cellIndicesLength cellIndicesp
        cellsLength cellsp proofsLength proofsp verified s = .panic) := by
  obtain ⟨b0, hb0⟩ := hv 0 (by omega)
  rw [Nat.add_zero] at hb0
  have hg : verifyCellKzgProofBatchC A sha256 ctxp commitmentsLength commitmentsp cellIndicesLength cellIndicesp cellsLength cellsp
      proofsLength proofsp verified s =
      (verificationResultToBoolCResult A (ctx.verifyCellKzgProofBatch sha256 commitments inds cells proofs) >>= fun r =>
        writeByte verified (if r then 1 else 0)) s := by
    unfold verifyCellKzgProofBatchC
    rw [CM.assert_true h0, pure_bind, CM.bind_ok (a := ctx) (s' := s) (by simp [derefCtx, hctx]),
      CM.bind_ok (ptrPtr_ok (inner := BYTES_PER_COMMITMENT) hml hms hm), CM.bind_ok (createSliceViewU64_ok hil hi), CM.bind_ok (ptrPtr_ok (inner := BYTES_PER_CELL) hcl hcs hc),
      CM.bind_ok (ptrPtr_ok (inner := BYTES_PER_COMMITMENT) hpl hps hp), CM.bind_ok (a := verified) (s' := s)]
    unfold derefMut
    rw [CM.require_true hv0, pure_bind, CM.bind_ok (readByte_ok hb0)]
    rfl
  have hw : ∀ b, (writeByte verified b : CM (DASContext K G1 G2) CResult Unit) s =
      .ok () { s with mem := overwriteAll s.mem [(verified, [b])] } := by
    intro b
    simp only [writeByte, hb0, overwriteAll, List.foldl_cons, List.foldl_nil]
    rw [← overwrite_cons, overwrite_nil]
  refine ⟨fun h => ?_, fun e h => ?_, fun e h hne => ?_, fun h => ?_⟩
  · refine returns_of ?_ (by simp)
    rw [hg, h]
    exact hw 1
  · refine returns_of ?_ (by simp)
    rw [hg, h]
    exact hw 0
  · refine tryRust_err (x := (.err e : Outcome Error Bool)) rfl
      (fun r => writeByte verified (if r then 1 else 0)) _ ?_
    rw [hg, h]
    have hni : ¬ e.invalidProof = true := by
      unfold Error.invalidProof
      split
      · split
        · rename_i e' ; exact absurd rfl (hne e')
        · simp
      · simp
    unfold verificationResultToBoolCResult tryRust
    simp only [hni]
    rfl
  · refine tryRust_panic (A := A) (x := (.panic : Outcome Error Bool)) rfl
      (fun r => writeByte verified (if r then 1 else 0)) _ ?_
    rw [hg, h]
    rfl

/-- C32: a null context aborts the process in all four functions. -/
theorem C32_null_context (sha256 : List UInt8 → List UInt8) (a b c d e f g h i : Nat) :
    ethKzgBlobToKzgCommitment A 0 a b s = .panic ∧ ethKzgComputeCellsAndKzgProofs A 0 a b c s = .panic ∧
      ethKzgRecoverCellsAndProofs A 0 a b c d e f s = .panic ∧ ethKzgVerifyCellKzgProofBatch A sha256 0 a b c d e f g h i s = .panic :=
  ⟨rfl, rfl, rfl, rfl⟩

end

/-! A concrete process: a pointer array of cell buffers at 1024, one of proof buffers at 2048, all other bytes zero. -/

namespace CExample

/-- byte `j` of the little-endian word `v` -/
def wordByte (v j : Nat) : UInt8 := UInt8.ofNat (v / 256 ^ j % 256)

def cellPtr (k : Nat) : Nat := 1048576 + 2048 * k
def proofPtr (k : Nat) : Nat := 4194304 + 48 * k

def mem : Spec.Memory := fun a =>
  if 1024 ≤ a ∧ a < 2048 then some (wordByte (cellPtr ((a - 1024) / 8)) ((a - 1024) % 8))
  else if 2048 ≤ a ∧ a < 3072 then some (wordByte (proofPtr ((a - 2048) / 8)) ((a - 2048) % 8))
  else some 0

theorem mapped (p n : Nat) : Mapped mem p n := by
  intro i _
  unfold mem
  split_ifs <;> exact ⟨_, rfl⟩

theorem word_sum (v : Nat) (h : v < 256 ^ 8) : v = ∑ i : Fin 8, (wordByte v i).toNat * 256 ^ (i : Nat) := by
  have e : ∀ j, (wordByte v j).toNat = v / 256 ^ j % 256 := by
    intro j
    unfold wordByte
    rw [UInt8.toNat_ofNat']
    exact Nat.mod_eq_of_lt (Nat.mod_lt _ (by norm_num))
  simp only [e, Fin.sum_univ_succ, Fin.sum_univ_zero]
  simp only [Fin.val_zero, Fin.val_succ, pow_zero, Nat.div_one]
  norm_num at h ⊢
  omega

theorem holdsWord_cell (k : Nat) (hk : k < 128) : HoldsWord mem (1024 + 8 * k) (cellPtr k) := by
  refine ⟨fun i => wordByte (cellPtr k) i, fun i => ?_, word_sum _ (by unfold cellPtr; norm_num; omega)⟩
  have := i.isLt
  unfold mem
  rw [if_pos ⟨by omega, by omega⟩, show (1024 + 8 * k + i - 1024) / 8 = k by omega,
    show (1024 + 8 * k + i - 1024) % 8 = i by omega]

theorem holdsWord_proof (k : Nat) (hk : k < 128) : HoldsWord mem (2048 + 8 * k) (proofPtr k) := by
  refine ⟨fun i => wordByte (proofPtr k) i, fun i => ?_, word_sum _ (by unfold proofPtr; norm_num; omega)⟩
  have := i.isLt
  unfold mem
  rw [if_neg (by omega), if_pos ⟨by omega, by omega⟩, show (2048 + 8 * k + i - 2048) / 8 = k by omega,
    show (2048 + 8 * k + i - 2048) % 8 = i by omega]

/-- the output buffers of the example -/
theorem outBuffers : Spec.OutBuffers mem 1024 2048 ((List.range 128).map cellPtr) ((List.range 128).map proofPtr) where
  cells := by
    refine ⟨fun _ => ⟨by decide, by decide⟩, fun i v hv => ?_⟩
    simp only [List.getElem?_map, Option.map_eq_some_iff] at hv
    obtain ⟨k, hk, rfl⟩ := hv
    obtain ⟨hi, rfl⟩ := List.getElem?_eq_some_iff.1 hk
    simp only [List.length_range] at hi
    simpa using holdsWord_cell i hi
  proofs := by
    refine ⟨fun _ => ⟨by decide, by decide⟩, fun i v hv => ?_⟩
    simp only [List.getElem?_map, Option.map_eq_some_iff] at hv
    obtain ⟨k, hk, rfl⟩ := hv
    obtain ⟨hi, rfl⟩ := List.getElem?_eq_some_iff.1 hk
    simp only [List.length_range] at hi
    simpa using holdsWord_proof i hi
  cellsLength := by simp
  proofsLength := by simp
  cellMapped := by
    intro q hq
    obtain ⟨k, -, rfl⟩ := List.mem_map.1 hq
    exact ⟨by unfold cellPtr; omega, mapped _ _⟩
  proofMapped := by
    intro q hq
    obtain ⟨k, -, rfl⟩ := List.mem_map.1 hq
    exact ⟨by unfold proofPtr; omega, mapped _ _⟩
  cellsApart := by
    rw [List.pairwise_map]
    refine List.pairwise_lt_range.imp fun {a b} h => Or.inl ?_
    unfold cellPtr; omega
  proofsApart := by
    rw [List.pairwise_map]
    refine List.pairwise_lt_range.imp fun {a b} h => Or.inl ?_
    unfold proofPtr; omega
  bothApart := by
    intro q hq q' hq'
    obtain ⟨k, hk, rfl⟩ := List.mem_map.1 hq
    obtain ⟨k', -, rfl⟩ := List.mem_map.1 hq'
    rw [List.mem_range] at hk
    left
    unfold cellPtr proofPtr; omega
  arrayApart := by
    intro q hq
    obtain ⟨k, hk, rfl⟩ := List.mem_map.1 hq
    constructor <;> right <;> unfold cellPtr <;> omega
  arrayApart' := by
    intro q hq
    obtain ⟨k, hk, rfl⟩ := List.mem_map.1 hq
    right
    unfold proofPtr; omega

/-- an allocator that places every message at one address, as long as this is free -/
def allocator (Ctx : Type) : Allocator Ctx where
  place s n := if 123456 + n ≤ 2 ^ 64 ∧ s.strings 123456 = none ∧ ∀ i < n, s.mem (123456 + i) = none then some 123456 else none
  fresh s n p h := by
    split_ifs at h with hc
    cases h
    exact ⟨by decide, hc⟩
  placeCtx s := match s.ctxs 16 with
    | none => some 16
    | some _ => none
  freshCtx s p h := by
    split at h
    · cases h
      exact ⟨by decide, by norm_num, by assumption⟩
    · cases h

open Toy in
/-- With this process and any context, the zero blob at address 8388608 gives the commitment at address 12345: the hypotheses of
`C32_blob_to_kzg_commitment` are met. -/
example (ctx : DASContext Fr Fr Fr) (c : List UInt8) (hc : ctx.blobToKzgCommitment (List.replicate 131072 0) = .ok c) :
    Returns (ethKzgBlobToKzgCommitment (allocator _) 16 8388608 12345)
      ⟨mem, fun a => if a = 16 then some ctx else none, fun _ => none⟩ [(12345, c)] :=
  ((C32_blob_to_kzg_commitment (allocator _) _ 16 8388608 12345 ctx (by decide) (by simp) (List.replicate 131072 0)
    List.length_replicate (by decide) (by
      intro i b hb
      rw [List.getElem?_replicate] at hb
      split_ifs at hb
      cases hb
      show mem (8388608 + i) = some 0
      unfold mem
      rw [if_neg (by omega), if_neg (by omega)]) (by decide) (mapped _ _)).1 c hc).1

open Toy in
/-- The same for `C32_compute_cells_and_kzg_proofs`. -/
example (ctx : DASContext Fr Fr Fr) (cells proofs : List (List UInt8))
    (hc : ctx.computeCellsAndKzgProofs (List.replicate 131072 0) = .ok (cells, proofs)) :
    Returns (ethKzgComputeCellsAndKzgProofs (allocator _) 16 8388608 1024 2048)
      ⟨mem, fun a => if a = 16 then some ctx else none, fun _ => none⟩
      (((List.range 128).map cellPtr).zip cells ++ ((List.range 128).map proofPtr).zip proofs) :=
  ((C32_compute_cells_and_kzg_proofs (allocator _) _ 16 8388608 1024 2048 ctx (by decide) (by simp) (List.replicate 131072 0)
    List.length_replicate (by decide) (by
      intro i b hb
      rw [List.getElem?_replicate] at hb
      split_ifs at hb
      cases hb
      show mem (8388608 + i) = some 0
      unfold mem
      rw [if_neg (by omega), if_neg (by omega)]) _ _ outBuffers).1 cells proofs hc).1

end CExample
end Verif
