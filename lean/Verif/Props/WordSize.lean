import Verif.Lemmas.WordSize
import Verif.Props.Toy

set_option linter.unusedSectionVars false

/-!
C60: the results do not depend on the width of `usize` or on the overflow checks of the build profile.
-/
namespace Verif
open Polynomial
open scoped Toy

section
variable {ε K G1 G2 GT : Type} [Field K] [DecidableEq K] [AddCommGroup G1] [Module Fr G1] [DecidableEq G1]
  [Curve K G1] [PointCodec G1] [AddCommGroup G2] [Module Fr G2] [AddCommGroup GT] [DecidableEq GT]
  [Pairing G1 G2 GT]

/-- C60: recovery is the same on every machine, for all indices (a `u64` beyond the width of `usize` is refused before it is
truncated) and all cells. -/
theorem C60_recover (m : Platform) (hm : 16 ≤ m.bits) (ctx : DASContext K G1 G2) (inds : List Nat) (cells : List (List UInt8)) :
    ctx.recoverCellsAndKzgProofsOn m inds cells = ctx.recoverCellsAndKzgProofs inds cells := by
  unfold DASContext.recoverCellsAndKzgProofsOn DASContext.recoverCellsAndKzgProofs
  rw [recoverPolynomialCoeffOn_eq m (by omega)]

/-- C60: verification is the same on every machine, for all batches whose decoded values fit into the memory it can address. -/
theorem C60_verify (m : Platform) (hm : 16 ≤ m.bits) (sha256 : List UInt8 → List UInt8) (setup : SetupPoints G1 G2) (up : UsePrecomp)
    (h1 : setup.g1Monomial.length = 4096)
    (ctx : DASContext K G1 G2) (hctx : (DASContext.new setup up : Outcome ε (DASContext K G1 G2)) = .ok ctx)
    (commitments : List (List UInt8)) (inds : List Nat) (cells proofs : List (List UInt8))
    (hr : Spec.Resident m.bits commitments inds cells proofs) :
    ctx.verifyCellKzgProofBatchOn m sha256 commitments inds cells proofs =
      ctx.verifyCellKzgProofBatch sha256 commitments inds cells proofs :=
  verifyCellKzgProofBatchOn_eq m (by omega) sha256 ctx (by rw [(context_verifier setup up h1 ctx hctx).2.2]; rfl) _ _ _ _ hr

/-- C60: for batches beyond that (whose lengths are still values of type `usize`), the size of the transcript may overflow; with and
without overflow checks the call then panics or returns the same, so no batch is accepted or refused by mistake. -/
theorem C60_verify_large [LawfulPointCodec G1 48] (m : Platform) (hm : 16 ≤ m.bits) (sha256 : List UInt8 → List UInt8)
    (setup : SetupPoints G1 G2) (up : UsePrecomp) (h1 : setup.g1Monomial.length = 4096)
    (ctx : DASContext K G1 G2) (hctx : (DASContext.new setup up : Outcome ε (DASContext K G1 G2)) = .ok ctx)
    (commitments : List (List UInt8)) (inds : List Nat) (cells proofs : List (List UInt8))
    (hcell : ∀ c ∈ cells, c.length = 2048) (hlen : inds.length < 2 ^ m.bits) :
    ctx.verifyCellKzgProofBatchOn m sha256 commitments inds cells proofs =
      ctx.verifyCellKzgProofBatch sha256 commitments inds cells proofs ∨
    ctx.verifyCellKzgProofBatchOn m sha256 commitments inds cells proofs = .panic :=
  verifyCellKzgProofBatchOn_cases m (by omega) sha256 ctx (by rw [(context_verifier setup up h1 ctx hctx).2.2]; rfl) _ _ _ _
    hcell hlen.le

end

/-! ### the hypotheses, and that the second one is needed -/

/-- 30 cells of one blob fit into 16 bits, and all 128 cells of 100 blobs into 32 bits -/
example : Spec.Resident 16 (List.replicate 30 [1]) (List.replicate 30 0) (List.replicate 30 []) (List.replicate 30 []) := by
  unfold Spec.Resident
  rw [List.replicate_dedup (by norm_num)]
  simp only [List.length_replicate, List.length_singleton]
  norm_num

example : Spec.Resident 32 (List.replicate 12800 [1]) (List.replicate 12800 0) (List.replicate 12800 []) (List.replicate 12800 []) := by
  unfold Spec.Resident
  rw [List.replicate_dedup (by norm_num)]
  simp only [List.length_replicate, List.length_singleton]
  norm_num

/-- with 31 cells the size of the transcript overflows 16 bits: it panics with checks and wraps without -/
example : (hashInputSizeOn ⟨16, true⟩ 64 1 31 31 31 31 : Outcome Error Nat) = .panic ∧
    (hashInputSizeOn ⟨16, false⟩ 64 1 31 31 31 31 : Outcome Error Nat) = .ok 32 ∧
    (hashInputSizeOn ⟨32, true⟩ 64 1 31 31 31 31 : Outcome Error Nat) = .ok 65568 := by decide +kernel

/-- an index that a 32-bit conversion would turn into 5 is refused on a 32-bit machine too -/
example : (⟨32, false⟩ : Platform).asUsize (2 ^ 32 + 5) = 5 ∧
    validateRecover [2 ^ 32 + 5] [[]] = .err (.CellIndexOutOfRange (2 ^ 32 + 5) 128) := by decide +kernel

/-- with all hypotheses: the 30 cells above against the toy setup, on a 16-bit machine without overflow checks -/
example (ctx : DASContext Fr Fr Fr) (hctx : (DASContext.new (Toy.setup 7) .no : Outcome Error _) = .ok ctx)
    (sha256 : List UInt8 → List UInt8) :
    ctx.verifyCellKzgProofBatchOn ⟨16, false⟩ sha256 (List.replicate 30 (toCompressed (0 : Fr))) (List.range 30)
      (List.replicate 30 (List.replicate 2048 0)) (List.replicate 30 (toCompressed (0 : Fr))) =
    ctx.verifyCellKzgProofBatch sha256 (List.replicate 30 (toCompressed (0 : Fr))) (List.range 30)
      (List.replicate 30 (List.replicate 2048 0)) (List.replicate 30 (toCompressed (0 : Fr))) := by
  refine C60_verify _ (by norm_num) sha256 _ .no (Toy.length_g1 7) ctx hctx _ _ _ _ ?_
  unfold Spec.Resident
  rw [List.replicate_dedup (by norm_num)]
  simp only [List.length_replicate, List.length_singleton, List.length_range]
  norm_num

end Verif
