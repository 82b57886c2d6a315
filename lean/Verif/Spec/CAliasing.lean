import Verif.Model.CAliasing
import Verif.Spec.CThreads

/-! Specification: a call respects the aliasing rules. -/
namespace Verif.Spec

variable {B : AliasModel} {Ctx : Type}

/-- The call returns, or aborts the process, without undefined behaviour and without a violation of the aliasing rules; after it the
foreign code may access all memory. -/
def Respects (B : AliasModel) (x : AOut B Ctx Empty CResult) : Prop :=
  x = .panic ∨ ∃ r s b, x = .ok r s b ∧ B.FromC b

/-- the outcome without the state of the aliasing rules; there is no outcome for a violation -/
def AOut.forget : AOut B Ctx Empty CResult → Option (COut Ctx Empty CResult)
  | .ok r s _ => some (.ok r s)
  | .err e s _ => some (.err e s)
  | .panic => some .panic
  | .fault => some .fault
  | .violation => none

section
variable {K G1 G2 GT : Type} [Field K] [DecidableEq K] [AddCommGroup G1] [Module Fr G1] [DecidableEq G1]
  [Curve K G1] [PointCodec G1] [AddCommGroup G2] [Module Fr G2] [AddCommGroup GT] [DecidableEq GT]
  [Pairing G1 G2 GT]

/-- the call in the model with references -/
def CCall.withRefs (B : AliasModel) (A : Allocator (DASContext K G1 G2)) (sha256 : List UInt8 → List UInt8) :
    CCall → AM B (DASContext K G1 G2) Empty CResult
  | .commitment ctx blob out => AM.ethKzgBlobToKzgCommitment A ctx blob out
  | .compute ctx blob outCells outProofs => AM.ethKzgComputeCellsAndKzgProofs A ctx blob outCells outProofs
  | .recover ctx cl c il i oc op => AM.ethKzgRecoverCellsAndProofs A ctx cl c il i oc op
  | .verify ctx ml m il i cl c pl p v => AM.ethKzgVerifyCellKzgProofBatch A sha256 ctx ml m il i cl c pl p v

/-- the call in the model without references -/
def CCall.withoutRefs (A : Allocator (DASContext K G1 G2)) (sha256 : List UInt8 → List UInt8) :
    CCall → CM (DASContext K G1 G2) Empty CResult
  | .commitment ctx blob out => ethKzgBlobToKzgCommitment A ctx blob out
  | .compute ctx blob outCells outProofs => ethKzgComputeCellsAndKzgProofs A ctx blob outCells outProofs
  | .recover ctx cl c il i oc op => ethKzgRecoverCellsAndProofs A ctx cl c il i oc op
  | .verify ctx ml m il i cl c pl p v => ethKzgVerifyCellKzgProofBatch A sha256 ctx ml m il i cl c pl p v

end
end Verif.Spec
