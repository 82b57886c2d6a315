import Verif.Model.NodeAsync

/-! What the asynchronous methods of the Node bindings should do: the same as the synchronous ones, on the bytes that the arrays had
when the method was called. -/
namespace Verif.Spec

/-- the buffers behind the arguments -/
def buffers : AsyncCall → List Nat
  | .blobToKzgCommitment blob | .computeCellsAndKzgProofs blob | .computeCells blob => [blob.buffer]
  | .recoverCellsAndKzgProofs _ cells => cells.map (·.buffer)
  | .verifyCellKzgProofBatch commitments _ cells proofs => (commitments ++ cells ++ proofs).map (·.buffer)

/-- an upper bound for the number of reads: the total length of the arguments -/
def totalLength : AsyncCall → Nat
  | .blobToKzgCommitment blob | .computeCellsAndKzgProofs blob | .computeCells blob => blob.length
  | .recoverCellsAndKzgProofs _ cells => (cells.map (·.length)).sum
  | .verifyCellKzgProofBatch commitments _ cells proofs => ((commitments ++ cells ++ proofs).map (·.length)).sum

section
variable {K G1 G2 GT : Type} [Field K] [DecidableEq K] [AddCommGroup G1] [Module Fr G1] [DecidableEq G1]
  [Curve K G1] [PointCodec G1] [AddCommGroup G2] [Module Fr G2] [AddCommGroup GT] [DecidableEq GT]
  [Pairing G1 G2 GT]

/-- `Synchronous sha256 ctx h c r`: with these contents of the buffers, the synchronous method returns `r` -/
inductive Synchronous (sha256 : List UInt8 → List UInt8) (ctx : DASContext K G1 G2) (h : JsHeap) :
    AsyncCall → Outcome NodeError NodeValue → Prop
  | commitment (blob : JsView) :
      Synchronous sha256 ctx h (.blobToKzgCommitment blob) (.bytes <$> blobToKzgCommitmentN ctx (h.view blob))
  | cellsAndProofs (blob : JsView) :
      Synchronous sha256 ctx h (.computeCellsAndKzgProofs blob)
        ((fun r => .cellsAndProofs r.1 r.2) <$> computeCellsAndKzgProofsN ctx (h.view blob))
  | cells (blob : JsView) :
      Synchronous sha256 ctx h (.computeCells blob) (.cells <$> computeCellsN ctx (h.view blob))
  | recover (cellIndices : List Int) (cells : List JsView) :
      Synchronous sha256 ctx h (.recoverCellsAndKzgProofs cellIndices cells)
        ((fun r => .cellsAndProofs r.1 r.2) <$> recoverCellsAndKzgProofsN ctx cellIndices (cells.map h.view))
  | verify (commitments : List JsView) (cellIndices : List Int) (cells proofs : List JsView) :
      Synchronous sha256 ctx h (.verifyCellKzgProofBatch commitments cellIndices cells proofs)
        (.bool <$> verifyCellKzgProofBatchN sha256 ctx (commitments.map h.view) cellIndices (cells.map h.view) (proofs.map h.view))

end

/-- the event writes to one of the buffers -/
def WritesTo (buffers : List Nat) : JsEvent → Prop
  | .write b _ _ => b ∈ buffers
  | _ => False

/-- the event is a step of task `i` -/
def IsWork (i : Nat) : JsEvent → Bool
  | .work j => i == j
  | _ => false

end Verif.Spec
