import Verif.Model.Jni

/-! Specification: the calls of the Java class, and how the two models of a native method correspond. -/
namespace Verif.Spec

/-- a call of one of the four methods that use the library -/
inductive JavaCall where
  | blobToKZGCommitment (blob : JByteArray)
  | computeCellsAndKZGProofs (blob : JByteArray)
  | verifyCellKZGProofBatch (commitments : JObjectArray) (cellIndices : JLongArray) (cells proofs : JObjectArray)
  | recoverCellsAndKZGProofs (cellIDs : JLongArray) (cells : JObjectArray)

/-- The functions for which the JNI specification names exceptions that do not depend on their arguments being wrong: class loading
errors, `OutOfMemoryError`, exceptions of a constructor. The accesses to existing arrays have none. -/
def Raising : JniFn → Prop
  | .FindClass _ => True
  | .NewObjectArray => True
  | .NewByteArray => True
  | .GetMethodID => True
  | .NewObjectA => True
  | .ThrowNew => True
  | .GetArrayLength => False
  | .GetByteArrayRegion => False
  | .GetLongArrayRegion => False
  | .SetByteArrayRegion => False
  | .GetObjectArrayElement => False
  | .SetObjectArrayElement => False
  | .DeleteLocalRef => False

/-- what the method returns -/
def JavaCall.Result : JavaCall → Type
  | .blobToKZGCommitment _ => List Int8
  | .verifyCellKZGProofBatch _ _ _ _ => Bool
  | .computeCellsAndKZGProofs _ | .recoverCellsAndKZGProofs _ _ => List (List Int8) × List (List Int8)

/-- the end of the native method says what the call does in the model of values, which leaves the process state `s` as it is -/
def SameEnd {Ctx χ α : Type} (s : CState Ctx) : NativeEnd χ α → COut Ctx χ α → Prop
  | .returned a, x => x = .ok a s
  | .threw e, x => x = .err e s
  | .aborted, x => x = .panic

/-- an array of `n` arrays, none of them null -/
def Whole (a : JObjectArray) (n : Nat) : Prop := ∃ l : List (List Int8), a = some (l.map some) ∧ l.length = n

section
variable {K G1 G2 GT : Type} [Field K] [DecidableEq K] [AddCommGroup G1] [Module Fr G1] [DecidableEq G1]
  [Curve K G1] [PointCodec G1] [AddCommGroup G2] [Module Fr G2] [AddCommGroup GT] [DecidableEq GT]
  [Pairing G1 G2 GT]

/-- the native method, in the model with calls to the virtual machine -/
def JavaCall.native (vm : Jvm) (jniDebug : List UInt8) (sha256 : List UInt8 → List UInt8) (ctx : DASContext K G1 G2) :
    (call : JavaCall) → NativeEnd JException call.Result × JniState
  | .blobToKZGCommitment blob => nativeJni vm jniDebug "blobToKZGCommitment" (blobToKzgCommitmentJni vm blob ctx)
  | .computeCellsAndKZGProofs blob => nativeJni vm jniDebug "computeCellsAndKZGProofs" (computeCellsAndKzgProofsJni vm blob ctx)
  | .verifyCellKZGProofBatch commitments cellIndices cells proofs =>
    nativeJni vm jniDebug "verifyCellKZGProofBatch" (verifyCellKzgProofBatchJni vm sha256 commitments cellIndices cells proofs ctx)
  | .recoverCellsAndKZGProofs cellIDs cells =>
    nativeJni vm jniDebug "recoverCellsAndKZGProofs" (recoverCellsAndKzgProofsJni vm cellIDs cells ctx)

/-- the method of the class, in the model of values -/
def JavaCall.method (jniDebug : List UInt8) (sha256 : List UInt8 → List UInt8) (self : LibEthKZG) :
    (call : JavaCall) → CM (DASContext K G1 G2) JException call.Result
  | .blobToKZGCommitment blob => self.blobToKZGCommitment jniDebug blob
  | .computeCellsAndKZGProofs blob => self.computeCellsAndKZGProofs jniDebug blob
  | .verifyCellKZGProofBatch commitments cellIndices cells proofs =>
    LibEthKZG.verifyCellKZGProofBatch jniDebug sha256 self commitments cellIndices cells proofs
  | .recoverCellsAndKZGProofs cellIDs cells => self.recoverCellsAndKZGProofs jniDebug cellIDs cells

end
end Verif.Spec
