import Verif.Model.CBinding

/-! Model of the Java bindings: `bindings/java/rust_code/src/lib.rs`, `errors.rs` and the class `LibEthKZG` in
`bindings/java/java_code/src/main/java/ethereum/cryptography/LibEthKZG.java`.

A Java array reference may be null; array elements are signed. A function that leaves a pending exception is an `err`. Assumptions about
the `jni` crate: its array functions fail on a null reference, with an error whose `Debug` text is `jniDebug`, and do not fail
otherwise; throwing an exception does not fail (`Model/Jni` drops these assumptions). Java's `long` holds the 64-bit address of the context; the casts to `jlong` and back
are the identity on addresses. Loading of the native library (LibEthKZG.java:54-63, 158-227) is in
`Model/NativeLoading` and `Model/JavaLoading`. -/
namespace Verif

abbrev JByteArray := Option (List Int8)
abbrev JLongArray := Option (List Int64)
abbrev JObjectArray := Option (List JByteArray)

/-- `Error`, errors.rs:4-12 -/
inductive JError where
  | Jni
  | IncorrectSize (expected got : Nat) (name : String)
  | Cryptography (e : Error)

/-- the exceptions of the binding, with their messages -/
inductive JException where
  | illegalArgument (msg : List UInt8)
  | illegalState (msg : List UInt8)
  deriving DecidableEq

/-- `env.convert_byte_array` -/
def convertByteArray (a : JByteArray) : Outcome JError (List UInt8) := match a with
  | some l => .ok (l.map Int8.toUInt8)
  | none => .err .Jni

/-- `jlongarray_to_vec_u64`, lib.rs:177-189 -/
def jlongarrayToVecU64 (a : JLongArray) : Outcome JError (List Nat) := match a with
  | some l => .ok (l.map (fun x => x.toUInt64.toNat))
  | none => .err .Jni

/-- `jobject_array_to_2d_byte_array`, lib.rs:192-220 -/
def jobjectArrayTo2dByteArray (a : JObjectArray) : Outcome JError (List (List UInt8)) := match a with
  | some l => l.mapM convertByteArray
  | none => .err .Jni

/-- `slice_to_array_ref`, lib.rs:291-300 -/
def sliceToArrayRefJ (n : Nat) (slice : List UInt8) (name : String) : Outcome JError (List UInt8) :=
  if slice.length = n then .ok slice else .err (.IncorrectSize n slice.length name)

/-- `env.byte_array_from_slice` -/
def byteArrayFromSlice (b : List UInt8) : List Int8 := b.map UInt8.toInt8

/-- `cells_and_proofs_to_jobject`, lib.rs:223-266: the two fields of the Java object -/
def cellsAndProofsToJobject (cells proofs : List (List UInt8)) : List (List Int8) × List (List Int8) :=
  (cells.map byteArrayFromSlice, proofs.map byteArrayFromSlice)

/-- `throw_on_error`, lib.rs:269-285 -/
def throwOnErrorJ (jniDebug : List UInt8) (err : JError) (funcName : String) : JException :=
  let reason := match err with
    | .Jni => jniDebug
    | .IncorrectSize expected got name =>
      ascii name ++ ascii " is not the correct size. expected: " ++ debugNat expected ++ ascii "\ngot: " ++ debugNat got
    | .Cryptography e => e.debug
  .illegalArgument (ascii "function " ++ ascii funcName ++ ascii " has thrown an exception, with reason: " ++ reason)

section
variable {K G1 G2 GT : Type} [Field K] [DecidableEq K] [AddCommGroup G1] [Module Fr G1] [DecidableEq G1]
  [Curve K G1] [PointCodec G1] [AddCommGroup G2] [Module Fr G2] [AddCommGroup GT] [DecidableEq GT]
  [Pairing G1 G2 GT]
variable (jniDebug : List UInt8)

/-- the body of a native method: `let ctx = &*ctx_ptr; match f(ctx) { Ok(x) => x, Err(err) => throw_on_error(..) }`,
lib.rs:37-44, 66-73, 97-105, 148-156. A panic cannot leave an `extern "system"` function. -/
def nativeJ {α : Type} (ctxPtr : Nat) (funcName : String) (f : DASContext K G1 G2 → Outcome JError α) :
    CM (DASContext K G1 G2) JException α := do
  let ctx ← derefCtx ctxPtr
  match f ctx with
  | .ok a => pure a
  | .err e => CM.throw (throwOnErrorJ jniDebug e funcName)
  | .panic => CM.panic

/-- `compute_cells_and_kzg_proofs`, lib.rs:46-57 -/
def computeCellsAndKzgProofsJ (blob : JByteArray) (ctx : DASContext K G1 G2) :
    Outcome JError (List (List Int8) × List (List Int8)) := do
  let blob ← convertByteArray blob
  let blob ← sliceToArrayRefJ BYTES_PER_BLOB blob "blob"
  let (cells, proofs) ← (ctx.computeCellsAndKzgProofs blob).mapErr .Cryptography
  pure (cellsAndProofsToJobject cells proofs)

/-- `blob_to_kzg_commitment`, lib.rs:75-85 -/
def blobToKzgCommitmentJ (blob : JByteArray) (ctx : DASContext K G1 G2) : Outcome JError (List Int8) := do
  let blob ← convertByteArray blob
  let blob ← sliceToArrayRefJ BYTES_PER_BLOB blob "blob"
  let commitment ← (ctx.blobToKzgCommitment blob).mapErr .Cryptography
  pure (byteArrayFromSlice commitment)

/-- `verify_cell_kzg_proof_batch`, lib.rs:107-138 -/
def verifyCellKzgProofBatchJ (sha256 : List UInt8 → List UInt8) (commitment : JObjectArray) (cellIndices : JLongArray)
    (cells proofs : JObjectArray) (ctx : DASContext K G1 G2) : Outcome JError Bool := do
  let commitment ← jobjectArrayTo2dByteArray commitment
  let cellIndices ← jlongarrayToVecU64 cellIndices
  let cells ← jobjectArrayTo2dByteArray cells
  let proofs ← jobjectArrayTo2dByteArray proofs
  let cells ← cells.mapM (fun cell => sliceToArrayRefJ BYTES_PER_CELL cell "cell")
  let commitments ← commitment.mapM (fun commitment => sliceToArrayRefJ BYTES_PER_COMMITMENT commitment "commitment")
  let proofs ← proofs.mapM (fun proof => sliceToArrayRefJ BYTES_PER_COMMITMENT proof "proof")
  match ctx.verifyCellKzgProofBatch sha256 commitments cellIndices cells proofs with
  | .ok _ => pure true
  | .err x => if x.invalidProof then pure false else .err (.Cryptography x)
  | .panic => .panic

/-- `recover_cells_and_kzg_proofs`, lib.rs:158-174 -/
def recoverCellsAndKzgProofsJ (cellIds : JLongArray) (cells : JObjectArray) (ctx : DASContext K G1 G2) :
    Outcome JError (List (List Int8) × List (List Int8)) := do
  let cellIds ← jlongarrayToVecU64 cellIds
  let cells ← jobjectArrayTo2dByteArray cells
  let cells ← cells.mapM (fun cell => sliceToArrayRefJ BYTES_PER_CELL cell "cell")
  let (recoveredCells, recoveredProofs) ← (ctx.recoverCellsAndKzgProofs cellIds cells).mapErr .Cryptography
  pure (cellsAndProofsToJobject recoveredCells recoveredProofs)

/-- `Java_ethereum_cryptography_LibEthKZG_DASContextNew`, lib.rs:10-19: the number of threads passed on -/
def numThreadsJ (numThreads : Int64) : UInt32 := numThreads.toUInt64.toUInt32

/-- an object of the class `LibEthKZG`: its field `contextPtr`, LibEthKZG.java:27 -/
structure LibEthKZG where
  contextPtr : Nat

namespace LibEthKZG

/-- `LibEthKZG(usePrecomp, numThreads)`, LibEthKZG.java:49-52, with `DASContextNew`, lib.rs:10-19. The number of threads does not
influence results (C36). -/
def new (A : Allocator (DASContext K G1 G2)) (setup : SetupPoints G1 G2) (usePrecomp : Bool) :
    CM (DASContext K G1 G2) Empty LibEthKZG := do
  let p ← ethKzgDasContextNew A setup usePrecomp
  pure ⟨p⟩

/-- `destroy`, LibEthKZG.java:74-79; the result is the object after the call -/
def destroy (self : LibEthKZG) : CM (DASContext K G1 G2) Empty LibEthKZG :=
  if self.contextPtr ≠ 0 then do
    ethKzgDasContextFree self.contextPtr
    pure ⟨0⟩
  else pure self

/-- `checkContextHasNotBeenFreed`, LibEthKZG.java:81-85 -/
def checkContextHasNotBeenFreed (self : LibEthKZG) : CM (DASContext K G1 G2) JException Unit :=
  if self.contextPtr = 0 then CM.throw (.illegalState (ascii "KZG context context has been destroyed")) else pure ()

/-- `blobToKZGCommitment`, LibEthKZG.java:93-96 -/
def blobToKZGCommitment (self : LibEthKZG) (blob : JByteArray) : CM (DASContext K G1 G2) JException (List Int8) := do
  self.checkContextHasNotBeenFreed
  nativeJ jniDebug self.contextPtr "blobToKZGCommitment" (blobToKzgCommitmentJ blob)

/-- `computeCellsAndKZGProofs`, LibEthKZG.java:104-108 -/
def computeCellsAndKZGProofs (self : LibEthKZG) (blob : JByteArray) :
    CM (DASContext K G1 G2) JException (List (List Int8) × List (List Int8)) := do
  self.checkContextHasNotBeenFreed
  nativeJ jniDebug self.contextPtr "computeCellsAndKZGProofs" (computeCellsAndKzgProofsJ blob)

/-- `verifyCellKZGProofBatch`, LibEthKZG.java:119-123 -/
def verifyCellKZGProofBatch (sha256 : List UInt8 → List UInt8) (self : LibEthKZG) (commitments : JObjectArray)
    (cellIndices : JLongArray) (cells proofs : JObjectArray) : CM (DASContext K G1 G2) JException Bool := do
  self.checkContextHasNotBeenFreed
  nativeJ jniDebug self.contextPtr "verifyCellKZGProofBatch"
    (verifyCellKzgProofBatchJ sha256 commitments cellIndices cells proofs)

/-- `recoverCellsAndKZGProofs`, LibEthKZG.java:132-135 -/
def recoverCellsAndKZGProofs (self : LibEthKZG) (cellIDs : JLongArray) (cells : JObjectArray) :
    CM (DASContext K G1 G2) JException (List (List Int8) × List (List Int8)) := do
  self.checkContextHasNotBeenFreed
  nativeJ jniDebug self.contextPtr "recoverCellsAndKZGProofs" (recoverCellsAndKzgProofsJ cellIDs cells)

end LibEthKZG
end
end Verif
