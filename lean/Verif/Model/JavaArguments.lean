import Verif.Model.Jni
import Verif.Spec.JavaArguments

/-! Model of the native methods of the Java bindings, `bindings/java/rust_code/src/lib.rs`, when other threads write the arrays that are
the arguments of a call in progress. `Model/Jni` assumes that their contents do not change.

Arrays are references into a heap; the history `H` gives the heap at each moment at which the method looks at it, one moment for
each byte, for each half of a `long`, for each reference and for each length. The virtual machine tests a region before it copies it. A
look outside of an array would be a fault of the machine, here a panic. The calls that create the result concern new objects, which no
other thread has seen, and are those of `Model/Jni`. -/
namespace Verif

/-- a computation that looks at the heap and calls the machine; the state has the number of looks -/
def HeapM (α : Type) : Type := Nat × JniState → Outcome JError α × (Nat × JniState)

namespace HeapM

protected def bind {α β : Type} (x : HeapM α) (f : α → HeapM β) : HeapM β := fun s =>
  match x s with
  | (.ok a, s) => f a s
  | (.err e, s) => (.err e, s)
  | (.panic, s) => (.panic, s)

instance : Monad HeapM where
  pure a := fun s => (.ok a, s)
  bind := HeapM.bind

/-- a computation that does not look at the heap -/
def jni {α : Type} (m : JniM α) : HeapM α := fun s => ((m s.2).1, (s.1, (m s.2).2))

/-- one look at the heap -/
def look {α : Type} (H : JHistory) (f : JHeap → α) : HeapM α := fun s => (.ok (f (H s.1)), (s.1 + 1, s.2))

end HeapM

open HeapM

section
variable (vm : Jvm) (H : JHistory)

/-- `env.get_array_length` -/
def getArrayLengthH (length : JHeap → Nat → Nat) (a : Option Nat) : HeapM Nat := do
  let r ← jni (nonNull a)
  jni (jniCall vm .GetArrayLength true 0)
  look H (fun h => length h r)

/-- `env.get_byte_array_region` with a buffer of `len` elements -/
def getByteArrayRegionH (a : Option Nat) (start len : Nat) : HeapM (List Int8) := do
  let r ← jni (nonNull a)
  let length ← look H (fun h => (h.bytes r).length)
  jni (jniCall vm .GetByteArrayRegion (decide (start + len ≤ length)) 0)
  (List.range len).mapM (fun j => do
    let x ← look H (fun h => (h.bytes r)[start + j]?)
    jni (JniM.lift (expect x)))

/-- `env.get_long_array_region` with a buffer of `len` elements -/
def getLongArrayRegionH (a : Option Nat) (start len : Nat) : HeapM (List Int64) := do
  let r ← jni (nonNull a)
  let length ← look H (fun h => (h.longs r).length)
  jni (jniCall vm .GetLongArrayRegion (decide (start + len ≤ length)) 0)
  (List.range len).mapM (fun j => do
    let x ← look H (fun h => (h.longs r)[start + j]?)
    let y ← look H (fun h => (h.longs r)[start + j]?)
    let x ← jni (JniM.lift (expect x))
    let y ← jni (JniM.lift (expect y))
    pure (Spec.halves x y))

/-- `env.get_object_array_element`: a null element is no reference -/
def getObjectArrayElementH (a : Option Nat) (i : Nat) : HeapM (Option Nat) := do
  let r ← jni (nonNull a)
  match ← look H (fun h => (h.objects r)[i]?) with
  | some x => do
    jni (jniCall vm .GetObjectArrayElement true (if x.isSome then 1 else 0))
    pure x
  | none => do
    jni (jniCall vm .GetObjectArrayElement false 0)
    pure none

/-- `env.convert_byte_array` -/
def convertByteArrayH (a : Option Nat) : HeapM (List UInt8) := do
  let length ← getArrayLengthH vm H (fun h r => (h.bytes r).length) a
  let v ← getByteArrayRegionH vm H a 0 length
  pure (v.map Int8.toUInt8)

/-- `jlongarray_to_vec_u64`, lib.rs:177-189 -/
def jlongarrayToVecU64H (array : Option Nat) : HeapM (List Nat) := do
  let arrayLength ← getArrayLengthH vm H (fun h r => (h.longs r).length) array
  let buffer ← getLongArrayRegionH vm H array 0 arrayLength
  pure (buffer.map (fun x => x.toUInt64.toNat))

/-- `jobject_array_to_2d_byte_array`, lib.rs:192-220 -/
def jobjectArrayTo2dByteArrayH (array : Option Nat) : HeapM (List (List UInt8)) := do
  let outerLen ← getArrayLengthH vm H (fun h r => (h.objects r).length) array
  (List.range outerLen).mapM (fun i => do
    let innerArray ← getObjectArrayElementH vm H array i
    let innerLen ← getArrayLengthH vm H (fun h r => (h.bytes r).length) innerArray
    let buf ← getByteArrayRegionH vm H innerArray 0 innerLen
    pure (buf.map Int8.toUInt8))

/-- the body of a native method, as in `nativeJni` -/
def nativeH {α : Type} (jniDebug : List UInt8) (funcName : String) (f : HeapM α) : NativeEnd JException α × JniState :=
  nativeJni vm jniDebug funcName (fun s => ((f (0, s)).1, (f (0, s)).2.2))

variable {K G1 G2 GT : Type} [Field K] [DecidableEq K] [AddCommGroup G1] [Module Fr G1] [DecidableEq G1]
  [Curve K G1] [PointCodec G1] [AddCommGroup G2] [Module Fr G2] [AddCommGroup GT] [DecidableEq GT]
  [Pairing G1 G2 GT]

/-- `compute_cells_and_kzg_proofs`, lib.rs:46-57 -/
def computeCellsAndKzgProofsH (blob : Option Nat) (ctx : DASContext K G1 G2) :
    HeapM (List (List Int8) × List (List Int8)) := do
  let blob ← convertByteArrayH vm H blob
  let blob ← jni (JniM.lift (sliceToArrayRefJ BYTES_PER_BLOB blob "blob"))
  let (cells, proofs) ← jni (JniM.lift ((ctx.computeCellsAndKzgProofs blob).mapErr .Cryptography))
  jni (cellsAndProofsToJobjectJni vm cells proofs)

/-- `blob_to_kzg_commitment`, lib.rs:75-85 -/
def blobToKzgCommitmentH (blob : Option Nat) (ctx : DASContext K G1 G2) : HeapM (List Int8) := do
  let blob ← convertByteArrayH vm H blob
  let blob ← jni (JniM.lift (sliceToArrayRefJ BYTES_PER_BLOB blob "blob"))
  let commitment ← jni (JniM.lift ((ctx.blobToKzgCommitment blob).mapErr .Cryptography))
  jni (byteArrayFromSliceJni vm commitment)

/-- `verify_cell_kzg_proof_batch`, lib.rs:107-138 -/
def verifyCellKzgProofBatchH (sha256 : List UInt8 → List UInt8) (commitment cellIndices cells proofs : Option Nat)
    (ctx : DASContext K G1 G2) : HeapM Bool := do
  let commitment ← jobjectArrayTo2dByteArrayH vm H commitment
  let cellIndices ← jlongarrayToVecU64H vm H cellIndices
  let cells ← jobjectArrayTo2dByteArrayH vm H cells
  let proofs ← jobjectArrayTo2dByteArrayH vm H proofs
  let cells ← jni (JniM.lift (cells.mapM (fun cell => sliceToArrayRefJ BYTES_PER_CELL cell "cell")))
  let commitments ← jni (JniM.lift
    (commitment.mapM (fun commitment => sliceToArrayRefJ BYTES_PER_COMMITMENT commitment "commitment")))
  let proofs ← jni (JniM.lift (proofs.mapM (fun proof => sliceToArrayRefJ BYTES_PER_COMMITMENT proof "proof")))
  jni (JniM.lift (match ctx.verifyCellKzgProofBatch sha256 commitments cellIndices cells proofs with
    | .ok _ => pure true
    | .err x => if x.invalidProof then pure false else .err (.Cryptography x)
    | .panic => .panic))

/-- `recover_cells_and_kzg_proofs`, lib.rs:158-174 -/
def recoverCellsAndKzgProofsH (cellIds cells : Option Nat) (ctx : DASContext K G1 G2) :
    HeapM (List (List Int8) × List (List Int8)) := do
  let cellIds ← jlongarrayToVecU64H vm H cellIds
  let cells ← jobjectArrayTo2dByteArrayH vm H cells
  let cells ← jni (JniM.lift (cells.mapM (fun cell => sliceToArrayRefJ BYTES_PER_CELL cell "cell")))
  let (recoveredCells, recoveredProofs) ← jni (JniM.lift ((ctx.recoverCellsAndKzgProofs cellIds cells).mapErr .Cryptography))
  jni (cellsAndProofsToJobjectJni vm recoveredCells recoveredProofs)

end
end Verif
