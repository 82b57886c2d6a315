import Verif.Model.JavaBinding
import Verif.Spec.Jni

/-! Model of the native methods of the Java bindings, `bindings/java/rust_code/src/lib.rs`, at the level of the calls that they make to
the Java virtual machine. `Model/JavaBinding` has the same functions at the level of values, and assumes that those calls do not fail;
here every call that can fail may do so.

The machine is a parameter: it chooses which calls raise an exception (`OutOfMemoryError`, `NoClassDefFoundError` and so on), among the
functions for which the JNI specification names such exceptions. Requests outside an array and lookups of unknown classes and
constructors always raise one. Assumptions about the `jni` crate, version 0.21 (not in the repository): its functions fail on a null
reference before any call, with no exception pending; after a call they report an error if an exception is pending; the calls behind each
function are those listed here; `throw_new` deletes the reference to the class that it looks up. The bindings delete no local reference
themselves. The contents of arrays do not change during a call; `Model/JavaArguments` drops this. -/
namespace Verif

/-- the Java virtual machine: whether call number `k` of a native method raises an exception for reasons of its own -/
structure Jvm where
  raises : Nat → Bool

/-- the functions that can raise an exception for such reasons -/
def JniFn.mayFail : JniFn → Bool
  | .FindClass _ | .NewObjectArray | .NewByteArray | .GetMethodID | .NewObjectA | .ThrowNew => true
  | _ => false

/-- the class of the results: `package ethereum.cryptography`, `class CellsAndProofs`, CellsAndProofs.java:1, 10 -/
def cellsAndProofsClass : String := "ethereum/cryptography/CellsAndProofs"

/-- the classes that the machine can find: that of the bindings, that of `byte[]`, and one of the standard library -/
def jvmClasses : List String := [cellsAndProofsClass, "[B", "java/lang/IllegalArgumentException"]

/-- `CellsAndProofs(byte[][] cells, byte[][] proofs)`, CellsAndProofs.java:24: the descriptors of the constructors -/
def cellsAndProofsConstructors : List String :=
  [constructorDescriptor [.array (.array .byte), .array (.array .byte)]]

/-- the calls made so far, the local references created and not deleted (those of the parameters are not counted), and whether an
exception is pending -/
structure JniState where
  trace : List JniCall
  locals : Nat
  pending : Bool

/-- at the entry of a native method -/
def JniState.entry : JniState := ⟨[], 0, false⟩

/-- a computation that calls the machine -/
def JniM (α : Type) : Type := JniState → Outcome JError α × JniState

namespace JniM

protected def bind {α β : Type} (x : JniM α) (f : α → JniM β) : JniM β := fun s =>
  match x s with
  | (.ok a, s) => f a s
  | (.err e, s) => (.err e, s)
  | (.panic, s) => (.panic, s)

instance : Monad JniM where
  pure a := fun s => (.ok a, s)
  bind := JniM.bind

/-- a computation that makes no calls -/
def lift {α : Type} (x : Outcome JError α) : JniM α := fun s => (x, s)

end JniM

section
variable (vm : Jvm)

/-- a call through the crate: `legal` tells whether its arguments are in range, `refs` is the number of references that it creates -/
def jniCall (fn : JniFn) (legal : Bool) (refs : Nat) : JniM Unit := fun s =>
  let failed := !legal || (fn.mayFail && vm.raises s.trace.length)
  let pending := s.pending || failed
  let locals := if pending then s.locals else s.locals + refs
  (if pending then .err .Jni else .ok (), ⟨s.trace ++ [⟨fn, s.pending, failed, locals⟩], locals, pending⟩)

/-- the null check of the crate -/
def nonNull {α : Type} : Option α → JniM α
  | some a => pure a
  | none => JniM.lift (.err .Jni)

/-- `env.get_array_length` -/
def getArrayLength {α : Type} (a : Option (List α)) : JniM Nat := do
  let l ← nonNull a
  jniCall vm .GetArrayLength true 0
  pure l.length

/-- `env.get_byte_array_region` with a buffer of `len` elements -/
def getByteArrayRegion (a : JByteArray) (start len : Nat) : JniM (List Int8) := do
  let l ← nonNull a
  jniCall vm .GetByteArrayRegion (decide (start + len ≤ l.length)) 0
  pure ((l.drop start).take len)

/-- `env.get_long_array_region` with a buffer of `len` elements -/
def getLongArrayRegion (a : JLongArray) (start len : Nat) : JniM (List Int64) := do
  let l ← nonNull a
  jniCall vm .GetLongArrayRegion (decide (start + len ≤ l.length)) 0
  pure ((l.drop start).take len)

/-- `env.get_object_array_element`: a null element is no reference -/
def getObjectArrayElement (a : JObjectArray) (i : Nat) : JniM JByteArray := do
  let l ← nonNull a
  match l[i]? with
  | some x => do
    jniCall vm .GetObjectArrayElement true (if x.isSome then 1 else 0)
    pure x
  | none => do
    jniCall vm .GetObjectArrayElement false 0
    pure none

/-- `env.find_class` -/
def findClass (name : String) : JniM Unit := jniCall vm (.FindClass name) (decide (name ∈ jvmClasses)) 1

/-- `env.new_byte_array` -/
def newByteArray (len : Nat) : JniM (List Int8) := do
  jniCall vm .NewByteArray true 1
  pure (List.replicate len 0)

/-- `env.byte_array_from_slice`: a new array, then `SetByteArrayRegion` -/
def byteArrayFromSliceJni (b : List UInt8) : JniM (List Int8) := do
  let a ← newByteArray vm b.length
  jniCall vm .SetByteArrayRegion (decide (b.length ≤ a.length)) 0
  pure (b.map UInt8.toInt8 ++ a.drop b.length)

/-- `env.convert_byte_array` -/
def convertByteArrayJni (a : JByteArray) : JniM (List UInt8) := do
  let length ← getArrayLength vm a
  let v ← getByteArrayRegion vm a 0 length
  pure (v.map Int8.toUInt8)

/-- `env.new_object_array`; the class has been found before -/
def newObjectArray (len : Nat) (init : List Int8) : JniM (List (List Int8)) := do
  jniCall vm .NewObjectArray true 1
  pure (List.replicate len init)

/-- `env.set_object_array_element`: the array after the call -/
def setObjectArrayElement (a : List (List Int8)) (i : Nat) (x : List Int8) : JniM (List (List Int8)) := do
  jniCall vm .SetObjectArrayElement (decide (i < a.length)) 0
  pure (a.set i x)

/-- `env.new_object` for the class `CellsAndProofs`, already found: `GetMethodID`, then the constructor at CellsAndProofs.java:24-27 -/
def newCellsAndProofs (descriptor : String) (cells proofs : List (List Int8)) : JniM (List (List Int8) × List (List Int8)) := do
  jniCall vm .GetMethodID (decide (descriptor ∈ cellsAndProofsConstructors)) 0
  jniCall vm .NewObjectA true 1
  pure (cells, proofs)

/-- `jlongarray_to_vec_u64`, lib.rs:177-189 -/
def jlongarrayToVecU64Jni (array : JLongArray) : JniM (List Nat) := do
  let arrayLength ← getArrayLength vm array
  let buffer ← getLongArrayRegion vm array 0 arrayLength
  pure (buffer.map (fun x => x.toUInt64.toNat))

/-- `jobject_array_to_2d_byte_array`, lib.rs:192-220 -/
def jobjectArrayTo2dByteArrayJni (array : JObjectArray) : JniM (List (List UInt8)) := do
  let outerLen ← getArrayLength vm array
  (List.range outerLen).mapM (fun i => do
    let innerArray ← getObjectArrayElement vm array i
    let innerLen ← getArrayLength vm innerArray
    let buf ← getByteArrayRegion vm innerArray 0 innerLen
    pure (buf.map Int8.toUInt8))

/-- the two loops of `cells_and_proofs_to_jobject`, lib.rs:241-244, 253-256 -/
def fillObjectArray (array : List (List Int8)) (values : List (List UInt8)) : JniM (List (List Int8)) :=
  values.zipIdx.foldlM (fun array (value, i) => do
    let x ← byteArrayFromSliceJni vm value
    setObjectArrayElement vm array i x) array

/-- `cells_and_proofs_to_jobject`, lib.rs:223-266 -/
def cellsAndProofsToJobjectJni (cells proofs : List (List UInt8)) : JniM (List (List Int8) × List (List Int8)) := do
  findClass vm "ethereum/cryptography/CellsAndProofs"
  findClass vm "[B"
  findClass vm "[B"
  let cellsArray ← newObjectArray vm cells.length (← newByteArray vm 0)
  let cellsArray ← fillObjectArray vm cellsArray cells
  let proofsArray ← newObjectArray vm proofs.length (← newByteArray vm 0)
  let proofsArray ← fillObjectArray vm proofsArray proofs
  newCellsAndProofs vm "([[B[[B)V" cellsArray proofsArray

/-- `env.throw_new`: look up the class, `ThrowNew`, delete the reference to the class; an error if `ThrowNew` reports one -/
def throwNew (cls : String) : JniM Unit := do
  findClass vm cls
  let failed ← (fun s =>
    let failed := JniFn.mayFail .ThrowNew && vm.raises s.trace.length
    (.ok failed, ⟨s.trace ++ [⟨.ThrowNew, s.pending, failed, s.locals⟩], s.locals, true⟩) : JniM Bool)
  (fun s => (.ok (), ⟨s.trace ++ [⟨.DeleteLocalRef, s.pending, false, s.locals - 1⟩], s.locals - 1, s.pending⟩) : JniM Unit)
  if failed then JniM.lift (.err .Jni) else pure ()

/-- the body of a native method, lib.rs:37-44, 66-73, 97-105, 148-156, with `throw_on_error`, lib.rs:269-285: if `throw_new` fails,
`expect` panics, and a panic cannot leave an `extern "system"` function -/
def nativeJni {α : Type} (jniDebug : List UInt8) (funcName : String) (f : JniM α) : NativeEnd JException α × JniState :=
  match f .entry with
  | (.ok a, s) => (.returned a, s)
  | (.err e, s) =>
    match throwNew vm "java/lang/IllegalArgumentException" s with
    | (.ok _, s) => (.threw (throwOnErrorJ jniDebug e funcName), s)
    | (_, s) => (.aborted, s)
  | (.panic, s) => (.aborted, s)

variable {K G1 G2 GT : Type} [Field K] [DecidableEq K] [AddCommGroup G1] [Module Fr G1] [DecidableEq G1]
  [Curve K G1] [PointCodec G1] [AddCommGroup G2] [Module Fr G2] [AddCommGroup GT] [DecidableEq GT]
  [Pairing G1 G2 GT]

/-- `compute_cells_and_kzg_proofs`, lib.rs:46-57 -/
def computeCellsAndKzgProofsJni (blob : JByteArray) (ctx : DASContext K G1 G2) :
    JniM (List (List Int8) × List (List Int8)) := do
  let blob ← convertByteArrayJni vm blob
  let blob ← JniM.lift (sliceToArrayRefJ BYTES_PER_BLOB blob "blob")
  let (cells, proofs) ← JniM.lift ((ctx.computeCellsAndKzgProofs blob).mapErr .Cryptography)
  cellsAndProofsToJobjectJni vm cells proofs

/-- `blob_to_kzg_commitment`, lib.rs:75-85 -/
def blobToKzgCommitmentJni (blob : JByteArray) (ctx : DASContext K G1 G2) : JniM (List Int8) := do
  let blob ← convertByteArrayJni vm blob
  let blob ← JniM.lift (sliceToArrayRefJ BYTES_PER_BLOB blob "blob")
  let commitment ← JniM.lift ((ctx.blobToKzgCommitment blob).mapErr .Cryptography)
  byteArrayFromSliceJni vm commitment

/-- `verify_cell_kzg_proof_batch`, lib.rs:107-138 -/
def verifyCellKzgProofBatchJni (sha256 : List UInt8 → List UInt8) (commitment : JObjectArray) (cellIndices : JLongArray)
    (cells proofs : JObjectArray) (ctx : DASContext K G1 G2) : JniM Bool := do
  let commitment ← jobjectArrayTo2dByteArrayJni vm commitment
  let cellIndices ← jlongarrayToVecU64Jni vm cellIndices
  let cells ← jobjectArrayTo2dByteArrayJni vm cells
  let proofs ← jobjectArrayTo2dByteArrayJni vm proofs
  let cells ← JniM.lift (cells.mapM (fun cell => sliceToArrayRefJ BYTES_PER_CELL cell "cell"))
  let commitments ← JniM.lift
    (commitment.mapM (fun commitment => sliceToArrayRefJ BYTES_PER_COMMITMENT commitment "commitment"))
  let proofs ← JniM.lift (proofs.mapM (fun proof => sliceToArrayRefJ BYTES_PER_COMMITMENT proof "proof"))
  JniM.lift (match ctx.verifyCellKzgProofBatch sha256 commitments cellIndices cells proofs with
    | .ok _ => pure true
    | .err x => if x.invalidProof then pure false else .err (.Cryptography x)
    | .panic => .panic)

/-- `recover_cells_and_kzg_proofs`, lib.rs:158-174 -/
def recoverCellsAndKzgProofsJni (cellIds : JLongArray) (cells : JObjectArray) (ctx : DASContext K G1 G2) :
    JniM (List (List Int8) × List (List Int8)) := do
  let cellIds ← jlongarrayToVecU64Jni vm cellIds
  let cells ← jobjectArrayTo2dByteArrayJni vm cells
  let cells ← JniM.lift (cells.mapM (fun cell => sliceToArrayRefJ BYTES_PER_CELL cell "cell"))
  let (recoveredCells, recoveredProofs) ← JniM.lift ((ctx.recoverCellsAndKzgProofs cellIds cells).mapErr .Cryptography)
  cellsAndProofsToJobjectJni vm recoveredCells recoveredProofs

end
end Verif
