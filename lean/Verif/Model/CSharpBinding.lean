import Verif.Model.Managed

/-! Model of the C# bindings, `bindings/csharp/csharp_code/EthKZG.bindings/ethkzg.cs`.

A `byte[]` is the address and length of its data; a jagged array is a list of such arrays. References are not null and items do not change
during a call; `Model/CSharpArguments` has the methods without these restrictions. Arrays of pointers
are filled when they are created. The garbage collector may move arrays that are not pinned by a `fixed` statement: `gc` gets the state
and the addresses of the arrays that are not pinned during the native call, and returns the state and addresses after the collection; it
runs once, just before the call. `FlattenArray` and `DeflattenArray` (lines 278-315) are not used by the class; they are in `Model/CSharpArrays`. -/
namespace Verif

/-- a managed array: address and number of elements -/
structure CsArray where
  addr : Nat
  length : Nat

/-- `fixed (T* p = array)`: null for an empty array -/
def CsArray.fixed (a : CsArray) : Nat := if a.length = 0 then 0 else a.addr

/-- the exceptions of the class, with their messages -/
inductive CsException where
  | argument (msg : List UInt8)
  | application (msg : List UInt8)
  deriving DecidableEq

/-- a garbage collection -/
abbrev Gc (Ctx : Type) := CState Ctx → List Nat → CState Ctx × List Nat

/-- no garbage collection -/
def noGc {Ctx : Type} : Gc Ctx := fun s l => (s, l)

variable {Ctx ε : Type}

/-- a garbage collection happens; the result is the new addresses of the arrays that are not pinned -/
def collect (gc : Gc Ctx) (unpinned : List Nat) : CM Ctx ε (List Nat) := fun s => .ok (gc s unpinned).2 (gc s unpinned).1

/-- `InitializeJaggedArray`, lines 317-326 -/
def initializeJaggedArray (H : Heap Ctx) (outerLen innerLen : Nat) : CM Ctx ε (List Nat) :=
  (List.range outerLen).mapM (fun _ => newBytes H innerLen)

/-- the length checks of lines 116-122, 124-130, 132-138 and 193-199 -/
def checkLengths (n : Nat) (name : String) (arrays : List CsArray) : CM Ctx CsException Unit :=
  arrays.zipIdx.forM (fun q => if q.1.length ≠ n
    then CM.throw (.argument (ascii name ++ ascii " at index " ++ debugNat q.2 ++ ascii " has an invalid length"))
    else pure ())

/-- `ThrowOnError`, lines 252-276. `PtrToStringAnsi` gives null for a null pointer. The status has no other values, so the default
branch is not reachable. -/
def throwOnErrorCs (result : CResult) : CM Ctx CsException Unit :=
  match result.status with
  | .Err =>
    if result.errorMsg ≠ 0 then do
      let errorMessage ← readCString result.errorMsg
      callC (ethKzgFreeErrorMessage result.errorMsg)
      CM.throw (.argument (ascii "an error occurred from the bindings: " ++ errorMessage))
    else CM.throw (.argument (ascii "an error occurred from the bindings: unknown error"))
  | .Ok => pure ()

section
variable {K G1 G2 GT : Type} [Field K] [DecidableEq K] [AddCommGroup G1] [Module Fr G1] [DecidableEq G1]
  [Curve K G1] [PointCodec G1] [AddCommGroup G2] [Module Fr G2] [AddCommGroup GT] [DecidableEq GT]
  [Pairing G1 G2 GT]
variable (H : Heap (DASContext K G1 G2)) (A : Allocator (DASContext K G1 G2)) (gc : Gc (DASContext K G1 G2))

/-- `BlobToKzgCommitment`, lines 43-63. Both arrays are pinned during the call. -/
def csBlobToKzgCommitment (context : Nat) (blob : CsArray) : CM (DASContext K G1 G2) CsException (List UInt8) :=
  if blob.length ≠ BYTES_PER_BLOB then CM.throw (.argument (ascii "blob has an invalid length")) else do
    let commitment ← newBytes H BYTES_PER_COMMITMENT
    let result ← callC (ethKzgBlobToKzgCommitment A context blob.fixed commitment)
    throwOnErrorCs result
    readBytes commitment BYTES_PER_COMMITMENT

/-- `ComputeCellsAndKZGProofs`, lines 65-110. The output arrays are pinned only while their addresses are taken (lines 91-94 and
100-103). -/
def csComputeCellsAndKZGProofs (context : Nat) (blob : CsArray) :
    CM (DASContext K G1 G2) CsException (List (List UInt8) × List (List UInt8)) :=
  if blob.length ≠ BYTES_PER_BLOB then CM.throw (.argument (ascii "blob has an invalid length")) else do
    let outCells ← initializeJaggedArray H CELLS_PER_EXT_BLOB BYTES_PER_CELL
    let outProofs ← initializeJaggedArray H CELLS_PER_EXT_BLOB BYTES_PER_COMMITMENT
    let outCellsPtrs ← newPointers H outCells
    let outProofsPtrs ← newPointers H outProofs
    let moved ← collect gc (outCells ++ outProofs)
    let result ← callC (ethKzgComputeCellsAndKzgProofs A context blob.fixed outCellsPtrs outProofsPtrs)
    throwOnErrorCs result
    let cells ← (moved.take CELLS_PER_EXT_BLOB).mapM (fun p => readBytes p BYTES_PER_CELL)
    let proofs ← (moved.drop CELLS_PER_EXT_BLOB).mapM (fun p => readBytes p BYTES_PER_COMMITMENT)
    pure (cells, proofs)

/-- `VerifyCellKZGProofBatch`, lines 112-187. The items are pinned only while their addresses are taken (lines 159-162, 168-171,
177-180). -/
def csVerifyCellKZGProofBatch (sha256 : List UInt8 → List UInt8) (context : Nat) (commitments : List CsArray)
    (cellIndices : CsArray) (cells proofs : List CsArray) : CM (DASContext K G1 G2) CsException Bool := do
  checkLengths BYTES_PER_CELL "cell" cells
  checkLengths BYTES_PER_COMMITMENT "proof" proofs
  checkLengths BYTES_PER_COMMITMENT "commitments" commitments
  let commPtrs ← newPointers H (commitments.map CsArray.fixed)
  let cellsPtrs ← newPointers H (cells.map CsArray.fixed)
  let proofsPtrs ← newPointers H (proofs.map CsArray.fixed)
  let verified ← newBytes H 1
  let _ ← collect gc ((commitments ++ cells ++ proofs).map CsArray.addr)
  let result ← callC (ethKzgVerifyCellKzgProofBatch A sha256 context commitments.length (CsArray.fixed ⟨commPtrs, commitments.length⟩)
    cellIndices.length cellIndices.fixed cells.length (CsArray.fixed ⟨cellsPtrs, cells.length⟩) proofs.length
    (CsArray.fixed ⟨proofsPtrs, proofs.length⟩) verified)
  throwOnErrorCs result
  let b ← readByte verified
  pure (b ≠ 0)

/-- `RecoverCellsAndKZGProofs`, lines 189-250. Inputs and outputs are pinned only while their addresses are taken (lines 221-224,
230-233, 239-242). -/
def csRecoverCellsAndKZGProofs (context : Nat) (cellIds : CsArray) (cells : List CsArray) :
    CM (DASContext K G1 G2) CsException (List (List UInt8) × List (List UInt8)) := do
  checkLengths BYTES_PER_CELL "cell" cells
  let outCells ← initializeJaggedArray H CELLS_PER_EXT_BLOB BYTES_PER_CELL
  let outProofs ← initializeJaggedArray H CELLS_PER_EXT_BLOB BYTES_PER_COMMITMENT
  let inputCellsPtrs ← newPointers H (cells.map CsArray.fixed)
  let outCellsPtrs ← newPointers H outCells
  let outProofsPtrs ← newPointers H outProofs
  let moved ← collect gc (outCells ++ outProofs ++ cells.map CsArray.addr)
  let result ← callC (ethKzgRecoverCellsAndProofs A context cells.length (CsArray.fixed ⟨inputCellsPtrs, cells.length⟩) cellIds.length
    cellIds.fixed outCellsPtrs outProofsPtrs)
  throwOnErrorCs result
  let outC ← (moved.take CELLS_PER_EXT_BLOB).mapM (fun p => readBytes p BYTES_PER_CELL)
  let outP ← ((moved.drop CELLS_PER_EXT_BLOB).take CELLS_PER_EXT_BLOB).mapM (fun p => readBytes p BYTES_PER_COMMITMENT)
  pure (outC, outP)

/-- an object of the class: its field `_context`, line 27 -/
structure EthKZGCs where
  context : Nat

/-- the constructor, lines 29-32. The number of threads does not influence results (C36). -/
def EthKZGCs.new (setup : SetupPoints G1 G2) (usePrecomp : Bool) : CM (DASContext K G1 G2) Empty EthKZGCs := do
  let p ← ethKzgDasContextNew A setup usePrecomp
  pure ⟨p⟩

/-- `Dispose`, lines 34-41; the result is the object after the call -/
def EthKZGCs.dispose (self : EthKZGCs) : CM (DASContext K G1 G2) Empty EthKZGCs :=
  if self.context ≠ 0 then do
    ethKzgDasContextFree self.context
    pure ⟨0⟩
  else pure self

end
end Verif
