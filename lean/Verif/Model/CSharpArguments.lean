import Verif.Model.CSharpBinding

/-! Model of the C# methods for arguments that contain null references or that another thread changes during the call,
`bindings/csharp/csharp_code/EthKZG.bindings/ethkzg.cs`.

The parameters are local variables and the length of an array never changes, but another thread can assign to the items of a `byte[][]`.
Every method reads an item exactly twice: when it checks its length, and when it takes its address with `fixed`. An argument is therefore
the list of the pairs of these two reads; `none` is a null reference. All other parts are those of `Model/CSharpBinding`. -/
namespace Verif

/-- a reference to a `byte[]` or `ulong[]`, or null -/
abbrev CsRef := Option CsArray

/-- an argument of type `byte[][]`: null, or for each item what the length check reads and what the `fixed` statement reads -/
abbrev CsItems := Option (List (CsRef × CsRef))

/-- `fixed (T* p = r)`: null for a null reference and for an empty array -/
def CsRef.fixed : CsRef → Nat
  | none => 0
  | some a => a.fixed

/-- the address of the data, for the collector; a null reference has none -/
def CsRef.addr : CsRef → Nat
  | none => 0
  | some a => a.addr

/-- what a method ends with other than a result: the exceptions of the class, or `NullReferenceException` -/
inductive CsFailure where
  | raised (e : CsException)
  | nullReference
  deriving DecidableEq

variable {Ctx α : Type}

/-- a computation that raises only exceptions of the class -/
def raise (x : CM Ctx CsException α) : CM Ctx CsFailure α := fun s => match x s with
  | .ok a s => .ok a s
  | .err e s => .err (.raised e) s
  | .panic => .panic
  | .fault => .fault

/-- a use of `r.Length` -/
def CsRef.deref : CsRef → CM Ctx CsFailure CsArray
  | none => CM.throw .nullReference
  | some a => pure a

/-- the length checks of lines 116-122, 124-130, 132-138 and 193-199; the result is the second read of each item -/
def checkItems (n : Nat) (name : String) (items : CsItems) : CM Ctx CsFailure (List CsRef) :=
  match items with
  | none => CM.throw .nullReference
  | some items => do
    items.zipIdx.forM (fun q => do
      let a ← q.1.1.deref
      if a.length ≠ n
        then CM.throw (.raised (.argument (ascii name ++ ascii " at index " ++ debugNat q.2 ++ ascii " has an invalid length")))
        else pure ())
    pure (items.map Prod.snd)

section
variable {K G1 G2 GT : Type} [Field K] [DecidableEq K] [AddCommGroup G1] [Module Fr G1] [DecidableEq G1]
  [Curve K G1] [PointCodec G1] [AddCommGroup G2] [Module Fr G2] [AddCommGroup GT] [DecidableEq GT]
  [Pairing G1 G2 GT]
variable (H : Heap (DASContext K G1 G2)) (A : Allocator (DASContext K G1 G2)) (gc : Gc (DASContext K G1 G2))

/-- `BlobToKzgCommitment`, lines 43-63 -/
def csBlobToKzgCommitmentArgs (context : Nat) (blob : CsRef) : CM (DASContext K G1 G2) CsFailure (List UInt8) := do
  let blob ← blob.deref
  raise (csBlobToKzgCommitment H A context blob)

/-- `ComputeCellsAndKZGProofs`, lines 65-110 -/
def csComputeCellsAndKZGProofsArgs (context : Nat) (blob : CsRef) :
    CM (DASContext K G1 G2) CsFailure (List (List UInt8) × List (List UInt8)) := do
  let blob ← blob.deref
  raise (csComputeCellsAndKZGProofs H A gc context blob)

/-- `VerifyCellKZGProofBatch`, lines 112-187. `cellIndices.Length` is evaluated when the arguments of the native call are, line 183,
after the arrays of pointers were allocated and filled. -/
def csVerifyCellKZGProofBatchArgs (sha256 : List UInt8 → List UInt8) (context : Nat) (commitments : CsItems) (cellIndices : CsRef)
    (cells proofs : CsItems) : CM (DASContext K G1 G2) CsFailure Bool := do
  let cells ← checkItems BYTES_PER_CELL "cell" cells
  let proofs ← checkItems BYTES_PER_COMMITMENT "proof" proofs
  let commitments ← checkItems BYTES_PER_COMMITMENT "commitments" commitments
  let commPtrs ← newPointers H (commitments.map CsRef.fixed)
  let cellsPtrs ← newPointers H (cells.map CsRef.fixed)
  let proofsPtrs ← newPointers H (proofs.map CsRef.fixed)
  let verified ← newBytes H 1
  let cellIndices ← cellIndices.deref
  let _ ← collect gc ((commitments ++ cells ++ proofs).map CsRef.addr)
  let result ← callC (ethKzgVerifyCellKzgProofBatch A sha256 context commitments.length (CsArray.fixed ⟨commPtrs, commitments.length⟩)
    cellIndices.length cellIndices.fixed cells.length (CsArray.fixed ⟨cellsPtrs, cells.length⟩) proofs.length
    (CsArray.fixed ⟨proofsPtrs, proofs.length⟩) verified)
  raise (throwOnErrorCs result)
  let b ← readByte verified
  pure (b ≠ 0)

/-- `RecoverCellsAndKZGProofs`, lines 189-250. `cellIds.Length` is evaluated when the arguments of the native call are, line 245. -/
def csRecoverCellsAndKZGProofsArgs (context : Nat) (cellIds : CsRef) (cells : CsItems) :
    CM (DASContext K G1 G2) CsFailure (List (List UInt8) × List (List UInt8)) := do
  let cells ← checkItems BYTES_PER_CELL "cell" cells
  let outCells ← initializeJaggedArray H CELLS_PER_EXT_BLOB BYTES_PER_CELL
  let outProofs ← initializeJaggedArray H CELLS_PER_EXT_BLOB BYTES_PER_COMMITMENT
  let inputCellsPtrs ← newPointers H (cells.map CsRef.fixed)
  let outCellsPtrs ← newPointers H outCells
  let outProofsPtrs ← newPointers H outProofs
  let cellIds ← cellIds.deref
  let moved ← collect gc (outCells ++ outProofs ++ cells.map CsRef.addr)
  let result ← callC (ethKzgRecoverCellsAndProofs A context cells.length (CsArray.fixed ⟨inputCellsPtrs, cells.length⟩) cellIds.length
    cellIds.fixed outCellsPtrs outProofsPtrs)
  raise (throwOnErrorCs result)
  let outC ← (moved.take CELLS_PER_EXT_BLOB).mapM (fun p => readBytes p BYTES_PER_CELL)
  let outP ← ((moved.drop CELLS_PER_EXT_BLOB).take CELLS_PER_EXT_BLOB).mapM (fun p => readBytes p BYTES_PER_COMMITMENT)
  pure (outC, outP)

end
end Verif
