import Verif.Model.Managed

/-! Model of the Nim bindings, `bindings/nim/nim_code/nim_eth_kzg/nim_eth_kzg.nim`, with the declarations of `header.nim`.

The types of the items have a fixed size, so an array of items is its address and its number of items; the items follow each other.
Local variables live in memory placed by the same allocator as sequences. The size of a sequence is that of its elements, without the
header. The sequences built by `toPtrPtr` live until the procedure returns (a template does not open a scope). Rendering a `CResult` with
`$` is a parameter: the field `xerror_msg` is declared as `pointer` (header.nim:14-16), so the text depends on the two fields only and the
message behind the pointer is not read. -/
namespace Verif

/-- an `openArray`: address of the first item and number of items -/
structure NimArray where
  addr : Nat
  length : Nat

/-- the error of a `Result[_, string]` -/
abbrev NimError := List UInt8

variable {Ctx : Type}

/-- `safeGetPtr`, lines 45-50 -/
def NimArray.safeGetPtr (a : NimArray) : Nat := if a.length > 0 then a.addr else 0

/-- the addresses of the items of size `n` -/
def NimArray.items (n : Nat) (a : NimArray) : List Nat := (List.range a.length).map (fun i => a.addr + n * i)

/-- `toPtrPtr`, lines 54-64, on an array of items of size `n`. An empty sequence needs no memory. -/
def toPtrPtr (H : Heap Ctx) (n : Nat) (a : NimArray) : CM Ctx NimError Nat :=
  if a.length = 0 then pure 0 else newPointers H (a.items n)

/-- `verify_result`, lines 66-71, up to the construction of the result -/
def verifyResultNim (dollar : CResult → List UInt8) (res : CResult) : CM Ctx NimError Unit :=
  if res.status ≠ .Ok then do
    let errorMsg := dollar res
    callC (ethKzgFreeErrorMessage res.errorMsg)
    CM.throw errorMsg
  else pure ()

/-- the value of a variable of type `CellsAndProofs`, lines 33-35: 128 cells, then 128 proofs -/
def readCellsAndProofs (ret : Nat) : CM Ctx NimError (List (List UInt8) × List (List UInt8)) := do
  let cells ← (NimArray.items BYTES_PER_CELL ⟨ret, CELLS_PER_EXT_BLOB⟩).mapM (fun p => readBytes p BYTES_PER_CELL)
  let proofs ← (NimArray.items 48 ⟨ret + CELLS_PER_EXT_BLOB * BYTES_PER_CELL, CELLS_PER_EXT_BLOB⟩).mapM (fun p => readBytes p 48)
  pure (cells, proofs)

section
variable {K G1 G2 GT : Type} [Field K] [DecidableEq K] [AddCommGroup G1] [Module Fr G1] [DecidableEq G1]
  [Curve K G1] [PointCodec G1] [AddCommGroup G2] [Module Fr G2] [AddCommGroup GT] [DecidableEq GT]
  [Pairing G1 G2 GT]
variable (H : Heap (DASContext K G1 G2)) (A : Allocator (DASContext K G1 G2)) (dollar : CResult → List UInt8)

/-- `blobToKZGCommitment`, lines 93-103 -/
def nimBlobToKZGCommitment (ctx blob : Nat) : CM (DASContext K G1 G2) NimError (List UInt8) := do
  let ret ← newBytes H 48
  let res ← callC (ethKzgBlobToKzgCommitment A ctx blob ret)
  verifyResultNim dollar res
  readBytes ret 48

/-- `computeCellsAndProofs`, lines 105-119 -/
def nimComputeCellsAndProofs (ctx blob : Nat) : CM (DASContext K G1 G2) NimError (List (List UInt8) × List (List UInt8)) := do
  let ret ← newBytes H (CELLS_PER_EXT_BLOB * BYTES_PER_CELL + CELLS_PER_EXT_BLOB * 48)
  let outCellsPtr ← toPtrPtr H BYTES_PER_CELL ⟨ret, CELLS_PER_EXT_BLOB⟩
  let outProofsPtr ← toPtrPtr H 48 ⟨ret + CELLS_PER_EXT_BLOB * BYTES_PER_CELL, CELLS_PER_EXT_BLOB⟩
  let res ← callC (ethKzgComputeCellsAndKzgProofs A ctx blob outCellsPtr outProofsPtr)
  verifyResultNim dollar res
  readCellsAndProofs ret

/-- `verifyCellKZGProofBatch`, lines 121-148 -/
def nimVerifyCellKZGProofBatch (sha256 : List UInt8 → List UInt8) (ctx : Nat) (commitments cellIndices cells proofs : NimArray) :
    CM (DASContext K G1 G2) NimError Bool := do
  let valid ← newBytes H 1
  let cellsPtr ← toPtrPtr H BYTES_PER_CELL cells
  let proofsPtr ← toPtrPtr H 48 proofs
  let commitmentsPtr ← toPtrPtr H 48 commitments
  let res ← callC (ethKzgVerifyCellKzgProofBatch A sha256 ctx commitments.length commitmentsPtr cellIndices.length
    cellIndices.safeGetPtr cells.length cellsPtr proofs.length proofsPtr valid)
  verifyResultNim dollar res
  let b ← readByte valid
  pure (b ≠ 0)

/-- `recoverCellsAndProofs`, lines 150-173 -/
def nimRecoverCellsAndProofs (ctx : Nat) (cellIds cells : NimArray) :
    CM (DASContext K G1 G2) NimError (List (List UInt8) × List (List UInt8)) := do
  let ret ← newBytes H (CELLS_PER_EXT_BLOB * BYTES_PER_CELL + CELLS_PER_EXT_BLOB * 48)
  let outCellsPtr ← toPtrPtr H BYTES_PER_CELL ⟨ret, CELLS_PER_EXT_BLOB⟩
  let outProofsPtr ← toPtrPtr H 48 ⟨ret + CELLS_PER_EXT_BLOB * BYTES_PER_CELL, CELLS_PER_EXT_BLOB⟩
  let inputCellsPtr ← toPtrPtr H BYTES_PER_CELL cells
  let res ← callC (ethKzgRecoverCellsAndProofs A ctx cells.length inputCellsPtr cellIds.length cellIds.safeGetPtr outCellsPtr
    outProofsPtr)
  verifyResultNim dollar res
  readCellsAndProofs ret

/-- the object behind a `KZGCtx`: its field `ctx_ptr`, lines 74-76 -/
structure KZGCtx where
  ctxPtr : Nat

/-- `newKZGCtx`, lines 87-90. The number of threads is in `nimThreads`. -/
def newKZGCtx (setup : SetupPoints G1 G2) (usePrecomp : Bool) : CM (DASContext K G1 G2) Empty KZGCtx := do
  let p ← ethKzgDasContextNew A setup usePrecomp
  pure ⟨p⟩

/-- `=destroy`, lines 83-85. Nim calls it when the last reference to the object is gone. -/
def KZGCtx.destroy (x : KZGCtx) : CM (DASContext K G1 G2) Empty Unit :=
  if x.ctxPtr ≠ 0 then ethKzgDasContextFree x.ctxPtr else pure ()

end
end Verif
