import Verif.Model.CBinding
import Verif.Spec.Aliasing

/-! Model of the references that `bindings/c/src` creates from the pointers of its caller, for any formulation of Rust's aliasing rules.

The functions are those of `Model/CBinding` with the events that matter for the aliasing rules added: every reference that is created
gets a tag, every access names the tag of the reference it goes through. An event that the rules forbid gives the outcome `violation`.
The pointers of the caller, both the arguments and those that are loaded from the caller's memory, carry the tag 0.

Simplifications: a reference is not reborrowed when it is passed on (`try_into`, `copy_from_slice`, the library functions): a reborrow
of the same bytes succeeds whenever the access that follows it does. The library reads its inputs completely when it is called. The
context and the memory that Rust itself allocates are not part of the byte memory. -/
namespace Verif
open Spec (AliasModel RefKind)

variable {B : AliasModel} {Ctx ε α β : Type}

/-- outcome of a foreign function or of one of its helpers -/
inductive AOut (B : AliasModel) (Ctx ε α : Type) where
  | ok (a : α) (s : CState Ctx) (b : B.State)
  | err (e : ε) (s : CState Ctx) (b : B.State)
  | panic
  | fault
  | violation

/-- computations with the process state and the state of the aliasing rules -/
def AM (B : AliasModel) (Ctx ε α : Type) := CState Ctx → B.State → AOut B Ctx ε α

instance : Monad (AM B Ctx ε) where
  pure a := fun s b => .ok a s b
  bind x f := fun s b => match x s b with
    | .ok a s b => f a s b
    | .err e s b => .err e s b
    | .panic => .panic
    | .fault => .fault
    | .violation => .violation

namespace AM

/-- a step that involves no reference -/
def lift (x : CM Ctx ε α) : AM B Ctx ε α := fun s b => match x s with
  | .ok a s => .ok a s b
  | .err e s => .err e s b
  | .panic => .panic
  | .fault => .fault

/-- create a reference to `size` bytes at `addr`; the result is its tag -/
def retag (k : RefKind) (addr size tag : Nat) : AM B Ctx ε Nat := fun s b => match B.retag k addr size tag b with
  | some (t, b) => .ok t s b
  | none => .violation

/-- access one byte -/
def access (w : Bool) (addr tag : Nat) : AM B Ctx ε Unit := fun s b => match B.access w addr tag b with
  | some b => .ok () s b
  | none => .violation

/-- read `size` bytes at `addr` -/
def readAll (addr size tag : Nat) : AM B Ctx ε Unit := (List.range size).forM (fun i => access false (addr + i) tag)

/-- a slice or an array of the caller, with its contents -/
structure SliceRef (β : Type) where
  addr : Nat
  size : Nat
  tag : Nat
  content : β

/-- use a slice or an array -/
def SliceRef.use (r : SliceRef β) : AM B Ctx ε Unit := readAll r.addr r.size r.tag

/-- `create_slice_view::<u8>`, pointer_utils.rs:71-77 -/
def createSliceView (p len : Nat) : AM B Ctx ε (SliceRef (List UInt8)) := do
  let content ← lift (Verif.createSliceView p len)
  if len = 0 then pure ⟨p, 0, 0, content⟩ else do
    let tag ← retag .shared p len 0
    pure ⟨p, len, tag, content⟩

/-- `create_slice_view::<u64>` and `from_raw_parts` for a slice of pointers, pointer_utils.rs:71-77 and 33 -/
def createSliceViewU64 (p len : Nat) : AM B Ctx ε (SliceRef (List Nat)) := do
  let content ← lift (Verif.createSliceViewU64 p len)
  if len = 0 then pure ⟨p, 0, 0, content⟩ else do
    let tag ← retag .shared p (8 * len) 0
    pure ⟨p, 8 * len, tag, content⟩

/-- `create_array_ref`, pointer_utils.rs:67-70 -/
def createArrayRef (len p : Nat) : AM B Ctx ε (SliceRef (List UInt8)) := do
  let slice ← createSliceView p len
  lift (CM.assert (slice.content.length = len))
  pure slice

/-- `ptr_ptr_to_vec_slice_const`, pointer_utils.rs:25-44. The pointers are read through the slice. -/
def ptrPtrToVecSliceConst (innerLen ptrPtr outerLen : Nat) : AM B Ctx ε (List (SliceRef (List UInt8))) :=
  if outerLen = 0 then pure [] else do
    let vecSlice ← createSliceViewU64 ptrPtr outerLen
    vecSlice.content.zipIdx.mapM (fun q => do
      readAll (vecSlice.addr + 8 * q.2) 8 vecSlice.tag
      createArrayRef innerLen q.1)

/-- `write_to_slice`, pointer_utils.rs:47-50 -/
def writeToSlice (p tag : Nat) (data : List UInt8) : AM B Ctx ε Unit := do
  lift (CM.require (p ≠ 0))
  let slice ← retag .unique p data.length tag
  data.zipIdx.forM (fun q => do
    access true (p + q.2) slice
    lift (writeByte (p + q.2) q.1))

/-- `write_to_2d_slice` with `ptr_ptr_to_slice_slice_mut`, pointer_utils.rs:14-22, 53-62. `out_cells` is a mutable slice of `N` mutable
references to one byte each. `iter_mut` gives a mutable reference to each of them in turn. `*out_cell`, a reference to one byte, is
turned into a raw pointer for `write_to_slice`. -/
def writeTo2dSlice (p : Nat) (data : List (List UInt8)) : AM B Ctx ε Unit :=
  if data.length = 0 then pure () else do
    lift (CM.require (p ≠ 0))
    lift (CM.require (p % 8 = 0))
    let outCells ← retag .unique p (8 * data.length) 0
    data.zipIdx.forM (fun q => do
      let outCell ← retag .unique (p + 8 * q.2) 8 outCells
      readAll (p + 8 * q.2) 8 outCell
      let target ← lift (readU64 (p + 8 * q.2))
      let raw ← retag .raw target 1 0
      writeToSlice target raw q.1)

/-- `match f(..) { Ok(_) => CResult::with_ok(), Err(err) => err }`, lib.rs:191-194, 222-225, 286-300, 339-350 -/
def cResult (x : AM B Ctx CResult Unit) : AM B Ctx Empty CResult := fun s b =>
  match x s b with
  | .ok () s b => .ok CResult.withOk s b
  | .err r s b => .ok r s b
  | .panic => .panic
  | .fault => .fault
  | .violation => .violation

/-- `deref_mut(verified)`, pointer_utils.rs:4-6 -/
def derefMut (p : Nat) : AM B Ctx ε (SliceRef Unit) := do
  let _ ← lift (Verif.derefMut p)
  let tag ← retag .unique p 1 0
  pure ⟨p, 1, tag, ()⟩

section
variable {K G1 G2 GT : Type} [Field K] [DecidableEq K] [AddCommGroup G1] [Module Fr G1] [DecidableEq G1]
  [Curve K G1] [PointCodec G1] [AddCommGroup G2] [Module Fr G2] [AddCommGroup GT] [DecidableEq GT]
  [Pairing G1 G2 GT]
variable (A : Allocator (DASContext K G1 G2))

/-- `_blob_to_kzg_commitment`, blob_to_kzg_commitment.rs:6-36 -/
def blobToKzgCommitment (ctx blob out : Nat) : AM B (DASContext K G1 G2) CResult Unit := do
  lift (CM.assert (ctx ≠ 0))
  let ctx ← lift (derefCtx ctx)
  let blob ← createArrayRef BYTES_PER_BLOB blob
  blob.use
  let commitment ← lift (tryRust A (ctx.blobToKzgCommitment blob.content))
  lift (CM.assert (commitment.length = BYTES_PER_COMMITMENT))
  writeToSlice out 0 commitment

/-- `eth_kzg_blob_to_kzg_commitment`, c/lib.rs:184-195 -/
def ethKzgBlobToKzgCommitment (ctx blob out : Nat) : AM B (DASContext K G1 G2) Empty CResult :=
  cResult (blobToKzgCommitment A ctx blob out)

/-- `_compute_cells_and_kzg_proofs`, compute_cells_and_kzg_proofs.rs:5-30 -/
def computeCellsAndKzgProofs (ctx blob outCells outProofs : Nat) : AM B (DASContext K G1 G2) CResult Unit := do
  lift (CM.assert (ctx ≠ 0))
  let ctx ← lift (derefCtx ctx)
  let blob ← createArrayRef BYTES_PER_BLOB blob
  blob.use
  let (cells, proofs) ← lift (tryRust A (ctx.computeCellsAndKzgProofs blob.content))
  writeTo2dSlice outCells cells
  writeTo2dSlice outProofs proofs

/-- `eth_kzg_compute_cells_and_kzg_proofs`, c/lib.rs:214-226 -/
def ethKzgComputeCellsAndKzgProofs (ctx blob outCells outProofs : Nat) : AM B (DASContext K G1 G2) Empty CResult :=
  cResult (computeCellsAndKzgProofs A ctx blob outCells outProofs)

/-- `_recover_cells_and_proofs`, recover_cells_and_kzg_proofs.rs:7-36 -/
def recoverCellsAndProofs (ctx cellsLength cells cellIndicesLength cellIndices outCells outProofs : Nat) :
    AM B (DASContext K G1 G2) CResult Unit := do
  lift (CM.assert (ctx ≠ 0))
  let ctx ← lift (derefCtx ctx)
  let cells ← ptrPtrToVecSliceConst BYTES_PER_CELL cells cellsLength
  let cellIndices ← createSliceViewU64 cellIndices cellIndicesLength
  cellIndices.use
  cells.forM SliceRef.use
  let (recoveredCells, recoveredProofs) ←
    lift (tryRust A (ctx.recoverCellsAndKzgProofs cellIndices.content (cells.map SliceRef.content)))
  writeTo2dSlice outCells recoveredCells
  writeTo2dSlice outProofs recoveredProofs

/-- `eth_kzg_recover_cells_and_proofs`, c/lib.rs:327-351 -/
def ethKzgRecoverCellsAndProofs (ctx cellsLength cells cellIndicesLength cellIndices outCells outProofs : Nat) :
    AM B (DASContext K G1 G2) Empty CResult :=
  cResult (recoverCellsAndProofs A ctx cellsLength cells cellIndicesLength cellIndices outCells outProofs)

variable (sha256 : List UInt8 → List UInt8)

/-- `_verify_cell_kzg_proof_batch`, verify_cells_and_kzg_proofs_batch.rs:6-46 -/
def verifyCellKzgProofBatch (ctx commitmentsLength commitments cellIndicesLength cellIndices cellsLength cells proofsLength proofs
    verified : Nat) : AM B (DASContext K G1 G2) CResult Unit := do
  lift (CM.assert (ctx ≠ 0))
  let ctx ← lift (derefCtx ctx)
  let commitments ← ptrPtrToVecSliceConst BYTES_PER_COMMITMENT commitments commitmentsLength
  let cellIndices ← createSliceViewU64 cellIndices cellIndicesLength
  let cells ← ptrPtrToVecSliceConst BYTES_PER_CELL cells cellsLength
  let proofs ← ptrPtrToVecSliceConst BYTES_PER_COMMITMENT proofs proofsLength
  let verified ← derefMut verified
  cellIndices.use
  commitments.forM SliceRef.use
  cells.forM SliceRef.use
  proofs.forM SliceRef.use
  let verificationResult := ctx.verifyCellKzgProofBatch sha256 (commitments.map SliceRef.content) cellIndices.content
    (cells.map SliceRef.content) (proofs.map SliceRef.content)
  let proofIsValid ← lift (verificationResultToBoolCResult A verificationResult)
  access true verified.addr verified.tag
  lift (writeByte verified.addr (if proofIsValid then 1 else 0))

/-- `eth_kzg_verify_cell_kzg_proof_batch`, c/lib.rs:269-301 -/
def ethKzgVerifyCellKzgProofBatch (ctx commitmentsLength commitments cellIndicesLength cellIndices cellsLength cells proofsLength
    proofs verified : Nat) : AM B (DASContext K G1 G2) Empty CResult :=
  cResult (verifyCellKzgProofBatch A sha256 ctx commitmentsLength commitments cellIndicesLength cellIndices cellsLength cells
    proofsLength proofs verified)

end
end AM
end Verif
