import Verif.Model.Api
import Verif.Model.Debug
import Verif.Model.Parallel

/-! Model of the C bindings, `bindings/c/src`.

The state of the process consists of the byte memory (64-bit little-endian addresses, unmapped addresses have no byte), the boxed
contexts by address and the error strings owned by the library. Undefined behaviour caused by a pointer argument (null, misaligned,
unmapped, dangling) is the outcome `fault`. A panic cannot leave an `extern "C"` function: the process aborts, outcome `panic`.
Not modelled here: Rust's aliasing rules (see `Model/CAliasing`), the memory of Rust values other than error strings, and the byte representation of contexts. -/
namespace Verif

/-- the state of the process -/
structure CState (Ctx : Type) where
  mem : Nat → Option UInt8
  ctxs : Nat → Option Ctx
  strings : Nat → Option Nat

/-- outcome of a foreign function or of one of its helpers -/
inductive COut (Ctx ε α : Type) where
  | ok (a : α) (s : CState Ctx)
  | err (e : ε) (s : CState Ctx)
  | panic
  | fault

/-- computations with the process state -/
def CM (Ctx ε α : Type) := CState Ctx → COut Ctx ε α

variable {Ctx ε α β : Type}

instance : Monad (CM Ctx ε) where
  pure a := fun s => .ok a s
  bind x f := fun s => match x s with
    | .ok a s => f a s
    | .err e s => .err e s
    | .panic => .panic
    | .fault => .fault

namespace CM
def fault : CM Ctx ε α := fun _ => .fault
def panic : CM Ctx ε α := fun _ => .panic
def throw (e : ε) : CM Ctx ε α := fun s => .err e s
def assert (b : Prop) [Decidable b] : CM Ctx ε Unit := if b then pure () else panic
/-- an access that is undefined behaviour unless `b` holds -/
def require (b : Prop) [Decidable b] : CM Ctx ε Unit := if b then pure () else fault
end CM

/-- read one byte -/
def readByte (p : Nat) : CM Ctx ε UInt8 := fun s => match s.mem p with
  | some b => .ok b s
  | none => .fault

/-- read `n` bytes starting at `p` -/
def readBytes (p n : Nat) : CM Ctx ε (List UInt8) := (List.range n).mapM (fun i => readByte (p + i))

/-- the number with the given little-endian bytes -/
def leToNat (b : List UInt8) : Nat := b.foldr (fun x acc => x.toNat + 256 * acc) 0

/-- read an 8-byte integer or pointer -/
def readU64 (p : Nat) : CM Ctx ε Nat := do
  let b ← readBytes p 8
  pure (leToNat b)

/-- write one byte -/
def writeByte (p : Nat) (b : UInt8) : CM Ctx ε Unit := fun s => match s.mem p with
  | some _ => .ok () { s with mem := fun a => if a = p then some b else s.mem a }
  | none => .fault

/-- `create_slice_view::<u8>`, pointer_utils.rs:71-77. The bytes are read when the slice is created; nothing is written before the
last use of a slice. -/
def createSliceView (p len : Nat) : CM Ctx ε (List UInt8) :=
  if len = 0 then pure [] else do
    CM.require (p ≠ 0)
    readBytes p len

/-- `create_slice_view::<u64>` and `from_raw_parts` for a slice of pointers, pointer_utils.rs:71-77 and 33 -/
def createSliceViewU64 (p len : Nat) : CM Ctx ε (List Nat) :=
  if len = 0 then pure [] else do
    CM.require (p ≠ 0)
    CM.require (p % 8 = 0)
    (List.range len).mapM (fun i => readU64 (p + 8 * i))

/-- `create_array_ref`, pointer_utils.rs:67-70 -/
def createArrayRef (len p : Nat) : CM Ctx ε (List UInt8) := do
  let slice ← createSliceView p len
  CM.assert (slice.length = len)
  pure slice

/-- `ptr_ptr_to_vec_slice_const`, pointer_utils.rs:25-44 -/
def ptrPtrToVecSliceConst (innerLen ptrPtr outerLen : Nat) : CM Ctx ε (List (List UInt8)) :=
  if outerLen = 0 then pure [] else do
    let vecSlice ← createSliceViewU64 ptrPtr outerLen
    vecSlice.mapM (fun ptr => createArrayRef innerLen ptr)

/-- `write_to_slice`, pointer_utils.rs:47-50 -/
def writeToSlice (p : Nat) (data : List UInt8) : CM Ctx ε Unit := do
  CM.require (p ≠ 0)
  data.zipIdx.forM (fun q => writeByte (p + q.2) q.1)

/-- `write_to_2d_slice` with `ptr_ptr_to_slice_slice_mut`, pointer_utils.rs:14-22, 53-62. The data has `N` elements (it is an array);
the loop reads the pointer of an element just before it writes the element. -/
def writeTo2dSlice (p : Nat) (data : List (List UInt8)) : CM Ctx ε Unit :=
  if data.length = 0 then pure () else do
    CM.require (p ≠ 0)
    CM.require (p % 8 = 0)
    data.zipIdx.forM (fun q => do
      let outCell ← readU64 (p + 8 * q.2)
      writeToSlice outCell q.1)

/-- `CResultStatus`, lib.rs:109-112 -/
inductive CResultStatus where
  | Ok
  | Err
  deriving DecidableEq

/-- `CResult`, lib.rs:118-121 -/
structure CResult where
  status : CResultStatus
  errorMsg : Nat
  deriving DecidableEq

/-- The allocator: where it places `n` bytes, or a context; `none` is an allocation failure, which aborts the process. Bytes are
placed at addresses that are not mapped, contexts where no context is, nothing at address zero or beyond 2^64. -/
structure Allocator (Ctx : Type) where
  place : CState Ctx → Nat → Option Nat
  fresh : ∀ s n p, place s n = some p → p ≠ 0 ∧ p + n ≤ 2 ^ 64 ∧ s.strings p = none ∧ ∀ i < n, s.mem (p + i) = none
  placeCtx : CState Ctx → Option Nat
  freshCtx : ∀ s p, placeCtx s = some p → p ≠ 0 ∧ p < 2 ^ 64 ∧ s.ctxs p = none

/-- the memory with `data` placed at `p` -/
def overwrite (mem : Nat → Option UInt8) (p : Nat) (data : List UInt8) : Nat → Option UInt8 := fun a =>
  if p ≤ a ∧ a < p + data.length then data[a - p]? else mem a

/-- `CString::into_raw`: the text with a final zero byte, at a new address -/
def allocString (A : Allocator Ctx) (msg : List UInt8) : CM Ctx ε Nat := fun s =>
  match A.place s (msg.length + 1) with
  | some p => .ok p { s with
      mem := overwrite s.mem p (msg ++ [0])
      strings := fun a => if a = p then some (msg.length + 1) else s.strings a }
  | none => .panic

/-- `CResult::with_error`, lib.rs:135-141. `CString::new` fails on a zero byte. -/
def CResult.withError (A : Allocator Ctx) (msg : List UInt8) : CM Ctx ε CResult := do
  CM.assert (0 ∉ msg)
  let p ← allocString A msg
  pure { status := .Err, errorMsg := p }

/-- `CResult::with_ok`, lib.rs:144-149 -/
def CResult.withOk : CResult := { status := .Ok, errorMsg := 0 }

/-- `result.map_err(|err| CResult::with_error(&format!("{:?}", err)))?` -/
def tryRust (A : Allocator Ctx) (x : Outcome Error α) : CM Ctx CResult α :=
  match x with
  | .ok a => pure a
  | .err e => do
    let r ← CResult.withError A e.debug
    CM.throw r
  | .panic => CM.panic

/-- `match f(..) { Ok(_) => CResult::with_ok(), Err(err) => err }`, lib.rs:191-194, 222-225, 286-300, 339-350. The result has no
error case. -/
def cResult (x : CM Ctx CResult Unit) : CM Ctx Empty CResult := fun s =>
  match x s with
  | .ok () s => .ok CResult.withOk s
  | .err r s => .ok r s
  | .panic => .panic
  | .fault => .fault

/-- `deref_const(ctx)`, pointer_utils.rs:9-11 -/
def derefCtx (p : Nat) : CM Ctx ε Ctx := fun s => match s.ctxs p with
  | some c => .ok c s
  | none => .fault

/-- `deref_mut(verified)`, pointer_utils.rs:4-6: the reference must be to a mapped byte -/
def derefMut (p : Nat) : CM Ctx ε Nat := do
  CM.require (p ≠ 0)
  let _ ← readByte p
  pure p

section
variable {K G1 G2 GT : Type} [Field K] [DecidableEq K] [AddCommGroup G1] [Module Fr G1] [DecidableEq G1]
  [Curve K G1] [PointCodec G1] [AddCommGroup G2] [Module Fr G2] [AddCommGroup GT] [DecidableEq GT]
  [Pairing G1 G2 GT]
variable (A : Allocator (DASContext K G1 G2))

/-- `eth_kzg_das_context_new`, c/lib.rs:64-81. `setup` is the decoded embedded trusted setup; the context is built under any
schedule (C36), here sequentially. -/
def ethKzgDasContextNew (setup : SetupPoints G1 G2) (usePrecomp : Bool) : CM (DASContext K G1 G2) Empty Nat := fun s =>
  match (DASContext.new setup (if usePrecomp then .yes RECOMMENDED_PRECOMP_WIDTH else .no) : Outcome Empty (DASContext K G1 G2)) with
  | .ok ctx => match A.placeCtx s with
    | some p => .ok p { s with ctxs := fun a => if a = p then some ctx else s.ctxs a }
    | none => .panic
  | _ => .panic

/-- `eth_kzg_das_context_free`, c/lib.rs:98-105. `Box::from_raw` of a pointer that is not a live box is undefined behaviour. -/
def ethKzgDasContextFree (ctx : Nat) : CM (DASContext K G1 G2) Empty Unit := fun s =>
  if ctx = 0 then .ok () s
  else match s.ctxs ctx with
    | some _ => .ok () { s with ctxs := fun a => if a = ctx then none else s.ctxs a }
    | none => .fault

/-- `eth_kzg_free_error_message`, c/lib.rs:159-168. `CString::from_raw` of a pointer that is not a live string of the library is
undefined behaviour. -/
def ethKzgFreeErrorMessage (msg : Nat) : CM Ctx Empty Unit := fun s =>
  if msg = 0 then .ok () s
  else match s.strings msg with
    | some n => .ok () { s with
        mem := fun a => if msg ≤ a ∧ a < msg + n then none else s.mem a
        strings := fun a => if a = msg then none else s.strings a }
    | none => .fault

/-- `_blob_to_kzg_commitment`, blob_to_kzg_commitment.rs:6-36 -/
def blobToKzgCommitmentC (ctx blob out : Nat) : CM (DASContext K G1 G2) CResult Unit := do
  CM.assert (ctx ≠ 0)
  let ctx ← derefCtx ctx
  let blob ← createArrayRef BYTES_PER_BLOB blob
  let commitment ← tryRust A (ctx.blobToKzgCommitment blob)
  CM.assert (commitment.length = BYTES_PER_COMMITMENT)
  writeToSlice out commitment

/-- `eth_kzg_blob_to_kzg_commitment`, c/lib.rs:184-195 -/
def ethKzgBlobToKzgCommitment (ctx blob out : Nat) : CM (DASContext K G1 G2) Empty CResult :=
  cResult (blobToKzgCommitmentC A ctx blob out)

/-- `_compute_cells_and_kzg_proofs`, compute_cells_and_kzg_proofs.rs:5-30 -/
def computeCellsAndKzgProofsC (ctx blob outCells outProofs : Nat) : CM (DASContext K G1 G2) CResult Unit := do
  CM.assert (ctx ≠ 0)
  let ctx ← derefCtx ctx
  let blob ← createArrayRef BYTES_PER_BLOB blob
  let (cells, proofs) ← tryRust A (ctx.computeCellsAndKzgProofs blob)
  writeTo2dSlice outCells cells
  writeTo2dSlice outProofs proofs

/-- `eth_kzg_compute_cells_and_kzg_proofs`, c/lib.rs:214-226 -/
def ethKzgComputeCellsAndKzgProofs (ctx blob outCells outProofs : Nat) : CM (DASContext K G1 G2) Empty CResult :=
  cResult (computeCellsAndKzgProofsC A ctx blob outCells outProofs)

/-- `_recover_cells_and_proofs`, recover_cells_and_kzg_proofs.rs:7-36 -/
def recoverCellsAndProofsC (ctx cellsLength cells cellIndicesLength cellIndices outCells outProofs : Nat) :
    CM (DASContext K G1 G2) CResult Unit := do
  CM.assert (ctx ≠ 0)
  let ctx ← derefCtx ctx
  let cells ← ptrPtrToVecSliceConst BYTES_PER_CELL cells cellsLength
  let cellIndices ← createSliceViewU64 cellIndices cellIndicesLength
  let (recoveredCells, recoveredProofs) ← tryRust A (ctx.recoverCellsAndKzgProofs cellIndices cells)
  writeTo2dSlice outCells recoveredCells
  writeTo2dSlice outProofs recoveredProofs

/-- `eth_kzg_recover_cells_and_proofs`, c/lib.rs:327-351 -/
def ethKzgRecoverCellsAndProofs (ctx cellsLength cells cellIndicesLength cellIndices outCells outProofs : Nat) :
    CM (DASContext K G1 G2) Empty CResult :=
  cResult (recoverCellsAndProofsC A ctx cellsLength cells cellIndicesLength cellIndices outCells outProofs)

/-- `verification_result_to_bool_cresult`, c/lib.rs:232-240 -/
def verificationResultToBoolCResult (verificationResult : Outcome Error Unit) : CM (DASContext K G1 G2) CResult Bool :=
  match verificationResult with
  | .ok _ => pure true
  | .err x =>
    if x.invalidProof then pure false
    else do
      let r ← CResult.withError A x.debug
      CM.throw r
  | .panic => CM.panic

variable (sha256 : List UInt8 → List UInt8)

/-- `_verify_cell_kzg_proof_batch`, verify_cells_and_kzg_proofs_batch.rs:6-46 -/
def verifyCellKzgProofBatchC (ctx commitmentsLength commitments cellIndicesLength cellIndices cellsLength cells proofsLength proofs
    verified : Nat) : CM (DASContext K G1 G2) CResult Unit := do
  CM.assert (ctx ≠ 0)
  let ctx ← derefCtx ctx
  let commitments ← ptrPtrToVecSliceConst BYTES_PER_COMMITMENT commitments commitmentsLength
  let cellIndices ← createSliceViewU64 cellIndices cellIndicesLength
  let cells ← ptrPtrToVecSliceConst BYTES_PER_CELL cells cellsLength
  let proofs ← ptrPtrToVecSliceConst BYTES_PER_COMMITMENT proofs proofsLength
  let verified ← derefMut verified
  let verificationResult := ctx.verifyCellKzgProofBatch sha256 commitments cellIndices cells proofs
  let proofIsValid ← verificationResultToBoolCResult A verificationResult
  writeByte verified (if proofIsValid then 1 else 0)

/-- `eth_kzg_verify_cell_kzg_proof_batch`, c/lib.rs:269-301 -/
def ethKzgVerifyCellKzgProofBatch (ctx commitmentsLength commitments cellIndicesLength cellIndices cellsLength cells proofsLength
    proofs verified : Nat) : CM (DASContext K G1 G2) Empty CResult :=
  cResult (verifyCellKzgProofBatchC A sha256 ctx commitmentsLength commitments cellIndicesLength cellIndices cellsLength cells
    proofsLength proofs verified)

/-- `eth_kzg_constant_*`, c/lib.rs:355-366 -/
def ethKzgConstantBytesPerCell : Nat := BYTES_PER_CELL
def ethKzgConstantBytesPerProof : Nat := BYTES_PER_COMMITMENT
def ethKzgConstantCellsPerExtBlob : Nat := CELLS_PER_EXT_BLOB

end

end Verif
