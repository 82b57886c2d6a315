import Verif.Model.CBinding

/-! Model of calls of the C API by several threads of a process, `bindings/c/src`.

Here a call is a program, a tree of its accesses to memory; `Model/CBinding` has the same functions with their effect on the state as a
whole, and `CProg.run` leads from one to the other (`C68_same_functions`). A step is one access of one thread; the steps of the threads
interleave in any order. An allocation finds any free place, or fails. A context has no part that can change (`DASContext` is `Sync`: the
prover and verifier context are plain data, the thread pool is C36), so the only access to it is that it has to be live.
Not modelled: effects of the memory model beyond interleavings; these need a data race, and there is none (`C68_no_race`). -/
namespace Verif

/-- the rest of a call: what it does next and how it continues -/
inductive CProg (Ctx ε α : Type) where
  | ret (a : α)
  | throw (e : ε)
  | panic
  | fault
  | read (p : Nat) (k : UInt8 → CProg Ctx ε α)
  | write (p : Nat) (b : UInt8) (k : CProg Ctx ε α)
  | ctx (p : Nat) (k : Ctx → CProg Ctx ε α)
  | alloc (msg : List UInt8) (k : Nat → CProg Ctx ε α)

namespace CProg
variable {Ctx ε ε' α β : Type}

def bind (x : CProg Ctx ε α) (f : α → CProg Ctx ε β) : CProg Ctx ε β := match x with
  | .ret a => f a
  | .throw e => .throw e
  | .panic => .panic
  | .fault => .fault
  | .read p k => .read p (fun b => (k b).bind f)
  | .write p b k => .write p b (k.bind f)
  | .ctx p k => .ctx p (fun c => (k c).bind f)
  | .alloc msg k => .alloc msg (fun p => (k p).bind f)

instance : Monad (CProg Ctx ε) where
  pure := .ret
  bind := CProg.bind

/-- the program as a function of the state, when no other thread runs -/
def run (A : Allocator Ctx) : CProg Ctx ε α → CM Ctx ε α
  | .ret a => pure a
  | .throw e => CM.throw e
  | .panic => CM.panic
  | .fault => CM.fault
  | .read p k => readByte p >>= fun b => (k b).run A
  | .write p b k => writeByte p b >>= fun _ => k.run A
  | .ctx p k => derefCtx p >>= fun c => (k c).run A
  | .alloc msg k => allocString A msg >>= fun p => (k p).run A

def assert (b : Prop) [Decidable b] : CProg Ctx ε Unit := if b then .ret () else .panic
def require (b : Prop) [Decidable b] : CProg Ctx ε Unit := if b then .ret () else .fault

def readByte (p : Nat) : CProg Ctx ε UInt8 := .read p .ret
def writeByte (p : Nat) (b : UInt8) : CProg Ctx ε Unit := .write p b (.ret ())
def derefCtx (p : Nat) : CProg Ctx ε Ctx := .ctx p .ret

def readBytes (p n : Nat) : CProg Ctx ε (List UInt8) := (List.range n).mapM (fun i => readByte (p + i))

def readU64 (p : Nat) : CProg Ctx ε Nat := do
  let b ← readBytes p 8
  pure (leToNat b)

/-- `create_slice_view::<u8>`, pointer_utils.rs:71-77. The bytes are read when the slice is created; the library may read them later and
more than once, which makes no difference as long as no thread writes them. -/
def createSliceView (p len : Nat) : CProg Ctx ε (List UInt8) :=
  if len = 0 then pure [] else do
    require (p ≠ 0)
    readBytes p len

/-- `create_slice_view::<u64>` and `from_raw_parts` for a slice of pointers, pointer_utils.rs:71-77 and 33 -/
def createSliceViewU64 (p len : Nat) : CProg Ctx ε (List Nat) :=
  if len = 0 then pure [] else do
    require (p ≠ 0)
    require (p % 8 = 0)
    (List.range len).mapM (fun i => readU64 (p + 8 * i))

/-- `create_array_ref`, pointer_utils.rs:67-70 -/
def createArrayRef (len p : Nat) : CProg Ctx ε (List UInt8) := do
  let slice ← createSliceView p len
  assert (slice.length = len)
  pure slice

/-- `ptr_ptr_to_vec_slice_const`, pointer_utils.rs:25-44 -/
def ptrPtrToVecSliceConst (innerLen ptrPtr outerLen : Nat) : CProg Ctx ε (List (List UInt8)) :=
  if outerLen = 0 then pure [] else do
    let vecSlice ← createSliceViewU64 ptrPtr outerLen
    vecSlice.mapM (fun ptr => createArrayRef innerLen ptr)

/-- `write_to_slice`, pointer_utils.rs:47-50 -/
def writeToSlice (p : Nat) (data : List UInt8) : CProg Ctx ε Unit := do
  require (p ≠ 0)
  data.zipIdx.forM (fun q => writeByte (p + q.2) q.1)

/-- `write_to_2d_slice` with `ptr_ptr_to_slice_slice_mut`, pointer_utils.rs:14-22, 53-62 -/
def writeTo2dSlice (p : Nat) (data : List (List UInt8)) : CProg Ctx ε Unit :=
  if data.length = 0 then pure () else do
    require (p ≠ 0)
    require (p % 8 = 0)
    data.zipIdx.forM (fun q => do
      let outCell ← readU64 (p + 8 * q.2)
      writeToSlice outCell q.1)

/-- `CResult::with_error`, c/lib.rs:135-141 -/
def withError (msg : List UInt8) : CProg Ctx ε CResult := do
  assert (0 ∉ msg)
  let p ← .alloc msg .ret
  pure { status := .Err, errorMsg := p }

/-- `result.map_err(|err| CResult::with_error(&format!("{:?}", err)))?` -/
def tryRust (x : Outcome Error α) : CProg Ctx CResult α :=
  match x with
  | .ok a => pure a
  | .err e => do
    let r ← withError e.debug
    .throw r
  | .panic => .panic

/-- `match f(..) { Ok(_) => CResult::with_ok(), Err(err) => err }`, c/lib.rs:191-194, 222-225, 286-300, 339-350 -/
def cResult : CProg Ctx CResult Unit → CProg Ctx Empty CResult
  | .ret _ => .ret CResult.withOk
  | .throw r => .ret r
  | .panic => .panic
  | .fault => .fault
  | .read p k => .read p (fun b => (k b).cResult)
  | .write p b k => .write p b k.cResult
  | .ctx p k => .ctx p (fun c => (k c).cResult)
  | .alloc msg k => .alloc msg (fun p => (k p).cResult)

/-- `deref_mut(verified)`, pointer_utils.rs:4-6 -/
def derefMut (p : Nat) : CProg Ctx ε Nat := do
  require (p ≠ 0)
  let _ ← readByte p
  pure p

section
variable {K G1 G2 GT : Type} [Field K] [DecidableEq K] [AddCommGroup G1] [Module Fr G1] [DecidableEq G1]
  [Curve K G1] [PointCodec G1] [AddCommGroup G2] [Module Fr G2] [AddCommGroup GT] [DecidableEq GT]
  [Pairing G1 G2 GT]

/-- `eth_kzg_blob_to_kzg_commitment`, c/lib.rs:184-195, blob_to_kzg_commitment.rs:6-36 -/
def blobToKzgCommitment (ctx blob out : Nat) : CProg (DASContext K G1 G2) Empty CResult := cResult do
  assert (ctx ≠ 0)
  let ctx ← derefCtx ctx
  let blob ← createArrayRef BYTES_PER_BLOB blob
  let commitment ← tryRust (ctx.blobToKzgCommitment blob)
  assert (commitment.length = BYTES_PER_COMMITMENT)
  writeToSlice out commitment

/-- `eth_kzg_compute_cells_and_kzg_proofs`, c/lib.rs:214-226, compute_cells_and_kzg_proofs.rs:5-30 -/
def computeCellsAndKzgProofs (ctx blob outCells outProofs : Nat) : CProg (DASContext K G1 G2) Empty CResult := cResult do
  assert (ctx ≠ 0)
  let ctx ← derefCtx ctx
  let blob ← createArrayRef BYTES_PER_BLOB blob
  let (cells, proofs) ← tryRust (ctx.computeCellsAndKzgProofs blob)
  writeTo2dSlice outCells cells
  writeTo2dSlice outProofs proofs

/-- `eth_kzg_recover_cells_and_proofs`, c/lib.rs:327-351, recover_cells_and_kzg_proofs.rs:7-36 -/
def recoverCellsAndProofs (ctx cellsLength cells cellIndicesLength cellIndices outCells outProofs : Nat) :
    CProg (DASContext K G1 G2) Empty CResult := cResult do
  assert (ctx ≠ 0)
  let ctx ← derefCtx ctx
  let cells ← ptrPtrToVecSliceConst BYTES_PER_CELL cells cellsLength
  let cellIndices ← createSliceViewU64 cellIndices cellIndicesLength
  let (recoveredCells, recoveredProofs) ← tryRust (ctx.recoverCellsAndKzgProofs cellIndices cells)
  writeTo2dSlice outCells recoveredCells
  writeTo2dSlice outProofs recoveredProofs

/-- `verification_result_to_bool_cresult`, c/lib.rs:232-240 -/
def verificationResultToBoolCResult (verificationResult : Outcome Error Unit) : CProg (DASContext K G1 G2) CResult Bool :=
  match verificationResult with
  | .ok _ => pure true
  | .err x =>
    if x.invalidProof then pure false
    else do
      let r ← withError x.debug
      .throw r
  | .panic => .panic

/-- `eth_kzg_verify_cell_kzg_proof_batch`, c/lib.rs:269-301, verify_cells_and_kzg_proofs_batch.rs:6-46 -/
def verifyCellKzgProofBatch (sha256 : List UInt8 → List UInt8) (ctx commitmentsLength commitments cellIndicesLength cellIndices cellsLength
    cells proofsLength proofs verified : Nat) : CProg (DASContext K G1 G2) Empty CResult := cResult do
  assert (ctx ≠ 0)
  let ctx ← derefCtx ctx
  let commitments ← ptrPtrToVecSliceConst BYTES_PER_COMMITMENT commitments commitmentsLength
  let cellIndices ← createSliceViewU64 cellIndices cellIndicesLength
  let cells ← ptrPtrToVecSliceConst BYTES_PER_CELL cells cellsLength
  let proofs ← ptrPtrToVecSliceConst BYTES_PER_COMMITMENT proofs proofsLength
  let verified ← derefMut verified
  let verificationResult := ctx.verifyCellKzgProofBatch sha256 commitments cellIndices cells proofs
  let proofIsValid ← verificationResultToBoolCResult verificationResult
  writeByte verified (if proofIsValid then 1 else 0)

end

/-- one step of a call -/
inductive Step : CState Ctx → CProg Ctx ε α → CState Ctx → CProg Ctx ε α → Prop
  | read {s p b k} : s.mem p = some b → Step s (.read p k) s (k b)
  | badRead {s p k} : s.mem p = none → Step s (.read p k) s .fault
  | write {s p b k} : s.mem p ≠ none → Step s (.write p b k) { s with mem := fun a => if a = p then some b else s.mem a } k
  | badWrite {s p b k} : s.mem p = none → Step s (.write p b k) s .fault
  | ctx {s p c k} : s.ctxs p = some c → Step s (.ctx p k) s (k c)
  | badCtx {s p k} : s.ctxs p = none → Step s (.ctx p k) s .fault
  | alloc {s msg p k} : p ≠ 0 → p + (msg.length + 1) ≤ 2 ^ 64 → s.strings p = none → (∀ i < msg.length + 1, s.mem (p + i) = none) →
      Step s (.alloc msg k) { s with
        mem := overwrite s.mem p (msg ++ [0])
        strings := fun a => if a = p then some (msg.length + 1) else s.strings a } (k p)
  | noMemory {s msg k} : Step s (.alloc msg k) s .panic

end CProg

/-- the process: its state and the calls in progress -/
structure CPool (Ctx : Type) where
  s : CState Ctx
  threads : List (CProg Ctx Empty CResult)

/-- one step of one thread -/
inductive CPoolStep {Ctx : Type} : CPool Ctx → CPool Ctx → Prop
  | mk {s s' i x x'} {threads : List (CProg Ctx Empty CResult)} : threads[i]? = some x → CProg.Step s x s' x' →
      CPoolStep ⟨s, threads⟩ ⟨s', threads.set i x'⟩

end Verif
