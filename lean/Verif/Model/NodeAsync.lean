import Verif.Model.NodeBinding

/-! Model of the asynchronous methods of the Node bindings, `bindings/node/src/lib.rs`.

`#[napi] async fn` runs on a worker thread while JavaScript goes on. The arguments of type `BigInt` are copied when the method is
called. An argument of type `Uint8Array` is not copied: it is a pointer into the `ArrayBuffer` and a length, so the worker reads the
buffer while JavaScript may write to it. (This is how the `napi` crate documents `Uint8Array`; it is an assumption about it.)

The worker is a program that reads pieces of buffers, one piece at a time. Reading a piece is atomic in the model: 32 bytes (a field
element) of blobs and cells, 48 bytes of commitments and proofs, in the order of the arguments. The code may read in smaller pieces,
in another order and more than once; this gives more executions, but none without concurrent writes that differs in its result. All
pieces are read before the computation, which does not change the result as the computation writes nothing that is read. Transfer
(detaching) of a buffer is not modelled. `Model/InPlace` (C82) has the reads in the order and number of the source. -/
namespace Verif

/-- the contents of all `ArrayBuffer`s, by number -/
abbrev JsHeap := Nat → List UInt8

/-- a `Uint8Array`: a part of an `ArrayBuffer` -/
structure JsView where
  buffer : Nat
  offset : Nat
  length : Nat

/-- the bytes of a `Uint8Array` at this moment -/
def JsHeap.view (h : JsHeap) (v : JsView) : List UInt8 := ((h v.buffer).drop v.offset).take v.length

/-- the program of a worker -/
inductive Reading (α : Type) where
  | done (a : α)
  | read (buffer offset length : Nat) (next : List UInt8 → Reading α)

namespace Reading
variable {α β : Type}

def bind : Reading α → (α → Reading β) → Reading β
  | done a, f => f a
  | read b o l next, f => read b o l (fun x => (next x).bind f)

instance : Monad Reading where
  pure := done
  bind := bind

end Reading

/-- reads `n` pieces of `size` bytes starting at `offset`; the last one may be shorter -/
def readPieces (size buffer : Nat) : (offset length n : Nat) → Reading (List UInt8)
  | _, _, 0 => .done []
  | offset, length, n + 1 => .read buffer offset (min size length) (fun x =>
      (readPieces size buffer (offset + size) (length - size) n).bind (fun y => .done (x ++ y)))

/-- reads a `Uint8Array` in pieces of `size` bytes -/
def readView (size : Nat) (v : JsView) : Reading (List UInt8) :=
  readPieces size v.buffer v.offset v.length ((v.length + size - 1) / size)

/-- reads a list of arrays -/
def readViews (size : Nat) : List JsView → Reading (List (List UInt8))
  | [] => .done []
  | v :: vs => (readView size v).bind (fun x => (readViews size vs).bind (fun xs => .done (x :: xs)))

/-- what a promise can be resolved with -/
inductive NodeValue where
  | bytes (b : List UInt8)
  | cells (c : List (List UInt8))
  | cellsAndProofs (c p : List (List UInt8))
  | bool (b : Bool)

/-- a call of an asynchronous method with its arguments -/
inductive AsyncCall where
  | blobToKzgCommitment (blob : JsView)
  | computeCellsAndKzgProofs (blob : JsView)
  | computeCells (blob : JsView)
  | recoverCellsAndKzgProofs (cellIndices : List Int) (cells : List JsView)
  | verifyCellKzgProofBatch (commitments : List JsView) (cellIndices : List Int) (cells proofs : List JsView)

section
variable {K G1 G2 GT : Type} [Field K] [DecidableEq K] [AddCommGroup G1] [Module Fr G1] [DecidableEq G1]
  [Curve K G1] [PointCodec G1] [AddCommGroup G2] [Module Fr G2] [AddCommGroup GT] [DecidableEq GT]
  [Pairing G1 G2 GT]

/-- the bodies of `async_blob_to_kzg_commitment`, `async_compute_cells_and_kzg_proofs`, `async_compute_cells`,
`async_recover_cells_and_kzg_proofs` and `async_verify_cell_kzg_proof_batch`, lib.rs:104-106, 138-143, 153-155, 199-205, 244-252:
each calls the synchronous method on the worker -/
def AsyncCall.program (sha256 : List UInt8 → List UInt8) (ctx : DASContext K G1 G2) :
    AsyncCall → Reading (Outcome NodeError NodeValue)
  | .blobToKzgCommitment blob =>
    (readView 32 blob).bind (fun blob => .done (.bytes <$> blobToKzgCommitmentN ctx blob))
  | .computeCellsAndKzgProofs blob =>
    (readView 32 blob).bind (fun blob => .done ((fun r => .cellsAndProofs r.1 r.2) <$> computeCellsAndKzgProofsN ctx blob))
  | .computeCells blob =>
    (readView 32 blob).bind (fun blob => .done (.cells <$> computeCellsN ctx blob))
  | .recoverCellsAndKzgProofs cellIndices cells =>
    (readViews 32 cells).bind (fun cells =>
      .done ((fun r => .cellsAndProofs r.1 r.2) <$> recoverCellsAndKzgProofsN ctx cellIndices cells))
  | .verifyCellKzgProofBatch commitments cellIndices cells proofs =>
    (readViews 48 commitments).bind (fun commitments => (readViews 32 cells).bind (fun cells =>
      (readViews 48 proofs).bind (fun proofs =>
        .done (.bool <$> verifyCellKzgProofBatchN sha256 ctx commitments cellIndices cells proofs))))

/-- JavaScript memory and the workers started so far -/
structure JsWorld where
  heap : JsHeap
  tasks : List (Reading (Outcome NodeError NodeValue))

/-- what can happen: JavaScript writes bytes to a buffer, JavaScript calls a method, a worker reads its next piece -/
inductive JsEvent where
  | write (buffer offset : Nat) (bytes : List UInt8)
  | call (c : AsyncCall)
  | work (task : Nat)

/-- `TypedArray.prototype.set` within the bounds of the buffer -/
def JsHeap.write (h : JsHeap) (buffer offset : Nat) (bytes : List UInt8) : JsHeap :=
  if offset + bytes.length ≤ (h buffer).length then
    Function.update h buffer ((h buffer).take offset ++ bytes ++ (h buffer).drop (offset + bytes.length))
  else h

/-- one event. Work of a task that does not exist or has finished changes nothing. -/
def JsWorld.step (sha256 : List UInt8 → List UInt8) (ctx : DASContext K G1 G2) (w : JsWorld) : JsEvent → JsWorld
  | .write buffer offset bytes => { w with heap := w.heap.write buffer offset bytes }
  | .call c => { w with tasks := w.tasks ++ [c.program sha256 ctx] }
  | .work i => match w.tasks[i]? with
    | some (.read b o l next) => { w with tasks := w.tasks.set i (next (((w.heap b).drop o).take l)) }
    | _ => w

/-- a sequence of events -/
def JsWorld.run (sha256 : List UInt8 → List UInt8) (ctx : DASContext K G1 G2) (w : JsWorld) (es : List JsEvent) : JsWorld :=
  es.foldl (JsWorld.step sha256 ctx) w

end
end Verif
