import Verif.Model.Managed

/-! Model of the Go bindings, `bindings/golang/prover.go`. A slice is the address and length of its data. -/
namespace Verif

section
variable {K G1 G2 GT : Type} [Field K] [DecidableEq K] [AddCommGroup G1] [Module Fr G1] [DecidableEq G1]
  [Curve K G1] [PointCodec G1] [AddCommGroup G2] [Module Fr G2] [AddCommGroup GT] [DecidableEq GT]
  [Pairing G1 G2 GT]

/-- `BlobToKZGCommitment`, prover.go:58-65: the returned slice (none for nil) and the returned error (none for nil). The context was not
finalized before the call ends. -/
def goBlobToKZGCommitment (H : Heap (DASContext K G1 G2)) (A : Allocator (DASContext K G1 G2)) (inner blob blobLength : Nat) :
    CM (DASContext K G1 G2) Empty (Option (List UInt8) × Option (List UInt8)) :=
  if blobLength ≠ BYTES_PER_BLOB then pure (none, some (ascii "invalid blob size")) else do
    let out ← newBytes H 48
    let _ ← ethKzgBlobToKzgCommitment A inner blob out
    let bytes ← readBytes out 48
    pure (some bytes, none)

/-- `NewProverContext`, prover.go:48-56: the context behind the object. The finalizer is `goFinalizer`. -/
def goNewProverContext (A : Allocator (DASContext K G1 G2)) (setup : SetupPoints G1 G2) : CM (DASContext K G1 G2) Empty Nat :=
  ethKzgDasContextNew A setup true

/-- the finalizer, prover.go:51-53 -/
def goFinalizer (inner : Nat) : CM (DASContext K G1 G2) Empty Unit := ethKzgDasContextFree inner

/-- `BlobToKZGCommitment`, prover.go:58-65, with a garbage collection between the evaluation of `prover.inner()` and the start of the C
function. `prover` is not used after that evaluation and there is no `runtime.KeepAlive`, so the finalizer runs if the caller does not use
the object after the call either (`usedLater`). -/
def goBlobToKZGCommitmentGc (H : Heap (DASContext K G1 G2)) (A : Allocator (DASContext K G1 G2)) (usedLater : Bool)
    (inner blob blobLength : Nat) : CM (DASContext K G1 G2) Empty (Option (List UInt8) × Option (List UInt8)) :=
  if blobLength ≠ BYTES_PER_BLOB then pure (none, some (ascii "invalid blob size")) else do
    let out ← newBytes H 48
    if usedLater then pure () else goFinalizer inner
    let _ ← ethKzgBlobToKzgCommitment A inner blob out
    let bytes ← readBytes out 48
    pure (some bytes, none)

end
end Verif
