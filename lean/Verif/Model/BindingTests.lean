import Verif.Model.GoBinding
import Verif.Model.JavaBinding
import Verif.Model.ContextOptions

/-! Model of the two tests of the bindings that are not about test vectors: one of Java, one of Go. -/
namespace Verif

section
variable {Ctx ε α : Type}

/-- `try { x } finally { y }` in Java. If the process ends within `x`, `y` does not run; an exception of `y` replaces the result. -/
def tryFinally (x : CM Ctx ε α) (y : CM Ctx ε Unit) : CM Ctx ε α := fun s => match x s with
  | .ok a s => match y s with
    | .ok () s => .ok a s
    | .err e s => .err e s
    | .panic => .panic
    | .fault => .fault
  | .err e s => match y s with
    | .ok () s => .err e s
    | .err e s => .err e s
    | .panic => .panic
    | .fault => .fault
  | .panic => .panic
  | .fault => .fault
end

section
variable {K G1 G2 GT : Type} [Field K] [DecidableEq K] [AddCommGroup G1] [Module Fr G1] [DecidableEq G1]
  [Curve K G1] [PointCodec G1] [AddCommGroup G2] [Module Fr G2] [AddCommGroup GT] [DecidableEq GT]
  [Pairing G1 G2 GT]

/-- `testMultipleInstanceCreation`, LibEthKZGTest.java:31-55, with the blob as parameter: whether all assertions hold, or the exception
that leaves the method. The constructors either return or end the process, so that both variables are set when `finally` runs. The
references are not null and different as each comes from its own `new` (lines 39-41). The arrays that are compared are not null since the
method returns no null (line 48). `close` is `destroy`, LibEthKZG.java:66-68. -/
def testMultipleInstanceCreation (jniDebug : List UInt8) (A : Allocator (DASContext K G1 G2)) (setup : SetupPoints G1 G2)
    (blob : JByteArray) : CM (DASContext K G1 G2) JException Bool := do
  let instance1 ← callC (LibEthKZG.new A setup javaDefaultOptions.1)
  let instance2 ← callC (LibEthKZG.new A setup javaDefaultOptions.1)
  tryFinally (do
    let commitment1 ← instance1.blobToKZGCommitment jniDebug blob
    let commitment2 ← instance2.blobToKZGCommitment jniDebug blob
    pure (decide (commitment1 = commitment2))) (do
    let _ ← callC instance1.destroy
    let _ ← callC instance2.destroy
    pure ())

/-- `TestBridgeNewProverCtx`, prover_test.go:7-15: the results are dropped. `prover_ctx` is not used after the call; `gc` says whether
the garbage is collected at the moment of `goBlobToKZGCommitmentGc`. -/
def testBridgeNewProverCtx (H : Heap (DASContext K G1 G2)) (A : Allocator (DASContext K G1 G2)) (setup : SetupPoints G1 G2) (gc : Bool) :
    CM (DASContext K G1 G2) Empty Unit := do
  let blob ← newBytes H 131072
  writeByte (blob + 1) 1
  let inner ← goNewProverContext A setup
  let _ ← if gc then goBlobToKZGCommitmentGc H A false inner blob 131072 else goBlobToKZGCommitment H A inner blob 131072
  pure ()

end
end Verif
