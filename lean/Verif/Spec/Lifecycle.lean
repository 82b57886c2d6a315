import Verif.Model.JavaThreads
import Verif.Model.CSharpBinding
import Verif.Model.NimBinding

/-! Programs that create, use and free contexts. -/
namespace Verif.Spec

section
variable {K G1 G2 GT : Type} [Field K] [DecidableEq K] [AddCommGroup G1] [Module Fr G1] [DecidableEq G1]
  [Curve K G1] [PointCodec G1] [AddCommGroup G2] [Module Fr G2] [AddCommGroup GT] [DecidableEq GT]
  [Pairing G1 G2 GT]
variable (A : Allocator (DASContext K G1 G2)) (setup : SetupPoints G1 G2) (sha256 : List UInt8 → List UInt8) (jniDebug : List UInt8)

/-- a call of a C function that uses the context at the given address, with any other arguments -/
inductive UsesContext (ctx : Nat) : CM (DASContext K G1 G2) Empty CResult → Prop
  | commitment (blob out : Nat) : UsesContext ctx (ethKzgBlobToKzgCommitment A ctx blob out)
  | cells (blob outCells outProofs : Nat) : UsesContext ctx (ethKzgComputeCellsAndKzgProofs A ctx blob outCells outProofs)
  | recover (n cells m indices outCells outProofs : Nat) :
      UsesContext ctx (ethKzgRecoverCellsAndProofs A ctx n cells m indices outCells outProofs)
  | verify (n commitments m indices n' cells n'' proofs verified : Nat) :
      UsesContext ctx (ethKzgVerifyCellKzgProofBatch A sha256 ctx n commitments m indices n' cells n'' proofs verified)

/-- The states of a program that creates contexts, frees contexts that it created and did not free yet, calls the library with any
arguments, frees messages, and writes to memory. `live p` tells which kind of context the program thinks is at `p`. -/
inductive Program : CState (DASContext K G1 G2) → (Nat → Option Bool) → Prop
  | start {s} : (∀ p, s.ctxs p = none) → Program s (fun _ => none)
  | new {s live up p s'} : Program s live → ethKzgDasContextNew A setup up s = .ok p s' →
      Program s' (fun a => if a = p then some up else live a)
  | free {s live p s'} : Program s live → live p ≠ none → ethKzgDasContextFree p s = .ok () s' →
      Program s' (fun a => if a = p then none else live a)
  | call {s live p call r s'} : Program s live → UsesContext A sha256 p call → call s = .ok r s' → Program s' live
  | freeMessage {s live p s'} : Program s live → ethKzgFreeErrorMessage p s = .ok () s' → Program s' live
  | write {s live} (mem : Nat → Option UInt8) : Program s live → Program { s with mem := mem } live

/-- a call of a method of a Java object, with the result dropped -/
inductive JavaMethod (self : LibEthKZG) : CM (DASContext K G1 G2) JException Unit → Prop
  | commitment (blob) : JavaMethod self (self.blobToKZGCommitment jniDebug blob >>= fun _ => pure ())
  | cells (blob) : JavaMethod self (self.computeCellsAndKZGProofs jniDebug blob >>= fun _ => pure ())
  | verify (c i cs p) : JavaMethod self (self.verifyCellKZGProofBatch jniDebug sha256 c i cs p >>= fun _ => pure ())
  | recover (i cs) : JavaMethod self (self.recoverCellsAndKZGProofs jniDebug i cs >>= fun _ => pure ())

/-- A Java object created in state `s₀`, after any sequence of calls of its methods, with any arguments, including `destroy`; `closed` tells
whether `destroy` was called. -/
inductive JavaObject (s₀ : CState (DASContext K G1 G2)) (up : Bool) : LibEthKZG → CState (DASContext K G1 G2) → Bool → Prop
  | new {self s} : LibEthKZG.new A setup up s₀ = .ok self s → JavaObject s₀ up self s false
  | destroy {self s closed self' s'} : JavaObject s₀ up self s closed → self.destroy s = .ok self' s' → JavaObject s₀ up self' s' true
  | returns {self s closed m s'} : JavaObject s₀ up self s closed → JavaMethod sha256 jniDebug self m → m s = .ok () s' →
      JavaObject s₀ up self s' closed
  | throws {self s closed m e s'} : JavaObject s₀ up self s closed → JavaMethod sha256 jniDebug self m → m s = .err e s' →
      JavaObject s₀ up self s' closed

/-- A Nim object created in state `s₀` with `refs` references: they are copied and dropped in any order, the library is called through
them with any arguments, memory is written; when the last one is dropped the destructor runs. -/
inductive NimObject (s₀ : CState (DASContext K G1 G2)) (up : Bool) : KZGCtx → CState (DASContext K G1 G2) → Nat → Prop
  | new {self s} : newKZGCtx A setup up s₀ = .ok self s → NimObject s₀ up self s 1
  | copy {self s refs} : NimObject s₀ up self s (refs + 1) → NimObject s₀ up self s (refs + 2)
  | drop {self s refs} : NimObject s₀ up self s (refs + 2) → NimObject s₀ up self s (refs + 1)
  | dropLast {self s s'} : NimObject s₀ up self s 1 → self.destroy s = .ok () s' → NimObject s₀ up self s' 0
  | call {self s refs call r s'} : NimObject s₀ up self s (refs + 1) → UsesContext A sha256 self.ctxPtr call → call s = .ok r s' →
      NimObject s₀ up self s' (refs + 1)
  | write {self s refs} (mem : Nat → Option UInt8) : NimObject s₀ up self s refs → NimObject s₀ up self { s with mem := mem } refs

/-- the thread is in the middle of a method -/
def Busy (pc : JPc) : Prop := pc ≠ .done ∧ ∀ t, pc ≠ .start t

/-- no two threads are in the middle of a method, as if every method held a lock -/
def OneAtATime (w : JWorld K G1 G2) : Prop :=
  ∀ (i j : Nat) (pc pc' : JPc), w.threads[i]? = some pc → w.threads[j]? = some pc' → Busy pc → Busy pc' → i = j

/-- the worlds that can be reached when the methods do not overlap; `none` is undefined behaviour -/
inductive SequentialReach (w₀ : JWorld K G1 G2) : Option (JWorld K G1 G2) → Prop
  | refl : SequentialReach w₀ (some w₀)
  | step {w w'} : SequentialReach w₀ (some w) → JStep w w' → (∀ v, w' = some v → OneAtATime v) → SequentialReach w₀ w'

end
end Verif.Spec
