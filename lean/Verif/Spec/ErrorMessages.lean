import Verif.Model.CSharpArguments
import Verif.Model.NimBinding
import Verif.Model.GoBinding
import Verif.Spec.Managed
import Mathlib.Data.Set.Card

/-! Specification of who owns the error messages of the C library. -/
namespace Verif.Spec

variable {Ctx ε α : Type}

/-- the addresses of the messages that are allocated -/
def messages (s : CState Ctx) : Set Nat := {p | s.strings p ≠ none}

/-- the call ends in the state `s'`, with a result or with an error -/
def Ends (call : CM Ctx ε α) (s s' : CState Ctx) : Prop := (∃ a, call s = .ok a s') ∨ ∃ e, call s = .err e s'

/-- What a function of the C API owes its caller: with the status `Ok` no message; with the status `Err` one message, which was not
allocated before, is readable as a C string and is the only change to the messages. -/
def Owes (call : CM Ctx Empty CResult) : Prop := ∀ s r s', call s = .ok r s' →
  (r = ⟨.Ok, 0⟩ ∧ s'.strings = s.strings) ∨
  (r.status = .Err ∧ r.errorMsg ≠ 0 ∧ s.strings r.errorMsg = none ∧
    ∃ msg, CString s'.mem r.errorMsg msg ∧ r.errorMsg + (msg.length + 1) ≤ 2 ^ 64 ∧
      s'.strings = fun a => if a = r.errorMsg then some (msg.length + 1) else s.strings a)

/-- A program: calls of the given kind, with anything in between that does not touch the messages. -/
inductive MessageProgram (call : CState Ctx → CState Ctx → Prop) : CState Ctx → CState Ctx → Prop
  | start (s) : MessageProgram call s s
  | other {s t u} : MessageProgram call s t → u.strings = t.strings → MessageProgram call s u
  | call {s t u} : MessageProgram call s t → call t u → MessageProgram call s u

section
variable {K G1 G2 GT : Type} [Field K] [DecidableEq K] [AddCommGroup G1] [Module Fr G1] [DecidableEq G1]
  [Curve K G1] [PointCodec G1] [AddCommGroup G2] [Module Fr G2] [AddCommGroup GT] [DecidableEq GT]
  [Pairing G1 G2 GT]

/-- A call of a method of the C# class, with any arguments: null, of any lengths, with items that change during the call, with any
value of the field `_context`, with any garbage collection that leaves the messages alone. -/
inductive CsCall (H : Heap (DASContext K G1 G2)) (A : Allocator (DASContext K G1 G2)) :
    CState (DASContext K G1 G2) → CState (DASContext K G1 G2) → Prop
  | commitment {s s'} (context blob) : Ends (csBlobToKzgCommitmentArgs H A context blob) s s' → CsCall H A s s'
  | compute {s s'} (gc : Gc _) (hgc : ∀ t l, (gc t l).1.strings = t.strings) (context blob) :
      Ends (csComputeCellsAndKZGProofsArgs H A gc context blob) s s' → CsCall H A s s'
  | verify {s s'} (gc : Gc _) (hgc : ∀ t l, (gc t l).1.strings = t.strings) (sha256 context commitments cellIndices cells proofs) :
      Ends (csVerifyCellKZGProofBatchArgs H A gc sha256 context commitments cellIndices cells proofs) s s' → CsCall H A s s'
  | recover {s s'} (gc : Gc _) (hgc : ∀ t l, (gc t l).1.strings = t.strings) (context cellIds cells) :
      Ends (csRecoverCellsAndKZGProofsArgs H A gc context cellIds cells) s s' → CsCall H A s s'

/-- A call of a procedure of the Nim module, with any arguments. -/
inductive NimCall (H : Heap (DASContext K G1 G2)) (A : Allocator (DASContext K G1 G2)) (dollar : CResult → List UInt8) :
    CState (DASContext K G1 G2) → CState (DASContext K G1 G2) → Prop
  | commitment {s s'} (ctx blob) : Ends (nimBlobToKZGCommitment H A dollar ctx blob) s s' → NimCall H A dollar s s'
  | compute {s s'} (ctx blob) : Ends (nimComputeCellsAndProofs H A dollar ctx blob) s s' → NimCall H A dollar s s'
  | verify {s s'} (sha256 ctx commitments cellIndices cells proofs) :
      Ends (nimVerifyCellKZGProofBatch H A dollar sha256 ctx commitments cellIndices cells proofs) s s' → NimCall H A dollar s s'
  | recover {s s'} (ctx cellIds cells) : Ends (nimRecoverCellsAndProofs H A dollar ctx cellIds cells) s s' → NimCall H A dollar s s'

/-- A Go program, with the number of its calls of `BlobToKZGCommitment` in which the library rejects a blob of the right length. -/
inductive GoProgram (H : Heap (DASContext K G1 G2)) (A : Allocator (DASContext K G1 G2)) :
    Nat → CState (DASContext K G1 G2) → CState (DASContext K G1 G2) → Prop
  | start (s) : GoProgram H A 0 s s
  | other {n s t u} : GoProgram H A n s t → u.strings = t.strings → GoProgram H A n s u
  | accepted {n s t u} (inner ctx addr len blob) : GoProgram H A n s t → inner ≠ 0 → t.ctxs inner = some ctx →
      ArrayHolds t.mem addr len blob → (len = 131072 → ∃ c, ctx.blobToKzgCommitment blob = .ok c) →
      Ends (goBlobToKZGCommitment H A inner addr len) t u → GoProgram H A n s u
  | rejected {n s t u} (inner ctx addr blob) : GoProgram H A n s t → inner ≠ 0 → t.ctxs inner = some ctx →
      ArrayHolds t.mem addr 131072 blob → (∃ e, ctx.blobToKzgCommitment blob = .err e) →
      Ends (goBlobToKZGCommitment H A inner addr 131072) t u → GoProgram H A (n + 1) s u

end
end Verif.Spec
