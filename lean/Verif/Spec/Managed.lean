import Verif.Model.Managed
import Verif.Spec.Memory

/-! Specification of what a call may do to the memory of the calling program. -/
namespace Verif.Spec

variable {Ctx : Type}

/-- All memory that was mapped before is mapped and unchanged; contexts and error messages are the same. -/
structure Extends (s s' : CState Ctx) : Prop where
  mem : ∀ a, s.mem a ≠ none → s'.mem a = s.mem a
  ctxs : s'.ctxs = s.ctxs
  strings : s'.strings = s.strings

/-- One of a sequence of allocations fails: arrays of the given sizes, then, if `message` is some `m`, an error message of `m` bytes. The
arrays can have any contents. -/
inductive OutOfMemory (H : Heap Ctx) (A : Allocator Ctx) : CState Ctx → List Nat → Option Nat → Prop
  | array {s n ns message} : H.place s n = none → OutOfMemory H A s (n :: ns) message
  | later {s n ns message p} (mem : Memory) : H.place s n = some p → (∀ a, (a < p ∨ p + n ≤ a) → mem a = s.mem a) →
      Mapped mem p n → OutOfMemory H A { s with mem := mem } ns message → OutOfMemory H A s (n :: ns) message
  | message {s m} : A.place s m = none → OutOfMemory H A s [] (some m)

/-- the array of the given address and length contains `bytes` -/
structure ArrayHolds (mem : Memory) (addr length : Nat) (bytes : List UInt8) : Prop where
  length : length = bytes.length
  ne : addr ≠ 0
  bound : addr + bytes.length ≤ 2 ^ 64
  holds : Holds mem addr bytes

/-- what the caller gets: the value of `r`, or the exception for its error, or the end of the process for a panic; the memory that was
mapped before is unchanged, and no context or error message was added or lost -/
def Gets {ε α : Type} (s : CState Ctx) (r : Outcome Error α) (exception : Error → ε) (out : COut Ctx ε α) : Prop :=
  match r with
  | .ok v => ∃ s', out = .ok v s' ∧ Extends s s'
  | .err e => ∃ s', out = .err (exception e) s' ∧ Extends s s'
  | .panic => out = .panic

/-- the size of the message for an error -/
def messageSize {α : Type} : Outcome Error α → Option Nat
  | .err e => some (e.debug.length + 1)
  | _ => none

/-- The call gives the caller `r`, unless one of the allocations it needs fails, which ends the process. -/
def Answers {ε α : Type} (H : Heap Ctx) (A : Allocator Ctx) (s : CState Ctx) (sizes : List Nat) (r : Outcome Error α)
    (exception : Error → ε) (call : CM Ctx ε α) : Prop :=
  (OutOfMemory H A s sizes (messageSize r) ∧ call s = .panic) ∨ Gets s r exception (call s)

/-- Like `Gets`, for a wrapper that reports an error by a text made from the status and the address of the message, without its contents. -/
def GetsText {α : Type} (A : Allocator Ctx) (s : CState Ctx) (r : Outcome Error α) (render : CResult → List UInt8)
    (out : COut Ctx (List UInt8) α) : Prop :=
  match r with
  | .ok v => ∃ s', out = .ok v s' ∧ Extends s s'
  | .err e => ∃ p s', A.place s' (e.debug.length + 1) = some p ∧ out = .err (render ⟨.Err, p⟩) s' ∧ Extends s s'
  | .panic => out = .panic

/-- Like `Answers`, with `GetsText`. -/
def AnswersText {α : Type} (H : Heap Ctx) (A : Allocator Ctx) (s : CState Ctx) (sizes : List Nat) (r : Outcome Error α)
    (render : CResult → List UInt8) (call : CM Ctx (List UInt8) α) : Prop :=
  (OutOfMemory H A s sizes (messageSize r) ∧ call s = .panic) ∨ GetsText A s r render (call s)

/-- the allocation for a sequence of `n` pointers: none if it is empty -/
def seqSizes (n : Nat) : List Nat := if n = 0 then [] else [8 * n]

/-- an array of items of size `n`, one after the other, with the given contents -/
structure ItemsHold (mem : Memory) (addr length n : Nat) (items : List (List UInt8)) : Prop where
  length : length = items.length
  sized : ∀ b ∈ items, b.length = n
  ne : addr ≠ 0
  bound : addr + n * items.length ≤ 2 ^ 64
  holds : Holds mem addr items.flatten

/-- the verdict of a batch verification: an invalid proof is the answer false, not an error -/
inductive Verdict : Outcome Error Unit → Outcome Error Bool → Prop
  | valid : Verdict (.ok ()) (.ok true)
  | invalid (e) : Verdict (.err (.Verifier (.FK20 e))) (.ok false)
  | error (e) : (∀ e', e ≠ .Verifier (.FK20 e')) → Verdict (.err e) (.err e)
  | panic : Verdict .panic .panic

end Verif.Spec
