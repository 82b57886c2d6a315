import Verif.Model.CBinding
import Verif.Spec.Memory

/-! Specification of the two ways in which a function of the C API returns. -/
namespace Verif.Spec

variable {Ctx : Type}

/-- The call returns the status `Ok` with a null message, has written exactly the given byte strings at the given addresses, and has
changed neither contexts nor error messages. -/
def Returns (call : CM Ctx Empty CResult) (s : CState Ctx) (regions : List (Nat × List UInt8)) : Prop :=
  ∃ s', call s = .ok ⟨.Ok, 0⟩ s' ∧ Wrote s.mem s'.mem regions ∧ s'.ctxs = s.ctxs ∧ s'.strings = s.strings

/-- The call returns the status `Err` and a pointer to the message, which is owned by the library and lies in memory that was not
mapped before; all memory that was mapped before is unchanged. Freeing the message with `eth_kzg_free_error_message` gives back the
state before the call. If the message cannot be allocated, the process aborts. -/
def FailsWith (A : Allocator Ctx) (call : CM Ctx Empty CResult) (s : CState Ctx) (msg : List UInt8) : Prop :=
  (A.place s (msg.length + 1) = none ∧ call s = .panic) ∨
    ∃ p s', call s = .ok ⟨.Err, p⟩ s' ∧ A.place s (msg.length + 1) = some p ∧ p ≠ 0 ∧ p + (msg.length + 1) ≤ 2 ^ 64 ∧
      CString s'.mem p msg ∧ s'.strings p = some (msg.length + 1) ∧
      (∀ a, s.mem a ≠ none → s'.mem a = s.mem a) ∧ s'.ctxs = s.ctxs ∧ (∀ q, q ≠ p → s'.strings q = s.strings q) ∧
      ethKzgFreeErrorMessage p s' = .ok () s

end Verif.Spec
