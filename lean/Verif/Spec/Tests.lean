import Verif.Model.Tests
import Verif.Spec.Bindings
import Verif.Spec.Setup

/-! Specification of what the files of a conformance suite say: the byte strings behind the hex strings, and the expected output. -/
namespace Verif.Spec
open Verif.Tests

/-- the strings of `l` denote the byte strings of `b`, in order -/
def HexStrings (l : List Str) (b : List (List UInt8)) : Prop := List.Forall₂ HexString l b

/-- an output that is `null` or a hex string -/
inductive ExpectsBytes : Option Str → Option (List UInt8) → Prop
  | null : ExpectsBytes none none
  | hex {s b} : HexString s b → ExpectsBytes (some s) (some b)

/-- an output that is `null` or the list of the cells and the list of the proofs -/
inductive ExpectsLists : Option (List (List Str)) → Option (List (List UInt8) × List (List UInt8)) → Prop
  | null : ExpectsLists none none
  | lists {a b cells proofs} : HexStrings a cells → HexStrings b proofs → ExpectsLists (some [a, b]) (some (cells, proofs))

/-- the expected cells and proofs are as many as those of a blob -/
def FullOutput (expected : Option (List (List UInt8) × List (List UInt8))) : Prop :=
  ∀ cells proofs, expected = some (cells, proofs) → cells.length = 128 ∧ proofs.length = 128

/-- the expected proofs, and as many of the expected cells, are the first of those that were computed; expected cells beyond the number
of expected proofs do not matter -/
def BeginsWith (got expected : List (List UInt8) × List (List UInt8)) : Prop :=
  expected.2 <+: got.2 ∧ expected.2.length ≤ expected.1.length ∧ expected.1.take expected.2.length <+: got.1

/-- what the result of `verify_cell_kzg_proof_batch` says, given which errors stand for an invalid proof -/
inductive TestVerdict {ε : Type} (invalid : ε → Bool) : Outcome ε Unit → Option Bool → Prop
  | valid : TestVerdict invalid (.ok ()) (some true)
  | invalid {e} : invalid e = true → TestVerdict invalid (.err e) (some false)
  | refused {e} : invalid e = false → TestVerdict invalid (.err e) none

/-- how a call in Java must end for an expected output -/
def javaExpected {α : Type} : Option α → JavaEnd α
  | some a => .returns a
  | none => .illegalArgument

end Verif.Spec
