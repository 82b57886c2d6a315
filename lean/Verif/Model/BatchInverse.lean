import Verif.Model.Domain

/-! Model of `cryptography/bls12_381/src/batch_inversion.rs`. -/
namespace Verif

variable {ε F : Type} [Field F] [DecidableEq F]

/-- First pass, batch_inversion.rs:25-30. State: `tmp` and the scratchpad. -/
def batchInvFirst (v : List F) : F × List F :=
  v.foldl (fun (st : F × List F) f => (st.1 * f, st.2 ++ [st.1 * f])) (1, [])

/-- Second pass, batch_inversion.rs:38-49, on the reversed vector zipped with the scratchpad factors. -/
def batchInvSecond : F → List F → List F → List F
  | tmp, f :: fs, s :: ss => (tmp * s) :: batchInvSecond (tmp * f) fs ss
  | _, fs, _ => fs

/-- `batch_inverse_scratch_pad`, batch_inversion.rs:15-50 (the scratchpad is cleared first, so its old
content is irrelevant), and `batch_inverse`, batch_inversion.rs:4-7. -/
def batchInverse (v : List F) : Outcome ε (List F) := do
  let st := batchInvFirst v
  let tmp ← invertExpect st.1
  pure (batchInvSecond tmp v.reverse (st.2.reverse.drop 1 ++ [1])).reverse

end Verif
