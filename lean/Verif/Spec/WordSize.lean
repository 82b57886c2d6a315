import Mathlib.Data.List.Dedup

/-! Specification of what fits into memory. -/
namespace Verif.Spec

/-- The values a verification holds while it computes fit into an address space of `bits` bits: the different commitments and the
proofs as affine points (96 bytes), two indices per entry (8 bytes each), and 64 field elements per cell (32 bytes each). -/
def Resident (bits : Nat) (commitments : List (List UInt8)) (inds : List Nat) (cells proofs : List (List UInt8)) : Prop :=
  96 * commitments.dedup.length + 8 * commitments.length + 8 * inds.length + 64 * 32 * cells.length + 96 * proofs.length ≤ 2 ^ bits

end Verif.Spec
