import Verif.Spec.Kzg
import Verif.Model.Errors

/-! Specification of the recovery input checks of EIP-7594, and their precedence. -/
namespace Verif.Spec

/-- 64 to 128 distinct indices below 128, as many cells, all field elements canonical. -/
structure RecoveryWellFormed (inds : List Nat) (cells : List (List UInt8)) : Prop where
  lengths : inds.length = cells.length
  inRange : ∀ i ∈ inds, i < 128
  distinct : inds.Nodup
  enough : 64 ≤ inds.length
  canonical : ∀ c ∈ cells, Canonical 64 c

/-- The reported error, one constructor for each defect in the order of precedence. -/
inductive RecoveryDefect (inds : List Nat) (cells : List (List UInt8)) : Error → Prop
  | lengths (h : inds.length ≠ cells.length) :
      RecoveryDefect inds cells (.Recovery (.NumCellIndicesNotEqualToNumCells inds.length cells.length))
  | range (h : inds.length = cells.length) (pre post : List Nat) (i : Nat) (hs : inds = pre ++ i :: post)
      (hpre : ∀ j ∈ pre, j < 128) (hi : 128 ≤ i) : RecoveryDefect inds cells (.Recovery (.CellIndexOutOfRange i 128))
  | duplicate (h : inds.length = cells.length) (hr : ∀ i ∈ inds, i < 128) (hd : ¬ inds.Nodup) :
      RecoveryDefect inds cells (.Recovery .CellIndicesNotUnique)
  | tooFew (h : inds.length = cells.length) (hr : ∀ i ∈ inds, i < 128) (hd : inds.Nodup) (hn : inds.length < 64) :
      RecoveryDefect inds cells (.Recovery (.NotEnoughCellsToReconstruct inds.length 64))
  | scalar (h : inds.length = cells.length) (hr : ∀ i ∈ inds, i < 128) (hd : inds.Nodup) (hn : 64 ≤ inds.length)
      (pre post : List (List UInt8)) (c : List UInt8) (i : Nat) (hs : cells = pre ++ c :: post)
      (hpre : ∀ d ∈ pre, Canonical 64 d) (hi : i < 64) (hfirst : ∀ j < i, beValue (block 32 j c) < frOrder)
      (hbad : frOrder ≤ beValue (block 32 i c)) :
      RecoveryDefect inds cells (.Serialization (.CouldNotDeserializeScalar (block 32 i c)))

end Verif.Spec
