import Verif.Spec.Groupings

/-!
What C95 speaks about: the challenge of a list of claims, and a claim that was altered in one place.
-/
namespace Verif.Spec

/-- the challenge of the batch with the given entries -/
def challengeOf (sha256 : List UInt8 → List UInt8) (l : List CellClaim) : Fr :=
  challenge sha256 (batchOf l).commitments (batchOf l).inds (batchOf l).cells (batchOf l).proofs

/-- the hash input of the batch with the given entries -/
def inputOf (l : List CellClaim) : List UInt8 :=
  challengeInput (batchOf l).commitments (batchOf l).inds (batchOf l).cells (batchOf l).proofs

/-- `c'` differs from `c` in exactly one place, by whatever amount: in the proof, in the commitment, or in one of the 64 elements of the cell. -/
def Altered (c c' : CellClaim) : Prop :=
  c'.index = c.index ∧
    ((c'.commitment = c.commitment ∧ c'.cell = c.cell ∧ c'.proof ≠ c.proof) ∨
     (c'.commitment ≠ c.commitment ∧ c'.cell = c.cell ∧ c'.proof = c.proof) ∨
     (c'.commitment = c.commitment ∧ c'.proof = c.proof ∧ c'.cell ≠ c.cell ∧
       ∃ j < 64, ∀ i < 64, i ≠ j → block 32 i c'.cell = block 32 i c.cell))

end Verif.Spec
