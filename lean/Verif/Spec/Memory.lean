import Mathlib.Algebra.BigOperators.Fin

/-! Independent specification of memory contents. A memory maps addresses to bytes; unmapped addresses have no byte. -/
namespace Verif.Spec

abbrev Memory := Nat → Option UInt8

/-- the bytes starting at `p` are `bytes` -/
def Holds (mem : Memory) (p : Nat) (bytes : List UInt8) : Prop := ∀ (i : Nat) b, bytes[i]? = some b → mem (p + i) = some b

/-- the `n` bytes starting at `p` are mapped -/
def Mapped (mem : Memory) (p n : Nat) : Prop := ∀ i < n, ∃ b, mem (p + i) = some b

/-- the 8-byte little-endian word at `p` is `v` -/
def HoldsWord (mem : Memory) (p v : Nat) : Prop :=
  ∃ b : Fin 8 → UInt8, (∀ i : Fin 8, mem (p + i) = some (b i)) ∧ v = ∑ i : Fin 8, (b i).toNat * 256 ^ (i : Nat)

/-- the 8-byte words starting at `p` are `vs`; `p` is a valid address of an array of words -/
def HoldsWords (mem : Memory) (p : Nat) (vs : List Nat) : Prop :=
  (vs ≠ [] → p ≠ 0 ∧ p % 8 = 0) ∧ ∀ (i : Nat) v, vs[i]? = some v → HoldsWord mem (p + 8 * i) v

/-- `p` is an array of pointers, the pointers point to the byte strings `items` -/
def HoldsItems (mem : Memory) (p : Nat) (items : List (List UInt8)) : Prop :=
  ∃ ptrs, HoldsWords mem p ptrs ∧ List.Forall₂ (fun q item => q ≠ 0 ∧ Holds mem q item) ptrs items

/-- the `n` bytes at `p` and the `m` bytes at `q` do not overlap -/
def Apart (p n q m : Nat) : Prop := p + n ≤ q ∨ q + m ≤ p

/-- `mem'` is `mem` with the given byte strings written at the given addresses, and nothing else changed -/
def Wrote (mem mem' : Memory) (regions : List (Nat × List UInt8)) : Prop :=
  (∀ r ∈ regions, Holds mem' r.1 r.2) ∧
    ∀ a, (∀ r ∈ regions, a < r.1 ∨ r.1 + r.2.length ≤ a) → mem' a = mem a

/-- the text at `p` ends with a zero byte and contains no other -/
def CString (mem : Memory) (p : Nat) (text : List UInt8) : Prop := 0 ∉ text ∧ Holds mem p (text ++ [0])

/-- The output arguments of a call that returns cells and proofs: two arrays of 128 pointers to mapped buffers of 2048 and 48 bytes.
The buffers do not overlap each other or the arrays. -/
structure OutBuffers (mem : Memory) (outCells outProofs : Nat) (cellPtrs proofPtrs : List Nat) : Prop where
  cells : HoldsWords mem outCells cellPtrs
  proofs : HoldsWords mem outProofs proofPtrs
  cellsLength : cellPtrs.length = 128
  proofsLength : proofPtrs.length = 128
  cellMapped : ∀ q ∈ cellPtrs, q ≠ 0 ∧ Mapped mem q 2048
  proofMapped : ∀ q ∈ proofPtrs, q ≠ 0 ∧ Mapped mem q 48
  cellsApart : cellPtrs.Pairwise (fun q q' => Apart q 2048 q' 2048)
  proofsApart : proofPtrs.Pairwise (fun q q' => Apart q 48 q' 48)
  bothApart : ∀ q ∈ cellPtrs, ∀ q' ∈ proofPtrs, Apart q 2048 q' 48
  arrayApart : ∀ q ∈ cellPtrs, Apart q 2048 outCells 1024 ∧ Apart q 2048 outProofs 1024
  arrayApart' : ∀ q ∈ proofPtrs, Apart q 48 outProofs 1024

end Verif.Spec
