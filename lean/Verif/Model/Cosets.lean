import Verif.Model.Domain

/-! Model of `cryptography/kzg_multi_open/src/fk20/cosets.rs`. -/
namespace Verif

variable {ε : Type}

/-- `reverse_bits`, cosets.rs:10-18. `usize` shifts drop the bits above 64. -/
def reverseBits (n bits : Nat) : Nat :=
  ((List.range bits).foldl (fun (st : Nat × Nat) _ =>
    (((st.1 <<< 1) % 2 ^ 64) ||| (st.2 &&& 1), st.2 >>> 1)) (0, n)).1

/-- `log2`, cosets.rs:23-26. The argument is a `u32`. -/
def log2u32 (x : Nat) : Outcome ε Nat := do
  assertP (x > 0 ∧ isPow2 x = true)
  pure (trailingZeros32 x)

/-- Loop of `reverse_bit_order`, cosets.rs:34-39 -/
def reverseBitOrderLoop {α : Type} (logN n : Nat) (a : List α) : Outcome ε (List α) :=
  (List.range n).foldlM (fun a k =>
    let rk := reverseBits k logN % 2 ^ 32
    if k < rk then swapIdx a rk k else pure a) a

/-- `reverse_bit_order`, cosets.rs:29-40. The length is cut to 32 bits. -/
def reverseBitOrder {α : Type} (a : List α) : Outcome ε (List α) := do
  let n := a.length % 2 ^ 32
  assertP (isPow2 n = true)
  let logN ← log2u32 n
  reverseBitOrderLoop logN n a

/-- Loop body of `coset_gens`, cosets.rs:64-74 -/
def cosetGenAt (cosetGen : Fr) (numCosets : Nat) (bitReversed : Bool) (i : Nat) : Outcome ε Fr :=
  if bitReversed then do
    let l ← log2u32 (numCosets % 2 ^ 32)
    pure (cosetGen ^ reverseBits i l)
  else pure (cosetGen ^ i)

/-- `coset_gens`, cosets.rs:51-77 -/
def cosetGens (numPoints numCosets : Nat) (bitReversed : Bool) : Outcome ε (List Fr) := do
  let domain ← Domain.new numPoints
  (List.range numCosets).mapM (cosetGenAt domain.generator numCosets bitReversed)

/-- `elements[start..end].copy_from_slice(src)`: panics if the range is out of bounds or the lengths
differ. -/
def copyFromSlice {α : Type} (a : List α) (start stop : Nat) (src : List α) : Outcome ε (List α) :=
  if start ≤ stop ∧ stop ≤ a.length ∧ src.length = stop - start then
    .ok (a.take start ++ src ++ a.drop stop)
  else .panic

/-- Placement loop, cosets.rs:145-150 -/
def placeCosets (cosetLen : Nat) (indices : List Nat) (evals : List (List Fr)) (elements : List Fr) :
    Outcome ε (List Fr) :=
  (indices.zip evals).foldlM (fun elements (p : Nat × List Fr) =>
    let start := p.1 * cosetLen
    let stop := start + cosetLen
    copyFromSlice elements start stop p.2) elements

/-- `recover_evaluations_in_domain_order`, cosets.rs:105-168 -/
def recoverEvaluationsInDomainOrder (domainSize : Nat) (cosetIndices : List Nat)
    (cosetEvaluations : List (List Fr)) : Outcome ε (Option (List Nat × List Fr)) := do
  assertP (cosetIndices.length = cosetEvaluations.length)
  if cosetIndices.isEmpty then pure none
  else do
    let elements := List.replicate domainSize (0 : Fr)
    let first ← idx cosetEvaluations 0
    let cosetLen := first.length
    if ¬ (cosetEvaluations.all (fun c => c.length == cosetLen)) then pure none
    else do
      assertP (cosetLen ≠ 0) -- division by zero panics
      let indexBound := domainSize / cosetLen
      if ¬ (cosetIndices.all (fun i => decide (i < indexBound))) then pure none
      else do
        let elements ← placeCosets cosetLen cosetIndices cosetEvaluations elements
        let elements ← reverseBitOrder elements
        let bits ← log2u32 ((domainSize / cosetLen) % 2 ^ 32)
        pure (some (cosetIndices.map (fun i => reverseBits i bits), elements))

end Verif
