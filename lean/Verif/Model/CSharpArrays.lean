import Verif.Model.Outcome

/-! Model of the private array helpers of the C# bindings, `EthKZG.bindings/ethkzg.cs`. The class does not call them. Lengths are below 2^31,
so that `int` does not overflow. An exception is an `err`. -/
namespace Verif

/-- the exceptions of the helpers -/
inductive CsArrayException where
  | argument
  | divideByZero
  deriving DecidableEq

/-- `Array.Copy(source, sourceIndex, destination, destinationIndex, length)`; the result is the new content of the destination -/
def arrayCopy (source : List UInt8) (sourceIndex : Nat) (destination : List UInt8) (destinationIndex length : Nat) :
    Outcome CsArrayException (List UInt8) :=
  if sourceIndex + length ≤ source.length ∧ destinationIndex + length ≤ destination.length then
    .ok (destination.take destinationIndex ++ (source.drop sourceIndex).take length ++ destination.drop (destinationIndex + length))
  else .err .argument

/-- `FlattenArray`, ethkzg.cs:278-301 -/
def csFlattenArray (jaggedArray : List (List UInt8)) : Outcome CsArrayException (List UInt8) := do
  let totalLength := jaggedArray.foldl (fun total subArray => total + subArray.length) 0
  let flattenedArray := List.replicate totalLength (0 : UInt8)
  let r ← jaggedArray.foldlM (fun (st : List UInt8 × Nat) subArray => do
    let flat ← arrayCopy subArray 0 st.1 st.2 subArray.length
    pure (flat, st.2 + subArray.length)) (flattenedArray, 0)
  pure r.1

/-- `DeflattenArray`, ethkzg.cs:303-315 -/
def csDeflattenArray (flattenedArray : List UInt8) (length : Nat) : Outcome CsArrayException (List (List UInt8)) :=
  if length = 0 then .err .divideByZero
  else (List.range (flattenedArray.length / length)).mapM (fun i =>
    arrayCopy flattenedArray (i * length) (List.replicate length 0) 0 length)

end Verif
