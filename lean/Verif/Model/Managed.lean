import Verif.Model.CBinding

/-! Memory of a program that calls the C library: allocation of zeroed arrays, arrays of pointers, C strings. Used by the models of the
C#, Go and Nim bindings. -/
namespace Verif

variable {Ctx ε α : Type}

/-- The allocator of the calling program: where it places `n` bytes; `none` is an allocation failure, which ends the program. Arrays are
aligned to 8 bytes and lie in memory that was not mapped. -/
structure Heap (Ctx : Type) where
  place : CState Ctx → Nat → Option Nat
  fresh : ∀ s n p, place s n = some p → p ≠ 0 ∧ p % 8 = 0 ∧ p + n ≤ 2 ^ 64 ∧ ∀ i < n, s.mem (p + i) = none

/-- place the given bytes at a new address -/
def newArray (H : Heap Ctx) (bytes : List UInt8) : CM Ctx ε Nat := fun s => match H.place s bytes.length with
  | some p => .ok p { s with mem := overwrite s.mem p bytes }
  | none => .panic

/-- a new array of `n` zero bytes -/
def newBytes (H : Heap Ctx) (n : Nat) : CM Ctx ε Nat := newArray H (List.replicate n 0)

/-- the 8 bytes of a word, little endian -/
def wordBytes (v : Nat) : List UInt8 := (List.range 8).map (fun j => UInt8.ofNat (v / 256 ^ j % 256))

/-- a new array of pointers. The array is filled when it is created. -/
def newPointers (H : Heap Ctx) (ptrs : List Nat) : CM Ctx ε Nat := newArray H (ptrs.flatMap wordBytes)

/-- a call of a C function -/
def callC (x : CM Ctx Empty α) : CM Ctx ε α := fun s => match x s with
  | .ok a s => .ok a s
  | .err e _ => nomatch e
  | .panic => .panic
  | .fault => .fault

/-- the bytes at `p` up to the first zero byte; `fuel` bounds their number -/
def readCStringAux : Nat → Nat → CM Ctx ε (List UInt8)
  | 0, _ => CM.fault
  | fuel + 1, p => do
    let b ← readByte p
    if b = 0 then pure [] else do
      let rest ← readCStringAux fuel (p + 1)
      pure (b :: rest)

/-- the C string at `p`; the address space ends at 2^64 -/
def readCString (p : Nat) : CM Ctx ε (List UInt8) := readCStringAux (2 ^ 64 - p) p

end Verif
