import Mathlib.Algebra.Module.Defs
import Mathlib.Algebra.Field.Defs
import Verif.Model.Ints

/-! Model of `cryptography/polynomial/src/fft.rs`. -/
namespace Verif

/-- `bitreverse`, fft.rs:74-81. `u32` shifts drop the bits above 32. -/
def bitreverse (n l : Nat) : Nat :=
  ((List.range l).foldl (fun (st : Nat × Nat) _ =>
    (((st.1 <<< 1) % 2 ^ 32) ||| (st.2 &&& 1), st.2 >>> 1)) (0, n)).1

/-- `log2_pow2`, fft.rs:82-84 -/
def log2Pow2 (n : Nat) : Nat := trailingZeros n

section
variable {F T : Type} [Field F] [DecidableEq F] [AddCommGroup T] [Module F T] [DecidableEq T] {ε : Type}

/-- The twiddled operand of a butterfly, fft.rs:47-55. `a * w` on an `FFTElement` is `w • a`. -/
def twiddle (w : F) (x : T) : T :=
  if w = 1 then x
  else if w = -1 then -x
  else if x = 0 then 0
  else w • x

/-- Body of the innermost loop, fft.rs:46-60. State: the slice and `w`. -/
def fftButterfly (wm : F) (m k : Nat) (st : List T × F) (j : Nat) : Outcome ε (List T × F) := do
  let x ← idx st.1 (k + j + m)
  let t := twiddle st.2 x
  let u ← idx st.1 (k + j)
  let a ← setIdx st.1 (k + j) (u + t)
  let a ← setIdx a (k + j + m) (u - t)
  pure (a, st.2 * wm)

/-- One group of butterflies, fft.rs:45-60. -/
def fftBlock (wm : F) (m : Nat) (a : List T) (k : Nat) : Outcome ε (List T) := do
  let st ← (List.range m).foldlM (fftButterfly wm m k) (a, (1 : F))
  pure st.1

/-- One stage, fft.rs:43-62. State: the slice and `m`. -/
def fftStage (twiddles : List F) (n : Nat) (st : List T × Nat) (s : Nat) : Outcome ε (List T × Nat) := do
  let wm ← idx twiddles s
  let a ← (stepBy n (2 * st.2)).foldlM (fftBlock wm st.2) st.1
  pure (a, st.2 * 2)

/-- Bit-reversal swap loop, fft.rs:34-39. -/
def fftBitrev (logN n : Nat) (a : List T) : Outcome ε (List T) :=
  (List.range n).foldlM (fun a k =>
    let rk := bitreverse (k % 2 ^ 32) logN
    if k < rk then swapIdx a rk k else pure a) a

/-- `fft_inplace`, fft.rs:29-64 (generic over `FFTElement`: scalars and G1 points).
`fft_scalar_inplace` and `fft_g1_inplace` (fft.rs:66-72) are its two instances. -/
def fftInplace (twiddles : List F) (a : List T) : Outcome ε (List T) := do
  let n := a.length
  let logN := log2Pow2 n
  assertP (n = 2 ^ logN)
  let a ← fftBitrev logN n a
  let st ← (List.range logN).foldlM (fftStage twiddles n) (a, 1)
  pure st.1

end

/-- `precompute_twiddle_factors`, fft.rs:85-90 -/
def precomputeTwiddleFactors {F : Type} [Field F] (omega : F) (n : Nat) : List F :=
  (List.range (log2Pow2 n)).map (fun s => omega ^ (n / 2 ^ (s + 1)))

end Verif
