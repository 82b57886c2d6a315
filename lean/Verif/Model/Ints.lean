import Mathlib.Data.Nat.Log
import Verif.Model.Outcome

/-! Machine integer helpers of the Rust standard library used by the code. -/
namespace Verif

/-- counts trailing zero bits, looking at `f` bits -/
def ctz : Nat → Nat → Nat
  | 0, _ => 0
  | f + 1, n => if n % 2 = 1 then 0 else ctz f (n / 2) + 1

/-- `usize::trailing_zeros` (64-bit; 64 for zero) -/
def trailingZeros (n : Nat) : Nat := ctz 64 n

/-- `u32::trailing_zeros` (32 for zero) -/
def trailingZeros32 (n : Nat) : Nat := ctz 32 n

/-- `is_power_of_two` -/
def isPow2 (n : Nat) : Bool := n != 0 && 2 ^ n.log2 == n

/-- `next_power_of_two` (1 for zero) -/
def nextPow2 (n : Nat) : Nat := 2 ^ Nat.clog 2 n

end Verif
