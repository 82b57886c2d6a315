import Mathlib.Tactic.Ring
import Mathlib.Tactic.Linarith
import Mathlib.Tactic.Common

/-!
Specification of the reversal of the low `l` bits of a number, and its arithmetic.
Independent of the model.
-/
namespace Verif.Spec

/-- `brev l i`: the number whose `l` binary digits are those of `i` in reverse order. -/
def brev : Nat → Nat → Nat
  | 0, _ => 0
  | l + 1, i => (i % 2) * 2 ^ l + brev l (i / 2)

theorem brev_lt (l i : Nat) : brev l i < 2 ^ l := by
  induction l generalizing i with
  | zero => simp [brev]
  | succ l ih =>
    have h := ih (i / 2)
    have : i % 2 = 0 ∨ i % 2 = 1 := by omega
    rw [brev, pow_succ]
    rcases this with h2 | h2 <;> rw [h2] <;> omega

/-- Splitting off low bits. -/
theorem brev_add (a b x : Nat) :
    brev (a + b) x = brev b (x / 2 ^ a) + 2 ^ b * brev a (x % 2 ^ a) := by
  induction a generalizing x with
  | zero => simp [brev]
  | succ a ih =>
    have e : a + 1 + b = (a + b) + 1 := by omega
    rw [e, brev, ih, brev]
    have h1 : x / 2 / 2 ^ a = x / 2 ^ (a + 1) := by
      rw [Nat.div_div_eq_div_mul, pow_succ']
    have h2 : (x % 2 ^ (a + 1)) % 2 = x % 2 := by
      rw [pow_succ']; exact Nat.mod_mul_right_mod _ _ _
    have h3 : (x % 2 ^ (a + 1)) / 2 = (x / 2) % 2 ^ a := by
      rw [pow_succ']; exact Nat.mod_mul_right_div_self _ _ _
    rw [h1, h2, h3, pow_add]; ring

theorem brev_succ' (l x : Nat) : brev (l + 1) x = (x / 2 ^ l) % 2 + 2 * brev l (x % 2 ^ l) := by
  rw [brev_add]; simp [brev]

/-- Reversing only depends on the low bits. -/
theorem brev_mod (l x : Nat) : brev l (x % 2 ^ l) = brev l x := by
  have := brev_add l 0 x
  simp [brev] at this
  exact this.symm

theorem brev_brev (l x : Nat) (h : x < 2 ^ l) : brev l (brev l x) = x := by
  induction l generalizing x with
  | zero => simp [brev] at *; omega
  | succ l ih =>
    rw [brev_succ', brev]
    have hlt := brev_lt l (x / 2)
    have e1 : ((x % 2) * 2 ^ l + brev l (x / 2)) / 2 ^ l = x % 2 := by
      rw [Nat.add_comm, Nat.add_mul_div_right _ _ (by positivity), Nat.div_eq_of_lt hlt]; simp
    have e2 : ((x % 2) * 2 ^ l + brev l (x / 2)) % 2 ^ l = brev l (x / 2) := by
      rw [Nat.add_comm, Nat.add_mul_mod_self_right, Nat.mod_eq_of_lt hlt]
    rw [e1, e2, ih _ (by rw [pow_succ'] at h; omega)]
    omega

theorem brev_injOn (l x y : Nat) (hx : x < 2 ^ l) (hy : y < 2 ^ l) (h : brev l x = brev l y) : x = y := by
  rw [← brev_brev l x hx, h, brev_brev l y hy]

/-- Reversing a concatenation: low part `i < 2^a`, high part `j`. -/
theorem brev_concat (a b i j : Nat) (hi : i < 2 ^ a) :
    brev (a + b) (i + 2 ^ a * j) = brev b j + 2 ^ b * brev a i := by
  rw [brev_add]
  have e1 : (i + 2 ^ a * j) / 2 ^ a = j := by
    rw [Nat.add_mul_div_left _ _ (by positivity), Nat.div_eq_of_lt hi]; simp
  have e2 : (i + 2 ^ a * j) % 2 ^ a = i := by
    rw [Nat.add_mul_mod_self_left, Nat.mod_eq_of_lt hi]
  rw [e1, e2]

/-- `brev` really reverses binary digits. -/
theorem brev_testBit (l i k : Nat) (hk : k < l) : (brev l i).testBit k = i.testBit (l - 1 - k) := by
  induction l generalizing i k with
  | zero => omega
  | succ l ih =>
    by_cases h : k = l
    · subst h
      have hlt := brev_lt k (i / 2)
      rw [brev, Nat.mul_comm, Nat.testBit_two_pow_mul_add _ hlt]
      simp [Nat.testBit_zero]
    · have hlt := brev_lt l (i / 2)
      rw [brev, Nat.mul_comm, Nat.testBit_two_pow_mul_add _ hlt]
      have hk' : k < l := by omega
      simp only [hk', if_true]
      rw [ih _ _ hk', ← Nat.testBit_succ]
      congr 1; omega

end Verif.Spec
