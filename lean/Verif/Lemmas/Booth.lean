import Mathlib.Algebra.BigOperators.Intervals
import Mathlib.Data.Nat.Bitwise
import Mathlib.Tactic.Linarith
import Mathlib.Tactic.LinearCombination
import Verif.Model.Booth
import Verif.Spec.Booth
import Verif.Lemmas.Bytes

/-! Lemmas on Booth recoding. -/
namespace Verif
open Finset

theorem leVal_eq (b : List UInt8) : leVal b = Spec.leValue b := by
  induction b with
  | nil => simp [leVal, Spec.leValue]
  | cons x b ih =>
    rw [leVal, ih]
    unfold Spec.leValue
    rw [List.length_cons, Finset.sum_range_succ']
    simp only [List.getD_cons_succ, List.getD_cons_zero, pow_zero, mul_one, pow_succ]
    rw [Finset.mul_sum, add_comm]
    congr 1
    apply Finset.sum_congr rfl
    intro i _
    ring

theorem leVal_drop (k : Nat) (b : List UInt8) : leVal (b.drop k) = leVal b / 256 ^ k := by
  induction k generalizing b with
  | zero => simp
  | succ k ih =>
    cases b with
    | nil => simp [leVal]
    | cons x b =>
      rw [List.drop_succ_cons, ih, leVal, pow_succ', ← Nat.div_div_eq_div_mul]
      congr 1
      have := x.toNat_lt
      omega

theorem leWindow_eq (b : List UInt8) (k : Nat) : leWindow b k = leVal b / 256 ^ k % 2 ^ 32 := by
  rw [← leVal_drop]
  unfold leWindow
  generalize b.drop k = l
  have hb : ∀ x : UInt8, x.toNat < 256 := fun x => x.toNat_lt
  rcases l with _ | ⟨a, _ | ⟨b, _ | ⟨c, _ | ⟨d, t⟩⟩⟩⟩
  · simp [leVal]
  · have := hb a; simp [leVal]
  · have := hb a; have := hb b; simp [leVal]; omega
  · have := hb a; have := hb b; have := hb c; simp [leVal]; omega
  · have := hb a; have := hb b; have := hb c; have := hb d; simp [leVal]; omega

/-- the bit below window `i` -/
def carryBit (N w i : Nat) : Nat := if i = 0 then 0 else N / 2 ^ (w * i - 1) % 2

/-- the signed digit of window `i` -/
def boothDigit (N w i : Nat) : Int :=
  ((N / 2 ^ (w * i) % 2 ^ w : Nat) : Int) + carryBit N w i - 2 ^ w * carryBit N w (i + 1)

theorem carry_top (N w i : Nat) (hw : 1 ≤ w) : carryBit N w (i + 1) = N / 2 ^ (w * i) % 2 ^ w / 2 ^ (w - 1) := by
  unfold carryBit
  rw [if_neg (by omega)]
  obtain ⟨v, rfl⟩ : ∃ v, w = v + 1 := ⟨w - 1, by omega⟩
  rw [show (v + 1) * (i + 1) - 1 = (v + 1) * i + v by rw [mul_add]; omega, pow_add, ← Nat.div_div_eq_div_mul]
  simp only [Nat.add_sub_cancel]
  generalize N / 2 ^ ((v + 1) * i) = a
  rw [pow_succ, Nat.mod_mul_right_div_self]

/-- the `w + 1` bits read for window `i` -/
theorem window_bits (N w i : Nat) (hw : 1 ≤ w) :
    (if i = 0 then 2 * N else N / 2 ^ (w * i - 1)) % 2 ^ (w + 1) = 2 * (N / 2 ^ (w * i) % 2 ^ w) + carryBit N w i := by
  unfold carryBit
  by_cases hi : i = 0
  · subst hi
    simp only [if_true, mul_zero, pow_zero, Nat.div_one, add_zero]
    rw [pow_succ', Nat.mul_mod_mul_left]
  · rw [if_neg hi, if_neg hi]
    obtain ⟨m, hm⟩ : ∃ m, w * i = m + 1 := ⟨w * i - 1, by have := Nat.mul_pos hw (Nat.pos_of_ne_zero hi); omega⟩
    rw [hm, Nat.add_sub_cancel, pow_succ 2 m, ← Nat.div_div_eq_div_mul]
    generalize N / 2 ^ m = a
    rw [pow_succ', Nat.mod_mul]
    omega

theorem getBoothIndex_eq {ε : Type} (i w : Nat) (el : List UInt8) (hw : 1 ≤ w) (hw' : w ≤ 24) :
    (getBoothIndex i w el : Outcome ε Int) = .ok (boothDigit (leVal el) w i) := by
  set N := leVal el with hN
  have hbits : (if i = 0 then (leWindow el ((i * w - 1) / 8) <<< 1) % 2 ^ 32 else leWindow el ((i * w - 1) / 8)) >>>
      (i * w - 1 - (i * w - 1) / 8 * 8) % 2 ^ (w + 1) = 2 * (N / 2 ^ (w * i) % 2 ^ w) + carryBit N w i := by
    rw [← window_bits N w i hw]
    by_cases hi : i = 0
    · subst hi
      simp only [if_true, zero_mul, Nat.zero_sub, Nat.zero_div, Nat.shiftRight_zero, Nat.shiftLeft_eq, leWindow_eq,
        pow_zero, Nat.div_one, ← hN]
      have hd : 2 ^ (w + 1) ∣ 2 ^ 32 := pow_dvd_pow _ (by omega)
      rw [Nat.mod_mod_of_dvd _ hd, Nat.mul_mod, Nat.mod_mod_of_dvd _ hd, ← Nat.mul_mod, mul_comm, pow_one]
    · rw [if_neg hi, if_neg hi, leWindow_eq, ← hN, Nat.shiftRight_eq_div_pow]
      set m := i * w - 1 with hm
      have hm' : w * i - 1 = m := by rw [mul_comm]
      rw [hm']
      have hs : m - m / 8 * 8 = m % 8 := by omega
      rw [hs]
      have h256 : (256 : Nat) ^ (m / 8) = 2 ^ (8 * (m / 8)) := by
        rw [show (256 : Nat) = 2 ^ 8 from rfl, pow_mul]
      have h32 : (2 : Nat) ^ 32 = 2 ^ (m % 8) * 2 ^ (32 - m % 8) := by rw [← pow_add]; congr 1; omega
      rw [h256, h32, Nat.mod_mul_right_div_self, Nat.div_div_eq_div_mul, ← pow_add,
        Nat.mod_mod_of_dvd _ (pow_dvd_pow 2 (by omega : w + 1 ≤ 32 - m % 8)), show 8 * (m / 8) + m % 8 = m by omega]
  unfold getBoothIndex
  rw [assertP_true (by omega)]
  simp only [Outcome.ok_bind, Nat.one_shiftLeft, Nat.and_two_pow_sub_one_eq_mod, hbits]
  set r := N / 2 ^ (w * i) % 2 ^ w with hr
  set b := carryBit N w i with hb
  have hb1 : b ≤ 1 := by
    rw [hb]; unfold carryBit; split_ifs <;> omega
  have hrlt : r < 2 ^ w := Nat.mod_lt _ (by positivity)
  have hhalf : (2 * r + b + 1) >>> 1 = r + b := by rw [Nat.shiftRight_eq_div_pow]; omega
  rw [hhalf]
  have hsplit : (2 : Nat) ^ w = 2 * 2 ^ (w - 1) := by rw [← pow_succ']; congr 1; omega
  have hctop : carryBit N w (i + 1) = r / 2 ^ (w - 1) := carry_top N w i hw
  have hand : (2 * r + b) &&& 2 ^ w = carryBit N w (i + 1) * 2 ^ w := by
    rw [Nat.and_two_pow, hctop]
    congr 1
    rw [Nat.testBit_eq_decide_div_mod_eq]
    have h1 : (2 * r + b) / 2 ^ w = r / 2 ^ (w - 1) := by
      rw [hsplit, ← Nat.div_div_eq_div_mul]
      congr 1
      omega
    rw [h1]
    have h2 : r / 2 ^ (w - 1) < 2 := by
      apply Nat.div_lt_of_lt_mul
      rw [mul_comm, ← hsplit]
      exact hrlt
    interval_cases r / 2 ^ (w - 1) <;> rfl
  simp only [hand]
  have hdig : boothDigit N w i = (r : Int) + b - 2 ^ w * carryBit N w (i + 1) := rfl
  rw [hdig]
  have hc2 : carryBit N w (i + 1) < 2 := by
    rw [hctop]
    apply Nat.div_lt_of_lt_mul
    rw [mul_comm, ← hsplit]
    exact hrlt
  have hpos : 0 < 2 ^ w := by positivity
  rcases Nat.lt_succ_iff_lt_or_eq.1 hc2 with h0 | h1
  · have h0 : carryBit N w (i + 1) = 0 := by omega
    rw [h0]
    simp
  · rw [h1]
    have hne : ¬ (1 * 2 ^ w = 0) := by omega
    have hge : 2 ^ (w - 1) ≤ r := by
      by_contra hlt
      rw [hctop, Nat.div_eq_of_lt (by omega)] at h1
      cases h1
    simp only [hne, decide_false, Bool.false_eq_true, if_false, Outcome.pure_eq, Outcome.ok.injEq]
    have hp1 : 0 < 2 ^ (w - 1) := by positivity
    have h32 : (2 : Nat) ^ 32 = 2 ^ w * 2 ^ (32 - w) := by rw [← pow_add]; congr 1; omega
    have hle : r + b ≤ 2 ^ w := by omega
    have hmul : 2 ^ w ≤ 2 ^ w * 2 ^ (32 - w) := Nat.le_mul_of_pos_right _ (by positivity)
    have hmod : (2 ^ 32 - 1 - (r + b - 1)) % 2 ^ w = 2 ^ w - (r + b) := by
      rw [h32]
      have e : 2 ^ w * 2 ^ (32 - w) - 1 - (r + b - 1) = (2 ^ w - (r + b)) + 2 ^ w * (2 ^ (32 - w) - 1) := by
        rw [Nat.mul_sub, mul_one]
        omega
      rw [e, Nat.add_mul_mod_self_left, Nat.mod_eq_of_lt (by omega)]
    rw [hmod, Nat.cast_sub hle]
    push_cast
    ring

theorem boothDigit_bound (N w i : Nat) (hw : 1 ≤ w) : (boothDigit N w i).natAbs ≤ 2 ^ (w - 1) := by
  unfold boothDigit
  rw [carry_top N w i hw]
  set r := N / 2 ^ (w * i) % 2 ^ w with hr
  have hb1 : carryBit N w i ≤ 1 := by unfold carryBit; split_ifs <;> omega
  have hrlt : r < 2 ^ w := Nat.mod_lt _ (by positivity)
  have hsplit : (2 : Nat) ^ w = 2 * 2 ^ (w - 1) := by rw [← pow_succ']; congr 1; omega
  have hsplitZ : (2 : Int) ^ w = 2 * 2 ^ (w - 1) := by exact_mod_cast hsplit
  have h2 : r / 2 ^ (w - 1) < 2 := by
    apply Nat.div_lt_of_lt_mul
    rw [mul_comm, ← hsplit]
    exact hrlt
  have hp1 : 0 < 2 ^ (w - 1) := by positivity
  have hdm := Nat.div_add_mod r (2 ^ (w - 1))
  have hml := Nat.mod_lt r hp1
  rw [hsplitZ]
  have hcast : (2 : Int) ^ (w - 1) = ((2 ^ (w - 1) : Nat) : Int) := by push_cast; rfl
  rw [hcast]
  generalize 2 ^ (w - 1) = h at *
  interval_cases hq : r / h
  · simp only [Nat.cast_zero, mul_zero, sub_zero]; omega
  · simp only [Nat.cast_one, mul_one]; omega

/-- partial sums telescope -/
theorem boothDigit_sum (N w n : Nat) :
    ∑ i ∈ range n, boothDigit N w i * 2 ^ (w * i) = ((N % 2 ^ (w * n) : Nat) : Int) - 2 ^ (w * n) * carryBit N w n := by
  induction n with
  | zero => simp [carryBit, Nat.mod_one]
  | succ n ih =>
    rw [Finset.sum_range_succ, ih]
    have hmod : N % 2 ^ (w * (n + 1)) = N % 2 ^ (w * n) + 2 ^ (w * n) * (N / 2 ^ (w * n) % 2 ^ w) := by
      rw [mul_add, mul_one, pow_add, Nat.mod_mul]
    rw [hmod]
    unfold boothDigit
    push_cast
    rw [mul_add w n 1, mul_one, pow_add]
    ring

theorem boothDigit_total (N w : Nat) (hw : 1 ≤ w) (hN : N < 2 ^ 255) :
    ∑ i ∈ range (255 / w + 1), boothDigit N w i * 2 ^ (w * i) = (N : Int) := by
  rw [boothDigit_sum]
  have h1 : 256 ≤ w * (255 / w + 1) := by
    have := Nat.lt_mul_div_succ 255 (show 0 < w by omega)
    omega
  have h2 : N < 2 ^ (w * (255 / w + 1)) := lt_of_lt_of_le hN (Nat.pow_le_pow_right (by norm_num) (by omega))
  have h3 : carryBit N w (255 / w + 1) = 0 := by
    unfold carryBit
    rw [if_neg (Nat.succ_ne_zero _), Nat.div_eq_of_lt (lt_of_lt_of_le hN (Nat.pow_le_pow_right (by norm_num) (by omega)))]
  rw [Nat.mod_eq_of_lt h2, h3]
  simp

end Verif
