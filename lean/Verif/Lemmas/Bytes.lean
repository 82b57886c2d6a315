import Mathlib.Algebra.BigOperators.Intervals
import Verif.Model.Bytes
import Verif.Spec.Bytes
import Verif.Lemmas.Outcome

/-! Lemmas on byte strings and the scalar codec. -/
namespace Verif
open Finset

theorem beToNat_append_singleton (b : List UInt8) (x : UInt8) :
    beToNat (b ++ [x]) = beToNat b * 256 + x.toNat := by simp [beToNat]

theorem beToNat_eq (b : List UInt8) : beToNat b = Spec.beValue b := by
  induction b using List.reverseRecOn with
  | nil => simp [beToNat, Spec.beValue]
  | append_singleton b x ih =>
    rw [beToNat_append_singleton, ih]
    unfold Spec.beValue
    rw [List.length_append, List.length_singleton, sum_range_succ, sum_mul]
    congr 1
    · apply sum_congr rfl
      intro i hi
      have hi : i < b.length := mem_range.1 hi
      have e : (b ++ [x]).getD i 0 = b.getD i 0 := by
        simp [List.getD, List.getElem?_append_left hi]
      rw [e, mul_assoc, ← pow_succ]
      congr 2; omega
    · simp

theorem beToNat_lt (b : List UInt8) : beToNat b < 256 ^ b.length := by
  induction b using List.reverseRecOn with
  | nil => simp [beToNat]
  | append_singleton b x ih =>
    rw [beToNat_append_singleton, List.length_append, List.length_singleton, pow_succ]
    have := x.toNat_lt
    omega

@[simp] theorem length_natToLE (n v : Nat) : (natToLE n v).length = n := by
  induction n generalizing v with
  | zero => simp [natToLE]
  | succ n ih => simp [natToLE, ih]

@[simp] theorem length_natToBE (n v : Nat) : (natToBE n v).length = n := by simp [natToBE]

theorem natToBE_succ (n v : Nat) : natToBE (n + 1) v = natToBE n (v / 256) ++ [UInt8.ofNat (v % 256)] := by
  simp [natToBE, natToLE]

theorem beToNat_natToBE (n v : Nat) : beToNat (natToBE n v) = v % 256 ^ n := by
  induction n generalizing v with
  | zero => simp [natToBE, natToLE, beToNat, Nat.mod_one]
  | succ n ih =>
    rw [natToBE_succ, beToNat_append_singleton, ih, UInt8.toNat_ofNat', pow_succ' 256]
    have h8 : v % 256 % 2 ^ 8 = v % 256 := Nat.mod_eq_of_lt (by omega)
    rw [Nat.mod_mul, h8]
    ring

theorem natToBE_beToNat (b : List UInt8) : natToBE b.length (beToNat b) = b := by
  induction b using List.reverseRecOn with
  | nil => simp [natToBE, natToLE]
  | append_singleton b x ih =>
    rw [beToNat_append_singleton, List.length_append, List.length_singleton, natToBE_succ]
    have hx := x.toNat_lt
    have e1 : (beToNat b * 256 + x.toNat) / 256 = beToNat b := by omega
    have e2 : (beToNat b * 256 + x.toNat) % 256 = x.toNat := by omega
    rw [e1, e2, ih]; simp

theorem beToNat_inj {b c : List UInt8} (hl : b.length = c.length) (h : beToNat b = beToNat c) : b = c := by
  rw [← natToBE_beToNat b, ← natToBE_beToNat c, h, hl]

theorem natToBE_inj {n v w : Nat} (hv : v < 256 ^ n) (hw : w < 256 ^ n) (h : natToBE n v = natToBE n w) : v = w := by
  have := congrArg beToNat h
  rwa [beToNat_natToBE, beToNat_natToBE, Nat.mod_eq_of_lt hv, Nat.mod_eq_of_lt hw] at this

/-- value of a little-endian string -/
def leVal : List UInt8 → Nat
  | [] => 0
  | b :: bs => b.toNat + 256 * leVal bs

theorem leVal_natToLE (n v : Nat) : leVal (natToLE n v) = v % 256 ^ n := by
  induction n generalizing v with
  | zero => simp [natToLE, leVal, Nat.mod_one]
  | succ n ih =>
    have h8 : v % 256 % 2 ^ 8 = v % 256 := Nat.mod_eq_of_lt (by omega)
    rw [natToLE, leVal, ih, UInt8.toNat_ofNat', pow_succ' 256, Nat.mod_mul, h8]

theorem val_lt_pow (s : Fr) : s.val < 256 ^ 32 := by
  have : NeZero frOrder := ⟨frOrder_prime.ne_zero⟩
  have h1 := ZMod.val_lt s
  have h2 := frOrder_lt
  have : (2 : Nat) ^ 255 < 256 ^ 32 := by norm_num
  omega

theorem encodes_scalarToBytesBE (s : Fr) : Spec.Encodes (scalarToBytesBE s) s := by
  refine ⟨by simp [scalarToBytesBE], ?_⟩
  rw [← beToNat_eq, scalarToBytesBE, beToNat_natToBE, Nat.mod_eq_of_lt (val_lt_pow s)]

theorem encodes_iff {b : List UInt8} {s : Fr} : Spec.Encodes b s ↔ b = scalarToBytesBE s := by
  constructor
  · rintro ⟨hl, hv⟩
    rw [← beToNat_eq] at hv
    rw [scalarToBytesBE, ← hv, ← hl, natToBE_beToNat]
  · rintro rfl; exact encodes_scalarToBytesBE s

theorem scalarFromBytesBE_eq_some {b : List UInt8} (hl : b.length = 32) {s : Fr} :
    scalarFromBytesBE b = some s ↔ Spec.Encodes b s := by
  have : NeZero frOrder := ⟨frOrder_prime.ne_zero⟩
  unfold scalarFromBytesBE
  split_ifs with h
  · simp only [Option.some.injEq, Spec.Encodes, hl, true_and, ← beToNat_eq]
    constructor
    · rintro rfl; rw [ZMod.val_natCast_of_lt h]
    · intro hv; rw [hv, ZMod.natCast_zmod_val]
  · simp only [false_iff]
    rintro ⟨-, hv⟩
    rw [← beToNat_eq] at hv
    exact h (hv ▸ ZMod.val_lt s)

theorem scalarFromBytesBE_eq_none {b : List UInt8} :
    scalarFromBytesBE b = none ↔ frOrder ≤ Spec.beValue b := by
  unfold scalarFromBytesBE
  rw [beToNat_eq]
  split_ifs with h <;> simp <;> omega

theorem encodes_inj {b : List UInt8} {s t : Fr} (h1 : Spec.Encodes b s) (h2 : Spec.Encodes b t) : s = t := by
  have : NeZero frOrder := ⟨frOrder_prime.ne_zero⟩
  exact ZMod.val_injective _ (h1.2.symm.trans h2.2)

theorem exists_encodes_iff {b : List UInt8} (hl : b.length = 32) :
    (∃ s, Spec.Encodes b s) ↔ Spec.beValue b < frOrder := by
  constructor
  · rintro ⟨s, hs⟩
    have : NeZero frOrder := ⟨frOrder_prime.ne_zero⟩
    rw [hs.2]; exact ZMod.val_lt s
  · intro h
    refine ⟨(Spec.beValue b : Nat), hl, ?_⟩
    rw [ZMod.val_natCast_of_lt h]

/-! chunks -/

theorem chunksExact_eq {α : Type} (k : Nat) (l : List α) :
    chunksExact k l = (List.range (l.length / k)).map (fun i => Spec.block k i l) := by
  simp [chunksExact, Spec.block, Nat.mul_comm]

theorem block_length {α : Type} {w i : Nat} {b : List α} (h : w * (i + 1) ≤ b.length) :
    (Spec.block w i b).length = w := by
  have e : w * (i + 1) = w * i + w := by ring
  simp [Spec.block]; omega

theorem getElem?_block {α : Type} {w i j : Nat} {b : List α} (hj : j < w) :
    (Spec.block w i b)[j]? = b[w * i + j]? := by
  simp [Spec.block, hj]

theorem block_flatten {α : Type} {w : Nat} {ls : List (List α)} (h : ∀ l ∈ ls, l.length = w) {i : Nat}
    (hi : i < ls.length) : Spec.block w i ls.flatten = ls[i] := by
  induction ls generalizing i with
  | nil => simp at hi
  | cons a ls ih =>
    have ha : a.length = w := h a (by simp)
    cases i with
    | zero => simp [Spec.block, ha.symm]
    | succ i =>
      have := ih (fun l hl => h l (by simp [hl])) (i := i) (by simpa using hi)
      simp only [List.getElem_cons_succ]
      rw [← this]
      have e : w * (i + 1) = a.length + w * i := by rw [ha]; ring
      unfold Spec.block
      rw [List.flatten_cons, e, ← List.drop_drop, List.drop_left]

theorem length_flatten_const {α : Type} {w : Nat} {ls : List (List α)} (h : ∀ l ∈ ls, l.length = w) :
    ls.flatten.length = w * ls.length := by
  induction ls with
  | nil => simp
  | cons a ls ih =>
    rw [List.flatten_cons, List.length_append, h a (by simp), ih (fun l hl => h l (by simp [hl]))]
    simp; ring

theorem flatten_blocks {α : Type} (w n : Nat) (b : List α) (h : b.length = w * n) :
    ((List.range n).map (fun i => Spec.block w i b)).flatten = b := by
  induction n generalizing b with
  | zero => simp at h; simp [h]
  | succ n ih =>
    rw [List.range_succ, List.map_append, List.flatten_append]
    have hb : b = b.take (w * n) ++ b.drop (w * n) := (List.take_append_drop _ _).symm
    have hl : (b.take (w * n)).length = w * n := by
      have e : w * (n + 1) = w * n + w := by ring
      simp; omega
    have := ih (b.take (w * n)) hl
    have e2 : (List.range n).map (fun i => Spec.block w i b) =
        (List.range n).map (fun i => Spec.block w i (b.take (w * n))) := by
      apply List.map_congr_left
      intro i hi
      have hi : i < n := List.mem_range.1 hi
      have hle : w * i + w ≤ w * n := by nlinarith
      unfold Spec.block
      rw [List.drop_take, List.take_take, Nat.min_eq_left (by omega)]
    rw [e2, this]
    simp only [List.map_cons, List.map_nil, List.flatten_cons, List.flatten_nil, List.append_nil]
    conv_rhs => rw [hb]
    congr 1
    unfold Spec.block
    apply List.take_of_length_le
    have e : w * (n + 1) = w * n + w := by ring
    simp; omega

end Verif
