import Mathlib.Tactic.IntervalCases
import Verif.Model.Debug

/-! The texts as Lean strings. -/
namespace Verif

theorem ascii_append (a b : String) : ascii (a ++ b) = ascii a ++ ascii b := by
  simp [ascii, String.toList_append]

theorem debugNat_toString (n : Nat) : debugNat n = ascii (toString n) := by
  show debugNat n = ascii (Nat.repr n)
  unfold Nat.repr ascii
  rw [String.toList_ofList]
  induction n using Nat.strong_induction_on with
  | _ n ih =>
    rw [Nat.toDigits_eq_if (by norm_num)]
    have hd : ∀ d < 10, UInt8.ofNat (48 + d) = UInt8.ofNat (Nat.digitChar d).toNat := by decide
    by_cases h : n < 10
    · rw [if_pos h]
      interval_cases n <;> rfl
    · rw [if_neg h, List.map_append, ← ih (n / 10) (by omega)]
      unfold debugNat
      rw [if_neg (by omega), if_neg (by omega), Nat.digits_def' (by norm_num) (by omega), List.reverse_cons, List.map_append]
      simp only [List.map_cons, List.map_nil]
      rw [hd _ (Nat.mod_lt _ (by norm_num))]

theorem ascii_foldl (xs : List UInt8) (s : String) : ascii (List.foldl (fun l r => l ++ ", " ++ toString r) s xs) =
    ascii s ++ (xs.map (fun x => ascii ", " ++ debugNat x.toNat)).flatten := by
  induction xs generalizing s with
  | nil => simp
  | cons x xs ih =>
    rw [List.foldl_cons, ih, ascii_append, ascii_append]
    simp only [List.map_cons, List.flatten_cons, debugNat_toString, List.append_assoc]
    rfl

theorem commaSeparated_cons (x : UInt8) (xs : List UInt8) : commaSeparated ((x :: xs).map (fun x => debugNat x.toNat)) =
    debugNat x.toNat ++ (xs.map (fun x => ascii ", " ++ debugNat x.toNat)).flatten := by
  induction xs generalizing x with
  | nil => simp [commaSeparated]
  | cons y ys ih =>
    have := ih y
    simp only [List.map_cons, commaSeparated, List.flatten_cons, List.append_assoc] at this ⊢
    rw [this]

theorem debugBytes_toString (b : List UInt8) : debugBytes b = ascii (toString b) := by
  show debugBytes b = ascii (List.toString b)
  unfold debugBytes List.toString
  split
  · rfl
  · rename_i x
    rw [ascii_append, ascii_append]
    simp only [List.map_cons, List.map_nil, commaSeparated, debugNat_toString]
    rfl
  · rename_i x xs _
    rw [commaSeparated_cons]
    have : ∀ s : String, ascii (s.push ']') = ascii s ++ ascii "]" := by
      intro s
      simp [ascii]
    rw [this, ascii_foldl, ascii_append]
    simp only [debugNat_toString, List.append_assoc]
    rfl

end Verif
