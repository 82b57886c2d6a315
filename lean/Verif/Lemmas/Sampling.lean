import Mathlib.Data.Fintype.CardEmbedding
import Mathlib.Data.Nat.Choose.Sum
import Mathlib.Tactic.Ring
import Verif.Spec.Sampling

/-!
Counting requests that stay within few columns.
-/
namespace Verif
open Finset

open Classical in
/-- the requests within a set of columns -/
theorem card_within (k : Nat) (U : Finset (Fin 128)) :
    (univ.filter (fun r : Spec.ColumnRequest k => ∀ j, r j ∈ U)).card = U.card.descFactorial k := by
  have e : {r : Spec.ColumnRequest k // ∀ j, r j ∈ U} ≃ (Fin k ↪ U) :=
    { toFun := fun r => ⟨fun j => ⟨r.1 j, r.2 j⟩, fun a b h => r.1.injective (congrArg Subtype.val h)⟩
      invFun := fun r => ⟨⟨fun j => (r j).1, fun a b h => r.injective (Subtype.ext h)⟩, fun j => (r j).2⟩
      left_inv := fun r => by ext; rfl
      right_inv := fun r => by ext; rfl }
  rw [← Fintype.card_subtype, Fintype.card_congr e, Fintype.card_embedding_eq, Fintype.card_fin, Fintype.card_coe]

open Classical in
/-- the requests of `n` clients, the clients in `T` staying within `U` -/
theorem card_within_all (n k : Nat) (T : Finset (Fin n)) (U : Finset (Fin 128)) :
    (univ.filter (fun r : Fin n → Spec.ColumnRequest k => ∀ i ∈ T, ∀ j, r i j ∈ U)).card =
      U.card.descFactorial k ^ T.card * (128 : Nat).descFactorial k ^ (n - T.card) := by
  have h : univ.filter (fun r : Fin n → Spec.ColumnRequest k => ∀ i ∈ T, ∀ j, r i j ∈ U) =
      Fintype.piFinset (fun i => if i ∈ T then univ.filter (fun r : Spec.ColumnRequest k => ∀ j, r j ∈ U) else univ) := by
    ext r
    simp only [mem_filter, mem_univ, true_and, Fintype.mem_piFinset]
    constructor
    · intro h i
      by_cases hi : i ∈ T
      · rw [if_pos hi]; exact mem_filter.2 ⟨mem_univ _, h i hi⟩
      · rw [if_neg hi]; exact mem_univ _
    · intro h i hi
      have := h i
      rw [if_pos hi] at this
      exact (mem_filter.1 this).2
  rw [h, Fintype.card_piFinset]
  have h2 : ∀ i, (if i ∈ T then univ.filter (fun r : Spec.ColumnRequest k => ∀ j, r j ∈ U) else univ).card =
      if i ∈ T then U.card.descFactorial k else (128 : Nat).descFactorial k := by
    intro i
    split_ifs
    · exact card_within k U
    · rw [card_univ, Fintype.card_embedding_eq, Fintype.card_fin, Fintype.card_fin]
  rw [prod_congr rfl (fun i _ => h2 i), prod_ite, prod_const, prod_const]
  congr 2
  · congr 1; ext; simp
  · rw [filter_not, card_sdiff_of_subset (filter_subset _ _), card_univ, Fintype.card_fin]
    congr 2; ext; simp

open Classical in
/-- The requests of `n` clients of which some `m` stay within `u` columns. -/
theorem card_few_columns (n k m u : Nat) :
    (univ.filter (fun r : Fin n → Spec.ColumnRequest k => ∃ T : Finset (Fin n), T.card = m ∧ ∃ U : Finset (Fin 128), U.card = u ∧
      ∀ i ∈ T, ∀ j, r i j ∈ U)).card ≤
      n.choose m * ((128 : Nat).choose u * (u.descFactorial k ^ m * (128 : Nat).descFactorial k ^ (n - m))) := by
  have h : univ.filter (fun r : Fin n → Spec.ColumnRequest k => ∃ T : Finset (Fin n), T.card = m ∧ ∃ U : Finset (Fin 128), U.card = u ∧
      ∀ i ∈ T, ∀ j, r i j ∈ U) ⊆
      (powersetCard m univ).biUnion (fun T : Finset (Fin n) => (powersetCard u univ).biUnion (fun U : Finset (Fin 128) =>
        univ.filter (fun r : Fin n → Spec.ColumnRequest k => ∀ i ∈ T, ∀ j, r i j ∈ U))) := by
    intro r hr
    obtain ⟨-, T, hT, U, hU, h⟩ := mem_filter.1 hr
    exact mem_biUnion.2 ⟨T, mem_powersetCard.2 ⟨subset_univ _, hT⟩, mem_biUnion.2 ⟨U, mem_powersetCard.2 ⟨subset_univ _, hU⟩,
      mem_filter.2 ⟨mem_univ _, h⟩⟩⟩
  refine (card_le_card h).trans ?_
  have hc : (powersetCard u (univ : Finset (Fin 128))).card = (128 : Nat).choose u := by
    rw [card_powersetCard, card_univ, Fintype.card_fin]
  have hn : (powersetCard m (univ : Finset (Fin n))).card = n.choose m := by
    rw [card_powersetCard, card_univ, Fintype.card_fin]
  rw [← hc, ← hn]
  generalize hB : u.descFactorial k ^ m * (128 : Nat).descFactorial k ^ (n - m) = B
  apply card_biUnion_le_card_mul
  intro T hT
  apply card_biUnion_le_card_mul
  intro U hU
  rw [card_within_all, (mem_powersetCard.1 hU).2, (mem_powersetCard.1 hT).2, hB]

/-- Less than half of the columns: each further column of a request is missed with probability more than one half. -/
theorem half_columns (k : Nat) : (63 : Nat).descFactorial k * 2 ^ k ≤ (128 : Nat).descFactorial k := by
  induction k with
  | zero => simp
  | succ k ih =>
    rw [Nat.descFactorial_succ, Nat.descFactorial_succ]
    calc (63 - k) * (63 : Nat).descFactorial k * 2 ^ (k + 1) = ((63 - k) * 2) * ((63 : Nat).descFactorial k * 2 ^ k) := by
          rw [pow_succ]; ring
      _ ≤ (128 - k) * (128 : Nat).descFactorial k := Nat.mul_le_mul (by omega) ih

/-- the bound of `card_few_columns` in powers of two -/
theorem few_columns_bound (n k m : Nat) (hm : m ≤ n) :
    n.choose m * ((128 : Nat).choose 63 * ((63 : Nat).descFactorial k ^ m * (128 : Nat).descFactorial k ^ (n - m))) * 2 ^ (k * m) ≤
      2 ^ (n + 128) * (128 : Nat).descFactorial k ^ n := by
  have h1 : n.choose m ≤ 2 ^ n := Nat.choose_le_two_pow n m
  have h2 : (128 : Nat).choose 63 ≤ 2 ^ 128 := Nat.choose_le_two_pow 128 63
  have h3 : (63 : Nat).descFactorial k ^ m * 2 ^ (k * m) ≤ (128 : Nat).descFactorial k ^ m := by
    rw [pow_mul, ← mul_pow]; exact Nat.pow_le_pow_left (half_columns k) m
  calc _ = (n.choose m * (128 : Nat).choose 63) *
        (((63 : Nat).descFactorial k ^ m * 2 ^ (k * m)) * (128 : Nat).descFactorial k ^ (n - m)) := by
        generalize (128 : Nat).choose 63 = a
        generalize (128 : Nat).descFactorial k ^ (n - m) = b
        ring
    _ ≤ (2 ^ n * 2 ^ 128) * ((128 : Nat).descFactorial k ^ m * (128 : Nat).descFactorial k ^ (n - m)) :=
        Nat.mul_le_mul (Nat.mul_le_mul h1 h2) (Nat.mul_le_mul_right _ h3)
    _ = _ := by rw [← pow_add, ← pow_add, Nat.add_sub_cancel' hm]

end Verif
