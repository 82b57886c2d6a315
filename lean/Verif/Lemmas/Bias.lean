import Mathlib.Algebra.BigOperators.Group.Finset.Basic
import Mathlib.Algebra.Order.Ring.Rat
import Mathlib.Data.Rat.Cast.Order
import Mathlib.Data.Set.Card
import Mathlib.Tactic.FieldSimp
import Mathlib.Tactic.Ring
import Mathlib.Tactic.Linarith
import Verif.Lemmas.RandomOracle
import Verif.Lemmas.Bytes

/-! Reducing the integers below `N` modulo `n`, where `2 n ≤ N ≤ 3 n`. -/
namespace Verif.Bias
open Finset

theorem card_fibre (n N i : Nat) (h2 : 2 * n ≤ N) (h3 : N ≤ 3 * n) (hi : i < n) :
    ((range N).filter fun v => v % n = i).card = if i < N - 2 * n then 3 else 2 := by
  have key : ((range N).filter fun v => v % n = i) = ((range (if i < N - 2 * n then 3 else 2)).image fun q => i + n * q) := by
    ext v
    rw [mem_filter, mem_range, mem_image]
    constructor
    · rintro ⟨hv, hm⟩
      refine ⟨v / n, ?_, by rw [← hm]; exact Nat.mod_add_div _ _⟩
      have e := Nat.mod_add_div v n
      rw [hm] at e
      rw [mem_range]
      have hlt : v / n < 3 := by
        refine Nat.div_lt_of_lt_mul ?_
        rw [mul_comm]
        omega
      split
      · exact hlt
      · rename_i hge
        by_contra hc
        have : v / n = 2 := by omega
        rw [this] at e
        omega
    · rintro ⟨q, hq, rfl⟩
      rw [mem_range] at hq
      refine ⟨?_, by rw [Nat.add_mul_mod_self_left, Nat.mod_eq_of_lt hi]⟩
      split at hq
      · interval_cases q <;> omega
      · interval_cases q <;> omega
  rw [key, card_image_of_injective, card_range]
  intro a b h
  have hn : 0 < n := by omega
  exact Nat.eq_of_mul_eq_mul_left hn (Nat.add_left_cancel h)

theorem distance (n N : Nat) (h0 : 0 < n) (h2 : 2 * n ≤ N) (h3 : N ≤ 3 * n) (f : Nat → Nat)
    (hf : ∀ i < n, f i = if i < N - 2 * n then 3 else 2) :
    (∑ i ∈ range n, |((f i : Nat) : ℚ) / (N : ℚ) - 1 / (n : ℚ)|) / 2 =
      ((N : ℚ) - 2 * n) * (3 * n - N) / (n * N) := by
  have hn : (0 : ℚ) < n := by exact_mod_cast h0
  have hN : (0 : ℚ) < N := by
    have : 0 < N := by omega
    exact_mod_cast this
  have h2' : 2 * (n : ℚ) ≤ N := by exact_mod_cast h2
  have h3' : (N : ℚ) ≤ 3 * n := by exact_mod_cast h3
  have e1 : ∀ i ∈ range n, |((f i : Nat) : ℚ) / (N : ℚ) - 1 / (n : ℚ)| =
      if i < N - 2 * n then 3 / (N : ℚ) - 1 / n else 1 / (n : ℚ) - 2 / N := by
    intro i hi
    rw [hf i (mem_range.1 hi)]
    split
    · rw [Nat.cast_ofNat, abs_of_nonneg]
      rw [sub_nonneg, div_le_div_iff₀ hn hN]
      linarith
    · rw [Nat.cast_ofNat, abs_of_nonpos, neg_sub]
      rw [sub_nonpos, div_le_div_iff₀ hN hn]
      linarith
  rw [sum_congr rfl e1, sum_ite, sum_const, sum_const, filter_not, card_sdiff_of_subset (filter_subset _ _), card_range]
  have e2 : ((range n).filter fun i => i < N - 2 * n) = range (N - 2 * n) := by
    ext i
    rw [mem_filter, mem_range, mem_range]
    omega
  rw [e2, card_range, nsmul_eq_mul, nsmul_eq_mul, Nat.cast_sub (by omega : N - 2 * n ≤ n), Nat.cast_sub h2, Nat.cast_mul, Nat.cast_ofNat]
  field_simp
  ring

end Verif.Bias

namespace Verif
open Finset

theorem bias_index {α : Type} [Fintype α] (f : α → Nat) (N : Nat) (hlt : ∀ a, f a < N) (hinj : Function.Injective f)
    (hc : Fintype.card α = N) (p : Nat → Prop) [DecidablePred p] :
    (univ.filter fun a : α => p (f a)).card = ((range N).filter p).card := by
  have himg : (univ : Finset α).image f = range N := by
    refine eq_of_subset_of_card_le (fun v hv => ?_) ?_
    · obtain ⟨d, -, rfl⟩ := mem_image.1 hv
      exact mem_range.2 (hlt d)
    · rw [card_image_of_injective _ hinj, card_univ, hc, card_range]
  rw [← himg, filter_image, card_image_of_injective _ hinj]

theorem bias_sum {α β : Type} [Fintype α] [DecidableEq β] (f : α → β) (S : Finset β) :
    (univ.filter fun a : α => f a ∈ S).card = ∑ x ∈ S, (univ.filter fun a : α => f a = x).card := by
  rw [card_eq_sum_card_fiberwise (s := univ.filter fun a : α => f a ∈ S) (f := f) (t := S)
    (fun d hd => mem_coe.2 (mem_filter.1 (mem_coe.1 hd)).2)]
  refine sum_congr rfl fun x hx => ?_
  rw [filter_filter]
  exact congrArg card (filter_congr fun d _ => ⟨fun h => h.2, fun h => ⟨h ▸ hx, h⟩⟩)

theorem bias_ncard {α β : Type} [Fintype α] [DecidableEq β] (f : α → β) (S : Finset β) (p : α → Prop) (h : ∀ a, p a ↔ f a ∈ S) :
    Set.ncard {a | p a} = (univ.filter fun a : α => f a ∈ S).card := by
  rw [← Set.ncard_coe_finset]
  congr 1
  ext a
  simp [h a]

/-- the digests are the integers below `2^256` -/
theorem bias_digests (p : Nat → Prop) [DecidablePred p] :
    (univ.filter fun d : Spec.Digest => p (beToNat d.bytes)).card = ((range (256 ^ 32)).filter p).card := by
  refine bias_index (fun d : Spec.Digest => beToNat d.bytes) (256 ^ 32) (fun d => ?_) (fun d d' h => ?_) ?_ p
  · have := beToNat_lt d.bytes
    rwa [bytes_length] at this
  · exact bytes_injective (beToNat_inj (by rw [bytes_length, bytes_length]) h)
  · rw [Fintype.card_fun, Fintype.card_fin, Fintype.card_fin]

end Verif
