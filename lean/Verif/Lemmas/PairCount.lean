import Mathlib.Algebra.BigOperators.Ring.Finset
import Mathlib.Data.Fintype.BigOperators
import Mathlib.Data.Int.CardIntervalMod
import Mathlib.Data.ZMod.Basic

/-! Counting families of pairs of residues: how many contain no pair with the same non-zero remainder. -/
namespace Verif.PairCount
open Finset

variable {n : Nat} [NeZero n] (hn : n % 256 = 1)

theorem card_val (p : Nat → Prop) [DecidablePred p] : (Finset.univ.filter (fun s : ZMod n => p s.val)).card = ((range n).filter p).card := by
  apply Finset.card_bij (fun s _ => s.val)
  · intro s hs
    simp only [mem_filter, mem_univ, true_and, mem_range] at hs ⊢
    exact ⟨ZMod.val_lt s, hs⟩
  · intro s _ t _ h
    exact ZMod.val_injective _ h
  · intro m hm
    simp only [mem_filter, mem_range] at hm
    refine ⟨(m : ZMod n), ?_, ZMod.val_cast_of_lt hm.1⟩
    simp only [mem_filter, mem_univ, true_and]
    rw [ZMod.val_cast_of_lt hm.1]
    exact hm.2

include hn
theorem card_residue (v : Nat) (h0 : v ≠ 0) (hv : v < 256) : (Finset.univ.filter (fun s : ZMod n => s.val % 256 = v)).card = n / 256 := by
  rw [card_val (fun n => n % 256 = v), ← Nat.count_eq_card_filter_range]
  have := Nat.count_modEq_card n (r := 256) (by norm_num) v
  rw [hn, Nat.mod_eq_of_lt hv, if_neg (by omega), add_zero] at this
  rw [← this]
  congr 1
  funext n
  simp only [Nat.ModEq, Nat.mod_eq_of_lt hv]

theorem card_residue_zero : (Finset.univ.filter (fun s : ZMod n => s.val % 256 = 0)).card = n / 256 + 1 := by
  rw [card_val (fun n => n % 256 = 0), ← Nat.count_eq_card_filter_range]
  have := Nat.count_modEq_card n (r := 256) (by norm_num) 0
  rw [hn, Nat.zero_mod, if_pos (by omega)] at this
  rw [← this]
  congr 1

omit [NeZero n] in
theorem split : n = 256 * (n / 256) + 1 := by
  have := Nat.div_add_mod n 256
  rw [hn] at this
  exact this.symm

theorem card_nonzero : (Finset.univ.filter (fun s : ZMod n => s.val % 256 ≠ 0)).card = 255 * (n / 256) := by
  have h := Finset.card_filter_add_card_filter_not (s := (Finset.univ : Finset (ZMod n))) (fun s => s.val % 256 = 0)
  rw [card_residue_zero hn, Finset.card_univ, ZMod.card] at h
  have := split hn
  simp only [ne_eq]
  omega

theorem card_other (v : Nat) (h0 : v ≠ 0) (hv : v < 256) :
    (Finset.univ.filter (fun s : ZMod n => s.val % 256 ≠ 0 ∧ v ≠ s.val % 256)).card = 254 * (n / 256) := by
  have h := Finset.card_filter_add_card_filter_not (s := Finset.univ.filter (fun s : ZMod n => s.val % 256 ≠ 0)) (fun s => v = s.val % 256)
  rw [card_nonzero hn, Finset.filter_filter, Finset.filter_filter] at h
  have e : (Finset.univ.filter (fun s : ZMod n => s.val % 256 ≠ 0 ∧ v = s.val % 256)) = Finset.univ.filter (fun s : ZMod n => s.val % 256 = v) := by
    apply Finset.filter_congr
    intro s _
    constructor
    · exact fun h => h.2.symm
    · intro h; exact ⟨by omega, h.symm⟩
  rw [e, card_residue hn v h0 hv] at h
  simp only [ne_eq] at h ⊢
  omega
omit hn

/-- pairs of non-zero remainders -/
def nonzero (n : Nat) [NeZero n] : Finset (ZMod n × ZMod n) :=
  Finset.univ.filter (fun q => q.1.val % 256 ≠ 0 ∧ q.2.val % 256 ≠ 0)

/-- pairs of different non-zero remainders -/
def apart (n : Nat) [NeZero n] : Finset (ZMod n × ZMod n) :=
  Finset.univ.filter (fun q => q.1.val % 256 ≠ 0 ∧ q.2.val % 256 ≠ 0 ∧ q.1.val % 256 ≠ q.2.val % 256)

theorem apart_subset : apart n ⊆ nonzero n := by
  intro q
  simp only [apart, nonzero, mem_filter, mem_univ, true_and]
  tauto

include hn
theorem card_nonzero_pairs : (nonzero n).card = (255 * (n / 256)) ^ 2 := by
  have : nonzero n = Finset.univ.filter (fun s : ZMod n => s.val % 256 ≠ 0) ×ˢ Finset.univ.filter (fun s : ZMod n => s.val % 256 ≠ 0) := by
    ext q
    simp [nonzero]
  rw [this, Finset.card_product, card_nonzero hn, sq]

theorem card_apart : (apart n).card = 255 * (n / 256) * (254 * (n / 256)) := by
  have : apart n = (Finset.univ.filter (fun s : ZMod n => s.val % 256 ≠ 0)).biUnion (fun s =>
      (Finset.univ.filter (fun t : ZMod n => t.val % 256 ≠ 0 ∧ s.val % 256 ≠ t.val % 256)).map ⟨fun t => (s, t), fun a b h => (Prod.mk.inj h).2⟩) := by
    ext ⟨s, t⟩
    simp only [apart, mem_filter, mem_univ, true_and, mem_biUnion, mem_map]
    constructor
    · rintro ⟨h1, h2, h3⟩
      exact ⟨s, h1, t, ⟨h2, h3⟩, rfl⟩
    · rintro ⟨a, h1, b, ⟨h2, h3⟩, h⟩
      cases h
      exact ⟨h1, h2, h3⟩
  rw [this, Finset.card_biUnion]
  · rw [Finset.sum_congr rfl (g := fun _ => 254 * (n / 256)), Finset.sum_const, card_nonzero hn, smul_eq_mul]
    intro s hs
    rw [Finset.card_map]
    exact card_other hn _ (Finset.mem_filter.1 hs).2 (Nat.mod_lt _ (by norm_num))
  · intro s _ t _ hst
    rw [Function.onFun, Finset.disjoint_left]
    rintro ⟨a, b⟩ h1 h2
    simp only [mem_map, mem_filter, mem_univ, true_and] at h1 h2
    obtain ⟨_, _, h1⟩ := h1
    obtain ⟨_, _, h2⟩ := h2
    cases h1
    cases h2
    exact hst rfl
omit hn

/-- Families of `k` pairs with no zero remainder that contain a pair with the same remainder. -/
def Bad (k : Nat) (x : Fin k → ZMod n × ZMod n) : Prop :=
  (∀ m, (x m).1.val % 256 ≠ 0 ∧ (x m).2.val % 256 ≠ 0) ∧ ∃ m, (x m).1.val % 256 = (x m).2.val % 256

instance (k : Nat) : DecidablePred (Bad (n := n) k) := fun _ => by unfold Bad; infer_instance

include hn
theorem card_bad (k : Nat) : (Finset.univ.filter (Bad (n := n) k)).card =
    (255 * (n / 256)) ^ (2 * k) - (255 * (n / 256) * (254 * (n / 256))) ^ k := by
  have : Finset.univ.filter (Bad (n := n) k) = Fintype.piFinset (fun _ : Fin k => nonzero n) \ Fintype.piFinset (fun _ : Fin k => apart n) := by
    ext x
    simp only [Bad, mem_filter, mem_univ, true_and, mem_sdiff, Fintype.mem_piFinset, nonzero, apart, not_forall]
    constructor
    · rintro ⟨h, m, hm⟩
      exact ⟨h, m, by tauto⟩
    · rintro ⟨h, m, hm⟩
      refine ⟨h, m, ?_⟩
      have := h m
      tauto
  rw [this, Finset.card_sdiff_of_subset, Fintype.card_piFinset_const, Fintype.card_piFinset_const, card_nonzero_pairs hn, card_apart hn]
  · rw [← pow_mul]
  · intro x hx
    rw [Fintype.mem_piFinset] at hx ⊢
    exact fun m => apart_subset (hx m)

theorem card_good (k : Nat) : (Finset.univ.filter (fun x => ¬ Bad (n := n) k x)).card =
    n ^ (2 * k) - ((255 * (n / 256)) ^ (2 * k) - (255 * (n / 256) * (254 * (n / 256))) ^ k) := by
  have h := Finset.card_filter_add_card_filter_not (s := (Finset.univ : Finset (Fin k → ZMod n × ZMod n))) (Bad k)
  rw [card_bad hn, Finset.card_univ, Fintype.card_fun, Fintype.card_prod, ZMod.card, Fintype.card_fin] at h
  rw [pow_mul, sq]
  omega

/-- An injective choice of `l` families avoids the bad ones in all of them for at most this many arguments. -/
theorem count {α : Type} [Fintype α] (k l : Nat) (Φ : α → Fin l → Fin k → ZMod n × ZMod n) (hΦ : Function.Injective Φ) (S : Set α)
    (hS : ∀ a ∈ S, ∀ i, ¬ Bad k (Φ a i)) :
    S.ncard ≤ (n ^ (2 * k) - ((255 * (n / 256)) ^ (2 * k) - (255 * (n / 256) * (254 * (n / 256))) ^ k)) ^ l := by
  classical
  have := Fintype.card_piFinset_const (Finset.univ.filter (fun x => ¬ Bad (n := n) k x)) l
  rw [← card_good hn k, ← this, ← Set.ncard_coe_finset]
  refine Set.ncard_le_ncard_of_injOn Φ ?_ hΦ.injOn (Finset.finite_toSet _)
  intro a ha
  rw [Finset.mem_coe, Fintype.mem_piFinset]
  intro i
  exact Finset.mem_filter.2 ⟨Finset.mem_univ _, hS a ha i⟩

end Verif.PairCount
