import Mathlib.Algebra.BigOperators.Group.List.Lemmas
import Mathlib.Algebra.Module.BigOperators
import Mathlib.Algebra.Polynomial.Eval.Defs
import Verif.Model.Msm
import Verif.Lemmas.Outcome

/-! `g1_lincomb` computes the linear combination. -/
namespace Verif
open Finset

variable {ε G : Type} [AddCommGroup G] [Module Fr G]

/-- the plain sum -/
def lcSum (points : List G) (scalars : List Fr) : G := ((points.zip scalars).map (fun q => q.2 • q.1)).sum

theorem lcSum_eq (points : List G) (scalars : List Fr) (n : Nat) (hp : points.length = n) (hs : scalars.length = n) :
    lcSum points scalars = ∑ i ∈ range n, scalars.getD i 0 • points.getD i 0 := by
  induction points generalizing scalars n with
  | nil => simp at hp; subst hp; simp [lcSum]
  | cons p points ih =>
    cases scalars with
    | nil => simp at hs hp; omega
    | cons s scalars =>
      obtain ⟨m, rfl⟩ : ∃ m, n = m + 1 := ⟨points.length, by simpa using hp.symm⟩
      rw [sum_range_succ']
      have := ih scalars m (by simpa using hp) (by simpa using hs)
      simp only [lcSum] at this
      simp [lcSum, this, add_comm]

omit [Module Fr G] in
theorem sum_zip_eq {α β : Type} (f : α × β → G) (l₁ : List α) (l₂ : List β) (z₁ : α) (z₂ : β) (n : Nat)
    (h₁ : l₁.length = n) (h₂ : l₂.length = n) :
    ((l₁.zip l₂).map f).sum = ∑ i ∈ range n, f (l₁.getD i z₁, l₂.getD i z₂) := by
  induction l₁ generalizing l₂ n with
  | nil => simp at h₁; subst h₁; simp
  | cons a l₁ ih =>
    cases l₂ with
    | nil => simp at h₂ h₁; omega
    | cons b l₂ =>
      obtain ⟨m, rfl⟩ : ∃ m, n = m + 1 := ⟨l₁.length, by simpa using h₁.symm⟩
      rw [sum_range_succ']
      have := ih l₂ m (by simpa using h₁) (by simpa using h₂)
      simp [this, add_comm]

variable [DecidableEq G]

theorem sum_filter_ne_zero (l : List (G × Fr)) :
    ((l.filter (fun q => ¬ (q.1 = 0))).map (fun q => q.2 • q.1)).sum = (l.map (fun q => q.2 • q.1)).sum := by
  induction l with
  | nil => simp
  | cons q l ih =>
    by_cases h : q.1 = 0
    · simp [h] at ih ⊢; exact ih
    · simp [h] at ih ⊢; exact ih

/-- `g1_lincomb` never fails and is exact. -/
theorem lincomb_eq (points : List G) (scalars : List Fr) : lincomb points scalars = some (lcSum points scalars) := by
  unfold lincomb
  simp only
  set l := (points.zip scalars).filter (fun q => ¬ (q.1 = 0)) with hl
  have hs : (l.map (fun q => q.2 • q.1)).sum = lcSum points scalars := sum_filter_ne_zero _
  split_ifs with h
  · rw [← hs]
    have : l = [] := by simpa using h
    rw [this]; simp
  · rw [lincombUnsafe, if_neg (by simp)]
    congr 1
    unfold multiExp
    rw [if_neg]
    · rw [← hs]
      congr 1
      have : (l.map Prod.fst).zip (l.map Prod.snd) = l := by
        rw [List.zip_map', List.map_id'']
        intro x; rfl
      rw [this]
    · simp only [List.any_eq_true, decide_eq_true_eq, not_exists, not_and]
      intro p hp h0
      obtain ⟨q, hq, rfl⟩ := List.mem_map.1 hp
      rw [hl, List.mem_filter] at hq
      simp [h0] at hq

end Verif
