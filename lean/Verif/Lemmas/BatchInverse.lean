import Mathlib.Algebra.BigOperators.Group.List.Basic
import Mathlib.Algebra.GroupWithZero.Basic
import Mathlib.Algebra.BigOperators.GroupWithZero.Finset
import Verif.Model.BatchInverse

/-! Lemmas on batch inversion. -/
namespace Verif

variable {ε F : Type} [Field F] [DecidableEq F]

omit [DecidableEq F] in
theorem batchInvFirst_append (v : List F) (x : F) :
    batchInvFirst (v ++ [x]) = ((batchInvFirst v).1 * x, (batchInvFirst v).2 ++ [(batchInvFirst v).1 * x]) := by
  simp [batchInvFirst]

omit [DecidableEq F] in
theorem batchInvFirst_fst (v : List F) : (batchInvFirst v).1 = v.prod := by
  induction v using List.reverseRecOn with
  | nil => simp [batchInvFirst]
  | append_singleton v x ih => rw [batchInvFirst_append, ih]; simp

omit [DecidableEq F] in
theorem batchInvFirst_last (v : List F) :
    ((batchInvFirst v).2.reverse ++ [1]).head? = some v.prod := by
  induction v using List.reverseRecOn with
  | nil => simp [batchInvFirst]
  | append_singleton v x ih => rw [batchInvFirst_append]; simp [batchInvFirst_fst]

omit [DecidableEq F] in
theorem batchInvSecond_spec (v : List F) (hv : ∀ x ∈ v, x ≠ 0) :
    batchInvSecond v.prod⁻¹ v.reverse ((batchInvFirst v).2.reverse.drop 1 ++ [1]) = (v.map (·⁻¹)).reverse := by
  induction v using List.reverseRecOn with
  | nil => simp [batchInvSecond, batchInvFirst]
  | append_singleton v x ih =>
    have hx : x ≠ 0 := hv x (by simp)
    have hv' : ∀ y ∈ v, y ≠ 0 := fun y hy => hv y (by simp [hy])
    have hp : v.prod ≠ 0 := List.prod_ne_zero (fun h => hv' 0 h rfl)
    rw [batchInvFirst_append]
    have hfac : ∃ rest, (batchInvFirst v).2.reverse ++ [1] = v.prod :: rest ∧
        (v ≠ [] → rest = (batchInvFirst v).2.reverse.drop 1 ++ [1]) := by
      have hl := batchInvFirst_last v
      cases hr : (batchInvFirst v).2.reverse with
      | nil =>
        rw [hr] at hl
        simp only [List.nil_append, List.head?_cons, Option.some.injEq] at hl
        refine ⟨[], by simp [← hl], ?_⟩
        intro hne
        exfalso
        obtain ⟨w, y, rfl⟩ : ∃ w y, v = w ++ [y] := by
          rcases List.eq_nil_or_concat v with h | ⟨w, y, h⟩
          · exact absurd h hne
          · exact ⟨w, y, by simpa using h⟩
        rw [batchInvFirst_append] at hr
        simp at hr
      | cons a t =>
        rw [hr] at hl
        simp only [List.cons_append, List.head?_cons, Option.some.injEq] at hl
        exact ⟨t ++ [1], by simp [hl], fun _ => by simp⟩
    obtain ⟨rest, hrest, hrest'⟩ := hfac
    simp only [List.reverse_append, List.reverse_cons, List.reverse_nil, List.nil_append,
      List.singleton_append, List.drop_succ_cons, List.drop_zero, List.prod_append, List.prod_singleton,
      List.map_append, List.map_cons, List.map_nil]
    rw [hrest, batchInvSecond]
    have e1 : (v.prod * x)⁻¹ * v.prod = x⁻¹ := by field_simp
    have e2 : (v.prod * x)⁻¹ * x = v.prod⁻¹ := by field_simp
    rw [e1, e2]
    congr 1
    by_cases hne : v = []
    · subst hne; simp [batchInvSecond]
    · rw [hrest' hne, ih hv']

theorem batchInverse_ok (v : List F) (hv : ∀ x ∈ v, x ≠ 0) :
    (batchInverse v : Outcome ε (List F)) = .ok (v.map (·⁻¹)) := by
  have hp : v.prod ≠ 0 := List.prod_ne_zero (fun h => hv 0 h rfl)
  unfold batchInverse
  simp only [batchInvFirst_fst, invertExpect, if_neg hp, Outcome.ok_bind, batchInvSecond_spec v hv]
  simp

theorem batchInverse_panic (v : List F) (hv : 0 ∈ v) : (batchInverse v : Outcome ε (List F)) = .panic := by
  have hp : v.prod = 0 := List.prod_eq_zero hv
  unfold batchInverse
  simp [batchInvFirst_fst, invertExpect, hp]

end Verif
