import Verif.Spec.Srs
import Verif.Lemmas.Naive
import Verif.Lemmas.NoErr
import Verif.Model.Fk20Verifier

set_option linter.unusedSectionVars false

/-! The reference verifier evaluates the pairing equation, and interpolation with a repeated point panics. -/
namespace Verif
open Polynomial Finset

variable {ε : Type}

/-- a loop one of whose steps always panics, and none of whose steps returns an error, panics -/
theorem foldlM_panic {σ α : Type} (f : σ → α → Outcome ε σ) (l : List α) (hne : ∀ s, ∀ a ∈ l, NoErr (f s a))
    (x : α) (hx : x ∈ l) (hp : ∀ s, f s x = .panic) (s : σ) : l.foldlM f s = .panic := by
  induction l generalizing s with
  | nil => simp at hx
  | cons a l ih =>
    rw [List.foldlM_cons]
    cases h : f s a with
    | panic => rfl
    | err e => exact (hne s a (by simp) e h).elim
    | ok s' =>
      rcases List.mem_cons.1 hx with rfl | hx
      · rw [hp s] at h; cases h
      · exact ih (fun s b hb => hne s b (by simp [hb])) hx s'

section
variable {F : Type} [Field F] [DecidableEq F]

theorem lagrangeOuter_noErr (points : List (F × F)) (coeffs : List F) (q : (F × F) × Nat) :
    NoErr (lagrangeOuter points coeffs q : Outcome ε (List F)) := by
  unfold lagrangeOuter
  refine NoErr.bind (NoErr.foldlM (fun st p => ?_) _ _) fun _ => NoErr.bind (NoErr.invertExpect _) fun _ =>
    NoErr.foldlM (fun _ _ => NoErr.bind (NoErr.idx _ _) fun _ => NoErr.setIdx _ _ _) _ _
  unfold lagrangeInner
  refine NoErr.ite (NoErr.pure _) (NoErr.ite ?_ ?_)
  · exact NoErr.bind (NoErr.idx _ _) fun _ => NoErr.bind (NoErr.setIdx _ _ _) fun _ => NoErr.bind (NoErr.idx _ _) fun _ =>
      NoErr.bind (NoErr.setIdx _ _ _) fun _ => NoErr.pure _
  · exact NoErr.bind (NoErr.assertP _) fun _ => NoErr.bind (NoErr.mapM (fun _ => NoErr.bind (NoErr.idx _ _) fun _ =>
      NoErr.pure _) _) fun _ => NoErr.pure _

/-- `lagrange_interpolate` panics on fewer than two points and on a repeated point -/
theorem lagrangeInterpolate_panic (points : List (F × F)) (h : points.length < 2 ∨ ¬(points.map Prod.fst).Nodup) :
    (lagrangeInterpolate points : Outcome ε (Option (List F))) = .panic := by
  unfold lagrangeInterpolate
  by_cases hn : 2 ≤ points.length
  swap
  · unfold assertP
    rw [if_neg hn]; rfl
  rw [assertP_true hn, Outcome.ok_bind]
  have h : ¬(points.map Prod.fst).Nodup := by
    rcases h with h | h
    · omega
    · exact h
  rw [List.nodup_iff_injective_get, Function.Injective] at h
  push Not at h
  obtain ⟨a, b, hab, hne⟩ := h
  have ha : a.1 < points.length := by simpa using a.2
  have hb : b.1 < points.length := by simpa using b.2
  have hab' : points[a.1].1 = points[b.1].1 := by simpa using hab
  have hne' : a.1 ≠ b.1 := fun e => hne (Fin.ext e)
  rw [foldlM_panic (lagrangeOuter points) points.zipIdx (fun s p _ => lagrangeOuter_noErr points s p) (points[a.1], a.1)
    (List.mk_mem_zipIdx_iff_getElem?.2 (List.getElem?_eq_getElem ha))]
  · rfl
  · intro s
    obtain ⟨st, hst, -, -, hcd⟩ := lagrangeInner_spec (ε := ε) points a.1 ha hn
    have hz : st.denominator = 0 := by
      rw [hcd, lagDen]
      refine prod_eq_zero (i := b.1) (by simp [hb, Ne.symm hne']) ?_
      rw [sub_eq_zero]
      simp only [List.getD_eq_getElem _ _ ha, List.getD_eq_getElem _ _ hb, hab']
    unfold lagrangeOuter
    simp only [hst, Outcome.ok_bind, invertExpect, hz, if_true]
    rfl
end

section
variable {G : Type} [AddCommGroup G] [Module Fr G] [DecidableEq G]

theorem commitment_isPowers (g : List G) (τ : Fr) (P : G) (h : Spec.IsPowers g τ P) (f : Fr[X])
    (hf : f.degree < g.length) : Spec.commitment g f = f.eval τ • P := by
  unfold Spec.commitment
  by_cases h0 : f = 0
  · subst h0
    simp
  have hd : f.natDegree < g.length := (natDegree_lt_iff_degree_lt h0).2 hf
  rw [eval_eq_sum_range' hd, sum_smul]
  apply sum_congr rfl
  intro i hi
  rw [List.getD, h i (mem_range.1 hi), Option.getD_some, mul_smul]

/-- the key of the verifier commits in the second group as the commit key does in the first -/
theorem commitG2_eq {G1 : Type} (vk : VerificationKey G1 G) (c : List Fr) (hc : c.length ≤ vk.g2s.length) :
    (vk.commitG2 c : Outcome ε G) = .ok (Spec.commitment vk.g2s (Spec.polyOf c)) := by
  unfold VerificationKey.commitG2
  rw [assertP_true hc, Outcome.ok_bind]
  exact commitG1_ok vk.g2s c hc

theorem vkCommitG1_any {G2 : Type} (vk : VerificationKey G G2) (c : List Fr) (hc : c.length ≤ vk.g1s.length) :
    (vk.commitG1 c : Outcome ε G) = .ok (Spec.commitment vk.g1s (Spec.polyOf c)) := by
  unfold VerificationKey.commitG1
  rw [assertP_true hc, Outcome.ok_bind]
  exact commitG1_ok vk.g1s c hc
end

theorem naiveOpen_panic {G : Type} [AddCommGroup G] [Module Fr G] [DecidableEq G] (g : List G) (f points : List Fr)
    (h : points.length < 2 ∨ ¬points.Nodup) : (naiveComputeMultiOpening g f points : Outcome ε _) = .panic := by
  unfold naiveComputeMultiOpening
  simp only []
  rw [lagrangeInterpolate_panic]
  · rfl
  · rcases h with h | h
    · left; simpa using h
    · right; rwa [List.map_fst_zip (by simp)]

/-- the two polynomials that agree on as many distinct points as their degrees allow are equal -/
theorem eq_of_eval_points (points : List Fr) (hd : points.Nodup) (a b : Fr[X]) (ha : a.degree < points.length)
    (hb : b.degree < points.length) (h : ∀ z ∈ points, a.eval z = b.eval z) : a = b := by
  have hdvd := prod_dvd points hd (a - b) (fun z hz => by rw [eval_sub, h z hz, sub_self])
  rw [← sub_eq_zero]
  refine eq_zero_of_dvd_of_degree_lt hdvd ?_
  rw [prod_degree]
  exact lt_of_le_of_lt (degree_sub_le _ _) (max_lt ha hb)

theorem degree_polyOf_lt (c : List Fr) : (Spec.polyOf c).degree < c.length := by
  rw [degree_lt_iff_coeff_zero]
  intro m hm
  rw [Spec.coeff_polyOf]
  simp [List.getD, List.getElem?_eq_none hm]

section
variable {G1 G2 GT : Type} [AddCommGroup G1] [Module Fr G1] [DecidableEq G1] [AddCommGroup G2] [Module Fr G2]
  [DecidableEq G2] [AddCommGroup GT] [DecidableEq GT] [Pairing G1 G2 GT] [LawfulPairing G1 G2 GT]

theorem pair_zero (c : G2) : pair (0 : G1) c = (0 : GT) := by
  have := LawfulPairing.pair_add_left (GT := GT) (0 : G1) 0 c
  rw [add_zero] at this
  simpa using this

theorem pairing_eq (t : Fr) (A B : G1) (H : G2) : (pair A (t • H) + pair B (-H) : GT) = pair (t • A - B) H := by
  have h := LawfulPairing.pair_smul (GT := GT) (-1) B H
  rw [neg_smul, neg_smul, one_smul, one_smul] at h
  rw [← h, ← LawfulPairing.pair_smul, ← LawfulPairing.pair_add_left, sub_eq_add_neg]

theorem naiveVerify_eq (vk : VerificationKey G1 G2) (commitment proof : G1) (points values : List Fr)
    (hn : 2 ≤ points.length) (hd : points.Nodup) (hl : values.length = points.length)
    (h1 : points.length ≤ vk.g1s.length) (h2 : points.length < vk.g2s.length)
    (I : Fr[X]) (hI : I.degree < points.length) (hev : ∀ p ∈ points.zip values, I.eval p.1 = p.2) :
    (naiveVerifyMultiOpening vk commitment proof points values : Outcome ε Bool) =
      .ok (decide (pair proof (Spec.commitment vk.g2s (points.map (fun r => X - C r)).prod) +
        pair (commitment - Spec.commitment vk.g1s I) (-vk.g2Gen) = (0 : GT))) := by
  unfold naiveVerifyMultiOpening
  obtain ⟨r, hr, hrl, hrev⟩ := interpolate_zip (ε := ε) points values hl hn hd
  obtain ⟨v, hv, hvl, hvp⟩ := vanishingPoly_spec (ε := ε) points
  have hpI : Spec.polyOf r = I := by
    refine eq_of_eval_points points hd _ _ (by rw [← hrl]; exact degree_polyOf_lt r) hI ?_
    intro z hz
    obtain ⟨i, hi, rfl⟩ := List.getElem_of_mem hz
    have hm : (points[i], values[i]) ∈ points.zip values := by
      rw [List.mem_iff_getElem]
      exact ⟨i, by simp [hl, hi], by simp⟩
    rw [hrev _ hm, hev _ hm]
  simp only [hr, Outcome.ok_bind, hv]
  rw [show (expect (some r) : Outcome ε (List Fr)) = .ok r from rfl, Outcome.ok_bind,
    commitG2_eq vk v (by omega), Outcome.ok_bind, vkCommitG1_any vk r (by omega), Outcome.ok_bind, hpI, hvp]
  rfl

theorem naiveVerify_panic (vk : VerificationKey G1 G2) (commitment proof : G1) (points values : List Fr)
    (hl : values.length = points.length) (h : points.length < 2 ∨ ¬points.Nodup) :
    (naiveVerifyMultiOpening vk commitment proof points values : Outcome ε Bool) = .panic := by
  unfold naiveVerifyMultiOpening
  simp only []
  rw [lagrangeInterpolate_panic]
  · rfl
  · rcases h with h | h
    · left; simpa [hl] using h
    · right; rwa [List.map_fst_zip (by omega)]
end

/-- the powers written by `create_insecure_commit_verification_keys` -/
theorem insecure_fold {G : Type} [AddCommGroup G] [Module Fr G] (P : G) (τ : Fr) (n : Nat) :
    (List.range n).foldl (fun (st : List G × Fr) _ => (st.1 ++ [st.2 • P], st.2 * τ)) ([], 1) =
      ((List.range n).map (fun i => τ ^ i • P), τ ^ n) := by
  induction n with
  | zero => simp
  | succ n ih =>
    rw [List.range_succ, List.foldl_append, ih, List.map_append, List.foldl_cons, List.foldl_nil, pow_succ]
    rfl

end Verif
