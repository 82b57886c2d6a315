import Mathlib.Algebra.Polynomial.Roots
import Verif.Lemmas.Precomp
import Verif.Lemmas.RecoveryApi

set_option linter.unusedSectionVars false

/-! For a fixed polynomial, the precomputed prover panics only for few secrets of the setup. -/
namespace Verif
open Finset Polynomial

/-! ### clashes are vanishing segments -/
section
variable {G : Type} [AddCommGroup G]

theorem halve_segment : ∀ (l : List G) (a n : Nat), a + n ≤ l.length / 2 →
    (((Spec.halve l).drop a).take n).sum = ((l.drop (2 * a)).take (2 * n)).sum
  | [], a, n, h => by simp at h; simp [h, Spec.halve, Spec.pairs]
  | [_], a, n, h => by simp at h; simp [h, Spec.halve, Spec.pairs]
  | x :: y :: t, 0, 0, h => by simp
  | x :: y :: t, 0, n + 1, h => by
    have ih := halve_segment t 0 n (by simp at h; omega)
    simp only [List.drop_zero, Nat.mul_zero] at ih ⊢
    unfold Spec.halve at ih ⊢
    rw [pairs_cons, List.map_cons, List.take_succ_cons, List.sum_cons, ih, Nat.mul_add, Nat.mul_one]
    simp [add_assoc]
  | x :: y :: t, a + 1, n, h => by
    have ih := halve_segment t a n (by simp at h; omega)
    unfold Spec.halve at ih ⊢
    rw [pairs_cons, List.map_cons, List.drop_succ_cons, ih, Nat.mul_add, Nat.mul_one]
    simp

theorem clash_segment {big : List (List G) → Prop} {ls : List (List G)} (h : Spec.Clash big ls) :
    ∃ l ∈ ls, ∃ a n, 1 ≤ n ∧ a + n ≤ l.length ∧ ((l.drop a).take n).sum = 0 := by
  induction h with
  | here ls hb l hl q hq h0 =>
    obtain ⟨k, hk, hkq⟩ := List.mem_iff_getElem.1 hq
    rw [length_pairs] at hk
    have h1 := pairs_getElem? l k hk
    rw [List.getElem?_eq_getElem (by rw [length_pairs]; exact hk), hkq, Option.some.injEq] at h1
    refine ⟨l, hl, 2 * k, 2, by norm_num, by omega, ?_⟩
    rw [List.drop_eq_getElem_cons (show 2 * k < l.length by omega), List.drop_eq_getElem_cons (show 2 * k + 1 < l.length by omega)]
    rw [h1] at h0
    simp only [List.take_succ_cons, List.take_zero, List.sum_cons, List.sum_nil, add_zero]
    exact h0
  | later ls hb h ih =>
    obtain ⟨m, hm, a, n, hn, hle, h0⟩ := ih
    obtain ⟨l, hl, rfl⟩ := List.mem_map.1 hm
    have hlen : (Spec.halve l).length = l.length / 2 := by simp [Spec.halve, length_pairs]
    rw [hlen] at hle
    rw [halve_segment l a n hle] at h0
    exact ⟨l, hl, 2 * a, 2 * n, by omega, by omega, h0⟩
end

/-! ### windows as polynomials in the secret -/

/-- the terms of window `i`: exponent and coefficient -/
def windowTerms (w i : Nat) (x : List Fr) : List (Nat × Fr) :=
  ((List.range 64).zip x).filterMap (fun q => if boothDigit q.2.val w i = 0 then none else
    some (63 - q.1, (boothDigit q.2.val w i : Fr)))

/-- the polynomial of a list of terms -/
noncomputable def termsPoly (l : List (Nat × Fr)) : Fr[X] := (l.map (fun t => monomial t.1 t.2)).sum

theorem digit_cast_ne_zero (w : Nat) (hw : 1 ≤ w) (hw' : w ≤ 24) (N i : Nat) (hd : boothDigit N w i ≠ 0) :
    (boothDigit N w i : Fr) ≠ 0 := by
  have := digit_smul_ne_zero w hw hw' N i (1 : Fr) one_ne_zero hd
  simpa using this

theorem windowTerms_coeff (w : Nat) (hw : 1 ≤ w) (hw' : w ≤ 24) (i : Nat) (x : List Fr) : ∀ t ∈ windowTerms w i x, t.2 ≠ 0 ∧ t.1 ≤ 63 := by
  intro t ht
  obtain ⟨q, -, h⟩ := List.mem_filterMap.1 ht
  split_ifs at h with h0
  cases h
  exact ⟨digit_cast_ne_zero w hw hw' _ i h0, Nat.sub_le _ _⟩

theorem windowTerms_pairwise (w i : Nat) (x : List Fr) : (windowTerms w i x).Pairwise (fun s t => s.1 > t.1) := by
  unfold windowTerms
  apply List.Pairwise.filterMap (R := fun (a b : Nat × Fr) => a.1 < b.1 ∧ b.1 < 64)
  · intro a b hab c hc d hd
    simp only [Option.ite_none_left_eq_some, Option.some.injEq] at hc hd
    rw [← hc.2, ← hd.2]
    simp only
    omega
  · have h1 : (List.range 64).Pairwise (fun a b => a < b ∧ b < 64) := by
      rw [List.pairwise_iff_getElem]
      intro a b ha hb hab
      simp only [List.length_range] at ha hb
      simp only [List.getElem_range]
      exact ⟨hab, hb⟩
    rw [List.pairwise_iff_getElem] at h1 ⊢
    intro a b ha hb hab
    simp only [List.length_zip] at ha hb
    simp only [List.getElem_zip]
    exact h1 a b (by omega) (by omega) hab

theorem termsPoly_ne_zero : ∀ (l : List (Nat × Fr)), l ≠ [] → l.Pairwise (fun s t => s.1 > t.1) → (∀ t ∈ l, t.2 ≠ 0) → termsPoly l ≠ 0
  | [], h, _, _ => absurd rfl h
  | t :: l, _, hp, hc => by
    intro h
    have h1 : (termsPoly (t :: l)).coeff t.1 = t.2 := by
      unfold termsPoly
      rw [List.map_cons, List.sum_cons, coeff_add, coeff_monomial, if_pos rfl]
      have : ∀ m : List (Nat × Fr), (∀ s ∈ m, t.1 > s.1) → ((m.map (fun t => monomial t.1 t.2)).sum : Fr[X]).coeff t.1 = 0 := by
        intro m
        induction m with
        | nil => simp
        | cons s m ih =>
          intro hm
          rw [List.map_cons, List.sum_cons, coeff_add, coeff_monomial, if_neg (by have := hm s (by simp); omega),
            ih (fun s hs => hm s (by simp [hs])), add_zero]
      rw [this l (fun s hs => List.rel_of_pairwise_cons hp hs), add_zero]
    rw [h, coeff_zero] at h1
    exact hc t (by simp) h1.symm

theorem termsPoly_natDegree (l : List (Nat × Fr)) (h : ∀ t ∈ l, t.1 ≤ 63) : (termsPoly l).natDegree ≤ 63 := by
  unfold termsPoly
  induction l with
  | nil => simp
  | cons t l ih =>
    rw [List.map_cons, List.sum_cons]
    exact natDegree_add_le_of_degree_le (le_trans (natDegree_monomial_le _) (h t (by simp))) (ih fun t ht => h t (by simp [ht]))

theorem termsPoly_eval (l : List (Nat × Fr)) (τ : Fr) : (termsPoly l).eval τ = (l.map (fun t => t.2 * τ ^ t.1)).sum := by
  unfold termsPoly
  induction l with
  | nil => simp
  | cons t l ih => rw [List.map_cons, List.sum_cons, eval_add, ih, eval_monomial, List.map_cons, List.sum_cons]

/-- the segments of the terms of a window -/
noncomputable def segPoly (w : Nat) (x : List Fr) (i a n : Nat) : Fr[X] := termsPoly (((windowTerms w i x).drop a).take n)

theorem segPoly_natDegree (w : Nat) (hw : 1 ≤ w) (hw' : w ≤ 24) (x : List Fr) (i a n : Nat) : (segPoly w x i a n).natDegree ≤ 63 :=
  termsPoly_natDegree _ fun t ht =>
    (windowTerms_coeff w hw hw' i x t (List.mem_of_mem_drop (List.mem_of_mem_take ht))).2

theorem segPoly_ne_zero (w : Nat) (hw : 1 ≤ w) (hw' : w ≤ 24) (x : List Fr) (i a n : Nat) (hn : 1 ≤ n)
    (hl : a + n ≤ (windowTerms w i x).length) : segPoly w x i a n ≠ 0 := by
  have hsub : (((windowTerms w i x).drop a).take n).Sublist (windowTerms w i x) :=
    (List.take_sublist _ _).trans (List.drop_sublist _ _)
  apply termsPoly_ne_zero
  · intro h
    have := congrArg List.length h
    rw [List.length_take, List.length_drop] at this
    simp at this
    omega
  · exact (windowTerms_pairwise w i x).sublist hsub
  · intro t ht
    exact (windowTerms_coeff w hw hw' i x t (hsub.subset ht)).1

section
variable {G : Type} [AddCommGroup G] [Module Fr G]

/-- the window points are the terms at `τ` times a common base -/
theorem windowPts_eq_terms (w i : Nat) (x : List Fr) (τ : Fr) (B : G) :
    windowPts w i ((List.range 64).map (fun k => τ ^ (63 - k) • B)) x =
      (windowTerms w i x).map (fun t => (t.2 * τ ^ t.1) • B) := by
  unfold windowPts windowTerms
  rw [List.map_filterMap, List.zip_map_left, List.filterMap_map]
  congr 1
  funext q
  simp only [Function.comp_apply, Prod.map_fst, Prod.map_snd, id]
  by_cases h : boothDigit q.2.val w i = 0
  · rw [if_pos h, if_pos h]; rfl
  · rw [if_neg h, if_neg h, Option.map_some, ← Int.cast_smul_eq_zsmul Fr, smul_smul]

/-- A clash makes one of the segment polynomials vanish at `τ`. -/
theorem clash_root (w : Nat) (x : List Fr) (τ : Fr) (B : G) (hB : B ≠ 0) {big : List (List G) → Prop}
    (h : Spec.Clash big ((List.range (255 / w + 1)).map (fun i => windowPts w i ((List.range 64).map (fun k => τ ^ (63 - k) • B)) x))) :
    ∃ i < 255 / w + 1, ∃ a n, 1 ≤ n ∧ a + n ≤ (windowTerms w i x).length ∧ (segPoly w x i a n).eval τ = 0 := by
  obtain ⟨l, hl, a, n, hn, hle, h0⟩ := clash_segment h
  obtain ⟨i, hi, rfl⟩ := List.mem_map.1 hl
  simp only [windowPts_eq_terms] at hle h0
  rw [List.length_map] at hle
  refine ⟨i, List.mem_range.1 hi, a, n, hn, hle, ?_⟩
  rw [← List.map_drop, ← List.map_take] at h0
  unfold segPoly
  rw [termsPoly_eval]
  have : ∀ m : List (Nat × Fr), (m.map (fun t => (t.2 * τ ^ t.1) • B)).sum = (m.map (fun t => t.2 * τ ^ t.1)).sum • B := by
    intro m
    induction m with
    | nil => simp
    | cons t m ih => rw [List.map_cons, List.sum_cons, ih, List.map_cons, List.sum_cons, add_smul]
  rw [this] at h0
  exact (smul_eq_zero.1 h0).resolve_right hB

end

/-- The secrets excluded for the scalars `x j`. -/
noncomputable def badSecrets (w : Nat) (x : Nat → List Fr) : Finset Fr :=
  {0} ∪ (X ^ 516096 - 1 : Fr[X]).roots.toFinset ∪
    (range 128).biUnion (fun j => (range 256).biUnion (fun i => (range 64).biUnion (fun a => (range 65).biUnion (fun n =>
      (segPoly w (x j) i a n).roots.toFinset))))

theorem card_badSecrets (w : Nat) (hw : 1 ≤ w) (hw' : w ≤ 24) (x : Nat → List Fr) : (badSecrets w x).card ≤ 2 ^ 34 := by
  unfold badSecrets
  have h1 : ∀ p : Fr[X], p.natDegree ≤ 63 → p.roots.toFinset.card ≤ 63 := fun p hp =>
    le_trans (Multiset.toFinset_card_le _) (le_trans (card_roots' p) hp)
  have h2 : (X ^ 516096 - 1 : Fr[X]).roots.toFinset.card ≤ 516096 := by
    refine le_trans (Multiset.toFinset_card_le _) (le_trans (card_roots' _) ?_)
    rw [← C_1, natDegree_X_pow_sub_C]
  have h3 : ((range 128).biUnion (fun j => (range 256).biUnion (fun i => (range 64).biUnion (fun a => (range 65).biUnion (fun n =>
      (segPoly w (x j) i a n).roots.toFinset))))).card ≤ 128 * (256 * (64 * (65 * 63))) := by
    refine (card_biUnion_le_card_mul _ _ (256 * (64 * (65 * 63))) ?_).trans (by simp)
    intro j _
    refine (card_biUnion_le_card_mul _ _ (64 * (65 * 63)) ?_).trans (by simp)
    intro i _
    refine (card_biUnion_le_card_mul _ _ (65 * 63) ?_).trans (by simp)
    intro a _
    refine (card_biUnion_le_card_mul _ _ 63 ?_).trans (by simp)
    intro n _
    exact h1 _ (segPoly_natDegree w hw hw' _ _ _ _)
  have h4 := card_union_le ({0} ∪ (X ^ 516096 - 1 : Fr[X]).roots.toFinset) ((range 128).biUnion (fun j => (range 256).biUnion
    (fun i => (range 64).biUnion (fun a => (range 65).biUnion (fun n => (segPoly w (x j) i a n).roots.toFinset)))))
  have h5 := card_union_le ({0} : Finset Fr) (X ^ 516096 - 1 : Fr[X]).roots.toFinset
  rw [card_singleton] at h5
  omega

/-! ### the prover -/
section
variable {ε K G : Type} [Field K] [DecidableEq K] [AddCommGroup G] [Module Fr G] [DecidableEq G] [Curve K G]

/-- the scalars of the MSM number `j` for the polynomial `f` -/
def hScals (f : List Fr) (q s j : Nat) : List Fr :=
  fftScals ((List.range (2 ^ q)).map (fun j =>
        (⟨(List.range (2 ^ s)).map (fun t => f.getD (2 ^ (q + s) - 1 - (j + t * 2 ^ q)) 0),
          (List.range (2 ^ s)).map (fun t => if t = 0 then f.getD (2 ^ (q + s) - 1 - j) 0 else 0)⟩ : ToeplitzMatrix))) (s + 1) j

theorem length_hScals (f : List Fr) (q s j : Nat) : (hScals f q s j).length = 2 ^ q := by simp [hScals, fftScals]

theorem mapM_congr' {α β : Type} {f g : α → Outcome ε β} {l : List α} (h : ∀ x ∈ l, f x = g x) : l.mapM f = l.mapM g := by
  induction l with
  | nil => rfl
  | cons a l ih => rw [List.mapM_cons, List.mapM_cons, h a (by simp), ih fun x hx => h x (by simp [hx])]

theorem computeHPoly_congr (f : List Fr) (q s : Nat) (hs32 : s + 1 ≤ 32) (hf : f.length = 2 ^ (q + s))
    (M M' : Nat → FixedBaseMSM K G)
    (h : ∀ j < 2 ^ (s + 1), ((M j).msm (hScals f q s j) : Outcome ε G) = (M' j).msm (hScals f q s j)) :
    (computeHPolyCommitments (toeplitzOf q s M) f (2 ^ q) : Outcome ε (List G)) =
      computeHPolyCommitments (toeplitzOf q s M') f (2 ^ q) := by
  unfold computeHPolyCommitments
  rw [assertP_true (isPow2_two_pow q), assertP_true (by rw [hf]; exact isPow2_two_pow _)]
  simp only [Outcome.ok_bind]
  rw [hPolyMatrices f q s hf, Outcome.ok_bind]
  unfold hScals at h
  revert h
  generalize hms : ((List.range (2 ^ q)).map (fun j =>
        (⟨(List.range (2 ^ s)).map (fun t => f.getD (2 ^ (q + s) - 1 - (j + t * 2 ^ q)) 0),
          (List.range (2 ^ s)).map (fun t => if t = 0 then f.getD (2 ^ (q + s) - 1 - j) 0 else 0)⟩ : ToeplitzMatrix))) = ms
  intro h
  have hlm : ms.length = 2 ^ q := by simp [← hms]
  have hne : ms ≠ [] := by
    intro h; rw [h] at hlm; have := Nat.two_pow_pos q; simp at hlm; omega
  unfold toeplitzOf
  rw [← hlm, Outcome.ok_bind, sumMatrixVectorMul_eq _ s hs32 ms hne, sumMatrixVectorMul_eq _ s hs32 ms hne, List.zip_map', List.zip_map',
    List.mapM_map, List.mapM_map]
  congr 1
  apply mapM_congr'
  intro j hj
  exact h j (List.mem_range.1 hj)

/-- If the first MSM panics so does the whole computation. -/
theorem computeHPoly_panic (f : List Fr) (q s : Nat) (hs32 : s + 1 ≤ 32) (hf : f.length = 2 ^ (q + s))
    (M : Nat → FixedBaseMSM K G) (h : ((M 0).msm (hScals f q s 0) : Outcome ε G) = .panic) :
    (computeHPolyCommitments (toeplitzOf q s M) f (2 ^ q) : Outcome ε (List G)) = .panic := by
  unfold computeHPolyCommitments
  rw [assertP_true (isPow2_two_pow q), assertP_true (by rw [hf]; exact isPow2_two_pow _)]
  simp only [Outcome.ok_bind]
  rw [hPolyMatrices f q s hf, Outcome.ok_bind]
  unfold hScals at h
  revert h
  generalize hms : ((List.range (2 ^ q)).map (fun j =>
        (⟨(List.range (2 ^ s)).map (fun t => f.getD (2 ^ (q + s) - 1 - (j + t * 2 ^ q)) 0),
          (List.range (2 ^ s)).map (fun t => if t = 0 then f.getD (2 ^ (q + s) - 1 - j) 0 else 0)⟩ : ToeplitzMatrix))) = ms
  intro h
  have hlm : ms.length = 2 ^ q := by simp [← hms]
  have hne : ms ≠ [] := by
    intro h; rw [h] at hlm; have := Nat.two_pow_pos q; simp at hlm; omega
  unfold toeplitzOf
  obtain ⟨m, hm⟩ : ∃ m, 2 ^ (s + 1) = m + 1 := ⟨2 ^ (s + 1) - 1, by have := Nat.two_pow_pos (s + 1); omega⟩
  rw [← hlm, sumMatrixVectorMul_eq _ s hs32 ms hne, List.zip_map', List.mapM_map, hm, List.range_succ_eq_map, List.mapM_cons]
  simp only [Function.comp_apply, h]
  rfl

theorem multiOpening_congr (g : List G) (f : List Fr) (q s e : Nat) (hs32 : s + 1 ≤ 32) (hf : f.length = 2 ^ (q + s))
    (M M' : Nat → FixedBaseMSM K G)
    (h : ∀ j < 2 ^ (s + 1), ((M j).msm (hScals f q s j) : Outcome ε G) = (M' j).msm (hScals f q s j)) :
    ((proverOf g q s e M).computeMultiOpeningProofsPolyCoeff f : Outcome ε _) =
      (proverOf g q s e M').computeMultiOpeningProofsPolyCoeff f := by
  unfold FK20Prover.computeMultiOpeningProofsPolyCoeff
  have := computeHPoly_congr (ε := ε) f q s hs32 hf M M' h
  simp only [proverOf, FK20Prover.computeCosetEvaluations] at this ⊢
  rw [this]

theorem basePoint_tau (g : List G) (τ : Fr) (P : G) (hg : ∀ i < 4096, g[i]? = some (τ ^ i • P)) (i j : Nat) (hi : i < 64) :
    Spec.basePoint g i j = τ ^ (63 - i) • Spec.basePoint g 63 j := by
  unfold Spec.basePoint
  rw [Finset.smul_sum]
  apply Finset.sum_congr rfl
  intro b hb
  have hb := Finset.mem_range.1 hb
  rw [List.getD, hg _ (by omega), Option.getD_some, List.getD, hg _ (by omega), Option.getD_some, smul_smul, smul_smul, smul_smul,
    mul_comm (τ ^ (63 - i)), mul_assoc, ← pow_add]
  congr 3
  omega

theorem pow_root (n : Nat) (hn : 0 < n) (m : Nat) (hm : n = m) (τ : Fr) (h : τ ^ m = 1) : τ ∈ (X ^ n - 1 : Fr[X]).roots := by
  rw [← C_1, mem_roots (X_pow_sub_C_ne_zero hn 1), IsRoot.def, eval_sub, eval_pow, eval_X, eval_C, hm, h, sub_self]

theorem not_bad_exact [LawfulCurve K G] (g : List G) (hl : g.length = 4096) (τ : Fr) (P : G) (hg : ∀ i < 4096, g[i]? = some (τ ^ i • P))
    (hP : P ≠ 0) (w : Nat) (hw : 1 ≤ w) (hw' : w ≤ 24) (x : Nat → List Fr) (hx : ∀ j, (x j).length = 64) (hτ : τ ∉ badSecrets w x)
    (j : Nat) (hj : j < 128) :
    (precompWindowMsm (tableOf w (fftGens (srsVectors g (2 ^ 6)) 7 j)) w (x j) : Outcome ε G) =
      .ok (lcSum (fftGens (srsVectors g (2 ^ 6)) 7 j) (x j)) := by
  unfold badSecrets at hτ
  simp only [mem_union, mem_singleton, not_or, mem_biUnion, not_exists, not_and, mem_range, Multiset.mem_toFinset] at hτ
  obtain ⟨⟨h0, h1⟩, h2⟩ := hτ
  have h1' : τ ^ (2 ^ 13 * 63) ≠ 1 := by
    intro h
    exact h1 (pow_root 516096 (by norm_num) (2 ^ 13 * 63) (by norm_num) τ h)
  have hn := noIdentity_of_tau g τ P hg hP h0 h1'
  have hgens : fftGens (srsVectors g (2 ^ 6)) 7 j = (List.range 64).map (fun k => τ ^ (63 - k) • Spec.basePoint g 63 j) := by
    rw [fftGens_eq g hl]
    apply List.map_congr_left
    intro k hk
    exact basePoint_tau g τ P hg k j (List.mem_range.1 hk)
  have hB : Spec.basePoint g 63 j ≠ 0 := hn 63 (by norm_num) j hj
  rw [hgens]
  apply (precompWindowMsm_eq (ε := ε) (K := K) w hw hw' _ (x j) (by simp [hx]) ?_).2
  · intro hc
    obtain ⟨i, hi, a, n, hn1, hle, hr⟩ := clash_root w (x j) τ _ hB hc
    have hlen : (windowTerms w i (x j)).length ≤ 64 := by
      unfold windowTerms
      refine le_trans (List.length_filterMap_le _ _) ?_
      simp
    refine h2 j hj i (lt_of_lt_of_le hi ?_) a (by omega) n (by omega) ?_
    · have := Nat.div_le_self 255 w
      omega
    · rw [mem_roots (segPoly_ne_zero w hw hw' (x j) i a n hn1 hle)]
      exact hr
  · intro Q hQ
    obtain ⟨k, hk, rfl⟩ := List.mem_map.1 hQ
    exact smul_ne_zero (pow_ne_zero _ h0) hB

end

section
variable {ε K G1 : Type} [Field K] [DecidableEq K] [AddCommGroup G1] [Module Fr G1] [DecidableEq G1] [Curve K G1] [PointCodec G1]

theorem prove_exact_precomp [LawfulCurve K G1] (g : List G1) (hl : g.length = 4096) (τ : Fr) (P : G1)
    (hg : ∀ i < 4096, g[i]? = some (τ ^ i • P)) (hP : P ≠ 0) (w : Nat) (hw : 1 ≤ w) (hw' : w ≤ 24)
    (M : Nat → FixedBaseMSM K G1)
    (hM : ∀ j < 2 ^ 7, (FixedBaseMSM.new (fftGens (srsVectors g (2 ^ 6)) 7 j) (.yes w) : Outcome ε (FixedBaseMSM K G1)) = .ok (M j))
    (f : Fr[X]) (hf : f.degree < 4096) (hτ : τ ∉ badSecrets w (hScals (Spec.coeffs 4096 f) 6 6)) :
    (do let (proofs, cells) ← (proverOf g 6 6 13 M).computeMultiOpeningProofsPolyCoeff (Spec.coeffs 4096 f)
        serializeCellsAndProofs cells proofs : Outcome ε _) = .ok (cellsOf f, proofsOf g f) := by
  rw [multiOpening_congr g (Spec.coeffs 4096 f) 6 6 13 (by norm_num) (by simp [Spec.coeffs]) M
    (fun j => .noPrecomp (fftGens (srsVectors g (2 ^ 6)) 7 j))]
  · exact prove_exact g hl _ (msmExact_no g 6 6 _ fun j _ => rfl) f hf
  · intro j hj
    have hnew := hM j hj
    simp only [FixedBaseMSM.new, precompWindowNew_eq w hw, Outcome.ok_bind, Outcome.pure_eq, Outcome.ok.injEq] at hnew
    rw [← hnew]
    have := not_bad_exact (ε := ε) (K := K) g hl τ P hg hP w hw hw' _ (fun j => by rw [length_hScals]; norm_num) hτ j hj
    simp only [FixedBaseMSM.msm]
    rw [this]
    simp [lincomb_eq, expect]
end
end Verif
