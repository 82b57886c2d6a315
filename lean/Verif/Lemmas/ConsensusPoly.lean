import Verif.Spec.Consensus
import Verif.Lemmas.PolyCoeff
import Verif.Lemmas.Rep

/-! Polynomial arithmetic of the consensus specification: what its loops compute. -/
namespace Verif.Consensus
open Polynomial Finset Spec

theorem foldl_range_inv {σ : Type} (P : Nat → σ → Prop) (body : σ → Nat → σ) (s : σ) (n : Nat) (h0 : P 0 s)
    (hs : ∀ i < n, ∀ s, P i s → P (i + 1) (body s i)) : P n ((List.range n).foldl body s) := by
  induction n with
  | zero => exact h0
  | succ n ih =>
    rw [List.range_succ, List.foldl_append]
    exact hs n (by omega) _ (ih (fun i hi => hs i (by omega)))

theorem foldlM_range_inv' {σ : Type} (P : Nat → σ → Prop) (body : σ → Nat → Option σ) (s : σ) (n : Nat) (h0 : P 0 s)
    (hs : ∀ i < n, ∀ s, P i s → ∃ t, body s i = some t ∧ P (i + 1) t) :
    ∃ t, (List.range n).foldlM body s = some t ∧ P n t := by
  induction n with
  | zero => exact ⟨s, rfl, h0⟩
  | succ n ih =>
    obtain ⟨t, ht, hP⟩ := ih (fun i hi => hs i (by omega))
    obtain ⟨u, hu, hQ⟩ := hs n (by omega) t hP
    refine ⟨u, ?_, hQ⟩
    rw [List.range_succ, List.foldlM_append, ht]
    simp [hu]

theorem polyOf_map_range (n : Nat) (f : Nat → Fr) (p : Fr[X]) (hp : p.degree < n) (h : ∀ i < n, f i = p.coeff i) :
    polyOf ((List.range n).map f) = p := by
  rw [polyOf_eq_iff (by simpa using hp)]
  intro i hi
  have hi : i < n := by simpa using hi
  rw [(rep_map_range n f).getD 0 hi, h i hi]

theorem degree_polyOf_lt_of {a : List Fr} {n : Nat} (h : a.length ≤ n) : (polyOf a).degree < n :=
  lt_of_lt_of_le (degree_polyOf_lt a) (by exact_mod_cast h)

theorem getD_of_le {a : List Fr} {i : Nat} (h : a.length ≤ i) : a.getD i 0 = 0 := by
  simp [List.getD, List.getElem?_eq_none h]

theorem add_spec (a b : List Fr) :
    polyOf (addPolynomialcoeff a b) = polyOf a + polyOf b ∧
      (addPolynomialcoeff a b).length = max a.length b.length := by
  unfold addPolynomialcoeff
  split_ifs with h
  · simp only [List.length_map, List.length_range]
    refine ⟨polyOf_map_range _ _ _ (lt_of_le_of_lt (degree_add_le _ _) (max_lt (degree_polyOf_lt a)
      (degree_polyOf_lt_of h))) ?_, by omega⟩
    intro i hi
    rw [coeff_add, coeff_polyOf, coeff_polyOf]
    split_ifs with h2
    · rfl
    · rw [getD_of_le (by omega : b.length ≤ i)]
  · simp only [List.length_map, List.length_range]
    refine ⟨polyOf_map_range _ _ _ (lt_of_le_of_lt (degree_add_le _ _) (max_lt (degree_polyOf_lt_of (by omega))
      (degree_polyOf_lt b))) ?_, by omega⟩
    intro i hi
    rw [coeff_add, coeff_polyOf, coeff_polyOf, add_comm]
    split_ifs with h2
    · rfl
    · rw [getD_of_le (by omega : a.length ≤ i)]

theorem polyOf_shift (n : Nat) (b : List Fr) : polyOf (List.replicate n 0 ++ b) = X ^ n * polyOf b := by
  induction n with
  | zero => simp
  | succ n ih =>
    rw [List.replicate_succ, List.cons_append, polyOf, ih, C_0, pow_succ']
    ring

theorem polyOf_scale (b : List Fr) (c : Fr) : polyOf (b.map (fun x => c * x)) = C c * polyOf b := by
  induction b with
  | nil => simp
  | cons a b ih => simp only [List.map_cons, polyOf, ih, C_mul]; ring

theorem multiply_spec {a b : List Fr} (h : a.length + b.length ≤ 8192) (ha : a ≠ []) (hb : b ≠ []) :
    ∃ r, multiplyPolynomialcoeff a b = some r ∧ polyOf r = polyOf a * polyOf b ∧ r.length = a.length + b.length - 1 := by
  unfold multiplyPolynomialcoeff
  rw [if_pos h]
  have hb1 : 0 < b.length := List.length_pos_of_ne_nil hb
  have ha1 : 0 < a.length := List.length_pos_of_ne_nil ha
  have key := foldl_range_inv (fun i (r : List Fr) => polyOf r = polyOf (a.take i) * polyOf b ∧
      r.length = if i = 0 then 1 else i + b.length - 1)
    (fun r power => addPolynomialcoeff r (List.replicate power 0 ++ b.map (fun x => a.getD power 0 * x))) [0] a.length
    (by simp [polyOf]) (by
      rintro i hi s ⟨h1, h2⟩
      obtain ⟨e1, e2⟩ := add_spec s (List.replicate i 0 ++ b.map (fun x => a.getD i 0 * x))
      refine ⟨?_, ?_⟩
      · rw [e1, h1, polyOf_shift, polyOf_scale, polyOf_take_succ a i hi, List.getD_eq_getElem _ _ hi]
        ring
      · rw [e2]
        simp only [List.length_append, List.length_replicate, List.length_map]
        by_cases h0 : i = 0
        · rw [h2, if_pos h0, if_neg (by omega)]; omega
        · rw [h2, if_neg h0, if_neg (by omega)]; omega)
  refine ⟨_, rfl, ?_, ?_⟩
  · rw [key.1, List.take_length]
  · rw [key.2, if_neg (by omega)]

theorem vanishing_spec' (xs : List Fr) (hl : xs.length < 8000) :
    ∃ p, vanishingPolynomialcoeff xs = some p ∧ polyOf p = (xs.map (fun x => X - C x)).prod ∧
      p.length = xs.length + 1 := by
  unfold vanishingPolynomialcoeff
  have : ∀ (xs : List Fr) (p : List Fr), p ≠ [] → p.length + xs.length ≤ 8001 →
      ∃ q, xs.foldlM (fun p x => multiplyPolynomialcoeff p [-x, 1]) p = some q ∧
        polyOf q = polyOf p * (xs.map (fun x => X - C x)).prod ∧ q.length = p.length + xs.length := by
    intro xs
    induction xs with
    | nil => intro p _ _; exact ⟨p, rfl, by simp, by simp⟩
    | cons x xs ih =>
      intro p hp hlen
      rw [List.length_cons] at hlen
      obtain ⟨r, hr, hr2, hr3⟩ := multiply_spec (a := p) (b := [-x, 1]) (by simp; omega) hp (by simp)
      have hr3' : r.length = p.length + 1 := by simpa using hr3
      obtain ⟨q, hq, hq2, hq3⟩ := ih r (by intro h; rw [h] at hr3'; simp at hr3') (by omega)
      refine ⟨q, ?_, ?_, ?_⟩
      · rw [List.foldlM_cons, hr]; exact hq
      · rw [hq2, hr2, List.map_cons, List.prod_cons, mul_assoc]
        congr 2
        simp [polyOf]; ring
      · rw [hq3, hr3', List.length_cons]; omega
  obtain ⟨q, h1, h2, h3⟩ := this xs [1] (by simp) (by simp; omega)
  refine ⟨q, h1, ?_, ?_⟩
  · rw [h2]; simp [polyOf]
  · rw [h3]; simp; omega

theorem evaluate_eq (p : List Fr) (z : Fr) : evaluatePolynomialcoeff p z = (polyOf p).eval z := by
  unfold evaluatePolynomialcoeff
  rw [List.foldl_reverse]
  induction p with
  | nil => simp
  | cons a p ih => simp only [List.foldr_cons, polyOf, ih]; simp; ring

/-- Division by a polynomial whose list ends in a nonzero coefficient. -/
theorem divide_spec (a b : List Fr) (hb : b ≠ []) (hm : b.getD (b.length - 1) 0 = 1) (hab : b.length ≤ a.length) :
    polyOf (dividePolynomialcoeff a b) = polyOf a /ₘ polyOf b ∧
      (dividePolynomialcoeff a b).length = a.length + 1 - b.length := by
  have hb1 : 0 < b.length := List.length_pos_of_ne_nil hb
  have key : ∀ m, m ≤ a.length + 1 - b.length → ∀ s : List Fr × List Fr, s.1.length = a.length →
      (∀ k, m + (b.length - 1) ≤ k → s.1.getD k 0 = 0) →
      polyOf a = polyOf s.1 + X ^ m * polyOf s.2 * polyOf b →
      ∃ t : List Fr × List Fr, (List.range m).reverse.foldl (fun (s : List Fr × List Fr) diff =>
        let quot := s.1.getD (diff + (b.length - 1)) 0 / b.getD (b.length - 1) 0
        ((List.range s.1.length).map (fun k =>
          if diff ≤ k ∧ k < diff + b.length then s.1.getD k 0 - b.getD (k - diff) 0 * quot else s.1.getD k 0),
        quot :: s.2)) s = t ∧ t.1.length = a.length ∧ (∀ k, b.length - 1 ≤ k → t.1.getD k 0 = 0) ∧
        polyOf a = polyOf t.1 + polyOf t.2 * polyOf b ∧ t.2.length = s.2.length + m := by
    intro m
    induction m with
    | zero =>
      intro _ s h1 h2 h3
      exact ⟨s, rfl, h1, by simpa using h2, by simpa using h3, by simp⟩
    | succ m ih =>
      intro hm' s h1 h2 h3
      rw [List.range_succ, List.reverse_append, List.reverse_singleton, List.singleton_append, List.foldl_cons]
      simp only [hm, div_one]
      obtain ⟨q, hq⟩ : ∃ q, q = s.1.getD (m + (b.length - 1)) 0 := ⟨_, rfl⟩
      rw [← hq]
      have hget : ∀ k, ((List.range s.1.length).map (fun k =>
          if m ≤ k ∧ k < m + b.length then s.1.getD k 0 - b.getD (k - m) 0 * q else s.1.getD k 0)).getD k 0 =
          s.1.getD k 0 - (if m ≤ k then b.getD (k - m) 0 * q else 0) := by
        intro k
        by_cases hk : k < s.1.length
        · rw [(rep_map_range _ _).getD 0 hk]
          by_cases h4 : m ≤ k
          · rw [if_pos h4]
            by_cases h5 : k < m + b.length
            · rw [if_pos ⟨h4, h5⟩]
            · rw [if_neg (by tauto), getD_of_le (a := b) (by omega)]; simp
          · rw [if_neg h4, if_neg (by tauto)]; simp
        · rw [getD_of_le (by simp; omega), getD_of_le (by omega)]
          split_ifs with h4
          · rw [getD_of_le (a := b) (by omega)]; simp
          · simp
      obtain ⟨t, ht, t1, t2, t3, t4⟩ := ih (by omega) (((List.range s.1.length).map (fun k =>
          if m ≤ k ∧ k < m + b.length then s.1.getD k 0 - b.getD (k - m) 0 * q else s.1.getD k 0)), q :: s.2)
        (by simp [h1]) (by
          intro k hk
          simp only
          rw [hget, if_pos (by omega)]
          rcases Nat.eq_or_lt_of_le hk with h | h
          · subst h
            rw [← hq, Nat.add_sub_cancel_left, hm]; simp
          · rw [h2 k (by omega), getD_of_le (a := b) (by omega)]; simp) (by
          simp only
          have e : polyOf ((List.range s.1.length).map (fun k =>
              if m ≤ k ∧ k < m + b.length then s.1.getD k 0 - b.getD (k - m) 0 * q else s.1.getD k 0)) =
              polyOf s.1 - X ^ m * (C q * polyOf b) := by
            ext k
            rw [coeff_polyOf, hget, coeff_sub, coeff_polyOf, coeff_X_pow_mul', coeff_C_mul, coeff_polyOf]
            simp only [mul_comm]
          rw [e, h3, polyOf, pow_succ]
          ring)
      refine ⟨t, ?_, t1, t2, t3, ?_⟩
      · simpa only [hm, div_one] using ht
      · rw [t4, List.length_cons]; omega
  obtain ⟨t, ht, t1, t2, t3, t4⟩ := key (a.length + 1 - b.length) le_rfl (a, []) rfl
    (fun k hk => getD_of_le (show a.length ≤ k by omega)) (by simp)
  have hdiv : dividePolynomialcoeff a b = t.2 := by
    unfold dividePolynomialcoeff
    rw [ht]
  have hmon : (polyOf b).Monic := by
    have hd : (polyOf b).natDegree = b.length - 1 := by
      apply natDegree_eq_of_degree_eq_some
      apply le_antisymm
      · have := degree_polyOf_lt b
        rw [degree_le_iff_coeff_zero]
        intro m hm'
        rw [coeff_polyOf]
        exact getD_of_le (by have : b.length - 1 < m := by exact_mod_cast hm'
                             omega)
      · exact le_degree_of_ne_zero (by rw [coeff_polyOf, hm]; exact one_ne_zero)
    unfold Monic leadingCoeff
    rw [hd, coeff_polyOf, hm]
  have hdeg : (polyOf t.1).degree < (polyOf b).degree := by
    have h5 : ((b.length - 1 : Nat) : WithBot Nat) ≤ (polyOf b).degree :=
      le_degree_of_ne_zero (by rw [coeff_polyOf, hm]; exact one_ne_zero)
    refine lt_of_lt_of_le ?_ h5
    rw [degree_lt_iff_coeff_zero]
    intro m hm'
    rw [coeff_polyOf]; exact t2 m hm'
  rw [hdiv]
  refine ⟨?_, by simpa using t4⟩
  exact (div_modByMonic_unique (polyOf t.2) (polyOf t.1) hmon ⟨by rw [t3]; ring, hdeg⟩).1.symm

theorem interpolate_spec (xs ys : List Fr) (hl : xs.length = ys.length) (hlen : ys.length ≤ 4000) (h1 : 1 ≤ ys.length)
    (hinj : ∀ i < xs.length, ∀ j < xs.length, xs.getD i 0 = xs.getD j 0 → i = j) :
    ∃ r, interpolatePolynomialcoeff xs ys = some r ∧ r.length ≤ ys.length ∧
      ∀ i < ys.length, (polyOf r).eval (xs.getD i 0) = ys.getD i 0 := by
  unfold interpolatePolynomialcoeff
  rw [if_pos hl]
  obtain ⟨x, hx⟩ : ∃ x : Nat → Fr, ∀ i, x i = xs.getD i 0 := ⟨_, fun _ => rfl⟩
  obtain ⟨y, hy⟩ : ∃ y : Nat → Fr, ∀ i, y i = ys.getD i 0 := ⟨_, fun _ => rfl⟩
  obtain ⟨n, hn⟩ : ∃ n, ys.length = n := ⟨_, rfl⟩
  rw [hl] at hinj
  rw [hl]
  rw [hn] at hlen h1 hinj
  rw [hn]
  simp only [← hx, ← hy] at hinj ⊢
  clear hl hn hx hy
  have inner : ∀ i < n, ∃ t, (List.range n).foldlM (fun summand j =>
        if j ≠ i then multiplyPolynomialcoeff summand [-((x i - x j)⁻¹ * x j), (x i - x j)⁻¹]
        else some summand) [y i] = some t ∧ t.length ≤ n ∧ 1 ≤ t.length ∧
        polyOf t = C (y i) * ∏ j ∈ (range n).erase i, (C (x i - x j)⁻¹ * (X - C (x j))) := by
    intro i hi
    obtain ⟨t, ht, hP⟩ := foldlM_range_inv' (fun k (t : List Fr) => 1 ≤ t.length ∧
        t.length = (if i < k then k else k + 1) ∧
        polyOf t = C (y i) * ∏ j ∈ (range k).erase i, (C (x i - x j)⁻¹ * (X - C (x j))))
      (fun summand j => if j ≠ i then multiplyPolynomialcoeff summand [-((x i - x j)⁻¹ * x j), (x i - x j)⁻¹]
        else some summand) [y i] n (by simp [polyOf]) (by
        rintro k hk s ⟨s1, s2, s3⟩
        by_cases hki : k = i
        · subst hki
          refine ⟨s, by simp, s1, by rw [s2]; simp, ?_⟩
          rw [s3, erase_range_succ_self, Finset.erase_eq_of_notMem (by simp)]
        · obtain ⟨r, r1, r2, r3⟩ := multiply_spec (a := s) (b := [-((x i - x k)⁻¹ * x k), (x i - x k)⁻¹])
            (by rw [s2]; simp only [List.length_cons, List.length_nil]; split_ifs <;> omega) (by intro h; rw [h] at s1; simp at s1) (by simp)
          have r3' : r.length = s.length + 1 := by simpa using r3
          refine ⟨r, by simp [hki, r1], by omega, ?_, ?_⟩
          · rw [r3', s2]; split_ifs <;> omega
          · rw [r2, s3, erase_range_succ_ne hki, Finset.prod_insert (by simp)]
            simp only [polyOf, C_mul, C_neg, mul_zero, add_zero]
            ring)
    refine ⟨t, ht, ?_, hP.1, hP.2.2⟩
    rw [hP.2.1, if_pos hi]
  obtain ⟨r, hr, hr1, hr2⟩ := foldlM_range_inv' (fun k (r : List Fr) => r.length ≤ n ∧
      polyOf r = ∑ i ∈ range k, C (y i) * ∏ j ∈ (range n).erase i, (C (x i - x j)⁻¹ * (X - C (x j))))
    (fun r i => do
      let summand ← (List.range n).foldlM (fun summand j =>
        if j ≠ i then multiplyPolynomialcoeff summand [-((x i - x j)⁻¹ * x j), (x i - x j)⁻¹]
        else some summand) [y i]
      pure (addPolynomialcoeff r summand)) [0] n (by simp [polyOf, h1]) (by
      rintro k hk s ⟨s1, s2⟩
      obtain ⟨t, t1, t2, t3, t4⟩ := inner k hk
      obtain ⟨a1, a2⟩ := add_spec s t
      refine ⟨addPolynomialcoeff s t, by rw [t1]; rfl, by rw [a2]; omega, ?_⟩
      rw [a1, s2, t4, sum_range_succ])
  refine ⟨r, hr, hr1, ?_⟩
  intro i hi
  rw [hr2, eval_finsetSum, Finset.sum_eq_single i]
  · rw [eval_mul, eval_C, eval_prod, Finset.prod_eq_one, mul_one]
    intro j hj
    rw [mem_erase, mem_range] at hj
    have : x i - x j ≠ 0 := fun h => hj.1 (hinj i hi j hj.2 (sub_eq_zero.1 h)).symm
    simp [this]
  · intro k hk hki
    rw [eval_mul, eval_prod, Finset.prod_eq_zero (i := i) (by rw [mem_erase]; exact ⟨Ne.symm hki, mem_range.2 hi⟩), mul_zero]
    simp
  · intro h; exact absurd (mem_range.2 hi) h

end Verif.Consensus
