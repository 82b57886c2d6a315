import Mathlib.Algebra.Polynomial.BigOperators
import Mathlib.Data.List.GetD
import Verif.Model.PolyCoeff
import Verif.Lemmas.Rep
import Verif.Lemmas.Outcome
import Verif.Spec.Poly

/-! `poly_coeff.rs` computes polynomial arithmetic. -/
namespace Verif
open Polynomial Finset Spec

variable {ε F : Type} [Field F]

theorem polyOf_set (l : List F) (k : Nat) (hk : k < l.length) (d : F) :
    polyOf (l.set k (l[k] + d)) = polyOf l + C d * X ^ k := by
  ext i
  rw [coeff_add, coeff_polyOf, coeff_polyOf, coeff_C_mul, coeff_X_pow]
  by_cases h : i = k
  · subst h
    simp [List.getD, hk]
  · have h' : ¬ k = i := fun e => h e.symm
    simp [List.getD, h, List.getElem?_set_ne h']

theorem polyOf_append_singleton (l : List F) (x : F) :
    polyOf (l ++ [x]) = polyOf l + C x * X ^ l.length := by
  ext i
  rw [coeff_add, coeff_polyOf, coeff_polyOf, coeff_C_mul, coeff_X_pow]
  rcases lt_trichotomy i l.length with h | h | h
  · simp [List.getD, List.getElem?_append_left h, h.ne]
  · subst h; simp [List.getD]
  · have h1 : l[i]? = none := List.getElem?_eq_none h.le
    have h2 : (l ++ [x])[i]? = none := List.getElem?_eq_none (by simp; omega)
    simp [List.getD, h1, h2, h.ne']

@[simp] theorem polyOf_nil : polyOf ([] : List F) = 0 := rfl

theorem polyOf_take_succ (l : List F) (i : Nat) (hi : i < l.length) :
    polyOf (l.take (i + 1)) = polyOf (l.take i) + C l[i] * X ^ i := by
  rw [List.take_succ_eq_append_getElem hi, polyOf_append_singleton, List.length_take, Nat.min_eq_left hi.le]

@[simp] theorem polyOf_replicate_zero (n : Nat) : polyOf (List.replicate n (0 : F)) = 0 := by
  ext i
  rw [coeff_polyOf]
  by_cases h : i < n
  · simp [List.getD, h]
  · simp [List.getD, h]

theorem polyOf_map_neg (l : List F) : polyOf (l.map (fun x => -x)) = - polyOf l := by
  ext i
  rw [coeff_neg, coeff_polyOf, coeff_polyOf]
  cases h : l[i]? <;> simp [List.getD, h]

/-- one in-place accumulation loop `larger[i] += smaller[i]` -/
theorem accLoop_spec (larger smaller : List F) (h : smaller.length ≤ larger.length) :
    ∃ c, ((List.range smaller.length).foldlM (fun larger i => do
        let x ← idx larger i
        let y ← idx smaller i
        setIdx larger i (x + y)) larger : Outcome ε (List F)) = .ok c ∧
      c.length = larger.length ∧ polyOf c = polyOf larger + polyOf smaller := by
  obtain ⟨c, hc, hl, hp⟩ := foldlM_range_inv (ε := ε) (n := smaller.length) (s := larger)
    (body := fun larger i => do
        let x ← idx larger i
        let y ← idx smaller i
        setIdx larger i (x + y))
    (fun i c => c.length = larger.length ∧ polyOf c = polyOf larger + polyOf (smaller.take i))
    (by simp)
    (by
      rintro i c hi ⟨hl, hp⟩
      have hc : i < c.length := by omega
      refine ⟨c.set i (c[i] + smaller[i]), ?_, by simp [hl], ?_⟩
      · simp [idx_lt hc, idx_lt hi, setIdx_lt _ hc]
      · rw [polyOf_set c i hc, hp, polyOf_take_succ _ _ hi, add_assoc])
  refine ⟨c, hc, hl, ?_⟩
  rw [hp, List.take_length]

theorem polyAdd_spec (a b : List F) :
    ∃ c, (polyAdd a b : Outcome ε (List F)) = .ok c ∧ c.length = max a.length b.length ∧
      polyOf c = polyOf a + polyOf b := by
  unfold polyAdd
  by_cases h : a.length < b.length
  · simp only [h, if_true]
    obtain ⟨c, hc, hl, hp⟩ := accLoop_spec (ε := ε) b a h.le
    exact ⟨c, hc, by omega, by rw [hp, add_comm]⟩
  · simp only [h, if_false]
    obtain ⟨c, hc, hl, hp⟩ := accLoop_spec (ε := ε) a b (by omega)
    exact ⟨c, hc, by omega, hp⟩

theorem polySub_spec (a b : List F) :
    ∃ c, (polySub a b : Outcome ε (List F)) = .ok c ∧ c.length = max a.length b.length ∧
      polyOf c = polyOf a - polyOf b := by
  obtain ⟨c, hc, hl, hp⟩ := polyAdd_spec (ε := ε) a (polyNeg b)
  refine ⟨c, hc, by simpa [polyNeg] using hl, ?_⟩
  rw [hp, polyNeg, polyOf_map_neg, sub_eq_add_neg]

theorem polyEval_eq (l : List F) (v : F) : polyEval l v = (polyOf l).eval v := by
  induction l with
  | nil => simp [polyEval]
  | cons a l ih =>
    have : polyEval (a :: l) v = polyEval l v * v + a := by simp [polyEval]
    rw [this, ih, polyOf]
    simp; ring

theorem polyMulRow_spec (i : Nat) (x : F) (b r : List F) (h : i + b.length ≤ r.length) :
    ∃ c, (polyMulRow i x b r : Outcome ε (List F)) = .ok c ∧ c.length = r.length ∧
      polyOf c = polyOf r + C x * X ^ i * polyOf b := by
  unfold polyMulRow
  obtain ⟨c, hc, hl, hp⟩ := foldlM_list_inv (ε := ε) (l := b.zipIdx) (s := r)
    (body := fun result (q : F × Nat) => do
      let c ← idx result (i + q.2)
      setIdx result (i + q.2) (c + x * q.1))
    (fun q c => c.length = r.length ∧ polyOf c = polyOf r + C x * X ^ i * polyOf (b.take q))
    (by simp)
    (by
      rintro q c hq ⟨hl, hp⟩
      have hq' : q < b.length := by simpa using hq
      have hc : i + q < c.length := by omega
      refine ⟨c.set (i + q) (c[i + q] + x * b[q]), ?_, by simp [hl], ?_⟩
      · simp [idx_lt hc, setIdx_lt _ hc]
      · rw [polyOf_set c _ hc, hp, polyOf_take_succ _ _ hq', C_mul, pow_add]; ring)
  refine ⟨c, hc, hl, ?_⟩
  rw [hp, List.length_zipIdx, List.take_length]

theorem polyMul_spec (a b : List F) (h : 1 ≤ a.length + b.length) :
    ∃ c, (polyMul a b : Outcome ε (List F)) = .ok c ∧ c.length = a.length + b.length - 1 ∧
      polyOf c = polyOf a * polyOf b := by
  unfold polyMul
  rw [assertP_true h]
  simp only [Outcome.ok_bind]
  obtain ⟨c, hc, hl, hp⟩ := foldlM_list_inv (ε := ε) (l := a.zipIdx)
    (s := List.replicate (a.length + b.length - 1) (0 : F))
    (body := fun result (p : F × Nat) => polyMulRow p.2 p.1 b result)
    (fun q c => c.length = a.length + b.length - 1 ∧ polyOf c = polyOf (a.take q) * polyOf b)
    (by simp)
    (by
      rintro q c hq ⟨hl, hp⟩
      have hq' : q < a.length := by simpa using hq
      obtain ⟨c', hc', hl', hp'⟩ := polyMulRow_spec (ε := ε) q a[q] b c (by omega)
      refine ⟨c', by simpa using hc', by omega, ?_⟩
      rw [hp', hp, polyOf_take_succ _ _ hq']; ring)
  refine ⟨c, hc, hl, ?_⟩
  rw [hp, List.length_zipIdx, List.take_length]

theorem polyMul_panic : (polyMul [] [] : Outcome ε (List F)) = .panic := by
  unfold polyMul
  rw [assertP_false (by simp)]; rfl

theorem vanishingPoly_spec (roots : List F) :
    ∃ c, (vanishingPoly roots : Outcome ε (List F)) = .ok c ∧ c.length = roots.length + 1 ∧
      polyOf c = (roots.map (fun r => X - C r)).prod := by
  unfold vanishingPoly
  obtain ⟨c, hc, hl, hp⟩ := foldlM_list_inv (ε := ε) (l := roots) (s := [(1 : F)])
    (body := fun poly root => polyMul poly [-root, 1])
    (fun q c => c.length = q + 1 ∧ polyOf c = ((roots.take q).map (fun r => X - C r)).prod)
    (by simp [polyOf])
    (by
      rintro q c hq ⟨hl, hp⟩
      obtain ⟨c', hc', hl', hp'⟩ := polyMul_spec (ε := ε) c [-roots[q], 1] (by simp)
      refine ⟨c', hc', by simp at hl'; omega, ?_⟩
      rw [hp', hp, List.take_succ_eq_append_getElem hq, List.map_append, List.prod_append]
      have e : polyOf [-roots[q], 1] = X - C roots[q] := by simp [polyOf]; ring
      rw [e]; simp)
  refine ⟨c, hc, hl, ?_⟩
  rw [hp, List.take_length]

/-! ### Lagrange interpolation -/

section lagrange
variable [DecidableEq F]

/-- the factors processed so far -/
noncomputable def lagPoly (x : Nat → F) (k i : Nat) : F[X] := ∏ j ∈ (range i).erase k, (X - C (x j))

def lagDen (x : Nat → F) (k i : Nat) : F := ∏ j ∈ (range i).erase k, (x k - x j)

omit [DecidableEq F] in
theorem erase_range_succ_self (k : Nat) : (range (k + 1)).erase k = range k := by
  ext j; simp; omega

omit [DecidableEq F] in
theorem erase_range_succ_ne {k i : Nat} (h : i ≠ k) :
    (range (i + 1)).erase k = insert i ((range i).erase k) := by
  ext j; simp; omega

omit [DecidableEq F] in
theorem lagPoly_succ (x : Nat → F) {k i : Nat} (h : i ≠ k) :
    lagPoly x k (i + 1) = lagPoly x k i * (X - C (x i)) := by
  unfold lagPoly
  rw [erase_range_succ_ne h, prod_insert (by simp), mul_comm]

omit [DecidableEq F] in
theorem lagDen_succ (x : Nat → F) {k i : Nat} (h : i ≠ k) :
    lagDen x k (i + 1) = lagDen x k i * (x k - x i) := by
  unfold lagDen
  rw [erase_range_succ_ne h, prod_insert (by simp), mul_comm]

omit [DecidableEq F] in
theorem lagPoly_succ_self (x : Nat → F) (k : Nat) : lagPoly x k (k + 1) = lagPoly x k k := by
  unfold lagPoly
  rw [erase_range_succ_self, erase_eq_of_notMem (by simp)]

omit [DecidableEq F] in
theorem lagDen_succ_self (x : Nat → F) (k : Nat) : lagDen x k (k + 1) = lagDen x k k := by
  unfold lagDen
  rw [erase_range_succ_self, erase_eq_of_notMem (by simp)]

omit [DecidableEq F] in
theorem natDegree_lagPoly (x : Nat → F) (k i : Nat) :
    (lagPoly x k i).natDegree = ((range i).erase k).card := by
  unfold lagPoly
  rw [natDegree_prod_of_monic _ _ (fun j _ => monic_X_sub_C _)]
  simp

omit [DecidableEq F] in
theorem polyOf_shift_take (l : List F) (n : Nat)
    (hd : (polyOf l).natDegree + 1 < n) : polyOf ((0 :: l).take n) = X * polyOf l := by
  have h1 : polyOf (0 :: l) = X * polyOf l := by simp [polyOf]
  rw [← h1]
  ext i
  rw [coeff_polyOf, coeff_polyOf]
  by_cases hi : i < n
  · simp [List.getD, hi]
  · have h2 : ((0 :: l).take n)[i]? = none := List.getElem?_eq_none (by simp; omega)
    rw [List.getD, h2]
    rw [← coeff_polyOf, h1]
    simp only [Option.getD_none]
    symm
    apply coeff_eq_zero_of_natDegree_lt
    calc (X * polyOf l).natDegree ≤ 1 + (polyOf l).natDegree := by
            refine natDegree_mul_le.trans ?_
            simp
      _ < i := by omega

omit [DecidableEq F] in
theorem polyOf_zipAdd (a b : List F) (hl : a.length ≤ b.length) :
    ∃ c, (a.zipIdx.mapM (fun (p : F × Nat) => do
        let other ← idx b p.2
        pure (p.1 + other)) : Outcome ε (List F)) = .ok c ∧ c.length = a.length ∧
      ∀ i, i < a.length → c.getD i 0 = a.getD i 0 + b.getD i 0 := by
  refine ⟨a.zipIdx.map (fun p => p.1 + b.getD p.2 0), ?_, by simp, ?_⟩
  · apply mapM_ok
    rintro ⟨y, i⟩ hp
    obtain ⟨hi, -⟩ := List.mem_zipIdx' hp
    simp [idx_lt (lt_of_lt_of_le hi hl), List.getD, List.getElem?_eq_getElem (lt_of_lt_of_le hi hl)]
  · intro i hi
    simp [List.getD, hi]

omit [DecidableEq F] in
theorem polyOf_map_mulneg (l : List F) (x : F) : polyOf (l.map (fun el => -(el * x))) = - (C x * polyOf l) := by
  ext i
  rw [coeff_neg, coeff_C_mul, coeff_polyOf, coeff_polyOf]
  cases h : l[i]? <;> simp [List.getD, h, mul_comm]

omit [DecidableEq F] in
/-- Inner loop: numerator and denominator of the `k`-th Lagrange basis polynomial. -/
theorem lagrangeInner_spec (points : List (F × F)) (k : Nat) (hk : k < points.length) (hn : 2 ≤ points.length) :
    ∃ st, (points.zipIdx.foldlM (lagrangeInner points.length k points[k].1)
        ⟨List.replicate points.length 0, 1, 0⟩ : Outcome ε (LagrangeState F)) = .ok st ∧
      st.contribution.length = points.length ∧
      polyOf st.contribution = lagPoly (fun j => (points.getD j (0, 0)).1) k points.length ∧
      st.denominator = lagDen (fun j => (points.getD j (0, 0)).1) k points.length := by
  set x : Nat → F := fun j => (points.getD j (0, 0)).1 with hx
  have hxk : points[k].1 = x k := by simp [hx, List.getD, hk]
  obtain ⟨st, hst, hl, hden, hcase⟩ := foldlM_list_inv (ε := ε) (l := points.zipIdx)
    (s := (⟨List.replicate points.length 0, 1, 0⟩ : LagrangeState F))
    (body := lagrangeInner points.length k points[k].1)
    (fun i st => st.contribution.length = points.length ∧ st.denominator = lagDen x k i ∧
      ((((range i).erase k = ∅) ∧ st.maxContributionDegree = 0 ∧ polyOf st.contribution = 0 ∧
          st.contribution = List.replicate points.length 0) ∨
       (((range i).erase k ≠ ∅) ∧ st.maxContributionDegree = 1 ∧ polyOf st.contribution = lagPoly x k i)))
    (by simp [lagDen])
    (by
      rintro i st hi ⟨hl, hden, hcase⟩
      have hi' : i < points.length := by simpa using hi
      have hxi : points[i].1 = x i := by simp [hx, List.getD, hi']
      simp only [List.getElem_zipIdx, zero_add]
      by_cases hik : i = k
      · refine ⟨st, by simp [lagrangeInner, hik], hl, ?_, ?_⟩
        · rw [hik, lagDen_succ_self, hden, hik]
        · rw [hik, erase_range_succ_self, lagPoly_succ_self]
          rw [hik, erase_eq_of_notMem (by simp : k ∉ range k)] at hcase
          exact hcase
      · rcases hcase with ⟨he, hm, hp, hrep⟩ | ⟨he, hm, hp⟩
        · have h0 : 0 < st.contribution.length := by omega
          have h1 : 1 < (st.contribution.set 0 (st.contribution[0] - x i)).length := by simp; omega
          refine ⟨⟨(st.contribution.set 0 (st.contribution[0] - x i)).set 1
            ((st.contribution.set 0 (st.contribution[0] - x i))[1] + 1), st.denominator * (x k - x i), 1⟩,
            ?_, by simp [hl], ?_, ?_⟩
          · simp only [lagrangeInner, hik, if_false, hm, if_true, idx_lt h0, Outcome.ok_bind, hxi, hxk,
              setIdx_lt _ h0, idx_lt h1, setIdx_lt _ h1, Outcome.pure_eq]
          · simp only [hden, lagDen_succ x hik]
          · right
            refine ⟨?_, rfl, ?_⟩
            · rw [erase_range_succ_ne hik]; simp
            · simp only
              rw [polyOf_set _ 1 h1, sub_eq_add_neg, polyOf_set _ 0 h0, hp, lagPoly_succ x hik]
              have : lagPoly x k i = 1 := by unfold lagPoly; rw [he]; simp
              rw [this]; simp; ring
        · have hcard : ((range (i + 1)).erase k).card < points.length := by
            rw [erase_range_succ_ne hik, card_insert_of_notMem (by simp)]
            have : ((range i).erase k).card + 1 < points.length ∨ ((range i).erase k).card + 1 = points.length := by
              have h3 : ((range i).erase k).card ≤ i := by
                calc _ ≤ (range i).card := card_erase_le
                  _ = i := card_range i
              omega
            rcases this with h | h
            · exact h
            · exfalso
              have h3 : ((range i).erase k).card ≤ (range i).card := card_erase_le
              have h4 : i + 1 = points.length := by rw [card_range] at h3; omega
              have h5 : k ∈ range i := by simp; omega
              have h6 := card_erase_of_mem h5
              rw [card_range] at h6
              have : 0 < i := by have := mem_range.1 h5; omega
              omega
          have hnd : (polyOf st.contribution).natDegree + 1 < points.length := by
            rw [hp, natDegree_lagPoly]
            rw [erase_range_succ_ne hik, card_insert_of_notMem (by simp)] at hcard
            exact hcard
          obtain ⟨c, hc, hcl, hcg⟩ := polyOf_zipAdd (ε := ε) ((0 :: st.contribution).take points.length)
            (st.contribution.map (fun el => -(el * x i))) (by simp [hl])
          have htl : ((0 :: st.contribution).take points.length).length = points.length := by simp [hl]
          refine ⟨⟨c, st.denominator * (x k - x i), st.maxContributionDegree⟩, ?_, by rw [hcl, htl], ?_, ?_⟩
          · simp only [lagrangeInner, hik, if_false, hm, one_ne_zero, hxi, hxk]
            rw [assertP_true (by simp [hl])]
            simp only [Outcome.ok_bind, Outcome.pure_eq] at hc ⊢
            rw [hc]; rfl
          · simp only [hden, lagDen_succ x hik]
          · right
            refine ⟨?_, hm, ?_⟩
            · rw [erase_range_succ_ne hik]; simp
            · have : polyOf c = polyOf ((0 :: st.contribution).take points.length) +
                  polyOf (st.contribution.map (fun el => -(el * x i))) := by
                ext j
                rw [coeff_add, coeff_polyOf, coeff_polyOf, coeff_polyOf]
                by_cases hj : j < points.length
                · rw [hcg j (by omega)]
                · simp [List.getD, List.getElem?_eq_none (show c.length ≤ j by omega),
                    List.getElem?_eq_none (show ((0 :: st.contribution).take points.length).length ≤ j by omega),
                    List.getElem?_eq_none (show st.contribution.length ≤ j by omega)]
              simp only
              rw [this, polyOf_shift_take _ _ hnd, polyOf_map_mulneg, hp, lagPoly_succ x hik]
              ring)
  refine ⟨st, hst, hl, ?_, by simpa using hden⟩
  rw [List.length_zipIdx] at hcase
  rcases hcase with ⟨he, -⟩ | ⟨-, -, hp⟩
  · exfalso
    have : (if k = 0 then 1 else 0) ∈ (range points.length).erase k := by
      split_ifs with h <;> simp <;> omega
    rw [he] at this; simp at this
  · exact hp

omit [DecidableEq F] in
theorem polyOf_accScaled (c : List F) (coeffs : List F) (g : F → F) (hg : ∀ y, g y = y * g 1)
    (hl : c.length = coeffs.length) :
    ∃ r, (c.zipIdx.foldlM (fun coeffs (p : F × Nat) => do
        let x ← idx coeffs p.2
        setIdx coeffs p.2 (x + g p.1)) coeffs : Outcome ε (List F)) = .ok r ∧
      r.length = coeffs.length ∧ polyOf r = polyOf coeffs + C (g 1) * polyOf c := by
  obtain ⟨r, hr, hl', hp⟩ := foldlM_list_inv (ε := ε) (l := c.zipIdx) (s := coeffs)
    (body := fun coeffs (p : F × Nat) => do
        let x ← idx coeffs p.2
        setIdx coeffs p.2 (x + g p.1))
    (fun i r => r.length = coeffs.length ∧ polyOf r = polyOf coeffs + C (g 1) * polyOf (c.take i))
    (by simp)
    (by
      rintro i r hi ⟨hl', hp⟩
      have hi' : i < c.length := by simpa using hi
      have hr : i < r.length := by omega
      refine ⟨r.set i (r[i] + g c[i]), ?_, by simp [hl'], ?_⟩
      · simp [idx_lt hr, setIdx_lt _ hr]
      · rw [polyOf_set _ _ hr, hp, polyOf_take_succ _ _ hi', hg c[i], C_mul]; ring)
  refine ⟨r, hr, hl', ?_⟩
  rw [hp, List.length_zipIdx, List.take_length]

theorem lagrangeOuter_spec (points : List (F × F)) (k : Nat) (hk : k < points.length) (hn : 2 ≤ points.length)
    (hinj : ∀ i j (hi : i < points.length) (hj : j < points.length), points[i].1 = points[j].1 → i = j)
    (coeffs : List F) (hl : coeffs.length = points.length) :
    ∃ r, (lagrangeOuter points coeffs (points[k], k) : Outcome ε (List F)) = .ok r ∧
      r.length = points.length ∧
      polyOf r = polyOf coeffs + C ((lagDen (fun j => (points.getD j (0, 0)).1) k points.length)⁻¹ * points[k].2) *
        lagPoly (fun j => (points.getD j (0, 0)).1) k points.length := by
  obtain ⟨st, hst, hcl, hcp, hcd⟩ := lagrangeInner_spec (ε := ε) points k hk hn
  have hden : st.denominator ≠ 0 := by
    rw [hcd, lagDen, prod_ne_zero_iff]
    intro j hj
    simp only [mem_erase, mem_range] at hj
    rw [sub_ne_zero]
    intro he
    have e1 : (points.getD k (0, 0)).1 = points[k].1 := by simp [List.getD, hk]
    have e2 : (points.getD j (0, 0)).1 = points[j].1 := by simp [List.getD, hj.2]
    exact hj.1 (hinj k j hk hj.2 (by rw [← e1, ← e2, he])).symm
  obtain ⟨r, hr, hrl, hrp⟩ := polyOf_accScaled (ε := ε) st.contribution coeffs
    (fun y => y * st.denominator⁻¹ * points[k].2) (fun y => by simp; ring) (by omega)
  refine ⟨r, ?_, by omega, ?_⟩
  · unfold lagrangeOuter
    simp only [hst, Outcome.ok_bind, invertExpect, if_neg hden]
    exact hr
  · rw [hrp, hcp, hcd]; simp

/-- `lagrange_interpolate` returns the interpolating polynomial. -/
theorem lagrangeInterpolate_spec (points : List (F × F)) (hn : 2 ≤ points.length)
    (hinj : ∀ i j (hi : i < points.length) (hj : j < points.length), points[i].1 = points[j].1 → i = j) :
    ∃ r, (lagrangeInterpolate points : Outcome ε (Option (List F))) = .ok (some r) ∧
      r.length = points.length ∧ ∀ m (hm : m < points.length), (polyOf r).eval points[m].1 = points[m].2 := by
  set x : Nat → F := fun j => (points.getD j (0, 0)).1 with hx
  set y : Nat → F := fun j => (points.getD j (0, 0)).2 with hy
  obtain ⟨r, hr, hrl, hrp⟩ := foldlM_list_inv (ε := ε) (l := points.zipIdx)
    (s := List.replicate points.length (0 : F)) (body := lagrangeOuter points)
    (fun i r => r.length = points.length ∧
      polyOf r = ∑ k ∈ range i, C ((lagDen x k points.length)⁻¹ * y k) * lagPoly x k points.length)
    (by simp)
    (by
      rintro i r hi ⟨hl, hp⟩
      have hi' : i < points.length := by simpa using hi
      obtain ⟨r', hr', hl', hp'⟩ := lagrangeOuter_spec (ε := ε) points i hi' hn hinj r hl
      refine ⟨r', by simpa using hr', hl', ?_⟩
      have : points[i].2 = y i := by simp [hy, List.getD, hi']
      rw [hp', hp, sum_range_succ, this])
  refine ⟨r, ?_, hrl, ?_⟩
  · unfold lagrangeInterpolate
    rw [assertP_true hn]
    simp only [Outcome.ok_bind, hr, Outcome.pure_eq]
  · intro m hm
    have hxm : points[m].1 = x m := by simp [hx, List.getD, hm]
    have hym : points[m].2 = y m := by simp [hy, List.getD, hm]
    rw [hxm, hym, hrp, List.length_zipIdx, eval_finsetSum, sum_eq_single_of_mem m (mem_range.2 hm)]
    · have hev : (lagPoly x m points.length).eval (x m) = lagDen x m points.length := by
        simp [lagPoly, lagDen, eval_prod]
      have hne : lagDen x m points.length ≠ 0 := by
        rw [lagDen, prod_ne_zero_iff]
        intro j hj
        simp only [mem_erase, mem_range] at hj
        rw [sub_ne_zero]
        intro he
        have e2 : x j = points[j].1 := by simp [hx, List.getD, hj.2]
        exact hj.1 (hinj m j hm hj.2 (by rw [hxm, ← e2, he])).symm
      rw [eval_mul, eval_C, hev]
      field_simp
    · intro k hk hkm
      rw [eval_mul]
      have : (lagPoly x k points.length).eval (x m) = 0 := by
        simp only [lagPoly, eval_prod]
        apply prod_eq_zero (i := m)
        · simp [hm, Ne.symm hkm]
        · simp
      rw [this, mul_zero]

end lagrange

end Verif
