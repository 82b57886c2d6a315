import Mathlib.Algebra.Polynomial.Roots
import Mathlib.Data.Set.Card
import Mathlib.Data.Fintype.BigOperators
import Verif.Lemmas.PrecompWitness
import Verif.Lemmas.NoErr
import Verif.Lemmas.PairCount
import Verif.Spec.Benches

set_option linter.unusedSectionVars false

/-! The FK20 benchmark: with the secret -1 the precomputed prover panics on nearly all polynomials. -/
namespace Verif
open Finset Polynomial

/-! ### a panic in any of the multiplications -/

theorem mapM_panic_mem {ε α β : Type} {f : α → Outcome ε β} (hn : ∀ a, NoErr (f a)) {l : List α} {x : α} (hx : x ∈ l)
    (h : f x = .panic) : l.mapM f = .panic := by
  induction l with
  | nil => cases hx
  | cons a l ih =>
    rw [List.mapM_cons]
    cases ha : f a with
    | err e => exact absurd ha (hn a e)
    | panic => rfl
    | ok b =>
      have : x ∈ l := by
        rcases List.mem_cons.1 hx with rfl | h'
        · rw [h] at ha; cases ha
        · exact h'
      rw [Outcome.ok_bind, ih this]
      rfl

section
variable {ε K G : Type} [Field K] [DecidableEq K] [AddCommGroup G] [Module Fr G] [DecidableEq G] [Curve K G]

theorem computeHPoly_panic_at (f : List Fr) (q s : Nat) (hs32 : s + 1 ≤ 32) (hf : f.length = 2 ^ (q + s))
    (M : Nat → FixedBaseMSM K G) (i : Nat) (hi : i < 2 ^ (s + 1)) (h : ((M i).msm (hScals f q s i) : Outcome ε G) = .panic) :
    (computeHPolyCommitments (toeplitzOf q s M) f (2 ^ q) : Outcome ε (List G)) = .panic := by
  unfold computeHPolyCommitments
  rw [assertP_true (isPow2_two_pow q), assertP_true (by rw [hf]; exact isPow2_two_pow _)]
  simp only [Outcome.ok_bind]
  rw [hPolyMatrices f q s hf, Outcome.ok_bind]
  unfold hScals at h
  revert h
  generalize hms : ((List.range (2 ^ q)).map (fun j =>
        (⟨(List.range (2 ^ s)).map (fun t => f.getD (2 ^ (q + s) - 1 - (j + t * 2 ^ q)) 0),
          (List.range (2 ^ s)).map (fun t => if t = 0 then f.getD (2 ^ (q + s) - 1 - j) 0 else 0)⟩ : ToeplitzMatrix))) = ms
  intro h
  have hlm : ms.length = 2 ^ q := by simp [← hms]
  have hne : ms ≠ [] := by
    intro h; rw [h] at hlm; have := Nat.two_pow_pos q; simp at hlm; omega
  unfold toeplitzOf
  rw [← hlm, sumMatrixVectorMul_eq _ s hs32 ms hne, List.zip_map', List.mapM_map]
  simp only [Function.comp_def]
  rw [mapM_panic_mem (x := i) (fun a => NoErr.msm _ _) (List.mem_range.2 hi) h]
  rfl

/-! ### the digits -/

theorem digit_zero_window (N : Nat) : boothDigit N 8 0 = ((N % 256 : Nat) : Int) - 256 * ((N % 256 / 128 : Nat) : Int) := by
  unfold boothDigit
  rw [carry_top N 8 0 (by norm_num)]
  simp [carryBit]

theorem digit_zero_ne (N : Nat) (h : N % 256 ≠ 0) : boothDigit N 8 0 ≠ 0 := by
  rw [digit_zero_window]
  have := Nat.mod_lt N (show 0 < 256 by norm_num)
  omega

theorem windowPts_all (w i : Nat) : ∀ (gens : List G) (x : List Fr), (∀ s ∈ x, boothDigit s.val w i ≠ 0) →
    windowPts w i gens x = (gens.zip x).map (fun q => boothDigit q.2.val w i • q.1)
  | [], _, _ => by simp [windowPts]
  | _ :: _, [], _ => by simp [windowPts]
  | P :: gens, s :: x, h => by
    have ih := windowPts_all w i gens x (fun t ht => h t (by simp [ht]))
    unfold windowPts at ih ⊢
    rw [List.zip_cons_cons, List.filterMap_cons_some (b := boothDigit s.val w i • P) (by simp [h s (by simp)]), ih]
    rfl

theorem minus_one_clash (B : G) (x : Nat → Fr) (hx : Spec.Collide x) :
    Spec.Clash Spec.bigMulti ((List.range (255 / 8 + 1)).map (fun i =>
      windowPts 8 i ((List.range 64).map (fun k => (-1 : Fr) ^ (63 - k) • B)) ((List.range 64).map x))) := by
  obtain ⟨hne, m, hm, heq⟩ := hx
  have h0 : windowPts 8 0 ((List.range 64).map (fun k => (-1 : Fr) ^ (63 - k) • B)) ((List.range 64).map x) =
      (List.range 64).map (fun k => boothDigit (x k).val 8 0 • ((-1 : Fr) ^ (63 - k) • B)) := by
    rw [windowPts_all, List.zip_map', List.map_map]
    · rfl
    · intro s hs
      obtain ⟨j, hj, rfl⟩ := List.mem_map.1 hs
      exact digit_zero_ne _ (hne j (List.mem_range.1 hj))
  have hr : List.range (255 / 8 + 1) = 0 :: (List.range (255 / 8)).map Nat.succ := List.range_succ_eq_map
  refine .here _ ?_ _ (List.mem_map.2 ⟨0, by simp, h0⟩)
    (boothDigit (x (2 * m)).val 8 0 • ((-1 : Fr) ^ (63 - 2 * m) • B), boothDigit (x (2 * m + 1)).val 8 0 • ((-1 : Fr) ^ (63 - (2 * m + 1)) • B)) ?_ ?_
  · unfold Spec.bigMulti
    rw [hr, List.map_cons, List.map_cons, List.sum_cons, h0]
    simp only [List.length_map, List.length_range]
    omega
  · apply List.mem_of_getElem? (i := m)
    rw [pairs_getElem? _ m (by simp; omega)]
    simp
  · have hd : boothDigit (x (2 * m)).val 8 0 = boothDigit (x (2 * m + 1)).val 8 0 := by
      rw [digit_zero_window, digit_zero_window, heq]
    have hp : (-1 : Fr) ^ (63 - 2 * m) = -((-1 : Fr) ^ (63 - (2 * m + 1))) := by
      rw [show 63 - 2 * m = (63 - (2 * m + 1)) + 1 by omega, pow_succ]
      ring
    simp only [hd, hp, neg_smul, smul_neg, neg_add_cancel]

theorem noIdentity_minus_one (g : List G) (P : G) (hg : ∀ i < 4096, g[i]? = some ((-1 : Fr) ^ i • P)) (hP : P ≠ 0) :
    Spec.NoIdentity g := by
  intro i hi j hj h
  have hval : Spec.basePoint g i j = ((-1) ^ (63 - i) * ∑ b ∈ range 63, (Spec.omega 7 ^ j) ^ b) • P := by
    unfold Spec.basePoint
    rw [Finset.mul_sum, Finset.sum_smul]
    apply Finset.sum_congr rfl
    intro b hb
    have hb := Finset.mem_range.1 hb
    rw [List.getD, hg _ (by omega), Option.getD_some, smul_smul]
    congr 1
    rw [← pow_mul, mul_comm j b, mul_comm ((-1 : Fr) ^ (63 - i))]
    congr 1
    rw [show 4031 - i - 64 * b = (63 - i) + 2 * (32 * (62 - b)) by omega, pow_add, pow_mul (-1) 2]
    simp
  rw [hval] at h
  rcases smul_eq_zero.1 h with h | h
  · rcases mul_eq_zero.1 h with h | h
    · exact absurd h (pow_ne_zero _ (by norm_num))
    · set z := Spec.omega 7 ^ j with hz
      have hz1 : z ^ 128 = 1 := by
        rw [hz, ← pow_mul, mul_comm, pow_mul, show Spec.omega 7 ^ 128 = 1 from (omega_primitive 7 (by norm_num)).pow_eq_one, one_pow]
      have h63 : z ^ 63 = 1 := by
        have := geom_sum_mul z 63
        rw [h, zero_mul] at this
        exact (sub_eq_zero.1 this.symm)
      have h1 : z = 1 := by
        have h2 : z ^ 2 = 1 := by
          have e : z ^ 128 = (z ^ 63) ^ 2 * z ^ 2 := by ring
          rw [hz1, h63] at e
          simpa using e.symm
        have e : z ^ 63 = (z ^ 2) ^ 31 * z := by ring
        rw [h63, h2] at e
        simpa using e.symm
      rw [h1] at h
      simp only [one_pow, sum_const, card_range, nsmul_eq_mul, mul_one] at h
      exact sixtyThree_ne (by exact_mod_cast h)
  · exact hP h
end

/-! ### the scalars -/

theorem hScals_even (f : List Fr) (i : Nat) : hScals f 6 6 (2 * i) = (List.range 64).map (Spec.fkScalar f i) := by
  unfold hScals fftScals
  rw [List.map_map]
  apply List.map_congr_left
  intro j hj
  have hj := List.mem_range.1 hj
  simp only [Function.comp_apply, Spec.dft]
  unfold Spec.fkScalar
  set row : List Fr := (List.range (2 ^ 6)).map (fun t => f.getD (2 ^ (6 + 6) - 1 - (j + t * 2 ^ 6)) 0) with hrow
  set col : List Fr := (List.range (2 ^ 6)).map (fun t => if t = 0 then f.getD (2 ^ (6 + 6) - 1 - j) 0 else 0) with hcol
  have hlr : row.length = 64 := by simp [hrow]
  have hlc : col.length = 64 := by simp [hcol]
  have hc : ∀ t < 64, (circulantFromToeplitz ⟨row, col⟩).getD t 0 = if t = 0 then f.getD (4095 - j) 0 else 0 := by
    intro t ht
    unfold circulantFromToeplitz
    rw [List.getD_append _ _ _ _ (by simpa [hlc] using ht), hcol, List.getD_eq_getElem _ _ (by simpa using ht)]
    simp
  have hd : ∀ t < 64, (circulantFromToeplitz ⟨row, col⟩).getD (64 + t) 0 =
      if t = 0 then f.getD (4095 - j) 0 else f.getD (4095 - j - 64 * (64 - t)) 0 := by
    intro t ht
    unfold circulantFromToeplitz
    simp only
    rw [List.getD_append_right _ _ _ _ (by omega), hlc, Nat.add_sub_cancel_left, List.getD_eq_getElem _ _ (by simp; omega),
      List.getElem_reverse]
    simp only [List.length_append, List.length_drop, List.length_take, hlr]
    by_cases h0 : t = 0
    · subst h0
      rw [if_pos rfl, List.getElem_append_right (by simp [hlr])]
      simp [hrow]
    · rw [if_neg h0, List.getElem_append_left (by simp [hlr]; omega)]
      simp only [List.getElem_drop, hrow, List.getElem_map, List.getElem_range]
      congr 1
      omega
  rw [show (2 : Nat) ^ (6 + 1) = 64 + 64 by norm_num, Finset.sum_range_add]
  have s1 : ∑ t ∈ range 64, Spec.omega 7 ^ (t * (2 * i)) • (circulantFromToeplitz ⟨row, col⟩).getD t 0 = f.getD (4095 - j) 0 := by
    rw [Finset.sum_eq_single 0]
    · rw [hc 0 (by norm_num)]; simp
    · intro t ht h0
      rw [hc t (Finset.mem_range.1 ht), if_neg h0, smul_zero]
    · intro h; simp at h
  have s2 : ∑ t ∈ range 64, Spec.omega 7 ^ ((64 + t) * (2 * i)) • (circulantFromToeplitz ⟨row, col⟩).getD (64 + t) 0 =
      f.getD (4095 - j) 0 + ∑ u ∈ range 63, Spec.omega 7 ^ ((u + 1) * (2 * i)) * f.getD (4095 - j - 64 * (63 - u)) 0 := by
    have hw : Spec.omega 7 ^ 128 = 1 := (omega_primitive 7 (by norm_num)).pow_eq_one
    have he : ∀ t, Spec.omega 7 ^ ((64 + t) * (2 * i)) = Spec.omega 7 ^ (t * (2 * i)) := by
      intro t
      rw [show (64 + t) * (2 * i) = 128 * i + t * (2 * i) by ring, pow_add, pow_mul, hw, one_pow, one_mul]
    rw [Finset.sum_range_succ', add_comm]
    congr 1
    · rw [he, hd 0 (by norm_num)]; simp
    · apply Finset.sum_congr rfl
      intro u hu
      have hu := Finset.mem_range.1 hu
      rw [he, hd (u + 1) (by omega), if_neg (by omega), smul_eq_mul, show 64 - (u + 1) = 63 - u by omega]
  rw [s1, s2]
  ring

/-- the coefficients of the scalars as a polynomial in the root of unity -/
theorem fkScalar_dft (f : List Fr) (i j : Nat) : Spec.fkScalar f i j = Spec.dft (Spec.omega 7 ^ 2) 64
    (fun u => if u = 0 then 2 * f.getD (4095 - j) 0 else f.getD (4095 - j - 64 * (64 - u)) 0) i := by
  unfold Spec.fkScalar Spec.dft
  rw [Finset.sum_range_succ' _ 63, add_comm (2 * f.getD (4095 - j) 0)]
  congr 1
  · apply Finset.sum_congr rfl
    intro u hu
    have hu := Finset.mem_range.1 hu
    simp only
    rw [if_neg (by omega), smul_eq_mul, ← pow_mul, show 64 - (u + 1) = 63 - u by omega]
    congr 2
    ring
  · simp

theorem fkScalar_injective (f g : List Fr) (h : ∀ i < 64, ∀ j < 64, Spec.fkScalar f i j = Spec.fkScalar g i j) (k : Nat) (hk : k < 4096) :
    f.getD k 0 = g.getD k 0 := by
  have hprim : IsPrimitiveRoot (Spec.omega 7 ^ 2) 64 := (omega_primitive 7 (by norm_num)).pow (by norm_num) (by norm_num)
  have h64 : ((64 : Nat) : Fr) ≠ 0 := by decide +kernel
  have h2 : (2 : Fr) ≠ 0 := by decide +kernel
  obtain ⟨j, t, hj, ht, rfl⟩ : ∃ j t, j < 64 ∧ t < 64 ∧ k = 4095 - j - 64 * t := ⟨63 - k % 64, 63 - k / 64, by omega, by omega, by omega⟩
  have key : ∀ u < 64, (if u = 0 then 2 * f.getD (4095 - j) 0 else f.getD (4095 - j - 64 * (64 - u)) 0) =
      if u = 0 then 2 * g.getD (4095 - j) 0 else g.getD (4095 - j - 64 * (64 - u)) 0 := by
    intro u hu
    have e1 := idft_dft hprim h64 (fun u => if u = 0 then 2 * f.getD (4095 - j) 0 else f.getD (4095 - j - 64 * (64 - u)) 0) hu
    have e2 := idft_dft hprim h64 (fun u => if u = 0 then 2 * g.getD (4095 - j) 0 else g.getD (4095 - j - 64 * (64 - u)) 0) hu
    rw [← e1, ← e2]
    congr 1
    apply dft_congr
    intro i hi
    rw [← fkScalar_dft, ← fkScalar_dft]
    exact h i hi j hj
  by_cases h0 : t = 0
  · subst h0
    have := key 0 (by norm_num)
    simp only [if_pos] at this
    exact mul_left_cancel₀ h2 this
  · have := key (64 - t) (by omega)
    rw [if_neg (by omega), if_neg (by omega), show 64 - (64 - t) = t by omega] at this
    exact this

section
variable {ε K G : Type} [Field K] [DecidableEq K] [AddCommGroup G] [Module Fr G] [DecidableEq G] [Curve K G]

theorem minus_one_panics [LawfulCurve K G] (g : List G) (hl : g.length = 4096) (P : G) (hP : P ≠ 0)
    (hg : ∀ i < 4096, g[i]? = some ((-1 : Fr) ^ i • P)) (M : Nat → FixedBaseMSM K G)
    (hM : ∀ j < 2 ^ 7, (FixedBaseMSM.new (fftGens (srsVectors g (2 ^ 6)) 7 j) (.yes 8) : Outcome ε (FixedBaseMSM K G)) = .ok (M j))
    (f : List Fr) (hf : f.length = 4096) (i : Nat) (hi : i < 64) (hc : Spec.Collide (Spec.fkScalar f i)) :
    ((proverOf g 6 6 13 M).computeMultiOpeningProofsPolyCoeff f : Outcome ε _) = .panic := by
  have hn := noIdentity_minus_one g P hg hP
  have hgens : fftGens (srsVectors g (2 ^ 6)) 7 (2 * i) = (List.range 64).map (fun k => (-1 : Fr) ^ (63 - k) • Spec.basePoint g 63 (2 * i)) := by
    rw [fftGens_eq g hl]
    apply List.map_congr_left
    intro k hk
    exact basePoint_tau g (-1) P hg k (2 * i) (List.mem_range.1 hk)
  have h0 : ((M (2 * i)).msm (hScals f 6 6 (2 * i)) : Outcome ε G) = .panic := by
    have hnew := hM (2 * i) (by norm_num; omega)
    simp only [FixedBaseMSM.new, precompWindowNew_eq 8 (by norm_num), Outcome.ok_bind, Outcome.pure_eq, Outcome.ok.injEq] at hnew
    rw [← hnew]
    simp only [FixedBaseMSM.msm]
    refine (precompWindowMsm_eq (ε := ε) (K := K) 8 (by norm_num) (by norm_num) _ _ (by rw [length_hScals, fftGens_eq g hl]; simp) ?_).1 ?_
    · rw [fftGens_eq g hl]
      intro Q hQ
      obtain ⟨k, hk, rfl⟩ := List.mem_map.1 hQ
      exact hn k (List.mem_range.1 hk) (2 * i) (by omega)
    · rw [hScals_even, hgens]
      exact minus_one_clash _ _ hc
  unfold FK20Prover.computeMultiOpeningProofsPolyCoeff
  have : ((computeHPolyCommitments (toeplitzOf 6 6 M) f (2 ^ 6)) : Outcome ε (List G)) = .panic :=
    computeHPoly_panic_at _ 6 6 (by norm_num) (by rw [hf]; norm_num) M (2 * i) (by norm_num; omega) h0
  have hb : (proverOf g 6 6 13 M).batchToeplitz = toeplitzOf 6 6 M := rfl
  have hcs : (proverOf g 6 6 13 M).cosetSize = 2 ^ 6 := rfl
  rw [hb, hcs, this]
  rfl
end

theorem ofFn_getD {n : Nat} (f : Fin n → Fr) (k : Fin n) : (List.ofFn f).getD k 0 = f k := by
  rw [List.getD_eq_getElem _ _ (by simp)]
  simp

/-- the 64 families of 32 pairs of scalars of a polynomial -/
def fkPairs (f : Fin 4096 → Fr) (i : Fin 64) (m : Fin 32) : Fr × Fr :=
  (Spec.fkScalar (List.ofFn f) i (2 * m), Spec.fkScalar (List.ofFn f) i (2 * m + 1))

theorem fkPairs_injective : Function.Injective fkPairs := by
  intro f g h
  funext k
  have := fkScalar_injective (List.ofFn f) (List.ofFn g) (by
    intro i hi j hj
    have hij := congrFun (congrFun h ⟨i, hi⟩) ⟨j / 2, by omega⟩
    simp only [fkPairs, Prod.mk.injEq] at hij
    rcases Nat.mod_two_eq_zero_or_one j with h0 | h1
    · have e : 2 * (j / 2) = j := by omega
      rw [e] at hij
      exact hij.1
    · have e : 2 * (j / 2) + 1 = j := by omega
      rw [e] at hij
      exact hij.2) k k.2
  rw [ofFn_getD, ofFn_getD] at this
  exact this

theorem bad_collide (f : Fin 4096 → Fr) (i : Fin 64) (h : PairCount.Bad (n := frOrder) 32 (fkPairs f i)) :
    Spec.Collide (Spec.fkScalar (List.ofFn f) i) := by
  obtain ⟨h1, m, hm⟩ := h
  refine ⟨fun j hj => ?_, m, m.2, hm⟩
  have := h1 ⟨j / 2, by omega⟩
  simp only [fkPairs] at this
  rcases Nat.mod_two_eq_zero_or_one j with h0 | h1
  · have e : 2 * (j / 2) = j := by omega
    rw [e] at this
    exact this.1
  · have e : 2 * (j / 2) + 1 = j := by omega
    rw [e] at this
    exact this.2

theorem frOrder_mod : frOrder % 256 = 1 := by decide +kernel

theorem good_ratio : 10000 * (frOrder ^ (2 * 32) - ((255 * (frOrder / 256)) ^ (2 * 32) - (255 * (frOrder / 256) * (254 * (frOrder / 256))) ^ 32)) ≤
    9081 * frOrder ^ (2 * 32) := by decide +kernel

/-- At most one in 400 polynomials has no collision. -/
theorem few_without_collision (S : Set (Fin 4096 → Fr)) (hS : ∀ f ∈ S, ∀ i < 64, ¬ Spec.Collide (Spec.fkScalar (List.ofFn f) i)) :
    400 * S.ncard ≤ frOrder ^ 4096 := by
  have h := PairCount.count (n := frOrder) frOrder_mod 32 64 fkPairs fkPairs_injective S
    (fun f hf i hb => hS f hf i i.2 (bad_collide f i hb))
  have hr := good_ratio
  revert h hr
  generalize (frOrder ^ (2 * 32) - ((255 * (frOrder / 256)) ^ (2 * 32) - (255 * (frOrder / 256) * (254 * (frOrder / 256))) ^ 32)) = a
  generalize S.ncard = c
  rw [show frOrder ^ 4096 = (frOrder ^ (2 * 32)) ^ 64 from by rw [← pow_mul]]
  generalize frOrder ^ (2 * 32) = b
  intro h hr
  have h1 := Nat.pow_le_pow_left hr 64
  rw [mul_pow, mul_pow] at h1
  have h2 : 400 * 9081 ^ 64 ≤ 10000 ^ 64 := by norm_num
  have h3 : 10000 ^ 64 * (400 * c) ≤ 10000 ^ 64 * b ^ 64 := by
    calc 10000 ^ 64 * (400 * c) ≤ 10000 ^ 64 * (400 * a ^ 64) := by gcongr
      _ = 400 * (10000 ^ 64 * a ^ 64) := by ring
      _ ≤ 400 * (9081 ^ 64 * b ^ 64) := by gcongr
      _ = (400 * 9081 ^ 64) * b ^ 64 := by ring
      _ ≤ 10000 ^ 64 * b ^ 64 := by gcongr
  exact Nat.le_of_mul_le_mul_left h3 (by positivity)

end Verif
