import Verif.Model.Naive
import Verif.Lemmas.LongKey
import Verif.Lemmas.PolyCoeff

set_option linter.unusedSectionVars false

/-! The reference implementations compute quotients and evaluations. -/
namespace Verif
open Polynomial Finset

variable {ε : Type}

/-- the state of the loop of `divide_by_linear` -/
def ruffini (z : Fr) (poly : List Fr) : List Fr × Fr :=
  poly.reverse.foldl (fun (st : List Fr × Fr) coeff => (st.1 ++ [coeff + st.2], z * (coeff + st.2))) ([], 0)

theorem ruffini_cons (z a : Fr) (l : List Fr) :
    ruffini z (a :: l) = ((ruffini z l).1 ++ [a + (ruffini z l).2], z * (a + (ruffini z l).2)) := by
  simp [ruffini]

theorem ruffini_spec (z : Fr) (l : List Fr) :
    (ruffini z l).1.length = l.length ∧ (ruffini z l).2 = z * (Spec.polyOf l).eval z ∧
      (X - C z) * Spec.polyOf (ruffini z l).1.reverse = X * Spec.polyOf l - C (z * (Spec.polyOf l).eval z) := by
  induction l with
  | nil => simp [ruffini, Spec.polyOf]
  | cons a l ih =>
    obtain ⟨h1, h2, h3⟩ := ih
    have hp : Spec.polyOf (a :: l) = C a + X * Spec.polyOf l := rfl
    have he : (Spec.polyOf (a :: l)).eval z = a + z * (Spec.polyOf l).eval z := by rw [hp]; simp
    rw [ruffini_cons]
    refine ⟨by simp [h1], by rw [he, h2], ?_⟩
    rw [List.reverse_append, List.reverse_singleton, List.singleton_append, h2,
      show Spec.polyOf ((a + z * (Spec.polyOf l).eval z) :: (ruffini z l).1.reverse) =
        C (a + z * (Spec.polyOf l).eval z) + X * Spec.polyOf (ruffini z l).1.reverse from rfl, he, hp, mul_add,
      mul_left_comm, h3]
    simp only [C_add, C_mul]
    ring

theorem divideByLinear_cons (z a : Fr) (l : List Fr) : divideByLinear (a :: l) z = (ruffini z l).1.reverse := by
  have : divideByLinear (a :: l) z = (ruffini z (a :: l)).1.dropLast.reverse := rfl
  rw [this, ruffini_cons]
  simp

theorem divideByLinear_spec (l : List Fr) (z : Fr) :
    (divideByLinear l z).length = l.length - 1 ∧
      Spec.polyOf l = (X - C z) * Spec.polyOf (divideByLinear l z) + C ((Spec.polyOf l).eval z) := by
  cases l with
  | nil => simp [divideByLinear, Spec.polyOf]
  | cons a l =>
    obtain ⟨h1, -, h3⟩ := ruffini_spec z l
    rw [divideByLinear_cons]
    refine ⟨by simp [h1], ?_⟩
    rw [h3, show Spec.polyOf (a :: l) = C a + X * Spec.polyOf l from rfl]
    simp only [eval_add, eval_C, eval_mul, eval_X, C_add, C_mul]
    ring

/-- dividing by all the points in turn divides by the product -/
theorem divideAll_spec (points l : List Fr) (q : Fr[X])
    (h : Spec.polyOf l = (points.map (fun r => X - C r)).prod * q) :
    (points.foldl divideByLinear l).length = l.length - points.length ∧ Spec.polyOf (points.foldl divideByLinear l) = q := by
  induction points generalizing l with
  | nil => simpa using h
  | cons z points ih =>
    obtain ⟨h1, h2⟩ := divideByLinear_spec l z
    rw [List.map_cons, List.prod_cons, mul_assoc] at h
    have h0 : (Spec.polyOf l).eval z = 0 := by rw [h]; simp
    rw [h0, C_0, add_zero, h] at h2
    obtain ⟨h3, h4⟩ := ih _ (mul_left_cancel₀ (X_sub_C_ne_zero z) h2).symm
    exact ⟨by rw [List.foldl_cons, h3, h1, List.length_cons]; omega, h4⟩

theorem prod_monic (points : List Fr) : (points.map (fun r => (X - C r : Fr[X]))).prod.Monic := by
  induction points with
  | nil => simp
  | cons z points ih => rw [List.map_cons, List.prod_cons]; exact (monic_X_sub_C z).mul ih

theorem prod_degree (points : List Fr) : (points.map (fun r => (X - C r : Fr[X]))).prod.degree = points.length := by
  induction points with
  | nil => simp
  | cons z points ih =>
    rw [List.map_cons, List.prod_cons, degree_mul, ih, degree_X_sub_C, List.length_cons]
    push_cast
    rw [add_comm]

/-- a polynomial that vanishes on distinct points is divisible by the product -/
theorem prod_dvd (points : List Fr) (hd : points.Nodup) (f : Fr[X]) (h : ∀ z ∈ points, f.eval z = 0) :
    (points.map (fun r => (X - C r : Fr[X]))).prod ∣ f := by
  induction points generalizing f with
  | nil => simp
  | cons z points ih =>
    obtain ⟨q, rfl⟩ := dvd_iff_isRoot.2 (h z (by simp))
    rw [List.nodup_cons] at hd
    rw [List.map_cons, List.prod_cons]
    refine mul_dvd_mul_left _ (ih hd.2 q ?_)
    intro y hy
    have := h y (by simp [hy])
    rw [eval_mul, mul_eq_zero] at this
    rcases this with h0 | h0
    · simp only [eval_sub, eval_X, eval_C, sub_eq_zero] at h0
      exact absurd (h0 ▸ hy) hd.1
    · exact h0

section
variable {G : Type} [AddCommGroup G] [Module Fr G] [DecidableEq G]

theorem lcSum_commitment (g : List G) (c : List Fr) (hc : c.length ≤ g.length) :
    lcSum (g.take c.length) c = Spec.commitment g (Spec.polyOf c) := by
  rw [lcSum_eq _ _ c.length (by simp [hc]) rfl]
  unfold Spec.commitment
  obtain ⟨d, hd⟩ := Nat.exists_eq_add_of_le hc
  rw [hd, sum_range_add]
  have z : ∑ x ∈ range d, (Spec.polyOf c).coeff (c.length + x) • g.getD (c.length + x) 0 = 0 := by
    apply sum_eq_zero
    intro x _
    rw [Spec.coeff_polyOf, List.getD_eq_default _ _ (by omega), zero_smul]
  rw [z, add_zero]
  apply sum_congr rfl
  intro i hi
  have hi := mem_range.1 hi
  rw [Spec.coeff_polyOf]
  congr 1
  simp [List.getD_eq_getElem?_getD, hi]

theorem commitG1_ok (g : List G) (c : List Fr) (hc : c.length ≤ g.length) :
    (commitG1 g c : Outcome ε G) = .ok (Spec.commitment g (Spec.polyOf c)) := by
  unfold commitG1
  rw [slice_zero hc, Outcome.ok_bind, lincomb_eq, lcSum_commitment g c hc]
  rfl

theorem commitG1_short (g : List G) (c : List Fr) (hc : g.length < c.length) :
    (commitG1 g c : Outcome ε G) = .panic := by
  unfold commitG1 slice
  rw [if_neg (by omega)]
  rfl

theorem forM_assert {α : Type} (l : List α) (P : α → Prop) [DecidablePred P] (h : ∀ a ∈ l, P a) :
    (l.forM (fun a => assertP (P a)) : Outcome ε Unit) = .ok () := by
  induction l with
  | nil => rfl
  | cons a l ih =>
    show (assertP (P a) >>= fun _ => l.forM _) = _
    rw [assertP_true (h a (by simp)), Outcome.ok_bind, ih (fun a ha => h a (by simp [ha]))]

/-- the interpolation step of both functions -/
theorem interpolate_zip (points values : List Fr) (hl : values.length = points.length) (hn : 2 ≤ points.length)
    (hd : points.Nodup) :
    ∃ r, (lagrangeInterpolate (points.zip values) : Outcome ε (Option (List Fr))) = .ok (some r) ∧ r.length = points.length ∧
      ∀ p ∈ points.zip values, (Spec.polyOf r).eval p.1 = p.2 := by
  have hlen : (points.zip values).length = points.length := by simp [hl]
  obtain ⟨r, hr, hrl, hev⟩ := lagrangeInterpolate_spec (ε := ε) (points.zip values) (by omega) (by
    intro i j hi hj h
    rw [List.getElem_zip, List.getElem_zip] at h
    exact (List.Nodup.getElem_inj_iff hd).1 h)
  refine ⟨r, hr, by omega, ?_⟩
  intro p hp
  obtain ⟨m, hm, rfl⟩ := List.getElem_of_mem hp
  exact hev m hm

theorem naiveOpen_eq (g : List G) (f points : List Fr) (hn : 2 ≤ points.length) (hd : points.Nodup)
    (hg : f.length ≤ g.length + points.length) :
    (naiveComputeMultiOpening g f points : Outcome ε _) =
      .ok (Spec.commitment g (Spec.polyOf f /ₘ (points.map (fun r => X - C r)).prod),
        points.map (fun z => (Spec.polyOf f).eval z)) := by
  unfold naiveComputeMultiOpening
  have hev : points.map (fun point => polyEval f point) = points.map (fun z => (Spec.polyOf f).eval z) :=
    List.map_congr_left (fun z _ => polyEval_eq f z)
  simp only [hev]
  obtain ⟨r, hr, hrl, hre⟩ := interpolate_zip (ε := ε) points (points.map (fun z => (Spec.polyOf f).eval z)) (by simp) hn hd
  rw [hr, Outcome.ok_bind]
  show (do (points.zip _).forM _; _ : Outcome ε _) = _
  rw [forM_assert _ (fun q : Fr × Fr => polyEval r q.1 = q.2) (by
    intro p hp; rw [polyEval_eq]; exact hre p hp), Outcome.ok_bind]
  obtain ⟨c, hc, hcl, hcp⟩ := polySub_spec (ε := ε) f r
  rw [hc, Outcome.ok_bind]
  have hz : ∀ z ∈ points, (Spec.polyOf r).eval z = (Spec.polyOf f).eval z := by
    intro z hz
    refine hre (z, (Spec.polyOf f).eval z) ?_
    obtain ⟨i, hi, rfl⟩ := List.getElem_of_mem hz
    refine List.mem_iff_getElem.2 ⟨i, by simpa using hi, ?_⟩
    simp
  obtain ⟨q, hq⟩ := prod_dvd points hd (Spec.polyOf f - Spec.polyOf r) (by
    intro z h; rw [eval_sub, hz z h, sub_self])
  obtain ⟨h1, h2⟩ := divideAll_spec points c q (by rw [hcp, hq])
  rw [commitG1_ok g _ (by rw [h1, hcl, hrl]; omega), h2, Outcome.ok_bind, Outcome.pure_eq]
  have := (div_modByMonic_unique q (Spec.polyOf r) (prod_monic points) (f := Spec.polyOf f)
    ⟨by rw [← hq]; ring, by rw [prod_degree, ← hrl]; exact Spec.degree_polyOf_lt r⟩).1
  rw [this]

/-! ### FK20 without Toeplitz matrices -/

theorem shiftPolynomial_eq (f : List Fr) (d : Nat) : (shiftPolynomial f d : Outcome ε (List Fr)) = .ok (f.drop d) := by
  unfold shiftPolynomial
  by_cases h : d ≥ f.length
  · simp [h]
  · simp only [h, if_false]
    unfold slice
    rw [if_pos (by omega), List.take_of_length_le (by simp)]

theorem naiveComputeHPoly_eq (f : List Fr) (q s : Nat) (hf : f.length = 2 ^ (q + s)) :
    (naiveComputeHPoly f (2 ^ q) : Outcome ε _) = .ok ((List.range (2 ^ s)).map (fun i => f.drop (2 ^ q * (i + 1)))) := by
  unfold naiveComputeHPoly
  have hdiv : f.length / 2 ^ q = 2 ^ s := by rw [hf, pow_add, Nat.mul_div_cancel_left _ (Nat.two_pow_pos q)]
  simp only [hdiv]
  rw [assertP_true (isPow2_two_pow q), assertP_true (by rw [hf]; exact isPow2_two_pow _), assertP_true (isPow2_two_pow s)]
  simp only [Outcome.ok_bind]
  refine mapM_ok (fun i _ => ?_)
  rw [shiftPolynomial_eq, mul_comm]

theorem commitment_drop (g : List G) (f : List Fr) (q i : Nat) :
    Spec.commitment g (Spec.polyOf (f.drop (2 ^ q * (i + 1)))) = shiftCommit g f q i := by
  unfold Spec.commitment shiftCommit
  apply sum_congr rfl
  intro j _
  rw [Spec.coeff_polyOf]
  congr 1
  simp [List.getD_eq_getElem?_getD, add_comm]

theorem naiveComputeCosetEvaluations_eq (f : List Fr) (q s e : Nat) (hse : q + s ≤ e) (he : e < 32)
    (hf : f.length = 2 ^ (q + s)) :
    (naiveComputeCosetEvaluations f (2 ^ q) (domainOf e) : Outcome ε (List (List Fr))) =
      .ok ((List.range (2 ^ (e - q))).map (fun k => (List.range (2 ^ q)).map (fun j =>
        (Spec.polyOf f).eval (Spec.point e (2 ^ q * k + j))))) := by
  unfold naiveComputeCosetEvaluations
  rw [fftScalars_eval e he.le f (by rw [hf]; exact Nat.pow_le_pow_right (by norm_num) hse), Outcome.ok_bind,
    reverseBitOrder_eq e he (rep_map_range _ _), Outcome.ok_bind, chunksExact_eq]
  simp only [List.length_map, List.length_range, Outcome.pure_eq]
  rw [Nat.pow_div (by omega) (by norm_num)]
  congr 1
  apply List.map_congr_left
  intro k hk
  have hk : k < 2 ^ (e - q) := List.mem_range.1 hk
  have hlt : 2 ^ q * (k + 1) ≤ 2 ^ e := by
    have : 2 ^ q * (k + 1) ≤ 2 ^ q * 2 ^ (e - q) := Nat.mul_le_mul_left _ hk
    rwa [← pow_add, show q + (e - q) = e by omega] at this
  refine Rep.eq_map ⟨block_length (by simpa using hlt), ?_⟩
  intro j hj
  rw [getElem?_block hj]
  rw [mul_add, mul_one] at hlt
  simp only [List.getElem?_map]
  rw [List.getElem?_range (by omega)]
  rfl

theorem naiveOpenMultiPoint_eq (g : List G) (f : List Fr) (q s e : Nat) (hqe : q < e) (hse : q + s ≤ e) (he : e < 32)
    (hg : 2 ^ (q + s) ≤ g.length) (hf : f.length = 2 ^ (q + s)) :
    (naiveOpenMultiPoint g f (2 ^ q) (2 ^ e) : Outcome ε _) =
      .ok ((List.range (2 ^ (e - q))).map (Spec.openingProof g e q (Spec.polyOf f)),
        (List.range (2 ^ (e - q))).map (fun k => (List.range (2 ^ q)).map (fun j =>
          (Spec.polyOf f).eval (Spec.point e (2 ^ q * k + j))))) := by
  unfold naiveOpenMultiPoint
  rw [assertP_true (isPow2_two_pow q), assertP_true (isPow2_two_pow e), assertP_true (by rw [hf]; exact isPow2_two_pow _),
    assertP_true (Nat.pow_lt_pow_right (by norm_num) hqe), assertP_true (by omega)]
  simp only [Outcome.ok_bind]
  rw [naiveComputeHPoly_eq f q s hf, Outcome.ok_bind, List.mapM_map,
    mapM_ok (g := shiftCommit g f q) (by
      intro i _
      simp only [Function.comp_apply]
      rw [commitG1_ok g _ (by rw [List.length_drop]; omega), commitment_drop]), Outcome.ok_bind,
    Nat.pow_div (by omega) (by norm_num), domain_new_two_pow (e - q) (by omega), Outcome.ok_bind,
    fftG1_spec (e - q) (by omega), Outcome.ok_bind, reverseBitOrder_eq (e - q) (by omega) (rep_map_range _ _),
    Outcome.ok_bind, domain_new_two_pow e (by omega), Outcome.ok_bind,
    naiveComputeCosetEvaluations_eq f q s e hse he hf, Outcome.ok_bind, Outcome.pure_eq]
  congr 2
  apply List.map_congr_left
  intro k _
  exact openingProof_eq g f q s e k hf hse he.le

/-! ### cosets -/

theorem generateCosets_eq (e q : Nat) (hq : q ≤ e) (he : e < 32) (b : Bool) :
    (generateCosets (2 ^ e) (2 ^ q) b : Outcome ε _) = .ok ((List.range (2 ^ (e - q))).map (fun k =>
      (List.range (2 ^ q)).map (fun j => Spec.omega e ^ (if b then Spec.brev (e - q) k else k) * Spec.omega q ^ j))) := by
  unfold generateCosets
  rw [domain_new_two_pow q (by omega), Outcome.ok_bind, assertP_true (Nat.two_pow_pos q).ne', Outcome.ok_bind,
    Nat.pow_div hq (by norm_num)]
  have hr : (domainOf q).roots = (List.range (2 ^ q)).map (fun j => Spec.omega q ^ j) := rfl
  cases b
  · simp only [Bool.false_eq_true, if_false]
    rw [cosetGens_spec_false e _ he.le, Outcome.ok_bind, hr, Outcome.pure_eq]
    simp [Function.comp_def]
  · simp only [if_true]
    rw [cosetGens_spec e (e - q) he.le (by omega), Outcome.ok_bind, hr, Outcome.pure_eq]
    simp [Function.comp_def]

/-- the points of group `k` in protocol order are those of coset `k` in another order -/
theorem coset_perm (e q k : Nat) (hq : q ≤ e) (he : e < 32) :
    ((List.range (2 ^ q)).map (fun j => Spec.omega e ^ Spec.brev (e - q) k * Spec.omega q ^ j)).Perm
      ((List.range (2 ^ q)).map (fun j => Spec.point e (2 ^ q * k + j))) := by
  have h : (List.range (2 ^ q)).map (fun j => Spec.point e (2 ^ q * k + j)) =
      ((List.range (2 ^ q)).map (Spec.brev q)).map (fun j => Spec.omega e ^ Spec.brev (e - q) k * Spec.omega q ^ j) := by
    rw [List.map_map]
    apply List.map_congr_left
    intro j hj
    rw [point_split e q k j hq he.le (List.mem_range.1 hj), mul_comm]
    rfl
  rw [h]
  apply List.Perm.map
  refine (List.perm_of_nodup_nodup_toFinset_eq List.nodup_range ?_ ?_)
  · refine List.Nodup.map_on ?_ List.nodup_range
    intro a ha b hb hab
    rw [← Spec.brev_brev q a (List.mem_range.1 ha), hab, Spec.brev_brev q b (List.mem_range.1 hb)]
  · ext a
    simp only [List.mem_toFinset, List.mem_range, List.mem_map]
    constructor
    · intro ha
      exact ⟨Spec.brev q a, Spec.brev_lt _ _, Spec.brev_brev q a ha⟩
    · rintro ⟨b, -, rfl⟩
      exact Spec.brev_lt _ _

end

end Verif
