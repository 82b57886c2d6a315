import Mathlib.Algebra.BigOperators.Group.List.Lemmas
import Mathlib.Tactic.Linarith
import Mathlib.Tactic.FieldSimp
import Mathlib.Tactic.Abel
import Verif.Model.BatchAddition
import Verif.Spec.Addition
import Verif.Lemmas.BatchInverse
import Verif.Lemmas.Outcome

set_option linter.unusedSectionVars false

/-! Lemmas on batched affine addition. -/
namespace Verif

section pairs
variable {α β : Type}

theorem pairs_cons (a b : α) (t : List α) : Spec.pairs (a :: b :: t) = (a, b) :: Spec.pairs t := rfl

theorem length_pairs : ∀ l : List α, (Spec.pairs l).length = l.length / 2
  | [] => by simp [Spec.pairs]
  | [_] => by simp [Spec.pairs]
  | a :: b :: t => by rw [pairs_cons, List.length_cons, length_pairs t]; simp only [List.length_cons]; omega

theorem pairs_map (f : α → β) : ∀ l : List α, Spec.pairs (l.map f) = (Spec.pairs l).map (fun q => (f q.1, f q.2))
  | [] => rfl
  | [_] => rfl
  | a :: b :: t => by
    rw [pairs_cons, List.map_cons, List.map_cons, pairs_cons, List.map_cons, pairs_map f t]

theorem pairs_getElem? : ∀ (l : List α) (i : Nat) (h : i < l.length / 2),
    (Spec.pairs l)[i]? = some (l[2 * i]'(by omega), l[2 * i + 1]'(by omega))
  | [], i, h => by simp at h
  | [_], i, h => by simp at h
  | a :: b :: t, 0, h => rfl
  | a :: b :: t, i + 1, h => by
    rw [pairs_cons, List.getElem?_cons_succ, pairs_getElem? t i (by simp at h; omega)]
    simp [Nat.mul_add]

theorem mem_pairs : ∀ (l : List α) (q : α × α), q ∈ Spec.pairs l → q.1 ∈ l ∧ q.2 ∈ l
  | [], q, h => by cases h
  | [_], q, h => by cases h
  | a :: b :: t, q, h => by
    rw [pairs_cons, List.mem_cons] at h
    rcases h with rfl | h
    · simp
    · have := mem_pairs t q h
      exact ⟨by simp [this.1], by simp [this.2]⟩

theorem pairs_take (l : List α) : Spec.pairs (l.take (2 * (l.length / 2))) = Spec.pairs l := by
  refine List.ext_getElem? ?_
  intro i
  by_cases hi : i < l.length / 2
  · rw [pairs_getElem? _ i (by rw [List.length_take]; omega), pairs_getElem? l i hi]
    simp
  · rw [List.getElem?_eq_none (by rw [length_pairs, List.length_take]; omega),
      List.getElem?_eq_none (by rw [length_pairs]; omega)]

theorem stepBy_two (n : Nat) : stepBy (n - 1) 2 = (List.range (n / 2)).map (· * 2) := by
  unfold stepBy
  congr 2
  omega

end pairs

section
variable {ε K G : Type} [Field K] [DecidableEq K] [AddCommGroup G] [Curve K G]

theorem pairDenominators_eq (pts : List (Aff K)) :
    (pairDenominators pts : Outcome ε (List K)) = .ok ((Spec.pairs pts).map (fun q => chooseAddOrDouble q.1 q.2)) := by
  unfold pairDenominators
  rw [stepBy_two]
  rw [mapM_eq_ok_iff, List.forall₂_iff_get]
  refine ⟨by simp [length_pairs], ?_⟩
  intro i h1 h2
  simp only [List.length_map, List.length_range] at h1
  simp only [List.get_eq_getElem, List.getElem_map, List.getElem_range]
  rw [idx_lt (by omega), Outcome.ok_bind, idx_lt (by omega), Outcome.ok_bind]
  have := pairs_getElem? pts i h1
  rw [List.getElem?_eq_getElem (by rw [length_pairs]; exact h1), Option.some.injEq] at this
  rw [this]
  simp only [Outcome.pure_eq, mul_comm]

theorem pairAdd_eq (pts : List (Aff K)) (invs : List K) (h : pts.length / 2 ≤ invs.length) :
    ∃ out, (pairAdd pts invs : Outcome ε (List (Aff K))) = .ok out ∧ out.length = pts.length ∧
      out.take (pts.length / 2) = List.zipWith (fun q inv => pointAddDouble q.1 q.2 inv) (Spec.pairs pts) invs := by
  unfold pairAdd
  rw [stepBy_two]
  have hzl : (((List.range (pts.length / 2)).map (· * 2)).zip invs).length = pts.length / 2 := by
    simp; omega
  have hinv := foldlM_list_inv (ε := ε) (l := ((List.range (pts.length / 2)).map (· * 2)).zip invs) (s := pts)
    (body := fun (points : List (Aff K)) (q : Nat × K) => do
      let p1 ← idx points q.1
      let p2 ← idx points (q.1 + 1)
      setIdx points (q.1 / 2) (pointAddDouble p1 p2 q.2))
    (fun k out => out.length = pts.length ∧ (∀ i, k ≤ i → out[i]? = pts[i]?) ∧
      ∀ i, i < k → out[i]? = (List.zipWith (fun q inv => pointAddDouble q.1 q.2 inv) (Spec.pairs pts) invs)[i]?)
    ⟨rfl, fun _ _ => rfl, fun i hi => absurd hi (by omega)⟩ (by
      rintro i out hi ⟨hlen, hrest, hdone⟩
      rw [hzl] at hi
      rw [List.getElem_zip, List.getElem_map, List.getElem_range]
      have e1 : out[i * 2]? = pts[i * 2]? := hrest _ (by omega)
      have e2 : out[i * 2 + 1]? = pts[i * 2 + 1]? := hrest _ (by omega)
      have g1 : pts[i * 2]? = some (pts[i * 2]'(by omega)) := List.getElem?_eq_getElem _
      have g2 : pts[i * 2 + 1]? = some (pts[i * 2 + 1]'(by omega)) := List.getElem?_eq_getElem _
      simp only
      rw [idx_ok (e1.trans g1), Outcome.ok_bind, idx_ok (e2.trans g2), Outcome.ok_bind, setIdx_lt _ (by rw [hlen]; omega)]
      refine ⟨_, rfl, by simp [hlen], ?_, ?_⟩
      · intro j hj
        rw [List.getElem?_set_ne (by omega)]
        exact hrest j (by omega)
      · intro j hj
        by_cases hji : j = i
        · subst hji
          rw [show j * 2 / 2 = j by omega, List.getElem?_set_self (by rw [hlen]; omega), List.getElem?_zipWith,
            pairs_getElem? pts j hi, List.getElem?_eq_getElem (by omega)]
          simp only [mul_comm j 2]
        · rw [List.getElem?_set_ne (by omega)]
          exact hdone j (by omega))
  obtain ⟨out, hout, hlen, -, hdone⟩ := hinv
  refine ⟨out, hout, hlen, ?_⟩
  rw [hzl] at hdone
  refine List.ext_getElem? ?_
  intro i
  by_cases hi : i < pts.length / 2
  · rw [List.getElem?_take_of_lt hi, hdone i hi]
  · rw [List.getElem?_eq_none (by rw [List.length_take]; omega),
      List.getElem?_eq_none (by rw [List.length_zipWith, length_pairs]; omega)]

variable [LawfulCurve K G]

theorem toAff_injective : Function.Injective (toAff : G → Aff K) := fun P Q h => by
  rw [← LawfulCurve.ofAff_toAff P, h, LawfulCurve.ofAff_toAff]

/-- the denominator vanishes exactly for opposite points -/
theorem choose_eq_zero (P Q : G) (hP : P ≠ 0) (hQ : Q ≠ 0) :
    chooseAddOrDouble (toAff P) (toAff Q) = 0 ↔ P + Q = 0 := by
  unfold chooseAddOrDouble
  by_cases h : toAff P = toAff Q
  · have hPQ := toAff_injective h
    subst hPQ
    rw [if_pos rfl]
    constructor
    · exact LawfulCurve.two_torsion P hP
    · intro h0
      have h1 : P = -P := eq_neg_of_add_eq_zero_left h0
      have h2 := congrArg Aff.y (LawfulCurve.toAff_neg P)
      rw [← h1] at h2
      simp only at h2
      linear_combination h2
  · rw [if_neg h, sub_eq_zero]
    constructor
    · intro hx
      rcases LawfulCurve.opposite P Q hP hQ hx.symm with rfl | h0
      · exact absurd rfl h
      · exact h0
    · intro h0
      have h1 : Q = -P := by rw [add_comm] at h0; exact eq_neg_of_add_eq_zero_left h0
      rw [h1, LawfulCurve.toAff_neg]

/-- the addition formula -/
theorem pointAddDouble_eq (P Q : G) (hP : P ≠ 0) (hQ : Q ≠ 0) (h : P + Q ≠ 0) :
    pointAddDouble (toAff P) (toAff Q) (chooseAddOrDouble (toAff P) (toAff Q))⁻¹ = toAff (P + Q) := by
  have hc : chooseAddOrDouble (toAff P) (toAff Q) ≠ 0 := fun h0 => h ((choose_eq_zero P Q hP hQ).1 h0)
  unfold pointAddDouble
  unfold chooseAddOrDouble at hc ⊢
  by_cases he : toAff P = toAff Q
  · have hPQ := toAff_injective he
    subst hPQ
    simp only [if_true] at hc ⊢
    rw [LawfulCurve.tangent P hP hc _ _ rfl rfl]
    simp only [div_eq_mul_inv]
    rw [Aff.mk.injEq]
    constructor <;> ring
  · simp only [if_neg he] at hc ⊢
    rw [LawfulCurve.chord P Q hP hQ (fun e => hc (by rw [e]; ring)) _ _ rfl rfl]
    simp only [div_eq_mul_inv]

theorem halve_ne_zero {l : List G} (h : ∀ q ∈ Spec.pairs l, q.1 + q.2 ≠ 0) : ∀ P ∈ Spec.halve l, P ≠ 0 := by
  intro P hP
  obtain ⟨q, hq, rfl⟩ := List.mem_map.1 hP
  exact h q hq

theorem sum_halve : ∀ l : List G, l.length % 2 = 0 → (Spec.halve l).sum = l.sum
  | [], _ => rfl
  | [_], h => by simp at h
  | a :: b :: t, h => by
    have := sum_halve t (by simp at h; omega)
    unfold Spec.halve at this ⊢
    rw [pairs_cons, List.map_cons, List.sum_cons, this]
    simp [add_assoc]

/-- the last point of an odd list -/
def oddRest (l : List G) : G := (l.drop (2 * (l.length / 2))).sum

theorem sum_halve_odd (l : List G) : oddRest l + (Spec.halve l).sum = l.sum := by
  have h1 : Spec.halve l = Spec.halve (l.take (2 * (l.length / 2))) := by unfold Spec.halve; rw [pairs_take]
  rw [h1, sum_halve _ (by rw [List.length_take]; omega), oddRest, add_comm, List.sum_take_add_sum_drop]

/-- the affine form of a bucket -/
def affBucket (b : List G × G) : List (Aff K) × G := (b.1.map toAff, b.2)

theorem popOdd_eq (b : List G × G) :
    (popOdd (affBucket b) : Outcome ε (List (Aff K) × G)) = .ok (affBucket (b.1.take (2 * (b.1.length / 2)), b.2 + oddRest b.1)) := by
  unfold popOdd affBucket oddRest
  simp only [List.length_map]
  by_cases h : b.1.length % 2 = 0
  · rw [if_neg (by simpa using h), show 2 * (b.1.length / 2) = b.1.length by omega]
    simp
  · rw [if_pos h]
    obtain ⟨l, p, hl⟩ : ∃ l p, b.1 = l ++ [p] := by
      rcases List.eq_nil_or_concat b.1 with hn | ⟨l, p, hl⟩
      · rw [hn] at h; simp at h
      · exact ⟨l, p, by simpa using hl⟩
    have h2 : 2 * ((l ++ [p]).length / 2) = l.length := by
      rw [hl, List.length_append, List.length_singleton] at h
      rw [List.length_append, List.length_singleton]
      omega
    rw [hl, h2]
    simp [LawfulCurve.ofAff_toAff]

theorem addRest_eq (b : List G × G) : addRest (affBucket b : List (Aff K) × G) = b.2 + b.1.sum := by
  unfold addRest affBucket
  simp only
  obtain ⟨l, s⟩ := b
  induction l generalizing s with
  | nil => simp
  | cons p l ih =>
    simp only [List.map_cons, List.foldl_cons, LawfulCurve.ofAff_toAff, List.sum_cons]
    have := ih (s + p)
    simp only at this
    rw [this, add_assoc]

/-- the denominators of a list of points -/
def dens (l : List G) : List K := (Spec.pairs l).map (fun q => chooseAddOrDouble (toAff q.1) (toAff q.2))

theorem length_dens (l : List G) : (dens l : List K).length = l.length / 2 := by simp [dens, length_pairs]

theorem pairDenominators_map (l : List G) : (pairDenominators (l.map toAff) : Outcome ε (List K)) = .ok (dens l) := by
  rw [pairDenominators_eq, pairs_map, List.map_map]
  rfl

theorem dens_zero_iff {l : List G} (hl : ∀ P ∈ l, P ≠ 0) :
    (0 : K) ∈ dens l ↔ ∃ q ∈ Spec.pairs l, q.1 + q.2 = 0 := by
  unfold dens
  rw [List.mem_map]
  constructor
  · rintro ⟨q, hq, h⟩
    exact ⟨q, hq, (choose_eq_zero _ _ (hl _ (mem_pairs l q hq).1) (hl _ (mem_pairs l q hq).2)).1 h⟩
  · rintro ⟨q, hq, h⟩
    exact ⟨q, hq, (choose_eq_zero _ _ (hl _ (mem_pairs l q hq).1) (hl _ (mem_pairs l q hq).2)).2 h⟩

theorem pairAdd_map (l : List G) (hl : ∀ P ∈ l, P ≠ 0) (hc : ∀ q ∈ Spec.pairs l, q.1 + q.2 ≠ 0) (rest : List K) :
    ∃ out, (pairAdd (l.map toAff) ((dens l).map (·⁻¹) ++ rest) : Outcome ε (List (Aff K))) = .ok out ∧
      out.length = l.length ∧ out.take (l.length / 2) = (Spec.halve l).map toAff := by
  obtain ⟨out, h1, h2, h3⟩ := pairAdd_eq (ε := ε) (l.map toAff) ((dens l : List K).map (·⁻¹) ++ rest)
    (by simp only [List.length_map, List.length_append, length_dens]; omega)
  rw [List.length_map] at h2 h3
  refine ⟨out, h1, h2, ?_⟩
  rw [h3, pairs_map]
  unfold dens Spec.halve
  have hgen : ∀ ps : List (G × G), (∀ q ∈ ps, q.1 ≠ 0 ∧ q.2 ≠ 0 ∧ q.1 + q.2 ≠ 0) →
      List.zipWith (fun (q : Aff K × Aff K) inv => pointAddDouble q.1 q.2 inv) (ps.map (fun q => (toAff q.1, toAff q.2)))
        ((ps.map (fun q => chooseAddOrDouble (toAff q.1) (toAff q.2))).map (·⁻¹) ++ rest) =
        (ps.map (fun q => q.1 + q.2)).map toAff := by
    intro ps hps
    induction ps with
    | nil => simp
    | cons q ps ih =>
      simp only [List.map_cons, List.cons_append, List.zipWith_cons_cons]
      rw [ih (fun q hq => hps q (by simp [hq]))]
      obtain ⟨a, b, c⟩ := hps q (by simp)
      rw [pointAddDouble_eq _ _ a b c]
  exact hgen _ (fun q hq => ⟨hl _ (mem_pairs l q hq).1, hl _ (mem_pairs l q hq).2, hc q hq⟩)

/-! ### the single version -/

theorem batchAdditionLoop_eq (fuel : Nat) (l : List G) (s : G) (hl : ∀ P ∈ l, P ≠ 0) (hf : l.length < fuel) :
    (Spec.Clash Spec.bigSingle [l] → (batchAdditionLoop fuel (l.map toAff, s) : Outcome ε G) = .panic) ∧
    (¬ Spec.Clash Spec.bigSingle [l] → (batchAdditionLoop fuel (l.map toAff, s) : Outcome ε G) = .ok (s + l.sum)) := by
  induction fuel generalizing l s with
  | zero => omega
  | succ fuel ih =>
    unfold batchAdditionLoop
    simp only [List.length_map, BATCH_INVERSE_THRESHOLD]
    by_cases hbig : l.length > 16
    · rw [if_pos hbig]
      have hp := popOdd_eq (ε := ε) (K := K) (l, s)
      unfold affBucket at hp
      simp only at hp
      rw [hp, Outcome.ok_bind]
      set e := l.take (2 * (l.length / 2)) with he
      have hel : e.length = 2 * (l.length / 2) := by rw [he, List.length_take]; omega
      have hpe : Spec.pairs e = Spec.pairs l := pairs_take l
      have hhe : Spec.halve e = Spec.halve l := by unfold Spec.halve; rw [hpe]
      have hes : ∀ P ∈ e, P ≠ 0 := fun P hP => hl P (List.mem_of_mem_take hP)
      simp only
      rw [pairDenominators_map, Outcome.ok_bind]
      have hb : Spec.bigSingle [l] := by intro m hm; rw [List.mem_singleton.1 hm]; exact hbig
      by_cases hz : ∃ q ∈ Spec.pairs l, q.1 + q.2 = 0
      · have : (0 : K) ∈ dens e := (dens_zero_iff hes).2 (by rw [hpe]; exact hz)
        rw [batchInverse_panic _ this]
        refine ⟨fun _ => rfl, fun hn => ?_⟩
        obtain ⟨q, hq, h0⟩ := hz
        exact absurd (Spec.Clash.here _ hb l (by simp) q hq h0) hn
      · push Not at hz
        rw [batchInverse_ok _ (by
          intro x hx h0
          rw [h0] at hx
          obtain ⟨q, hq, h1⟩ := (dens_zero_iff hes).1 hx
          rw [hpe] at hq
          exact hz q hq h1), Outcome.ok_bind]
        obtain ⟨out, h1, h2, h3⟩ := pairAdd_map (ε := ε) e hes (by rw [hpe]; exact hz) ([] : List K)
        rw [List.append_nil] at h1
        rw [h1, Outcome.ok_bind, List.length_map, length_dens, h3, hhe]
        have hlen : (Spec.halve l).length = l.length / 2 := by unfold Spec.halve; rw [List.length_map, length_pairs]
        obtain ⟨i1, i2⟩ := ih (Spec.halve l) (s + oddRest l) (halve_ne_zero hz) (by rw [hlen]; omega)
        have hsum : s + oddRest l + (Spec.halve l).sum = s + l.sum := by rw [← sum_halve_odd l, add_assoc]
        rw [hsum] at i2
        refine ⟨fun hc => i1 ?_, fun hc => i2 (fun hc' => hc (Spec.Clash.later _ hb hc'))⟩
        cases hc with
        | here _ _ m hm q hq h0 =>
          rw [List.mem_singleton.1 hm] at hq
          exact absurd h0 (hz q hq)
        | later _ _ h => exact h
    · rw [if_neg hbig]
      refine ⟨?_, ?_⟩
      · intro hc
        exfalso
        cases hc with
        | here _ hb => exact hbig (hb l (by simp))
        | later _ hb => exact hbig (hb l (by simp))
      · intro _
        have := addRest_eq (K := K) (l, s)
        unfold affBucket at this
        rw [this]
        rfl

/-! ### the version for several lists -/

theorem computeThreshold_eq (bs : List (List G × G)) :
    computeThreshold (bs.map affBucket : List (List (Aff K) × G)) = ((bs.map Prod.fst).map (fun l => l.length / 2)).sum := by
  unfold computeThreshold
  rw [List.map_map, List.map_map]
  congr 1
  apply List.map_congr_left
  intro b _
  simp only [Function.comp_apply, affBucket, List.length_map]
  split_ifs <;> omega

theorem allDenominators_eq (ls : List (List G × G)) :
    (allDenominators (ls.map affBucket) : Outcome ε (List K)) = .ok ((ls.map (fun b => dens b.1)).flatten) := by
  unfold allDenominators
  rw [List.mapM_map, mapM_ok (g := fun b => (dens b.1 : List K))]
  · rfl
  · intro b _
    simp only [Function.comp_apply, affBucket, List.length_map]
    split_ifs with h
    · have : (dens b.1 : List K) = [] := by rw [← List.length_eq_zero_iff, length_dens]; omega
      rw [this]; rfl
    · exact pairDenominators_map b.1

theorem updateBuckets_fold (bs : List (List G × G)) (hev : ∀ b ∈ bs, b.1.length % 2 = 0) (hnz : ∀ b ∈ bs, ∀ P ∈ b.1, P ≠ 0)
    (hc : ∀ b ∈ bs, ∀ q ∈ Spec.pairs b.1, q.1 + q.2 ≠ 0) (D pre : List K)
    (hD : D = pre ++ ((bs.map (fun b => (dens b.1 : List K))).flatten).map (·⁻¹)) (acc : List (List (Aff K) × G)) :
    ∃ off, ((bs.map affBucket).foldlM (fun (st : List (List (Aff K) × G) × Nat) b =>
      if b.1.length < 2 then (pure (st.1 ++ [b], st.2) : Outcome ε _)
      else do
        let ds ← slice D st.2 D.length
        let points ← pairAdd b.1 ds
        let numPoints := points.length / 2
        pure (st.1 ++ [(points.take numPoints, b.2)], st.2 + numPoints)) (acc, pre.length)) =
      .ok (acc ++ bs.map (fun b => affBucket (Spec.halve b.1, b.2)), off) := by
  induction bs generalizing pre acc with
  | nil => exact ⟨pre.length, by simp⟩
  | cons b bs ih =>
    simp only [List.map_cons, List.foldlM_cons]
    have he := hev b (by simp)
    have hlb : (affBucket b : List (Aff K) × G).1.length = b.1.length := by simp [affBucket]
    rw [hlb]
    by_cases hlt : b.1.length < 2
    · rw [if_pos hlt]
      have h0 : b.1 = [] := by rw [← List.length_eq_zero_iff]; omega
      have hd0 : (dens b.1 : List K) = [] := by rw [h0]; rfl
      simp only [Outcome.pure_eq, Outcome.ok_bind]
      obtain ⟨off, ho⟩ := ih (fun b hb => hev b (by simp [hb])) (fun b hb => hnz b (by simp [hb]))
        (fun b hb => hc b (by simp [hb])) pre (by rw [hD]; simp [hd0]) (acc ++ [affBucket b])
      refine ⟨off, ?_⟩
      simp only [Outcome.pure_eq] at ho
      rw [ho]
      have : (affBucket (Spec.halve b.1, b.2) : List (Aff K) × G) = affBucket b := by
        unfold affBucket; rw [h0]; rfl
      rw [this]
      simp
    · rw [if_neg hlt]
      have hsl : (slice D pre.length D.length : Outcome ε (List K)) =
          .ok ((dens b.1).map (·⁻¹) ++ ((bs.map (fun b => (dens b.1 : List K))).flatten).map (·⁻¹)) := by
        unfold slice
        have hle : pre.length ≤ D.length := by rw [hD, List.length_append]; omega
        rw [if_pos ⟨hle, le_refl _⟩, List.take_of_length_le (by rw [List.length_drop]), hD, List.drop_left]
        simp
      rw [hsl]
      obtain ⟨out, h1, h2, h3⟩ := pairAdd_map (ε := ε) b.1 (hnz b (by simp)) (hc b (by simp))
        (((bs.map (fun b => (dens b.1 : List K))).flatten).map (·⁻¹))
      have hfst : (affBucket b : List (Aff K) × G).1 = b.1.map toAff := rfl
      simp only [Outcome.ok_bind, hfst, h1, Outcome.pure_eq, h2, h3]
      obtain ⟨off, ho⟩ := ih (fun b hb => hev b (by simp [hb])) (fun b hb => hnz b (by simp [hb]))
        (fun b hb => hc b (by simp [hb])) (pre ++ (dens b.1).map (·⁻¹)) (by rw [hD]; simp)
        (acc ++ [((Spec.halve b.1).map toAff, (affBucket b : List (Aff K) × G).2)])
      rw [List.length_append, List.length_map, length_dens] at ho
      refine ⟨off, ?_⟩
      simp only [Outcome.pure_eq] at ho
      rw [ho]
      simp [affBucket]

theorem updateBuckets_eq (bs : List (List G × G)) (hev : ∀ b ∈ bs, b.1.length % 2 = 0) (hnz : ∀ b ∈ bs, ∀ P ∈ b.1, P ≠ 0)
    (hc : ∀ b ∈ bs, ∀ q ∈ Spec.pairs b.1, q.1 + q.2 ≠ 0) :
    (updateBuckets (((bs.map (fun b => (dens b.1 : List K))).flatten).map (·⁻¹)) (bs.map affBucket) :
      Outcome ε (List (List (Aff K) × G))) = .ok (bs.map (fun b => affBucket (Spec.halve b.1, b.2))) := by
  unfold updateBuckets
  obtain ⟨off, h⟩ := updateBuckets_fold (ε := ε) bs hev hnz hc _ ([] : List K) (by rw [List.nil_append]) []
  rw [List.length_nil] at h
  rw [h]
  simp

theorem multiBatchLoop_eq (fuel : Nat) (bs : List (List G × G)) (hl : ∀ b ∈ bs, ∀ P ∈ b.1, P ≠ 0)
    (hf : ((bs.map Prod.fst).map List.length).sum < fuel) :
    (Spec.Clash Spec.bigMulti (bs.map Prod.fst) → (multiBatchLoop fuel (bs.map affBucket) : Outcome ε (List G)) = .panic) ∧
    (¬ Spec.Clash Spec.bigMulti (bs.map Prod.fst) → (multiBatchLoop fuel (bs.map affBucket) : Outcome ε (List G)) =
      .ok (bs.map (fun b => b.2 + b.1.sum))) := by
  induction fuel generalizing bs with
  | zero => omega
  | succ fuel ih =>
    unfold multiBatchLoop
    have hthr := computeThreshold_eq (K := K) bs
    by_cases hbig : ((bs.map Prod.fst).map (fun l => l.length / 2)).sum > 16
    · rw [if_pos (show computeThreshold (bs.map affBucket : List (List (Aff K) × G)) > BATCH_INVERSE_THRESHOLD by
        rw [hthr]; exact hbig)]
      have hb : Spec.bigMulti (bs.map Prod.fst) := hbig
      rw [List.mapM_map, mapM_ok (g := fun b => affBucket (b.1.take (2 * (b.1.length / 2)), b.2 + oddRest b.1))
        (fun b _ => popOdd_eq b), Outcome.ok_bind]
      set es : List (List G × G) := bs.map (fun b => (b.1.take (2 * (b.1.length / 2)), b.2 + oddRest b.1)) with hes
      have hmap : bs.map (fun b => (affBucket (b.1.take (2 * (b.1.length / 2)), b.2 + oddRest b.1) : List (Aff K) × G)) =
          es.map affBucket := by rw [hes, List.map_map]; rfl
      rw [hmap, allDenominators_eq, Outcome.ok_bind]
      have hev : ∀ b ∈ es, b.1.length % 2 = 0 := by
        intro b hb
        obtain ⟨b', -, rfl⟩ := List.mem_map.1 hb
        simp only [List.length_take]; omega
      have hnz : ∀ b ∈ es, ∀ P ∈ b.1, P ≠ 0 := by
        intro b hb P hP
        obtain ⟨b', hb', rfl⟩ := List.mem_map.1 hb
        exact hl b' hb' P (List.mem_of_mem_take hP)
      by_cases hz : ∃ b ∈ bs, ∃ q ∈ Spec.pairs b.1, q.1 + q.2 = 0
      · obtain ⟨b, hbm, q, hq, h0⟩ := hz
        have : (0 : K) ∈ (es.map (fun b => (dens b.1 : List K))).flatten := by
          rw [List.mem_flatten]
          refine ⟨dens (b.1.take (2 * (b.1.length / 2))), ?_, ?_⟩
          · rw [hes, List.map_map]
            exact List.mem_map.2 ⟨b, hbm, rfl⟩
          · rw [dens_zero_iff (fun P hP => hl b hbm P (List.mem_of_mem_take hP)), pairs_take]
            exact ⟨q, hq, h0⟩
        rw [batchInverse_panic _ this]
        exact ⟨fun _ => rfl, fun hn =>
          absurd (Spec.Clash.here _ hb b.1 (List.mem_map.2 ⟨b, hbm, rfl⟩) q hq h0) hn⟩
      · push Not at hz
        have hc : ∀ b ∈ es, ∀ q ∈ Spec.pairs b.1, q.1 + q.2 ≠ 0 := by
          intro b hb q hq
          obtain ⟨b', hb', rfl⟩ := List.mem_map.1 hb
          simp only [pairs_take] at hq
          exact hz b' hb' q hq
        rw [batchInverse_ok _ (by
          intro x hx h0
          rw [h0] at hx
          obtain ⟨d, hd, hx⟩ := List.mem_flatten.1 hx
          obtain ⟨b, hbm, rfl⟩ := List.mem_map.1 hd
          obtain ⟨q, hq, h1⟩ := (dens_zero_iff (hnz b hbm)).1 hx
          exact hc b hbm q hq h1), Outcome.ok_bind, updateBuckets_eq es hev hnz hc, Outcome.ok_bind]
        have hmap2 : es.map (fun b => (affBucket (Spec.halve b.1, b.2) : List (Aff K) × G)) =
            (bs.map (fun b => (Spec.halve b.1, b.2 + oddRest b.1))).map affBucket := by
          rw [hes, List.map_map, List.map_map]
          apply List.map_congr_left
          intro b _
          simp only [Function.comp_apply, Spec.halve, pairs_take]
        rw [hmap2]
        have hfst : (bs.map (fun b => (Spec.halve b.1, b.2 + oddRest b.1))).map Prod.fst = (bs.map Prod.fst).map Spec.halve := by
          rw [List.map_map, List.map_map]; rfl
        obtain ⟨i1, i2⟩ := ih (bs.map (fun b => (Spec.halve b.1, b.2 + oddRest b.1))) (by
            intro b hb
            obtain ⟨b', hb', rfl⟩ := List.mem_map.1 hb
            exact halve_ne_zero (hz b' hb')) (by
            rw [hfst, List.map_map]
            have h1 : ∀ ls : List (List G), (ls.map (List.length ∘ Spec.halve)).sum = (ls.map (fun l => l.length / 2)).sum := by
              intro ls
              congr 1
              apply List.map_congr_left
              intro l _
              simp [Spec.halve, length_pairs]
            have h2 : ∀ ls : List (List G), 2 * (ls.map (fun l => l.length / 2)).sum ≤ (ls.map List.length).sum := by
              intro ls
              induction ls with
              | nil => simp
              | cons a ls ih => simp only [List.map_cons, List.sum_cons]; omega
            rw [h1]
            have := h2 (bs.map Prod.fst)
            omega)
        rw [hfst] at i1 i2
        have hsums : (bs.map (fun b => (Spec.halve b.1, b.2 + oddRest b.1))).map (fun b => b.2 + b.1.sum) =
            bs.map (fun b => b.2 + b.1.sum) := by
          rw [List.map_map]
          apply List.map_congr_left
          intro b _
          simp only [Function.comp_apply]
          rw [add_assoc, sum_halve_odd]
        rw [hsums] at i2
        refine ⟨fun hcl => i1 ?_, fun hcl => i2 (fun hc' => hcl (Spec.Clash.later _ hb hc'))⟩
        cases hcl with
        | here _ _ m hm q hq h0 =>
          obtain ⟨b, hbm, rfl⟩ := List.mem_map.1 hm
          exact absurd h0 (hz b hbm q hq)
        | later _ _ h => exact h
    · rw [if_neg (show ¬ computeThreshold (bs.map affBucket : List (List (Aff K) × G)) > BATCH_INVERSE_THRESHOLD by
        rw [hthr]; exact hbig)]
      refine ⟨?_, ?_⟩
      · intro hc
        exfalso
        cases hc with
        | here _ hb => exact hbig hb
        | later _ hb => exact hbig hb
      · intro _
        rw [List.map_map]
        simp only [Outcome.pure_eq, Outcome.ok.injEq]
        apply List.map_congr_left
        intro b _
        exact addRest_eq b

theorem multiBatchAddition_eq (ls : List (List G)) (hl : ∀ l ∈ ls, ∀ P ∈ l, P ≠ 0) :
    (Spec.Clash Spec.bigMulti ls → (multiBatchAddition (ls.map (fun l => l.map toAff)) : Outcome ε (List G)) = .panic) ∧
    (¬ Spec.Clash Spec.bigMulti ls →
      (multiBatchAddition (ls.map (fun l => l.map toAff)) : Outcome ε (List G)) = .ok (ls.map List.sum)) := by
  have h := multiBatchLoop_eq (ε := ε) (K := K) ((ls.map List.length).sum + 1) (ls.map (fun l => (l, (0 : G)))) (by
    intro b hb
    obtain ⟨l, hlm, rfl⟩ := List.mem_map.1 hb
    exact hl l hlm) (by
    have : (ls.map (fun l => (l, (0 : G)))).map Prod.fst = ls := by rw [List.map_map]; simp [Function.comp_def]
    rw [this]; omega)
  have e1 : (ls.map (fun l => (l, (0 : G)))).map Prod.fst = ls := by rw [List.map_map]; simp [Function.comp_def]
  have e2 : (ls.map (fun l => (l, (0 : G)))).map (fun b => b.2 + b.1.sum) = ls.map List.sum := by
    rw [List.map_map]
    apply List.map_congr_left
    intro l _
    simp
  rw [e1, e2] at h
  unfold multiBatchAddition
  have e3 : (ls.map (fun l => l.map (toAff : G → Aff K))).map List.length = ls.map List.length := by
    rw [List.map_map]
    apply List.map_congr_left
    intro l _
    simp
  have e4 : (ls.map (fun l => l.map (toAff : G → Aff K))).map (fun p => (p, (0 : G))) =
      (ls.map (fun l => (l, (0 : G)))).map affBucket := by
    rw [List.map_map, List.map_map]
    rfl
  rw [e3, e4]
  exact h

theorem batchAddition_eq (l : List G) (hl : ∀ P ∈ l, P ≠ 0) :
    (Spec.Clash Spec.bigSingle [l] → (batchAddition (l.map toAff) : Outcome ε G) = .panic) ∧
    (¬ Spec.Clash Spec.bigSingle [l] → (batchAddition (l.map toAff) : Outcome ε G) = .ok l.sum) := by
  unfold batchAddition
  rw [List.isEmpty_map]
  by_cases he : l = []
  · subst he
    refine ⟨?_, fun _ => rfl⟩
    intro hc
    cases hc with
    | here _ hb => have := hb [] (by simp); simp at this
    | later _ hb => have := hb [] (by simp); simp at this
  · rw [if_neg (by simpa using he), List.length_map]
    have := batchAdditionLoop_eq (ε := ε) (K := K) (l.length + 1) l 0 hl (by omega)
    rw [zero_add] at this
    exact this

end
/-! ### equal pairs -/
section
variable {ε K G : Type} [Field K] [DecidableEq K] [AddCommGroup G] [Curve K G]

theorem pairAdd_two (a b : Aff K) (i : K) (l : List K) :
    (pairAdd [a, b] (i :: l) : Outcome ε (List (Aff K))) = .ok [pointAddDouble a b i, b] := by
  unfold pairAdd
  rw [stepBy_two]
  simp [idx, setIdx, expect]

theorem updateBuckets_replicate (a b : Aff K) (s : G) (i : K) (n : Nat) :
    (updateBuckets (List.replicate n i) (List.replicate n ([a, b], s)) : Outcome ε (List (List (Aff K) × G))) =
      .ok (List.replicate n ([pointAddDouble a b i], s)) := by
  have h : ∀ m ≤ n, ((List.replicate m ([a, b], s)).foldlM (fun (st : List (List (Aff K) × G) × Nat) b =>
      if b.1.length < 2 then (pure (st.1 ++ [b], st.2) : Outcome ε _)
      else do
        let ds ← slice (List.replicate n i) st.2 (List.replicate n i).length
        let points ← pairAdd b.1 ds
        let numPoints := points.length / 2
        pure (st.1 ++ [(points.take numPoints, b.2)], st.2 + numPoints)) ([], 0)) =
      .ok (List.replicate m ([pointAddDouble a b i], s), m) := by
    intro m
    induction m with
    | zero => intro _; rfl
    | succ m ih =>
      intro hm
      rw [List.replicate_succ', List.foldlM_append, ih (by omega), Outcome.ok_bind, List.foldlM_cons]
      simp only [List.foldlM_nil]
      have hs : (slice (List.replicate n i) m (List.replicate n i).length : Outcome ε (List K)) =
          .ok (i :: List.replicate (n - m - 1) i) := by
        unfold slice
        rw [if_pos ⟨by simp; omega, le_rfl⟩]
        simp only [List.drop_replicate, List.length_replicate, List.take_replicate, Outcome.ok.injEq]
        rw [← List.replicate_succ]
        congr 1; omega
      simp only [List.length_cons, List.length_nil]
      rw [if_neg (by omega), hs, Outcome.ok_bind, pairAdd_two, Outcome.ok_bind]
      rw [List.replicate_succ' (n := m)]
      simp
  unfold updateBuckets
  rw [h n le_rfl]
  rfl

theorem multiBatchAddition_replicate (P Q : Aff K)
    (h : chooseAddOrDouble P Q ≠ 0) (n : Nat) (hn : 16 < n) :
    (multiBatchAddition (List.replicate n [P, Q]) : Outcome ε (List G)) =
      .ok (List.replicate n (ofAff (pointAddDouble P Q (chooseAddOrDouble P Q)⁻¹))) := by
  unfold multiBatchAddition
  obtain ⟨f, hf⟩ : ∃ f, ((List.replicate n [P, Q]).map List.length).sum = f + 1 :=
    ⟨2 * n - 1, by simp; omega⟩
  rw [hf, List.map_replicate, multiBatchLoop, if_pos (show computeThreshold _ > BATCH_INVERSE_THRESHOLD by
    simp [computeThreshold, BATCH_INVERSE_THRESHOLD]; exact hn)]
  have h1 : ((List.replicate n ([P, Q], (0 : G))).mapM popOdd : Outcome ε (List (List (Aff K) × G))) =
      .ok (List.replicate n ([P, Q], (0 : G))) := by
    rw [mapM_ok (g := id) (by intro b hb; rw [List.eq_of_mem_replicate hb]; simp [popOdd]), List.map_id]
  rw [h1, Outcome.ok_bind]
  have h2 : (allDenominators (List.replicate n ([P, Q], (0 : G))) : Outcome ε (List K)) =
      .ok (List.replicate n (chooseAddOrDouble P Q)) := by
    unfold allDenominators
    rw [mapM_ok (g := fun _ => [chooseAddOrDouble P Q]) (by intro b hb; rw [List.eq_of_mem_replicate hb, if_neg (by simp), pairDenominators_eq]; rfl), Outcome.ok_bind]
    simp [List.map_replicate]
  rw [h2, Outcome.ok_bind, batchInverse_ok _ (by intro x hx; rw [List.eq_of_mem_replicate hx]; exact h), Outcome.ok_bind,
    List.map_replicate, updateBuckets_replicate, Outcome.ok_bind, multiBatchLoop, if_neg (by simp [computeThreshold])]
  simp [addRest]

/-- The formulas applied to the identity, represented by `(0, 0)`, and another point do not give that point. -/
theorem identity_pair_wrong (h2 : (2 : K) ≠ 0) (hof : ∀ a : Aff K, (ofAff a : G) = 0 ∨ toAff (ofAff a : G) = a)
    (P : G) (hP : P ≠ 0) (hx : (toAff P).x ≠ 0) :
    chooseAddOrDouble (⟨0, 0⟩ : Aff K) (toAff P) ≠ 0 ∧
    (ofAff (pointAddDouble ⟨0, 0⟩ (toAff P) (chooseAddOrDouble (⟨0, 0⟩ : Aff K) (toAff P))⁻¹) : G) ≠ P := by
  have hne : (⟨0, 0⟩ : Aff K) ≠ toAff P := fun h => hx (by rw [← h])
  have hc : chooseAddOrDouble (⟨0, 0⟩ : Aff K) (toAff P) = (toAff P).x := by
    unfold chooseAddOrDouble; rw [if_neg hne, sub_zero]
  rw [hc]
  refine ⟨hx, ?_⟩
  intro h
  rcases hof (pointAddDouble ⟨0, 0⟩ (toAff P) (toAff P).x⁻¹) with h0 | h0
  · rw [h] at h0; exact hP h0
  · rw [h] at h0
    unfold pointAddDouble at h0
    rw [if_neg hne] at h0
    generalize toAff P = A at *
    obtain ⟨x, y⟩ := A
    simp only [Aff.mk.injEq] at h0 hx
    obtain ⟨e1, e2⟩ := h0
    rw [← e1] at e2
    have e3 : y * 2 = 0 := by
      field_simp at e2
      exact mul_right_cancel₀ hx (by linear_combination e2)
    have hy : y = 0 := (mul_eq_zero.1 e3).resolve_right h2
    rw [hy] at e1
    have e4 : x * 2 = 0 := by linear_combination e1
    exact hx ((mul_eq_zero.1 e4).resolve_right h2)

end

end Verif
