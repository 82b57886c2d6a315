import Verif.Props.Toy
import Verif.Lemmas.Msm
import Verif.Lemmas.CurveInstance

set_option linter.unusedSectionVars false

/-! C22 (signed windows), C23 (batch addition), C24 (fixed-base multi-scalar multiplication). -/
namespace Verif
open Finset

/-! ### C22 -/

/-- C22: for every width from 1 to 24 the digits of all `255/w + 1` windows exist, fit the table and recompose to the scalar. -/
theorem C22_recoding {ε : Type} (w : Nat) (hw : 1 ≤ w) (hw' : w ≤ 24) (el : List UInt8) (h : Spec.leValue el < 2 ^ 255) :
    ∃ d : Nat → Int, (∀ i < 255 / w + 1, (getBoothIndex i w el : Outcome ε Int) = .ok (d i)) ∧
      (∀ i < 255 / w + 1, (d i).natAbs ≤ 2 ^ (w - 1)) ∧
      ∑ i ∈ range (255 / w + 1), d i * 2 ^ (w * i) = (Spec.leValue el : Int) := by
  refine ⟨boothDigit (leVal el) w, fun i _ => getBoothIndex_eq i w el hw hw', fun i _ => boothDigit_bound _ _ _ hw, ?_⟩
  rw [leVal_eq]
  exact boothDigit_total _ w hw h

/-- 2^224, little endian -/
def twoPow224 : List UInt8 := List.replicate 28 0 ++ [1, 0, 0, 0]

/-- C22: the bound 24 is sharp. For width 25 the digits of `2^224` recompose to another number. -/
theorem C22_width_25 {ε : Type} : ∃ d : Nat → Int,
    (∀ i < 255 / 25 + 1, (getBoothIndex i 25 twoPow224 : Outcome ε Int) = .ok (d i)) ∧
    ∑ i ∈ range (255 / 25 + 1), d i * 2 ^ (25 * i) ≠ (Spec.leValue twoPow224 : Int) := by
  refine ⟨fun i => if i = 9 then 1 else 0, ?_, ?_⟩
  · intro i hi
    have h9 : i < 11 := by omega
    interval_cases i <;> rfl
  · decide +kernel

/-- Window size 31 or more always panics (shift out of range). -/
theorem C22_width_31 {ε : Type} (i w : Nat) (hw : 31 ≤ w) (el : List UInt8) :
    (getBoothIndex i w el : Outcome ε Int) = .panic := by
  unfold getBoothIndex
  rw [assertP_false (by omega)]
  rfl

/-! ### C23 -/
section
variable {ε K G : Type} [Field K] [DecidableEq K] [AddCommGroup G] [Curve K G] [LawfulCurve K G]

/-- C23, many lists: without identity points the result is the list of sums, unless two neighbours in a pairing tree are
opposite, in which case the code panics. -/
theorem C23_multi (ls : List (List G)) (hl : ∀ l ∈ ls, ∀ P ∈ l, P ≠ 0) :
    (Spec.Clash Spec.bigMulti ls → (multiBatchAddition (ls.map (fun l => l.map toAff)) : Outcome ε (List G)) = .panic) ∧
    (¬ Spec.Clash Spec.bigMulti ls →
      (multiBatchAddition (ls.map (fun l => l.map toAff)) : Outcome ε (List G)) = .ok (ls.map List.sum)) :=
  multiBatchAddition_eq ls hl

/-- C23, one list. -/
theorem C23_single (l : List G) (hl : ∀ P ∈ l, P ≠ 0) :
    (Spec.Clash Spec.bigSingle [l] → (batchAddition (l.map toAff) : Outcome ε G) = .panic) ∧
    (¬ Spec.Clash Spec.bigSingle [l] → (batchAddition (l.map toAff) : Outcome ε G) = .ok l.sum) :=
  batchAddition_eq l hl

/-- C23: never a wrong point. -/
theorem C23_never_wrong (l : List G) (hl : ∀ P ∈ l, P ≠ 0) (s : G) (h : (batchAddition (l.map toAff) : Outcome ε G) = .ok s) :
    s = l.sum := by
  by_cases hc : Spec.Clash Spec.bigSingle [l]
  · rw [(C23_single l hl).1 hc] at h; cases h
  · rw [(C23_single l hl).2 hc] at h; exact (Outcome.ok.inj h).symm

/-- C23: short inputs never clash, so they are summed exactly; this includes the empty list. -/
theorem C23_short (l : List G) (hl : ∀ P ∈ l, P ≠ 0) (h16 : l.length ≤ 16) :
    (batchAddition (l.map toAff) : Outcome ε G) = .ok l.sum := by
  refine (C23_single l hl).2 ?_
  intro hc
  have : Spec.bigSingle [l] := by cases hc <;> assumption
  have := this l (by simp)
  omega

/-- C23: a list of more than 16 points whose first two are opposite makes the code panic. -/
theorem C23_panics (P : G) (l : List G) (hP : P ≠ 0) (hl : ∀ Q ∈ l, Q ≠ 0) (h15 : 15 ≤ l.length) :
    (batchAddition ((P :: -P :: l).map toAff) : Outcome ε G) = .panic := by
  refine (C23_single (P :: -P :: l) ?_).1 (.here _ ?_ _ (List.mem_singleton.2 rfl) (P, -P) (by simp [Spec.pairs]) (add_neg_cancel P))
  · intro Q hQ
    simp only [List.mem_cons] at hQ
    rcases hQ with rfl | rfl | hQ
    · exact hP
    · exact neg_ne_zero.2 hP
    · exact hl Q hQ
  · intro m hm
    rw [List.mem_singleton.1 hm]
    simp only [List.length_cons]
    omega
end

/-- C23 is applicable to the points of `y^2 = x^3 + b` over every field, with Mathlib's group law. -/
theorem C23_weierstrass {ε K : Type} [Field K] [DecidableEq K] (b : K) (l : List (CurvePoint b)) (hl : ∀ P ∈ l, P ≠ 0)
    (s : CurvePoint b) (h : (batchAddition (l.map toAff) : Outcome ε (CurvePoint b)) = .ok s) : s = l.sum :=
  C23_never_wrong l hl s h

/-- coordinates of `CurvePoint` are faithful -/
theorem ofAff_curvePoint {K : Type} [Field K] [DecidableEq K] (b : K) (a : Aff K) :
    (ofAff a : CurvePoint b) = 0 ∨ toAff (ofAff a : CurvePoint b) = a := by
  by_cases h : (shortCurve b).Nonsingular a.x a.y
  · right
    have : (ofAff a : CurvePoint b) = .some a.x a.y h := dif_pos h
    rw [this, toAff_some]
  · left; exact dif_neg h

/-- coordinates of `Torsion` are faithful -/
theorem ofAff_torsion {K : Type} [Field K] [DecidableEq K] (b : K) (a : Aff K) :
    (ofAff a : Torsion b) = 0 ∨ toAff (ofAff a : Torsion b) = a := by
  by_cases h : (ofAff a : CurvePoint b) ∈ (nsmulAddMonoidHom frOrder : CurvePoint b →+ CurvePoint b).ker
  · have : (ofAff a : Torsion b) = ⟨ofAff a, h⟩ := dif_pos h
    rw [this]
    rcases ofAff_curvePoint b a with h0 | h0
    · left; exact Subtype.ext h0
    · right; exact h0
  · left; exact dif_neg h

/-- C23 fails with identity points among the inputs, on every curve `y^2 = x^3 + b` over every field of odd characteristic: more
than 16 lists `[0, P]` all get a sum different from `P`. -/
theorem C23_identity_wrong {ε K : Type} [Field K] [DecidableEq K] (h2 : (2 : K) ≠ 0) (b : K) (P : CurvePoint b) (hP : P ≠ 0)
    (hx : (toAff P).x ≠ 0) (n : Nat) (hn : 16 < n) :
    ∃ R, (multiBatchAddition ((List.replicate n [0, P]).map (fun l => l.map toAff)) : Outcome ε (List (CurvePoint b))) =
      .ok (List.replicate n R) ∧ R ≠ [0, P].sum := by
  obtain ⟨h3, h4⟩ := identity_pair_wrong h2 (ofAff_curvePoint b) P hP hx
  refine ⟨_, ?_, by simpa using h4⟩
  rw [List.map_replicate]
  exact multiBatchAddition_replicate _ _ h3 n hn

/-! ### C24 -/
section
variable {ε K G : Type} [Field K] [DecidableEq K] [AddCommGroup G] [Module Fr G] [DecidableEq G] [Curve K G]

/-- C24, no precomputation: the plain sum over the common length. -/
theorem C24_no_precomp (gens : List G) (scalars : List Fr) :
    (do let m ← FixedBaseMSM.new gens .no
        m.msm scalars : Outcome ε G) = .ok ((gens.zip scalars).map (fun q => q.2 • q.1)).sum := by
  simp only [FixedBaseMSM.new, Outcome.pure_eq, Outcome.ok_bind, FixedBaseMSM.msm, lincomb_eq]
  rfl

/-- The non-zero multiples that enter window `i` for signed digits `d`. -/
def windowOf (d : Fr → Nat → Int) (gens : List G) (scalars : List Fr) (i : Nat) : List G :=
  (gens.zip scalars).filterMap (fun q => if d q.2 i = 0 then none else some (d q.2 i • q.1))

variable [LawfulCurve K G]

/-- C24, precomputation: there are signed digits of all scalars such that the result is the plain sum unless the pairing trees of
the windows of these digits have opposite neighbours, in which case the code panics. -/
theorem C24_precomp (w : Nat) (hw : 1 ≤ w) (hw' : w ≤ 24) (gens : List G) (hg : ∀ P ∈ gens, P ≠ 0) :
    ∃ m : FixedBaseMSM K G, (FixedBaseMSM.new gens (.yes w) : Outcome ε (FixedBaseMSM K G)) = .ok m ∧
    ∃ d : Fr → Nat → Int, (∀ s, ∑ i ∈ range (255 / w + 1), d s i * 2 ^ (w * i) = (s.val : Int)) ∧
      (∀ s i, (d s i).natAbs ≤ 2 ^ (w - 1)) ∧
      ∀ scalars : List Fr, scalars.length ≤ gens.length →
        (Spec.Clash Spec.bigMulti ((List.range (255 / w + 1)).map (windowOf d gens scalars)) →
          (m.msm scalars : Outcome ε G) = .panic) ∧
        (¬ Spec.Clash Spec.bigMulti ((List.range (255 / w + 1)).map (windowOf d gens scalars)) →
          (m.msm scalars : Outcome ε G) = .ok ((gens.zip scalars).map (fun q => q.2 • q.1)).sum) := by
  refine ⟨.precomp (tableOf w gens) w, ?_, fun s i => boothDigit s.val w i, fun s => boothDigit_total _ w hw (scalar_lt s),
    fun s i => boothDigit_bound _ _ _ hw, fun scalars hl => precompWindowMsm_eq w hw hw' gens scalars hl hg⟩
  simp only [FixedBaseMSM.new, precompWindowNew_eq w hw, Outcome.ok_bind, Outcome.pure_eq]

/-- C24: never a wrong point. -/
theorem C24_never_wrong (w : Nat) (hw : 1 ≤ w) (hw' : w ≤ 24) (gens : List G) (hg : ∀ P ∈ gens, P ≠ 0) (scalars : List Fr) (r : G)
    (h : (do let m ← FixedBaseMSM.new gens (.yes w)
             m.msm scalars : Outcome ε G) = .ok r) :
    scalars.length ≤ gens.length ∧ r = ((gens.zip scalars).map (fun q => q.2 • q.1)).sum := by
  have hnew : (FixedBaseMSM.new gens (.yes w) : Outcome ε (FixedBaseMSM K G)) = .ok (.precomp (tableOf w gens) w) := by
    simp only [FixedBaseMSM.new, precompWindowNew_eq w hw, Outcome.ok_bind, Outcome.pure_eq]
  rw [hnew, Outcome.ok_bind] at h
  change precompWindowMsm (tableOf w gens) w scalars = .ok r at h
  by_cases hl : scalars.length ≤ gens.length
  · refine ⟨hl, ?_⟩
    obtain ⟨h1, h2⟩ := precompWindowMsm_eq (ε := ε) (K := K) w hw hw' gens scalars hl hg
    by_cases hc : Spec.Clash Spec.bigMulti ((List.range (255 / w + 1)).map (fun i => windowPts w i gens scalars))
    · rw [h1 hc] at h; cases h
    · rw [h2 hc] at h; exact (Outcome.ok.inj h).symm
  · rw [precompWindowMsm_too_many w hw hw' gens scalars (by omega)] at h
    cases h

/-- C24: with a surplus of scalars the precomputed version panics, while the plain one ignores the surplus. -/
theorem C24_too_many (w : Nat) (hw : 1 ≤ w) (hw' : w ≤ 24) (gens : List G) (scalars : List Fr) (hl : gens.length < scalars.length) :
    (do let m ← FixedBaseMSM.new gens (.yes w)
        m.msm scalars : Outcome ε G) = .panic := by
  simp only [FixedBaseMSM.new, precompWindowNew_eq w hw, Outcome.ok_bind, Outcome.pure_eq]
  exact precompWindowMsm_too_many w hw hw' gens scalars hl

/-- C24: if the number of windows times half the number of scalars is at most 16, the result is exact unconditionally. This is
so for one generator and every width, and for three generators and width 24. -/
theorem C24_few (w : Nat) (hw : 1 ≤ w) (hw' : w ≤ 24) (gens : List G) (hg : ∀ P ∈ gens, P ≠ 0) (scalars : List Fr)
    (hl : scalars.length ≤ gens.length) (h16 : (255 / w + 1) * (scalars.length / 2) ≤ 16) :
    (do let m ← FixedBaseMSM.new gens (.yes w)
        m.msm scalars : Outcome ε G) = .ok ((gens.zip scalars).map (fun q => q.2 • q.1)).sum := by
  obtain ⟨m, hm, d, -, -, h⟩ := C24_precomp (ε := ε) (K := K) w hw hw' gens hg
  rw [hm, Outcome.ok_bind, (h scalars hl).2]
  intro hc
  have hb : Spec.bigMulti ((List.range (255 / w + 1)).map (windowOf d gens scalars)) := by cases hc <;> assumption
  unfold Spec.bigMulti at hb
  rw [List.map_map] at hb
  have : ((List.range (255 / w + 1)).map ((fun l : List G => l.length / 2) ∘ windowOf d gens scalars)).sum ≤
      (255 / w + 1) * (scalars.length / 2) := by
    refine le_trans (List.sum_le_card_nsmul _ (scalars.length / 2) ?_) (by simp)
    intro x hx
    obtain ⟨i, -, rfl⟩ := List.mem_map.1 hx
    have : (windowOf d gens scalars i).length ≤ scalars.length := by
      unfold windowOf
      refine le_trans (List.length_filterMap_le _ _) ?_
      rw [List.length_zip]
      exact Nat.min_le_right _ _
    simp only [Function.comp_apply]
    omega
  omega

/-- width 0 panics as soon as there is a generator -/
theorem C24_width_0 (P : G) (gens : List G) :
    (FixedBaseMSM.new (P :: gens) (.yes 0) : Outcome ε (FixedBaseMSM K G)) = .panic := by
  simp only [FixedBaseMSM.new, precompWindowNew, List.mapM_cons, precomputePoints]
  rfl
end

/-- the scalar with all 32 bytes equal to 1 -/
def ones : Fr := (((256 ^ 32 - 1) / 255 : Nat) : Fr)

theorem ones_val : ones.val = (256 ^ 32 - 1) / 255 := by
  unfold ones
  rw [ZMod.val_natCast]
  exact Nat.mod_eq_of_lt (by decide +kernel)

theorem ones_digit : ∀ i < 32, boothDigit ((256 ^ 32 - 1) / 255) 8 i = 1 := by decide +kernel

theorem ones_sum : ∑ i ∈ range 32, 2 ^ (8 * i) = (256 ^ 32 - 1) / 255 := by decide +kernel

theorem replicate_total {G : Type} [AddCommGroup G] [Module Fr G] (n : Nat) (R : G) :
    ∑ i ∈ range n, 2 ^ (8 * i) • (List.replicate n R).getD i 0 = ((∑ i ∈ range n, 2 ^ (8 * i) : Nat) : Fr) • R := by
  rw [Nat.cast_sum, Finset.sum_smul]
  apply Finset.sum_congr rfl
  intro i hi
  rw [List.getD_replicate _ (Finset.mem_range.1 hi), Nat.cast_smul_eq_nsmul]

theorem ones_ne : ones ≠ 0 := by
  intro h
  have := ones_val
  rw [h, ZMod.val_zero] at this
  revert this
  decide +kernel

/-- C24 fails with an identity generator, on the subgroup of order `r` of every curve `y^2 = x^3 + b` over every field of odd
characteristic: with generators `[0, P]` and width 8 (the width used by the bindings) there is a wrong result. -/
theorem C24_identity_wrong {ε K : Type} [Field K] [DecidableEq K] (h2 : (2 : K) ≠ 0) (b : K) (P : Torsion b)
    (hP : P ≠ 0) (hx : (toAff P : Aff K).x ≠ 0) :
    ∃ r, (do let m ← FixedBaseMSM.new [0, P] (.yes 8)
             m.msm [ones, ones] : Outcome ε (Torsion b)) = .ok r ∧ 
      r ≠ (([0, P].zip [ones, ones]).map (fun q => q.2 • q.1)).sum := by
  obtain ⟨h3, h4⟩ := identity_pair_wrong h2 (ofAff_torsion b) P hP hx
  set R : Torsion b := ofAff (pointAddDouble ⟨0, 0⟩ (toAff P) (chooseAddOrDouble (⟨0, 0⟩ : Aff K) (toAff P))⁻¹) with hR
  refine ⟨ones • R, ?_, ?_⟩
  · simp only [FixedBaseMSM.new, precompWindowNew_eq 8 (by norm_num), Outcome.ok_bind, Outcome.pure_eq, FixedBaseMSM.msm]
    unfold precompWindowMsm
    rw [assertP_true (by omega), Outcome.ok_bind]
    simp only
    rw [windowsOfPoints_eq 8 (by norm_num) (by norm_num) [0, P] [ones, ones] le_rfl, Outcome.ok_bind]
    have hw : (List.range (255 / 8 + 1)).map (fun i => windowPts 8 i [0, P] [ones, ones]) = List.replicate 32 [0, P] := by
      rw [List.eq_replicate_iff]
      refine ⟨by simp, ?_⟩
      intro l hl
      obtain ⟨i, hi, rfl⟩ := List.mem_map.1 hl
      have hi : i < 32 := List.mem_range.1 hi
      have hd : boothDigit ones.val 8 i = 1 := by rw [ones_val]; exact ones_digit i hi
      unfold windowPts
      simp only [List.zip_cons_cons, List.zip_nil_right]
      rw [List.filterMap_cons_some (b := 0) (by simp [hd]), List.filterMap_cons_some (b := P) (by simp [hd]), List.filterMap_nil]
    rw [hw, List.map_replicate]
    have := multiBatchAddition_replicate (ε := ε) (G := Torsion b) _ _ h3 32 (by norm_num)
    change multiBatchAddition (List.replicate 32 [(toAff (0 : Torsion b) : Aff K), toAff P]) = _ at this
    change (multiBatchAddition (List.replicate 32 [(toAff (0 : Torsion b) : Aff K), toAff P]) >>= _) = _
    rw [this, Outcome.ok_bind, accumulateWindows_eq 8 _ (by simp), List.length_replicate, replicate_total 32, ones_sum]
    rfl
  · intro h
    simp at h
    exact h4 (smul_right_injective _ ones_ne h)

/-! Non-vacuity, on the cuspidal cubic and, for the counterexamples, on `y^2 = x^3 + 1` over the rationals. -/
section
open Toy

theorem Toy.not_clash : ¬ Spec.Clash Spec.bigSingle [List.replicate 18 (1 : Fr)] := by
  intro h
  cases h with
  | here _ hb l hl q hq h0 =>
    rw [List.mem_singleton.1 hl] at hq
    have h1 := mem_pairs _ _ hq
    rw [List.eq_of_mem_replicate h1.1, List.eq_of_mem_replicate h1.2] at h0
    revert h0
    decide +kernel
  | later _ hb0 h =>
    have hb : Spec.bigSingle ([List.replicate 18 (1 : Fr)].map Spec.halve) := by cases h <;> assumption
    have := hb (Spec.halve (List.replicate 18 (1 : Fr))) (by simp)
    simp [Spec.halve, length_pairs] at this

/-- C23 with one level of pairing: 18 times the point with parameter 1 -/
example : (batchAddition ((List.replicate 18 (1 : Fr)).map toAff) : Outcome Error Fr) = .ok 18 := by
  rw [(C23_single _ (by intro P hP; rw [List.eq_of_mem_replicate hP]; exact one_ne_zero)).2 Toy.not_clash]
  decide +kernel

/-- C24: `5 * 2 + 7 * 3 + 1 * 4` with precomputation of width 24 -/
example : (do let m ← FixedBaseMSM.new [(2 : Fr), 3, 4] (.yes 24)
              m.msm [5, 7, 1] : Outcome Error Fr) = .ok 35 := by
  rw [C24_few 24 (by norm_num) (by norm_num) [(2 : Fr), 3, 4] (by
    intro P hP
    simp only [List.mem_cons, List.not_mem_nil, or_false] at hP
    rcases hP with rfl | rfl | rfl <;> decide +kernel) [5, 7, 1] (by simp) (by simp)]
  simp
  decide +kernel

/-- the point (2, 3) of `y^2 = x^3 + 1` over the rationals -/
noncomputable def Toy.rationalPoint : CurvePoint (1 : ℚ) := .some 2 3 (by
  rw [WeierstrassCurve.Affine.nonsingular_iff, WeierstrassCurve.Affine.equation_iff]
  simp [shortCurve]
  norm_num)

/-- it meets the hypotheses of `C23_identity_wrong` -/
example : ∃ R, (multiBatchAddition ((List.replicate 17 [0, rationalPoint]).map (fun l => l.map toAff)) :
    Outcome Error (List (CurvePoint (1 : ℚ)))) = .ok (List.replicate 17 R) ∧ R ≠ [0, rationalPoint].sum :=
  C23_identity_wrong (by norm_num) 1 _ (WeierstrassCurve.Affine.Point.some_ne_zero _)
    (by rw [toAff_some]; norm_num) 17 (by norm_num)

/-- A map that keeps coordinates is a homomorphism. -/
theorem additive_of_toAff {K G H : Type} [Field K] [DecidableEq K] [AddCommGroup G] [Curve K G] [LawfulCurve K G]
    [AddCommGroup H] [Curve K H] [LawfulCurve K H] (φ : G → H) (h : ∀ P, toAff (φ P) = toAff P) (P Q : G) :
    φ (P + Q) = φ P + φ Q := by
  have h0 : φ 0 = 0 := toAff_injective (by rw [h, LawfulCurve.toAff_zero, LawfulCurve.toAff_zero])
  have hne : ∀ P, P ≠ 0 → φ P ≠ 0 := by
    intro P hP he
    apply hP
    apply toAff_injective
    rw [← h P, he, LawfulCurve.toAff_zero, LawfulCurve.toAff_zero]
  by_cases hP : P = 0
  · rw [hP, h0, zero_add, zero_add]
  by_cases hQ : Q = 0
  · rw [hQ, h0, add_zero, add_zero]
  by_cases hx : (toAff P).x = (toAff Q).x
  · rcases LawfulCurve.opposite P Q hP hQ hx with rfl | hPQ
    · by_cases hy : 2 * (toAff P).y = 0
      · rw [LawfulCurve.two_torsion P hP hy, h0, LawfulCurve.two_torsion (φ P) (hne P hP) (by rw [h]; exact hy)]
      · apply toAff_injective
        rw [h, LawfulCurve.tangent P hP hy _ _ rfl rfl,
          LawfulCurve.tangent (φ P) (hne P hP) (by rw [h]; exact hy) _ _ rfl rfl, h]
    · have : φ Q = -φ P := by
        apply toAff_injective
        rw [h, LawfulCurve.toAff_neg, h, ← LawfulCurve.toAff_neg, eq_neg_of_add_eq_zero_right hPQ]
      rw [hPQ, h0, this, add_neg_cancel]
  · apply toAff_injective
    rw [h, LawfulCurve.chord P Q hP hQ hx _ _ rfl rfl,
      LawfulCurve.chord (φ P) (φ Q) (hne P hP) (hne Q hQ) (by rw [h, h]; exact hx) _ _ rfl rfl, h, h]

/-- the point with parameter `t` of the cuspidal cubic, in Mathlib's group of points -/
noncomputable def Toy.cusp (t : Fr) : CurvePoint (0 : Fr) := ofAff (toAff t)

theorem Toy.toAff_cusp (t : Fr) : (toAff (cusp t) : Aff Fr) = toAff t := by
  by_cases ht : t = 0
  · have : cusp t = 0 := by
      unfold cusp
      rw [ht, LawfulCurve.toAff_zero, ← LawfulCurve.toAff_zero (G := CurvePoint (0 : Fr)), LawfulCurve.ofAff_toAff]
    rw [this, ht, LawfulCurve.toAff_zero, LawfulCurve.toAff_zero]
  · have hns : (shortCurve (0 : Fr)).Nonsingular (t⁻¹ ^ 2) (t⁻¹ ^ 3) := by
      rw [WeierstrassCurve.Affine.nonsingular_iff, WeierstrassCurve.Affine.equation_iff]
      simp only [shortCurve]
      refine ⟨by ring, .inr ?_⟩
      simp only [zero_mul, sub_zero]
      intro h
      have h2 : (2 : Fr) * t⁻¹ ^ 3 = 0 := by linear_combination h
      rcases mul_eq_zero.1 h2 with h3 | h3
      · revert h3; decide +kernel
      · exact ht (inv_eq_zero.1 (pow_eq_zero_iff (by norm_num) |>.1 h3))
    have : cusp t = .some _ _ hns := dif_pos hns
    rw [this, toAff_some, toAff_eq]

/-- every point of the cuspidal cubic over the scalar field has order dividing `r` -/
noncomputable def Toy.cuspTorsion (t : Fr) : Torsion (0 : Fr) := ⟨cusp t, by
  let φ : Fr →+ CurvePoint (0 : Fr) := AddMonoidHom.mk' cusp (additive_of_toAff cusp toAff_cusp)
  show frOrder • φ t = 0
  rw [← map_nsmul, ← Nat.cast_smul_eq_nsmul Fr, show ((frOrder : Nat) : Fr) = 0 from ZMod.natCast_self frOrder, zero_smul, map_zero]⟩

/-- a wrong result with an identity generator -/
example : ∃ r, (do let m ← FixedBaseMSM.new [0, cuspTorsion 1] (.yes 8)
                   m.msm [ones, ones] : Outcome Error (Torsion (0 : Fr))) = .ok r ∧
      r ≠ (([0, cuspTorsion 1].zip [ones, ones]).map (fun q => q.2 • q.1)).sum := by
  have hx : (toAff (cuspTorsion 1) : Aff Fr).x ≠ 0 := by
    show (toAff (cusp 1) : Aff Fr).x ≠ 0
    rw [toAff_cusp, toAff_eq]
    simp
  refine C24_identity_wrong (by decide +kernel) 0 (cuspTorsion 1) ?_ hx
  intro h
  rw [h] at hx
  exact hx (by rw [LawfulCurve.toAff_zero])
end

end Verif
