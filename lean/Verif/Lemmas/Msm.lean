import Mathlib.Algebra.BigOperators.Intervals
import Mathlib.Tactic.Module
import Verif.Model.Msm
import Verif.Lemmas.Booth
import Verif.Lemmas.BatchAddition
import Verif.Lemmas.Lincomb

set_option linter.unusedSectionVars false

/-! Lemmas on the fixed-base multi-scalar multiplication with precomputed windows. -/
namespace Verif
open Finset

section
variable {ε K G : Type} [Field K] [DecidableEq K] [AddCommGroup G] [Curve K G]

theorem precomputePoints_eq (w : Nat) (hw : 1 ≤ w) (P : G) :
    (precomputePoints w P : Outcome ε (List (Aff K))) = .ok ((List.range (2 ^ (w - 1))).map (fun k => toAff ((k + 1) • P))) := by
  unfold precomputePoints
  rw [assertP_true (by omega), Outcome.ok_bind, Nat.one_shiftLeft]
  have h : ∀ n, (List.range n).foldl (fun (st : List G × G) _ => (st.1 ++ [st.2], st.2 + P)) ([], P) =
      ((List.range n).map (fun k => (k + 1) • P), (n + 1) • P) := by
    intro n
    induction n with
    | zero => simp
    | succ n ih =>
      rw [List.range_succ, List.foldl_append, ih]
      simp [succ_nsmul]
  rw [h]
  simp [Function.comp_def]

/-- the precomputed table -/
def tableOf (w : Nat) (gens : List G) : List (List (Aff K)) :=
  gens.map (fun P => (List.range (2 ^ (w - 1))).map (fun k => toAff ((k + 1) • P)))

theorem precompWindowNew_eq (w : Nat) (hw : 1 ≤ w) (gens : List G) :
    (precompWindowNew gens w : Outcome ε (List (List (Aff K)))) = .ok (tableOf w gens) :=
  mapM_ok (fun P _ => precomputePoints_eq w hw P)

theorem double_fold (w : Nat) (P : G) : (List.range w).foldl (fun r _ => r + r) P = 2 ^ w • P := by
  induction w with
  | zero => simp
  | succ w ih =>
    rw [List.range_succ, List.foldl_append, ih, List.foldl_cons, List.foldl_nil, pow_succ, mul_smul, ← two_nsmul, smul_comm]

theorem horner_eq (w : Nat) (init : List G) (last : G) :
    init.foldr (fun p r => 2 ^ w • r + p) last = ∑ i ∈ range (init.length + 1), 2 ^ (w * i) • (init ++ [last]).getD i 0 := by
  induction init with
  | nil => simp
  | cons p init ih =>
    rw [List.foldr_cons, ih, List.length_cons, Finset.sum_range_succ' _ (init.length + 1)]
    simp only [List.cons_append, List.getD_cons_succ, List.getD_cons_zero, mul_zero, pow_zero, one_smul]
    congr 1
    rw [Finset.smul_sum]
    apply Finset.sum_congr rfl
    intro i _
    rw [smul_smul, ← pow_add, Nat.mul_add, mul_one, add_comm w]

theorem accumulateWindows_eq (w : Nat) (l : List G) (hl : l ≠ []) :
    (accumulateWindows w l : Outcome ε G) = .ok (∑ i ∈ range l.length, 2 ^ (w * i) • l.getD i 0) := by
  obtain ⟨init, last, rfl⟩ : ∃ init last, l = init ++ [last] := by
    rcases List.eq_nil_or_concat l with h | ⟨i, a, h⟩
    · exact absurd h hl
    · exact ⟨i, a, by simpa using h⟩
  unfold accumulateWindows
  rw [List.getLast?_concat, expect_some, Outcome.ok_bind]
  simp only [List.reverse_append, List.reverse_cons, List.reverse_nil, List.nil_append, List.singleton_append,
    List.drop_succ_cons, List.drop_zero, double_fold, Outcome.pure_eq, Outcome.ok.injEq]
  rw [List.foldl_reverse, horner_eq, List.length_append, List.length_singleton]

end

section
variable {ε K G : Type} [Field K] [DecidableEq K] [AddCommGroup G] [Module Fr G] [DecidableEq G] [Curve K G] [LawfulCurve K G]

/-- the points of window `i` of a scalar multiplication, without the zero digits -/
def windowPts (w i : Nat) (gens : List G) (scalars : List Fr) : List G :=
  (gens.zip scalars).filterMap (fun q => if boothDigit q.2.val w i = 0 then none else some (boothDigit q.2.val w i • q.1))

theorem leVal_scalar (s : Fr) : leVal (scalarToBytesLE s) = s.val := by
  rw [scalarToBytesLE, leVal_natToLE, Nat.mod_eq_of_lt (val_lt_pow s)]

theorem windowPoint_eq (w : Nat) (hw : 1 ≤ w) (hw' : w ≤ 24) (gens : List G) (i j : Nat) (hj : j < gens.length) (s : Fr) :
    (windowPoint (tableOf w gens) w i (scalarToBytesLE s, j) : Outcome ε (Option (Aff K))) =
      .ok (if boothDigit s.val w i = 0 then none else some (toAff (boothDigit s.val w i • gens[j]))) := by
  unfold windowPoint tableOf
  simp only
  rw [idx_lt (by rw [List.length_map]; exact hj), Outcome.ok_bind, getBoothIndex_eq i w _ hw hw', leVal_scalar,
    Outcome.ok_bind]
  set d := boothDigit s.val w i with hd
  have hb : d.natAbs ≤ 2 ^ (w - 1) := boothDigit_bound _ _ _ hw
  by_cases h0 : d = 0
  · rw [if_pos h0, if_pos h0]; rfl
  · rw [if_neg h0, if_neg h0]
    have hpos : 0 < d.natAbs := Int.natAbs_pos.2 h0
    rw [List.getElem_map, idx_lt (by rw [List.length_map, List.length_range]; omega), Outcome.ok_bind, List.getElem_map,
      List.getElem_range, Nat.sub_add_cancel hpos]
    by_cases hp : d > 0
    · rw [if_pos hp]
      have : d = (d.natAbs : Int) := by omega
      conv_rhs => rw [this, natCast_zsmul]
      rfl
    · rw [if_neg hp]
      have : d = -(d.natAbs : Int) := by omega
      conv_rhs => rw [this, neg_smul, natCast_zsmul, LawfulCurve.toAff_neg]
      rfl

theorem zipIdx_mapM {α β : Type} (f : List UInt8 × Nat → Outcome ε β) (gens : List α) (scalars : List Fr)
    (g : α → Fr → β) (off : Nat) (all : List α) (hall : all.drop off = gens) (hl : scalars.length ≤ gens.length)
    (h : ∀ j (hj : j < all.length) s, f (scalarToBytesLE s, j) = .ok (g all[j] s)) :
    (((scalars.map scalarToBytesLE).zipIdx off).mapM f) = .ok ((gens.zip scalars).map (fun q => g q.1 q.2)) := by
  induction scalars generalizing gens off with
  | nil => simp
  | cons s scalars ih =>
    cases gens with
    | nil => simp at hl
    | cons a gens =>
      have hlt : off < all.length := by
        by_contra hc
        rw [List.drop_of_length_le (by omega)] at hall
        cases hall
      have hcons := List.drop_eq_getElem_cons hlt
      rw [hall] at hcons
      obtain ⟨rfl, rfl⟩ := List.cons.inj hcons
      rw [List.map_cons, List.zipIdx_cons, List.mapM_cons, h off hlt, Outcome.ok_bind,
        ih _ (off + 1) rfl (by simp only [List.length_cons] at hl; omega), Outcome.ok_bind]
      rfl

theorem windowsOfPoints_eq (w : Nat) (hw : 1 ≤ w) (hw' : w ≤ 24) (gens : List G) (scalars : List Fr)
    (hl : scalars.length ≤ gens.length) (n : Nat) :
    (windowsOfPoints (tableOf w gens) w (scalars.map scalarToBytesLE) n : Outcome ε (List (List (Aff K)))) =
      .ok (((List.range n).map (fun i => windowPts w i gens scalars)).map (fun l => l.map toAff)) := by
  unfold windowsOfPoints
  rw [List.map_map]
  apply mapM_ok
  intro i _
  rw [zipIdx_mapM _ gens scalars (fun P s => if boothDigit s.val w i = 0 then none else some (toAff (boothDigit s.val w i • P)))
    0 gens rfl hl (fun j hj s => windowPoint_eq w hw hw' gens i j hj s), Outcome.ok_bind]
  simp only [Outcome.pure_eq, Outcome.ok.injEq, Function.comp_apply, windowPts]
  rw [List.filterMap_map, List.map_filterMap]
  congr 1
  funext q
  simp only [Function.comp_apply, id_eq]
  split_ifs <;> rfl

theorem digit_smul_ne_zero (w : Nat) (hw : 1 ≤ w) (hw' : w ≤ 24) (N i : Nat) (P : G) (hP : P ≠ 0) (hd : boothDigit N w i ≠ 0) :
    boothDigit N w i • P ≠ 0 := by
  have hb := boothDigit_bound N w i hw
  set d := boothDigit N w i
  have hle : (2 : Nat) ^ (w - 1) ≤ 2 ^ 23 := Nat.pow_le_pow_right (by norm_num) (by omega)
  have hlt : (2 : Nat) ^ 23 < frOrder := by unfold frOrder; norm_num
  rw [← Int.cast_smul_eq_zsmul Fr d P]
  intro h
  rcases smul_eq_zero.1 h with h | h
  · have h2 : ((frOrder : Nat) : Int) ∣ d := (ZMod.intCast_zmod_eq_zero_iff_dvd d frOrder).1 h
    have h3 : frOrder ∣ d.natAbs := Int.natCast_dvd.1 h2
    have h4 := Nat.le_of_dvd (Int.natAbs_pos.2 hd) h3
    omega
  · exact hP h

theorem windowPts_ne_zero (w : Nat) (hw : 1 ≤ w) (hw' : w ≤ 24) (i : Nat) (gens : List G) (scalars : List Fr)
    (hg : ∀ P ∈ gens, P ≠ 0) : ∀ P ∈ windowPts w i gens scalars, P ≠ 0 := by
  intro P hP
  obtain ⟨q, hq, h⟩ := List.mem_filterMap.1 hP
  split_ifs at h with h0
  cases h
  exact digit_smul_ne_zero w hw hw' _ i q.1 (hg _ (List.of_mem_zip hq).1) h0

theorem windowPts_sum (w i : Nat) (gens : List G) (scalars : List Fr) :
    (windowPts w i gens scalars).sum = ((gens.zip scalars).map (fun q => boothDigit q.2.val w i • q.1)).sum := by
  unfold windowPts
  induction gens.zip scalars with
  | nil => simp
  | cons q l ih =>
    by_cases h : boothDigit q.2.val w i = 0
    · rw [List.filterMap_cons_none (by simp [h]), ih]
      simp [h]
    · rw [List.filterMap_cons_some (b := boothDigit q.2.val w i • q.1) (by simp [h]), List.sum_cons, ih]
      simp

theorem scalar_lt (s : Fr) : s.val < 2 ^ 255 := by
  have : NeZero frOrder := ⟨frOrder_prime.ne_zero⟩
  exact lt_trans (ZMod.val_lt s) frOrder_lt

theorem windows_total (w : Nat) (hw : 1 ≤ w) (gens : List G) (scalars : List Fr) :
    ∑ i ∈ range (255 / w + 1), 2 ^ (w * i) • (windowPts w i gens scalars).sum = lcSum gens scalars := by
  simp only [windowPts_sum]
  unfold lcSum
  induction gens.zip scalars with
  | nil => simp
  | cons q l ih =>
    simp only [List.map_cons, List.sum_cons, smul_add, Finset.sum_add_distrib]
    rw [ih]
    congr 1
    have h := boothDigit_total q.2.val w hw (scalar_lt q.2)
    have e : ∀ i, (2 ^ (w * i) : Nat) • (boothDigit q.2.val w i • q.1) = (boothDigit q.2.val w i * 2 ^ (w * i)) • q.1 := by
      intro i
      rw [← natCast_zsmul, smul_smul]
      push_cast
      rw [mul_comm]
    simp only [e]
    rw [← Finset.sum_smul, h, natCast_zsmul, ← Nat.cast_smul_eq_nsmul Fr]
    congr 1
    exact ZMod.natCast_zmod_val q.2

/-- The precomputed MSM: exact, or a panic if opposite points meet. -/
theorem precompWindowMsm_eq (w : Nat) (hw : 1 ≤ w) (hw' : w ≤ 24) (gens : List G) (scalars : List Fr)
    (hl : scalars.length ≤ gens.length) (hg : ∀ P ∈ gens, P ≠ 0) :
    (Spec.Clash Spec.bigMulti ((List.range (255 / w + 1)).map (fun i => windowPts w i gens scalars)) →
      (precompWindowMsm (tableOf w gens) w scalars : Outcome ε G) = .panic) ∧
    (¬ Spec.Clash Spec.bigMulti ((List.range (255 / w + 1)).map (fun i => windowPts w i gens scalars)) →
      (precompWindowMsm (tableOf w gens) w scalars : Outcome ε G) = .ok (lcSum gens scalars)) := by
  unfold precompWindowMsm
  rw [assertP_true (by omega), Outcome.ok_bind]
  simp only
  rw [windowsOfPoints_eq w hw hw' gens scalars hl, Outcome.ok_bind]
  obtain ⟨h1, h2⟩ := multiBatchAddition_eq (ε := ε) (K := K) ((List.range (255 / w + 1)).map (fun i => windowPts w i gens scalars))
    (by
      intro l hlm
      obtain ⟨i, -, rfl⟩ := List.mem_map.1 hlm
      exact windowPts_ne_zero w hw hw' i gens scalars hg)
  refine ⟨fun hc => by rw [h1 hc]; rfl, fun hc => ?_⟩
  rw [h2 hc, Outcome.ok_bind, List.map_map, accumulateWindows_eq w _ (by simp)]
  congr 1
  rw [← windows_total w hw gens scalars, List.length_map, List.length_range]
  apply Finset.sum_congr rfl
  intro i hi
  congr 1
  have hi := Finset.mem_range.1 hi
  rw [List.getD_eq_getElem _ _ (by rw [List.length_map, List.length_range]; exact hi), List.getElem_map, List.getElem_range]
  rfl

theorem mapM_panic {α β : Type} {f : α → Outcome ε β} {pre post : List α} {x : α} (hpre : ∀ y ∈ pre, ∃ b, f y = .ok b)
    (hx : f x = .panic) : (pre ++ x :: post).mapM f = .panic := by
  induction pre with
  | nil => rw [List.nil_append, List.mapM_cons, hx]; rfl
  | cons a pre ih =>
    obtain ⟨b, hb⟩ := hpre a (by simp)
    rw [List.cons_append, List.mapM_cons, hb, Outcome.ok_bind, ih (fun y hy => hpre y (by simp [hy]))]
    rfl

/-- more scalars than table rows -/
theorem precompWindowMsm_too_many (w : Nat) (hw : 1 ≤ w) (hw' : w ≤ 24) (gens : List G) (scalars : List Fr)
    (hl : gens.length < scalars.length) : (precompWindowMsm (tableOf w gens) w scalars : Outcome ε G) = .panic := by
  unfold precompWindowMsm
  rw [assertP_true (by omega), Outcome.ok_bind]
  simp only
  have hsplit : (scalars.map scalarToBytesLE).zipIdx =
      ((scalars.take gens.length).map scalarToBytesLE).zipIdx ++
        (scalarToBytesLE scalars[gens.length], gens.length) :: ((scalars.drop (gens.length + 1)).map scalarToBytesLE).zipIdx (gens.length + 1) := by
    conv_lhs => rw [← List.take_append_drop gens.length scalars, List.drop_eq_getElem_cons hl]
    rw [List.map_append, List.zipIdx_append, List.map_cons, List.zipIdx_cons]
    simp only [List.length_map, List.length_take, Nat.min_eq_left hl.le, Nat.zero_add]
  have h0 : ((scalars.map scalarToBytesLE).zipIdx.mapM (windowPoint (tableOf w gens) w 0) :
      Outcome ε (List (Option (Aff K)))) = .panic := by
    rw [hsplit]
    apply mapM_panic
    · intro y hy
      obtain ⟨b, j⟩ := y
      have hm := List.mem_zipIdx hy
      obtain ⟨-, h2, h3⟩ := hm
      simp only [List.length_map, List.length_take, Nat.zero_add, Nat.sub_zero, List.getElem_map] at h2 h3
      rw [h3]
      exact ⟨_, windowPoint_eq w hw hw' gens 0 j (by omega) _⟩
    · unfold windowPoint
      have : (idx (tableOf w gens : List (List (Aff K))) gens.length : Outcome ε _) = .panic := by
        unfold idx
        rw [List.getElem?_eq_none (by simp [tableOf])]
        rfl
      simp only
      rw [this]
      rfl
  have h1 : (windowsOfPoints (tableOf w gens) w (scalars.map scalarToBytesLE) (255 / w + 1) :
      Outcome ε (List (List (Aff K)))) = .panic := by
    unfold windowsOfPoints
    rw [List.range_succ_eq_map, List.mapM_cons, h0]
    rfl
  rw [h1]
  rfl

end
end Verif
