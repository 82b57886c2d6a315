import Verif.Props.UnitTests
import Verif.Props.Msm
import Verif.Props.BlstMsm
import Verif.Props.Toy

/-! C91: the unit tests of the crate `bls12_381`, as programs. -/
namespace Verif
open UnitTests Finset

set_option linter.unusedSectionVars false

variable {ε K G : Type} [Field K] [DecidableEq K] [AddCommGroup G] [Module Fr G] [DecidableEq G] [Curve K G]

/-- C91: the test of the lookup table passes for every width other than 0 and every point, and panics for width 0. -/
theorem C91_lookup_table (w : Nat) (P : G) :
    (w ≠ 0 → (precompLookupTable w P : Outcome ε Unit) = .ok ()) ∧ (precompLookupTable 0 P : Outcome ε Unit) = .panic := by
  constructor
  · intro hw
    unfold precompLookupTable
    rw [precomputePoints_eq w (by omega), Outcome.ok_bind, forM_ok_iff]
    intro i hi
    rw [List.mem_range, List.length_map, List.length_range] at hi
    rw [idx_lt (by simp; omega), Outcome.ok_bind, assertP_eq_ok, List.getElem_map, List.getElem_range, Nat.cast_smul_eq_nsmul]
  · rfl

/-- C91: `blst_footgun` passes for every point, whether or not it is the identity: the raw function returns the identity and the
wrapper the point. -/
theorem C91_footgun (P : G) : (blstFootgun P : Outcome ε Unit) = .ok () := by
  unfold blstFootgun
  rw [show lincombUnsafe [P, 0] [1, 1] = some (0 : G) by simp [lincombUnsafe, multiExp], expect_some, Outcome.ok_bind,
    assertP_true rfl, Outcome.ok_bind, C26_lincomb, expect_some, Outcome.ok_bind, assertP_eq_ok]
  simp [sum_range_succ]

theorem mulStep_eq (w : Nat) (u : List UInt8) (P acc : G) (i : Nat) (d : Int) (hd : (getBoothIndex i w u : Outcome ε Int) = .ok d)
    (hb : d.natAbs ≤ 2 ^ (w - 1)) :
    (mulStep w u ((List.range (1 <<< (w - 1) + 1)).map fun (i : Nat) => (i : Fr) • P) acc i : Outcome ε G) =
      .ok (2 ^ w • acc + d • P) := by
  have hidx : (idx ((List.range (1 <<< (w - 1) + 1)).map fun (i : Nat) => (i : Fr) • P) d.natAbs : Outcome ε G) =
      .ok (d.natAbs • P) := by
    rw [idx_lt (by simp [Nat.one_shiftLeft]; omega), List.getElem_map, List.getElem_range, Nat.cast_smul_eq_nsmul]
  unfold mulStep
  rw [hd, Outcome.ok_bind, double_fold, hidx, Outcome.ok_bind, Outcome.ok_bind]
  rcases lt_trichotomy d 0 with h | rfl | h
  · rw [if_pos h]
    obtain ⟨n, rfl⟩ : ∃ n : Nat, d = -(n : Int) := ⟨d.natAbs, by omega⟩
    simp
  · simp
  · rw [if_neg (by omega), if_pos h]
    obtain ⟨n, rfl⟩ : ∃ n : Nat, d = (n : Int) := ⟨d.natAbs, by omega⟩
    simp

theorem mul_fold (w : Nat) (u : List UInt8) (P : G) (d : Nat → Int) (n : Nat)
    (hd : ∀ i < n, (getBoothIndex i w u : Outcome ε Int) = .ok (d i)) (hb : ∀ i < n, (d i).natAbs ≤ 2 ^ (w - 1)) (acc : G) :
    ((List.range n).reverse.foldlM (mulStep w u ((List.range (1 <<< (w - 1) + 1)).map fun (i : Nat) => (i : Fr) • P)) acc :
      Outcome ε G) = .ok (2 ^ (w * n) • acc + (∑ i ∈ range n, d i * 2 ^ (w * i)) • P) := by
  induction n generalizing acc with
  | zero => simp
  | succ n ih =>
    rw [List.range_succ (n := n), List.reverse_append, List.reverse_singleton, List.singleton_append, List.foldlM_cons,
      mulStep_eq w u P acc n (d n) (hd n (by omega)) (hb n (by omega)), Outcome.ok_bind,
      ih (fun i hi => hd i (by omega)) (fun i hi => hb i (by omega)), sum_range_succ, mul_add w n 1, mul_one, pow_add, mul_smul,
      smul_add, add_smul, add_assoc, add_comm (_ • P) (_ • P)]
    congr 3
    rw [mul_comm (d n), mul_smul]
    exact (natCast_zsmul _ _).symm.trans (by push_cast; rfl)

/-- C91: the scalar multiplication that the test of the recoding builds is right for every scalar, every point and every width up
to 24, so the test passes. -/
theorem C91_scalar_mul (w : Nat) (hw : 1 ≤ w) (hw' : w ≤ 24) (s : Fr) (P : G) :
    (UnitTests.mul s P w : Outcome ε G) = .ok (s • P) ∧ (smokeScalarMul P s w : Outcome ε Unit) = .ok () := by
  have key : (UnitTests.mul s P w : Outcome ε G) = .ok (s • P) := by
    unfold UnitTests.mul
    simp only
    rw [assertP_true (by omega), Outcome.ok_bind, mul_fold w _ P (boothDigit s.val w) _
      (fun i _ => by rw [getBoothIndex_eq i w _ hw hw', leVal_scalar]) (fun i _ => boothDigit_bound _ _ _ hw),
      boothDigit_total _ w hw (scalar_lt s), smul_zero, zero_add, natCast_zsmul, ← Nat.cast_smul_eq_nsmul Fr,
      ZMod.natCast_zmod_val]
  refine ⟨key, ?_⟩
  unfold smokeScalarMul
  rw [key, Outcome.ok_bind, assertP_eq_ok]

/-- C91: with width 25, where the recoding is wrong (C22), the same test would fail for the scalar `2^224` and every point other
than the identity. -/
theorem C91_scalar_mul_wide (P : G) (hP : P ≠ 0) : (smokeScalarMul P (2 ^ 224) 25 : Outcome ε Unit) = .panic := by
  have hu : scalarToBytesLE (2 ^ 224) = twoPow224 := by decide +kernel
  have hd : ∀ i < 255 / 25 + 1, (getBoothIndex i 25 twoPow224 : Outcome ε Int) = .ok (if i = 9 then 1 else 0) := by
    intro i hi
    have h9 : i < 11 := by omega
    interval_cases i <;> rfl
  have key : (UnitTests.mul (2 ^ 224) P 25 : Outcome ε G) = .ok ((2 ^ 225 : Fr) • P) := by
    unfold UnitTests.mul
    simp only
    rw [assertP_true (by omega), Outcome.ok_bind, hu, mul_fold 25 twoPow224 P (fun i => if i = 9 then 1 else 0) _ hd
      (fun i _ => by split_ifs <;> simp), smul_zero, zero_add]
    congr 1
    have : ∑ i ∈ range (255 / 25 + 1), (if i = 9 then 1 else 0 : Int) * 2 ^ (25 * i) = ((2 ^ 225 : Nat) : Int) := by decide +kernel
    rw [this, natCast_zsmul, ← Nat.cast_smul_eq_nsmul Fr]
    rw [Nat.cast_pow, Nat.cast_ofNat]
  unfold smokeScalarMul
  rw [key, Outcome.ok_bind, assertP_false]
  intro h
  rw [← sub_eq_zero, ← sub_smul, smul_eq_zero] at h
  rcases h with h | h
  · exact absurd h (by decide +kernel)
  · exact hP h

/-- C91: the tests of the batch inversion: the first passes for every list, the second panics as it should for every length other
than 0. -/
theorem C91_batch_inverse (l : List Fr) (n : Nat) :
    (batchInversionSmokeTest l : Outcome ε Unit) = .ok () ∧
    (0 < n → (batchInversePanicCheck n : Outcome ε Unit) = .panic) ∧
    (batchInversePanicCheck 0 : Outcome ε Unit) = .ok () := by
  refine ⟨?_, ?_, ?_⟩
  · unfold batchInversionSmokeTest
    simp only
    set m := l.map fun f => if f = 0 then 1 else f with hm
    have h0 : ∀ x ∈ m, x ≠ 0 := by
      intro x hx
      obtain ⟨y, -, rfl⟩ := List.mem_map.1 hx
      split_ifs with h
      · exact one_ne_zero
      · exact h
    rw [mapM_ok (g := fun x => x⁻¹) (fun x hx => by simp [invertExpect, h0 x hx]), Outcome.ok_bind, batchInverse_ok m h0,
      Outcome.ok_bind, assertP_eq_ok]
  · intro hn
    unfold batchInversePanicCheck
    rw [(C27_batch_inverse _).2.1 (by simp; omega)]
    rfl
  · unfold batchInversePanicCheck
    rw [List.replicate_zero, (C27_batch_inverse ([] : List Fr)).2.2]
    rfl

/-- C91: the test of the reduction of 32 bytes passes. -/
theorem C91_reduce_bytes : (testReduceBytesToScalarEdgeCases : Outcome ε Unit) = .ok () := by
  unfold testReduceBytesToScalarEdgeCases
  rw [assertP_true (by decide +kernel), Outcome.ok_bind, assertP_true (by decide +kernel), Outcome.ok_bind]
  simp only
  rw [assertP_true (by decide +kernel), Outcome.ok_bind, assertP_true (by decide +kernel), Outcome.ok_bind,
    assertP_true (by decide +kernel), Outcome.ok_bind, idx_lt (by decide), Outcome.ok_bind, setIdx_lt _ (by decide), Outcome.ok_bind,
    assertP_true (by decide +kernel), Outcome.ok_bind,
    show scalarFromBytesBE twoPow256MinusOneModR = some (reduceBytesToScalarBias (List.replicate 32 0xFF)) by decide +kernel,
    expect_some, Outcome.ok_bind, assertP_true rfl]

/-- C91: the test of the table of blst passes for all generators other than the identity and all widths up to 255. -/
theorem C91_blst_table (junk : List G) (need : Nat → Nat) (gens : List G) (hg : ∀ P ∈ gens, P ≠ 0) (w : Nat) (hw : w ≤ 255) :
    (fixedBaseMsmNonZero junk need gens w : Outcome ε Unit) = .ok () := by
  unfold fixedBaseMsmNonZero
  rw [blst_new_eq, if_neg (blst_any_false hg)]
  simp only
  rw [forM_ok_iff]
  intro v hv
  rw [assertP_eq_ok]
  obtain ⟨P, hP, hv⟩ := List.mem_flatMap.1 hv
  obtain ⟨j, hj, rfl⟩ := List.mem_map.1 hv
  rw [List.mem_range] at hj
  have hlt : j + 1 < frOrder := by
    have h1 : blstMultiples w ≤ 2 ^ 254 := by
      unfold blstMultiples
      exact Nat.pow_le_pow_right (by norm_num) (by omega)
    have h2 : 2 ^ 254 < frOrder := by decide +kernel
    omega
  intro h0
  rw [← Nat.cast_smul_eq_nsmul Fr, smul_eq_zero] at h0
  rcases h0 with h0 | h0
  · have := (ZMod.natCast_eq_zero_iff (j + 1) frOrder).1 h0
    exact absurd (Nat.le_of_dvd (by omega) this) (by omega)
  · exact hg P hP h0

section
variable [LawfulCurve K G]

/-- C91: without precomputation the test of the fixed-base multiplication passes for all generators and scalars; with a width from
1 to 24 and generators other than the identity it passes exactly if no pairing tree of the windows has opposite neighbours. -/
theorem C91_fixed_base (gens : List G) (scalars : List Fr) (hl : scalars.length = gens.length) :
    (testFixedBaseMsmWithPrecomp .no gens scalars : Outcome ε Unit) = .ok () ∧
    ∀ w, 1 ≤ w → w ≤ 24 → (∀ P ∈ gens, P ≠ 0) →
      ∃ d : Fr → Nat → Int, (∀ s, ∑ i ∈ range (255 / w + 1), d s i * 2 ^ (w * i) = (s.val : Int)) ∧
        (∀ s i, (d s i).natAbs ≤ 2 ^ (w - 1)) ∧
        ((testFixedBaseMsmWithPrecomp (.yes w) gens scalars : Outcome ε Unit) = .ok () ↔
          ¬ Spec.Clash Spec.bigMulti ((List.range (255 / w + 1)).map (windowOf d gens scalars))) := by
  constructor
  · unfold testFixedBaseMsmWithPrecomp
    have h := C24_no_precomp (ε := ε) (K := K) gens scalars
    obtain ⟨m, hm, h⟩ := bind_eq_ok.1 h
    rw [lincomb_eq, expect_some, Outcome.ok_bind, hm, Outcome.ok_bind, h, Outcome.ok_bind, assertP_eq_ok]
    rfl
  · intro w hw hw' hg
    obtain ⟨m, hm, d, hd, hd', h⟩ := C24_precomp (ε := ε) (K := K) w hw hw' gens hg
    refine ⟨d, hd, hd', ?_⟩
    unfold testFixedBaseMsmWithPrecomp
    rw [lincomb_eq, expect_some, Outcome.ok_bind, hm, Outcome.ok_bind]
    by_cases hc : Spec.Clash Spec.bigMulti ((List.range (255 / w + 1)).map (windowOf d gens scalars))
    · rw [(h scalars hl.le).1 hc]
      simp [hc]
    · rw [(h scalars hl.le).2 hc, Outcome.ok_bind, assertP_eq_ok]
      simp [hc, lcSum]

/-- C91: the whole test, with its three draws of points and scalars: it passes exactly if the two calls with precomputation have no
opposite neighbours. -/
theorem C91_fixed_base_test (draws : UsePrecomp → List G × List Fr) (hl : ∀ u, (draws u).2.length = (draws u).1.length)
    (hg : ∀ u, ∀ P ∈ (draws u).1, P ≠ 0) :
    ∃ d : Nat → Fr → Nat → Int, (∀ w ∈ [4, 8], ∀ s, ∑ i ∈ range (255 / w + 1), d w s i * 2 ^ (w * i) = (s.val : Int) ∧
        ∀ i, (d w s i).natAbs ≤ 2 ^ (w - 1)) ∧
      ((smokeTestFixedBaseMsm (K := K) draws : Outcome ε Unit) = .ok () ↔ ∀ w ∈ [4, 8],
        ¬ Spec.Clash Spec.bigMulti ((List.range (255 / w + 1)).map (windowOf (d w) (draws (.yes w)).1 (draws (.yes w)).2))) := by
  obtain ⟨h0, -⟩ := C91_fixed_base (ε := ε) (K := K) (draws .no).1 (draws .no).2 (hl _)
  obtain ⟨d4, h41, h42, h43⟩ := (C91_fixed_base (ε := ε) (K := K) (draws (.yes 4)).1 (draws (.yes 4)).2 (hl _)).2 4 (by norm_num)
    (by norm_num) (hg _)
  obtain ⟨d8, h81, h82, h83⟩ := (C91_fixed_base (ε := ε) (K := K) (draws (.yes 8)).1 (draws (.yes 8)).2 (hl _)).2 8 (by norm_num)
    (by norm_num) (hg _)
  refine ⟨fun w => if w = 4 then d4 else d8, ?_, ?_⟩
  · intro w hw s
    simp only [List.mem_cons, List.not_mem_nil, or_false] at hw
    rcases hw with rfl | rfl
    · exact ⟨h41 s, h42 s⟩
    · exact ⟨h81 s, h82 s⟩
  · unfold smokeTestFixedBaseMsm
    rw [h0, Outcome.ok_bind, bind_eq_ok]
    constructor
    · rintro ⟨_, h4, h8⟩ w hw
      simp only [List.mem_cons, List.not_mem_nil, or_false] at hw
      rcases hw with rfl | rfl
      · exact h43.1 h4
      · exact h83.1 h8
    · intro h
      exact ⟨(), h43.2 (h 4 (by simp)), h83.2 (h 8 (by simp))⟩

/-- C91: `bench_window_sizes_msm` passes exactly if no window of a width from 2 to 14 has a pairing tree with opposite neighbours. -/
theorem C91_bench (gens : List G) (hg : ∀ P ∈ gens, P ≠ 0) (scalars : List Fr) (hl : scalars.length = gens.length) :
    ∃ d : Nat → Fr → Nat → Int, (∀ w, 2 ≤ w → w ≤ 14 → ∀ s, ∑ i ∈ range (255 / w + 1), d w s i * 2 ^ (w * i) = (s.val : Int)) ∧
      (∀ w, 2 ≤ w → w ≤ 14 → ∀ s i, (d w s i).natAbs ≤ 2 ^ (w - 1)) ∧
      ((benchWindowSizesMsm gens scalars : Outcome ε Unit) = .ok () ↔
        ∀ w, 2 ≤ w → w ≤ 14 → ¬ Spec.Clash Spec.bigMulti ((List.range (255 / w + 1)).map (windowOf (d w) gens scalars))) := by
  have key : ∀ w, 2 ≤ w → w ≤ 14 → ∃ d : Fr → Nat → Int, (∀ s, ∑ i ∈ range (255 / w + 1), d s i * 2 ^ (w * i) = (s.val : Int)) ∧
      (∀ s i, (d s i).natAbs ≤ 2 ^ (w - 1)) ∧
      ((do let fbm ← FixedBaseMSM.new gens (.yes w)
           let _ ← fbm.msm scalars
           pure () : Outcome ε Unit) = .ok () ↔
          ¬ Spec.Clash Spec.bigMulti ((List.range (255 / w + 1)).map (windowOf d gens scalars))) := by
    intro w hw hw'
    obtain ⟨m, hm, d, hd, hd', h⟩ := C24_precomp (ε := ε) (K := K) w (by omega) (by omega) gens hg
    refine ⟨d, hd, hd', ?_⟩
    rw [hm, Outcome.ok_bind]
    by_cases hc : Spec.Clash Spec.bigMulti ((List.range (255 / w + 1)).map (windowOf d gens scalars))
    · rw [(h scalars hl.le).1 hc]
      simp [hc]
    · rw [(h scalars hl.le).2 hc, Outcome.ok_bind]
      simp [hc]
  choose! d hd hd' h using key
  refine ⟨d, hd, hd', ?_⟩
  unfold benchWindowSizesMsm
  rw [forM_ok_iff]
  constructor
  · intro ht w hw hw'
    have := ht (w - 2) (List.mem_range.2 (by omega))
    rw [show w - 2 + 2 = w by omega] at this
    exact (h w hw hw').1 this
  · intro ht i hi
    have := List.mem_range.1 hi
    exact (h (i + 2) (by omega) (by omega)).2 (ht _ (by omega) (by omega))

/-- C91: the tests of the additions in batches, on points other than the identity: they pass exactly if the pairing trees have no
opposite neighbours. -/
theorem C91_batch_addition (l : List G) (hl : ∀ P ∈ l, P ≠ 0) (sets : List (List G)) (hs : ∀ l ∈ sets, ∀ P ∈ l, P ≠ 0) :
    ((testBatchAddition l : Outcome ε Unit) = .ok () ↔ ¬ Spec.Clash Spec.bigSingle [l]) ∧
    ((testMultiBatchAdditionBinaryStride sets : Outcome ε Unit) = .ok () ↔
      (∀ l ∈ sets, ¬ Spec.Clash Spec.bigSingle [l]) ∧ ¬ Spec.Clash Spec.bigMulti sets) := by
  have hsum : ∀ l : List G, l.foldl (fun acc p => acc + p) 0 = l.sum := fun l => by rw [List.sum_eq_foldl]
  constructor
  · unfold testBatchAddition
    obtain ⟨h1, h2⟩ := C23_single (ε := ε) l hl
    by_cases hc : Spec.Clash Spec.bigSingle [l]
    · simp only [h1 hc, hc]; simp
    · simp only [h2 hc, Outcome.ok_bind, assertP_eq_ok, hsum, hc]; simp
  · unfold testMultiBatchAdditionBinaryStride
    obtain ⟨h1, h2⟩ := C23_multi (ε := ε) sets hs
    constructor
    · intro h
      obtain ⟨e, he, h⟩ := bind_eq_ok.1 h
      obtain ⟨g, hg, -⟩ := bind_eq_ok.1 h
      constructor
      · intro l hl hc
        obtain ⟨i, hi, rfl⟩ := List.getElem_of_mem hl
        have := mapM_getElem he hi (by rw [mapM_length he]; exact hi)
        rw [(C23_single (ε := ε) _ (hs _ hl)).1 hc] at this
        cases this
      · intro hc
        rw [h1 hc] at hg
        cases hg
    · rintro ⟨ha, hb⟩
      rw [mapM_ok (g := List.sum) (fun l hl => (C23_single l (hs l hl)).2 (ha l hl)), Outcome.ok_bind, h2 hb, Outcome.ok_bind,
        assertP_true rfl]
end

/-! Non-vacuity, on the concrete curve of `Verif.Props.Toy` (width 7 and width 4 with the scalar -1 as in the repository). -/
section
open Toy

theorem oneTwoThree_ne_zero : ∀ P ∈ [(1 : Fr), 2, 3], P ≠ 0 := by
  intro P hP
  simp only [List.mem_cons, List.not_mem_nil, or_false] at hP
  rcases hP with rfl | rfl | rfl <;> decide +kernel

example : (precompLookupTable 7 (1 : Fr) : Outcome Unit Unit) = .ok () := (C91_lookup_table 7 1).1 (by norm_num)
example : (smokeScalarMul (1 : Fr) (-1) 4 : Outcome Unit Unit) = .ok () := (C91_scalar_mul 4 (by norm_num) (by norm_num) (-1) 1).2
example : (fixedBaseMsmNonZero [] id [(1 : Fr), 2, 3] 8 : Outcome Unit Unit) = .ok () :=
  C91_blst_table [] id _ oneTwoThree_ne_zero 8 (by norm_num)
example : (batchInversePanicCheck 1000 : Outcome Unit Unit) = .panic := (C91_batch_inverse [] 1000).2.1 (by norm_num)

theorem not_clash_short (l : List Fr) (h : l.length ≤ 16) : ¬ Spec.Clash Spec.bigSingle [l] := by
  intro hc
  have hb : Spec.bigSingle [l] := by cases hc <;> assumption
  have := hb l (by simp)
  omega

example : (testBatchAddition [(1 : Fr), 2, 3] : Outcome Unit Unit) = .ok () :=
  (C91_batch_addition [1, 2, 3] oneTwoThree_ne_zero [] (by simp)).1.2 (not_clash_short _ (by decide))

/-- the random draw could fail the test: 101 points of which the first two are opposite -/
example : (testBatchAddition ((1 : Fr) :: -1 :: List.replicate 99 2) : Outcome Unit Unit) = .panic := by
  unfold testBatchAddition
  simp only
  rw [C23_panics 1 (List.replicate 99 2) (by decide +kernel) (fun Q hQ => by rw [List.eq_of_mem_replicate hQ]; decide +kernel) (by simp),
    Outcome.panic_bind]

/-- the hypotheses of C91_fixed_base and C91_bench -/
example : ([5, -7, 9] : List Fr).length = ([1, 2, 3] : List Fr).length ∧ ∀ P ∈ ([1, 2, 3] : List Fr), P ≠ 0 := ⟨rfl, oneTwoThree_ne_zero⟩

/-- one point is never added to another, so the test passes for it -/
example (s : Fr) : (smokeTestFixedBaseMsm (K := Fr) (fun _ => ([(1 : Fr)], [s])) : Outcome Unit Unit) = .ok () := by
  obtain ⟨d, -, h⟩ := C91_fixed_base_test (ε := Unit) (K := Fr) (fun _ => ([(1 : Fr)], [s])) (fun _ => rfl) (fun _ P hP => by
    rw [List.mem_singleton.1 hP]
    exact one_ne_zero)
  refine h.2 fun w _ hc => ?_
  have hb : Spec.bigMulti ((List.range (255 / w + 1)).map (windowOf (d w) [(1 : Fr)] [s])) := by cases hc <;> assumption
  unfold Spec.bigMulti at hb
  rw [List.map_map] at hb
  refine absurd (lt_of_lt_of_le hb (List.sum_le_card_nsmul _ 0 ?_)) (by simp)
  intro x hx
  obtain ⟨i, -, rfl⟩ := List.mem_map.1 hx
  have := List.length_filterMap_le (fun q : Fr × Fr => if d w q.2 i = 0 then none else some (d w q.2 i • q.1)) ([(1 : Fr)].zip [s])
  simp only [List.zip_cons_cons, List.zip_nil_right, List.length_singleton] at this
  exact (Nat.div_eq_of_lt (by exact Nat.lt_succ_of_le this)).le
end

end Verif
