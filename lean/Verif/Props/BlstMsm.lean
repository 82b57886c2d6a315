import Verif.Model.BlstMsm
import Verif.Lemmas.Msm

/-! C78: the table of multiples held by blst. -/
namespace Verif
set_option linter.unusedSectionVars false

section
variable {G : Type} [AddCommGroup G] [Module Fr G] [DecidableEq G]

theorem mapM_some_of {α β : Type} {f : α → Option β} {g : α → β} {l : List α} (h : ∀ a ∈ l, f a = some (g a)) :
    l.mapM f = some (l.map g) := by
  induction l with
  | nil => rfl
  | cons a l ih =>
    rw [List.mapM_cons, h a (by simp), ih (fun b hb => h b (by simp [hb]))]
    rfl

theorem mapM_none_of {α β : Type} {f : α → Option β} {l : List α} (a : α) (ha : a ∈ l) (h : f a = none) :
    l.mapM f = none := by
  induction l with
  | nil => simp at ha
  | cons b l ih =>
    rw [List.mapM_cons]
    rcases List.mem_cons.1 ha with rfl | hb
    · rw [h]; rfl
    · rw [ih hb]; cases f b <;> rfl

theorem blstScalarLE_eq (b : List UInt8) : blstScalarLE b = leVal b := by
  induction b with
  | nil => simp [blstScalarLE, leVal]
  | cons x b ih => rw [leVal, ← ih]; simp [blstScalarLE]

theorem blst_tableSize (w n : Nat) : blstPrecomputeSizeof w n / blstP1AffineBytes = n * blstMultiples w := by
  rw [blstPrecomputeSizeof, Nat.mul_assoc]
  exact Nat.mul_div_cancel_left _ (by decide)

theorem blstMultiples_pos (w : Nat) : 0 < blstMultiples w := by unfold blstMultiples; positivity

/-- The table `new` ends up with -/
def blstTable (w : Nat) (gens : List G) : List G :=
  gens.flatMap (fun P => (List.range (blstMultiples w)).map (fun j => (j + 1) • P))

theorem length_blstTable (w : Nat) (gens : List G) : (blstTable w gens).length = gens.length * blstMultiples w := by
  simp [blstTable, List.length_flatMap]

theorem blstTable_get (w : Nat) (gens : List G) (i : Nat) (hi : i < gens.length) (j : Nat) (hj : j < blstMultiples w) :
    (blstTable w gens)[i * blstMultiples w + j]? = some ((j + 1) • gens[i]) := by
  induction gens generalizing i with
  | nil => simp at hi
  | cons P gens ih =>
    have hc : blstTable w (P :: gens) = (List.range (blstMultiples w)).map (fun j => (j + 1) • P) ++ blstTable w gens := by
      simp [blstTable]
    rw [hc]
    cases i with
    | zero => rw [List.getElem?_append_left (by simpa using hj)]; simp [hj]
    | succ i =>
      rw [List.getElem?_append_right (by simp [Nat.add_mul]; omega)]
      have : (i + 1) * blstMultiples w + j - ((List.range (blstMultiples w)).map (fun j => (j + 1) • P)).length
          = i * blstMultiples w + j := by simp [Nat.add_mul]; omega
      rw [this, ih i (by simpa using hi)]
      simp

theorem blst_new_eq (junk : List G) (need : Nat → Nat) (gens : List G) (w : Nat) :
    FixedBaseMSMPrecompBLST.new junk need gens w =
      .done { table := if gens.any (fun P => P = 0) then resize junk (gens.length * blstMultiples w) 0 else blstTable w gens,
              wbits := w, numPoints := gens.length, scratchSpaceSize := need gens.length } := by
  unfold FixedBaseMSMPrecompBLST.new blstPrecompute
  simp only [blst_tableSize, lt_irrefl, or_self, if_false, List.take_length]
  by_cases h : gens.any (fun P => P = 0)
  · simp only [if_pos h]
  · simp only [if_neg h]
    rw [show (gens.flatMap fun P => (List.range (blstMultiples w)).map fun j => (j + 1) • P) = blstTable w gens from rfl,
      resize_eq_self _ (length_blstTable w gens)]

theorem blst_any_false {gens : List G} (h : ∀ P ∈ gens, P ≠ 0) : ¬ gens.any (fun P => P = 0) = true := by
  simp only [List.any_eq_true, decide_eq_true_eq, not_exists, not_and]
  exact h

theorem blst_scalar_smul (s : Fr) (P : G) :
    (blstScalarLE ((scalarToBytesLE s).take ((255 + 7) / 8)) % 2 ^ 255) • P = s • P := by
  have hlen : (scalarToBytesLE s).length = 32 := by simp [scalarToBytesLE]
  have hlt : s.val < 2 ^ 255 := by
    have : NeZero frOrder := ⟨frOrder_prime.ne_zero⟩
    exact lt_of_lt_of_le (ZMod.val_lt s) (le_of_lt frOrder_lt)
  rw [List.take_of_length_le (by rw [hlen]), blstScalarLE_eq, leVal_scalar, Nat.mod_eq_of_lt hlt]
  rw [← Nat.cast_smul_eq_nsmul Fr]
  have : NeZero frOrder := ⟨frOrder_prime.ne_zero⟩
  rw [show ((s.val : Nat) : Fr) = s from ZMod.natCast_zmod_val s]

/-- C78: `new` hands blst buffers that are large enough, for every list of generators and every width. -/
theorem C78_new (junk : List G) (need : Nat → Nat) (gens : List G) (w : Nat) :
    ∃ m, FixedBaseMSMPrecompBLST.new junk need gens w = .done m ∧
      m.wbits = w ∧ m.numPoints = gens.length ∧ m.scratchSpaceSize = need gens.length ∧
      m.table.length = gens.length * 2 ^ (w - 1) ∧
      ((∀ P ∈ gens, P ≠ 0) → ∀ i (hi : i < gens.length), ∀ j < 2 ^ (w - 1),
        m.table[i * 2 ^ (w - 1) + j]? = some ((j + 1) • gens[i])) := by
  refine ⟨_, blst_new_eq junk need gens w, rfl, rfl, rfl, ?_, fun hg i hi j hj => ?_⟩
  · by_cases h : gens.any (fun P => P = 0)
    · simp only [if_pos h, length_resize]; rfl
    · simp only [if_neg h, length_blstTable]; rfl
  · simp only [if_neg (blst_any_false hg)]
    exact blstTable_get w gens i hi j hj

/-- C78: the table that `new` allocates is no larger than needed: blst writes beyond every smaller one. -/
theorem C78_table_exact (junk : List G) (gens : List G) (w tableLen : Nat) :
    blstPrecompute junk tableLen w gens gens.length = .fault ↔ tableLen < gens.length * 2 ^ (w - 1) := by
  unfold blstPrecompute blstMultiples
  split_ifs <;> simp_all

/-- C78: with at least as many scalars as generators, none of them the identity, `msm` stays within its buffers and returns
the exact sum; further scalars are ignored. -/
theorem C78_msm (junk : List G) (need : Nat → Nat) (gens : List G) (w : Nat) (hg : ∀ P ∈ gens, P ≠ 0) (scalars : List Fr)
    (hs : gens.length ≤ scalars.length) (m : FixedBaseMSMPrecompBLST G)
    (hm : FixedBaseMSMPrecompBLST.new junk need gens w = .done m) :
    m.msm need scalars = .done ((gens.zip scalars).map (fun q => q.2 • q.1)).sum := by
  rw [blst_new_eq, if_neg (blst_any_false hg)] at hm
  obtain rfl := Access.done.inj hm
  have hterm : (List.range gens.length).mapM (blstTerm (blstTable w gens) w (scalars.map scalarToBytesLE) 255)
      = some ((gens.zip scalars).map (fun q => q.2 • q.1)) := by
    have hz : (gens.zip scalars).map (fun q => q.2 • q.1) =
        (List.range gens.length).map (fun i => ((gens.zip scalars).map (fun q => q.2 • q.1)).getD i 0) := by
      apply List.ext_getElem
      · simp [hs]
      · intro i h1 h2
        have h3 := List.getElem?_eq_getElem h1
        simp only [List.getElem_map, List.getElem_range, List.getD_eq_getElem?_getD]
        rw [h3]
        simp
    rw [hz]
    refine mapM_some_of (fun i h1 => ?_)
    rw [List.mem_range] at h1
    have h3 : i < scalars.length := lt_of_lt_of_le h1 hs
    have h4 := blstTable_get w gens i h1 0 (blstMultiples_pos w)
    simp only [Nat.add_zero, Nat.zero_add, one_smul] at h4
    have hlen : (scalarToBytesLE scalars[i]).length = 32 := by simp [scalarToBytesLE]
    simp [blstTerm, h3, h4, hlen, List.getD_eq_getElem?_getD, h1]
    simpa using blst_scalar_smul scalars[i] gens[i]
  have hscr : ¬ (need gens.length * blstLimbBytes < need gens.length) := by unfold blstLimbBytes; omega
  simp only [FixedBaseMSMPrecompBLST.msm, blstMult, length_blstTable, lt_irrefl, hscr, or_self, if_false, hterm]

/-- C78: with fewer scalars than generators the safe function `msm` makes blst read pointers beyond the end of the array. -/
theorem C78_over_read (junk : List G) (need : Nat → Nat) (gens : List G) (w : Nat) (scalars : List Fr)
    (hs : scalars.length < gens.length) (m : FixedBaseMSMPrecompBLST G)
    (hm : FixedBaseMSMPrecompBLST.new junk need gens w = .done m) :
    m.msm need scalars = .fault := by
  rw [blst_new_eq] at hm
  obtain rfl := Access.done.inj hm
  have hn : ∀ table : List G,
      (List.range gens.length).mapM (blstTerm table w (scalars.map scalarToBytesLE) 255) = none := fun table =>
    mapM_none_of scalars.length (List.mem_range.2 hs) (by simp [blstTerm])
  simp only [FixedBaseMSMPrecompBLST.msm, blstMult, hn]
  split <;> simp

end

/-! Non-vacuity, over the group `Fr`: two generators and tables of width 2. -/
example :
    let m : FixedBaseMSMPrecompBLST Fr := { table := [2, 4, 5, 10], wbits := 2, numPoints := 2, scratchSpaceSize := 384 }
    FixedBaseMSMPrecompBLST.new [] (fun n => 192 * n) ([2, 5] : List Fr) 2 = .done m ∧
    m.msm (fun n => 192 * n) [3, 7] = .done 41 ∧ m.msm (fun n => 192 * n) [3, 7, 9] = .done 41 ∧
    m.msm (fun n => 192 * n) [3] = .fault := by
  intro m; decide +kernel

end Verif
