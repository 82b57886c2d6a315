import Verif.Lemmas.Api
import Verif.Spec.Recovery

set_option linter.unusedSectionVars false

/-! Complete case analysis of `recover_polynomial_coeff`. -/
namespace Verif
open Polynomial Finset

attribute [local irreducible] Spec.coeffs

theorem find_some_of {pre post : List Nat} {i : Nat} (hpre : ∀ j ∈ pre, j < 128) (hi : 128 ≤ i) :
    (pre ++ i :: post).find? (fun i => decide (i ≥ CELLS_PER_EXT_BLOB)) = some i := by
  rw [List.find?_append, find_none_of hpre, List.find?_cons]
  have : i ≥ CELLS_PER_EXT_BLOB := hi
  simp only [this, decide_true]
  rfl

theorem split_range (inds : List Nat) :
    (∀ i ∈ inds, i < 128) ∨ ∃ pre i post, inds = pre ++ i :: post ∧ (∀ j ∈ pre, j < 128) ∧ 128 ≤ i := by
  induction inds with
  | nil => left; simp
  | cons a l ih =>
    by_cases ha : a < 128
    · rcases ih with h | ⟨pre, i, post, rfl, hpre, hi⟩
      · left; intro i hi
        rcases List.mem_cons.1 hi with rfl | hi
        · exact ha
        · exact h i hi
      · right
        refine ⟨a :: pre, i, post, rfl, ?_, hi⟩
        intro j hj
        rcases List.mem_cons.1 hj with rfl | hj
        · exact ha
        · exact hpre j hj
    · right; exact ⟨[], a, l, rfl, by simp, by omega⟩

theorem recovery_wellFormed_or_defect (inds : List Nat) (cells : List (List UInt8)) (hc : ∀ c ∈ cells, c.length = 2048) :
    Spec.RecoveryWellFormed inds cells ∨ ∃ e, Spec.RecoveryDefect inds cells e := by
  by_cases hl : inds.length = cells.length
  swap
  · right; exact ⟨_, .lengths hl⟩
  rcases split_range inds with hr | ⟨pre, i, post, hs, hpre, hi⟩
  swap
  · right; exact ⟨_, .range hl pre post i hs hpre hi⟩
  by_cases hd : inds.Nodup
  swap
  · right; exact ⟨_, .duplicate hl hr hd⟩
  by_cases hn : inds.length < 64
  · right; exact ⟨_, .tooFew hl hr hd hn⟩
  rcases deserializeCells_cases cells hc with ⟨evs, _, _, hcan, -⟩ | ⟨pre, c, post, i, hs, hpre, hi, hbad, hfirst, -⟩
  · left; exact ⟨hl, hr, hd, by omega, hcan⟩
  · right; exact ⟨_, .scalar hl hr hd (by omega) pre post c i hs hpre hi hfirst hbad⟩

theorem canonical_not_bad {cells pre post : List (List UInt8)} {c : List UInt8} {i : Nat} (hs : cells = pre ++ c :: post)
    (hi : i < 64) (hbad : frOrder ≤ Spec.beValue (Spec.block 32 i c)) (hcan : ∀ c ∈ cells, Spec.Canonical 64 c) : False := by
  have := hcan c (by rw [hs]; simp) i hi
  omega

theorem first_bad_unique {cells pre post pre' post' : List (List UInt8)} {c c' : List UInt8} {i i' : Nat}
    (hs : cells = pre ++ c :: post) (hs' : cells = pre' ++ c' :: post')
    (hpre : ∀ d ∈ pre, Spec.Canonical 64 d) (hpre' : ∀ d ∈ pre', Spec.Canonical 64 d)
    (hi : i < 64) (hi' : i' < 64) (hb : frOrder ≤ Spec.beValue (Spec.block 32 i c))
    (hb' : frOrder ≤ Spec.beValue (Spec.block 32 i' c'))
    (hf : ∀ j < i, Spec.beValue (Spec.block 32 j c) < frOrder) (hf' : ∀ j < i', Spec.beValue (Spec.block 32 j c') < frOrder) :
    Spec.block 32 i c = Spec.block 32 i' c' := by
  have hcc : pre.length = pre'.length := by
    rcases lt_trichotomy pre.length pre'.length with h | h | h
    · exfalso
      have h1 : cells[pre.length]? = some c := by rw [hs]; simp
      rw [hs', List.getElem?_append_left h] at h1
      have := hpre' c (List.mem_of_getElem? h1) i hi
      omega
    · exact h
    · exfalso
      have h1 : cells[pre'.length]? = some c' := by rw [hs']; simp
      rw [hs, List.getElem?_append_left h] at h1
      have := hpre c' (List.mem_of_getElem? h1) i' hi'
      omega
  have hcc' : c = c' := by
    have h1 : cells[pre.length]? = some c := by rw [hs]; simp
    have h2 : cells[pre.length]? = some c' := by rw [hs', hcc]; simp
    rw [h1] at h2
    exact Option.some.inj h2
  subst hcc'
  have : i = i' := by
    rcases lt_trichotomy i i' with h | h | h
    · have := hf' i h; omega
    · exact h
    · have := hf i' h; omega
  rw [this]

theorem recoverPolynomialCoeff_defect {inds : List Nat} {cells : List (List UInt8)} (hc : ∀ c ∈ cells, c.length = 2048)
    {e : Error} (h : Spec.RecoveryDefect inds cells e) (rs : ReedSolomon) :
    recoverPolynomialCoeff rs inds cells = .err e := by
  have hall : cells.all (fun c => c.length == BYTES_PER_CELL) = true := by
    rw [List.all_eq_true]; intro c hcm; rw [beq_iff_eq]; exact hc c hcm
  unfold recoverPolynomialCoeff
  cases h with
  | lengths h =>
    unfold validateRecover
    rw [if_pos h]
    rfl
  | range h pre post i hs hpre hi =>
    have hv : validateRecover inds cells = .err (.CellIndexOutOfRange i 128) := by
      unfold validateRecover
      rw [if_neg (by simpa using h)]
      have : inds.find? (fun i => decide (i ≥ CELLS_PER_EXT_BLOB)) = some i := by rw [hs]; exact find_some_of hpre hi
      rw [this]
      rfl
    rw [hv]; rfl
  | duplicate h hr hd =>
    have hv : validateRecover inds cells = .err .CellIndicesNotUnique := by
      unfold validateRecover
      rw [if_neg (by simpa using h), find_none_of hr]
      simp only
      rw [assertP_true hall, Outcome.ok_bind, if_pos (by rw [areCellIndicesUnique_iff]; exact hd)]
    rw [hv]; rfl
  | tooFew h hr hd hn =>
    have hv : validateRecover inds cells = .err (.NotEnoughCellsToReconstruct inds.length 64) := by
      unfold validateRecover
      rw [if_neg (by simpa using h), find_none_of hr]
      simp only
      rw [assertP_true hall, Outcome.ok_bind, if_neg (by rw [areCellIndicesUnique_iff]; simpa using hd), if_pos (show inds.length < CELLS_PER_EXT_BLOB / EXPANSION_FACTOR from hn)]
      rfl
    rw [hv]; rfl
  | scalar h hr hd hn pre post c i hs hpre hi hfirst hbad =>
    rw [validateRecover_ok h hr hc hd hn]
    rcases deserializeCells_cases cells hc with ⟨evs, _, _, hcan, -⟩ | ⟨pre', c', post', i', hs', hpre', hi', hbad', hfirst', herr⟩
    · exact (canonical_not_bad hs hi hbad hcan).elim
    · rw [herr, first_bad_unique hs' hs hpre' hpre hi' hi hbad' hbad hfirst' hfirst]
      rfl

/-- Recovery of the polynomial succeeds exactly on well-formed consistent input. -/
theorem recoverPolynomialCoeff_ok_iff {inds : List Nat} {cells : List (List UInt8)} (hc : ∀ c ∈ cells, c.length = 2048)
    (r : List Fr) : recoverPolynomialCoeff (rsOf 12 1 7) inds cells = .ok r ↔
      Spec.RecoveryWellFormed inds cells ∧ ∃ f, Spec.Consistent inds cells f ∧ r = Spec.coeffs 4096 f := by
  rcases recovery_wellFormed_or_defect inds cells hc with hw | ⟨e, he⟩
  · rcases recoverPolynomialCoeff_cases hw.1 hw.2 hc hw.3 hw.4 hw.5 with ⟨⟨f, hf, h⟩ | ⟨hne, h⟩, huniq⟩
    · rw [h]
      constructor
      · intro h'
        cases h'
        exact ⟨hw, f, hf, rfl⟩
      · rintro ⟨-, g, hg, rfl⟩
        rw [huniq f g hf hg]
    · rw [h]
      constructor
      · intro h'; cases h'
      · rintro ⟨-, g, hg, rfl⟩
        exact absurd ⟨g, hg⟩ hne
  · rw [recoverPolynomialCoeff_defect hc he]
    constructor
    · intro h'; cases h'
    · rintro ⟨hw, -⟩
      exfalso
      cases he with
      | lengths h => exact h hw.1
      | range h pre post i hs hpre hi =>
        have := hw.2 i (by rw [hs]; simp)
        omega
      | duplicate h hr hd => exact hd hw.3
      | tooFew h hr hd hn => have := hw.4; omega
      | scalar h hr hd hn pre post c i hs hpre hi hfirst hbad => exact canonical_not_bad hs hi hbad hw.5

theorem wellFormed_perm {inds inds' : List Nat} {cells cells' : List (List UInt8)} (hl' : inds'.length = cells'.length)
    (hp : (inds.zip cells).Perm (inds'.zip cells')) (hw : Spec.RecoveryWellFormed inds cells) :
    Spec.RecoveryWellFormed inds' cells' := by
  have h1 : inds.Perm inds' := by
    have := hp.map Prod.fst
    rwa [List.map_fst_zip (by rw [hw.1]), List.map_fst_zip (by rw [hl'])] at this
  have h2 : cells.Perm cells' := by
    have := hp.map Prod.snd
    rwa [List.map_snd_zip (by rw [hw.1]), List.map_snd_zip (by rw [hl'])] at this
  exact ⟨hl', fun i hi => hw.2 i (h1.mem_iff.2 hi), h1.nodup_iff.1 hw.3, by rw [← h1.length_eq]; exact hw.4,
    fun c hcm => hw.5 c (h2.mem_iff.2 hcm)⟩

theorem consistent_perm {inds inds' : List Nat} {cells cells' : List (List UInt8)}
    (hp : (inds.zip cells).Perm (inds'.zip cells')) {f : Fr[X]} (h : Spec.Consistent inds cells f) :
    Spec.Consistent inds' cells' f := ⟨h.1, fun p hpm => h.2 p (hp.mem_iff.2 hpm)⟩

end Verif
