import Verif.Props.Algebra
import Verif.Props.Toy
import Verif.Props.DomainSizes

/-! C29, continued: which sizes `BatchToeplitzMatrixVecMul` accepts, and what it does with matrices of other sizes -/
namespace Verif
open Polynomial Finset

set_option linter.unusedSectionVars false

variable {ε : Type}

theorem circulant_list (tm : ToeplitzMatrix) :
    circulantFromToeplitz tm = tm.col ++ tm.row.take 1 ++ (tm.row.drop 1).reverse := by
  unfold circulantFromToeplitz
  rcases hr : tm.row with _ | ⟨r, l⟩ <;> simp

section
variable {K G : Type} [Field K] [DecidableEq K] [AddCommGroup G] [Module Fr G] [DecidableEq G] [Curve K G]

/-- the value computed for matrices of any sizes -/
theorem toeplitz_value_any (vectors : List (List G)) (matrices : List ToeplitzMatrix) (k : Nat) (hk : k + 1 ≤ 32)
    (hlen : vectors.length = matrices.length) (hl : ∀ v ∈ vectors, v.length = 2 ^ k) :
    ((domainOf (k + 1)).ifftG1TakeN ((List.range (2 ^ (k + 1))).map (fun j =>
        lcSum (fftGens vectors (k + 1) j) (fftScals matrices (k + 1) j))) (some (2 ^ k)) : Outcome ε (List G)) =
      .ok ((List.range (2 ^ k)).map (fun a => ((vectors.zip matrices).map (fun q => ∑ b ∈ range (2 ^ k),
        (circulantFromToeplitz q.2).getD ((a + 2 ^ (k + 1) - b) % 2 ^ (k + 1)) 0 • q.1.getD b 0)).sum)) := by
  have hlt : 2 ^ k < 2 ^ (k + 1) := by rw [pow_succ]; have := Nat.two_pow_pos k; omega
  rw [ifftG1TakeN_spec (k + 1) hk _ _ hlt]
  congr 1
  apply List.map_congr_left
  intro a ha
  rw [List.mem_range] at ha
  set N := 2 ^ (k + 1) with hN
  have hNk : N = 2 ^ k + 2 ^ k := by rw [hN, pow_succ]; ring
  set m := vectors.length with hmdef
  set c : Nat → Nat → Fr := fun i s => (circulantFromToeplitz (matrices.getD i ⟨[], []⟩)).getD s 0 with hc
  set w : Nat → Nat → G := fun i s => (vectors.getD i []).getD s 0 with hw
  have e1 : Spec.dft (Spec.omega (k + 1))⁻¹ N (fun i => ((List.range N).map (fun j =>
        lcSum (fftGens vectors (k + 1) j) (fftScals matrices (k + 1) j))).getD i 0) a =
      Spec.dft (Spec.omega (k + 1))⁻¹ N (fun j => ∑ i ∈ range m,
        Spec.dft (Spec.omega (k + 1)) N (c i) j • Spec.dft (Spec.omega (k + 1)) N (w i) j) a := by
    apply dft_congr
    intro j hj
    simp only [List.getD, List.getElem?_map, List.getElem?_range hj, Option.map_some, Option.getD_some]
    rw [lcSum_eq _ _ m (by simp [fftGens, hmdef]) (by simp [fftScals, hlen])]
    apply sum_congr rfl
    intro i hi
    have hi : i < m := mem_range.1 hi
    have hi' : i < matrices.length := by omega
    have h1 : (fftScals matrices (k + 1) j).getD i 0 = Spec.dft (Spec.omega (k + 1)) N (c i) j := by
      simp [fftScals, List.getD, hi', hc, hN]
    have h2 : (fftGens vectors (k + 1) j).getD i 0 = Spec.dft (Spec.omega (k + 1)) N (w i) j := by
      simp [fftGens, List.getD, show i < vectors.length from hi, hw, hN]
    rw [h1, h2]
  rw [e1, idft_sum_products (omega_primitive (k + 1) hk) (two_pow_ne_zero (k + 1)) (Nat.two_pow_pos _) _ _ _
    (by omega)]
  rw [sum_zip_eq (fun q : List G × ToeplitzMatrix => ∑ b ∈ range (2 ^ k),
      (circulantFromToeplitz q.2).getD ((a + N - b) % N) 0 • q.1.getD b 0) vectors matrices [] ⟨[], []⟩ m rfl hlen.symm]
  apply sum_congr rfl
  intro i hi
  have hiv : i < vectors.length := mem_range.1 hi
  have hvi := hl (vectors.getD i []) (by simp [List.getD, hiv])
  rw [← hN, show range N = range (2 ^ k + 2 ^ k) by rw [hNk], sum_range_add]
  have hz : ∑ x ∈ range (2 ^ k), c i ((a + N - (2 ^ k + x)) % N) • w i (2 ^ k + x) = 0 := by
    apply sum_eq_zero
    intro x _
    have : w i (2 ^ k + x) = 0 := by
      simp only [hw]
      exact List.getD_eq_default _ _ (by omega)
    rw [this, smul_zero]
  rw [hz, add_zero]

/-- C29: the constructor without precomputation succeeds exactly if there is a vector, all have the same length, and this is a
power of two up to `2^31`; everything else (up to vectors of `2^62` points) panics. -/
theorem C29_new (vectors : List (List G)) (h62 : ∀ v ∈ vectors, v.length ≤ 2 ^ 62) :
    ((∃ bt, (BatchToeplitz.new vectors .no : Outcome ε (BatchToeplitz K G)) = .ok bt) ↔
      vectors ≠ [] ∧ ∃ k ≤ 31, ∀ v ∈ vectors, v.length = 2 ^ k) ∧
    ((BatchToeplitz.new vectors .no : Outcome ε (BatchToeplitz K G)) = .panic ↔
      ¬ (vectors ≠ [] ∧ ∃ k ≤ 31, ∀ v ∈ vectors, v.length = 2 ^ k)) := by
  have hok : (vectors ≠ [] ∧ ∃ k ≤ 31, ∀ v ∈ vectors, v.length = 2 ^ k) →
      ∃ bt, (BatchToeplitz.new vectors .no : Outcome ε (BatchToeplitz K G)) = .ok bt := by
    rintro ⟨hv, k, hk, hl⟩
    rw [batchToeplitz_new vectors k (by omega) hv hl .no, List.mapM_map]
    rw [mapM_ok (g := fun j => FixedBaseMSM.noPrecomp (fftGens vectors (k + 1) j)) (by intro j _; rfl)]
    exact ⟨_, rfl⟩
  have hno : ¬ (vectors ≠ [] ∧ ∃ k ≤ 31, ∀ v ∈ vectors, v.length = 2 ^ k) →
      (BatchToeplitz.new vectors .no : Outcome ε (BatchToeplitz K G)) = .panic := by
    intro h
    unfold BatchToeplitz.new
    cases vectors with
    | nil => rfl
    | cons v0 vs =>
      have hidx : (idx (v0 :: vs) 0 : Outcome ε (List G)) = .ok v0 := rfl
      rw [hidx]
      simp only [Outcome.ok_bind]
      by_cases hall : (v0 :: vs).all (fun v => v.length == v0.length) = true
      · rw [assertP_true hall, Outcome.ok_bind]
        by_cases hp : isPow2 v0.length = true
        · rw [assertP_true hp, Outcome.ok_bind]
          obtain ⟨k, hk⟩ := (isPow2_iff _).1 hp
          have hk31 : 31 < k := by
            by_contra hcon
            refine h ⟨by simp, k, by omega, fun v hv => ?_⟩
            rw [List.all_eq_true] at hall
            have := hall v hv
            simp only [beq_iff_eq] at this
            rw [this, hk]
          have h2 : 2 ^ 32 ≤ v0.length := by rw [hk]; exact Nat.pow_le_pow_right (by norm_num) hk31
          have h3 := h62 v0 (by simp)
          rw [(C19_sizes (ε := ε) (v0.length * 2) (by omega)).2 (by omega)]
          rfl
        · rw [assertP_false hp]; rfl
      · rw [assertP_false hall]; rfl
  refine ⟨⟨?_, hok⟩, ⟨?_, hno⟩⟩
  · rintro ⟨bt, hbt⟩
    by_contra hcon
    rw [hno hcon] at hbt
    cases hbt
  · intro hp hcon
    obtain ⟨bt, hbt⟩ := hok hcon
    rw [hbt] at hp
    cases hp

/-- C29: the number of matrices is checked, their sizes are not. Every matrix, of whatever size, is taken for the circulant matrix
whose first column is its column, then the first element of its row and then the rest of its row backwards, cut or filled up with
zeros to twice the length of the vectors; the result consists of the first components of the products with these. -/
theorem C29_any_matrices (vectors : List (List G)) (matrices : List ToeplitzMatrix) (k : Nat) (hk : k + 1 ≤ 32)
    (hne : vectors ≠ []) (hl : ∀ v ∈ vectors, v.length = 2 ^ k) :
    ∃ bt, (BatchToeplitz.new vectors .no : Outcome ε (BatchToeplitz K G)) = .ok bt ∧
      (vectors.length ≠ matrices.length → (bt.sumMatrixVectorMul matrices : Outcome ε (List G)) = .panic) ∧
      (vectors.length = matrices.length → (bt.sumMatrixVectorMul matrices : Outcome ε (List G)) =
        .ok ((List.range (2 ^ k)).map (fun a => ((vectors.zip matrices).map (fun q => ∑ b ∈ range (2 ^ k),
          (q.2.col ++ q.2.row.take 1 ++ (q.2.row.drop 1).reverse).getD ((a + 2 ^ (k + 1) - b) % 2 ^ (k + 1)) 0 •
            q.1.getD b 0)).sum))) := by
  refine ⟨⟨vectors.length, (List.range (2 ^ (k + 1))).map (fun j => .noPrecomp (fftGens vectors (k + 1) j)), 2 ^ k,
    domainOf (k + 1)⟩, ?_, ?_, ?_⟩
  · rw [batchToeplitz_new vectors k hk hne hl .no, List.mapM_map]
    rw [mapM_ok (g := fun j => FixedBaseMSM.noPrecomp (fftGens vectors (k + 1) j)) (by intro j _; rfl)]
    rfl
  · intro h
    unfold BatchToeplitz.sumMatrixVectorMul
    rw [assertP_false (fun h' => h h'.symm)]
    rfl
  · intro hlen
    have hm : matrices ≠ [] := by
      rintro rfl
      exact hne (List.length_eq_zero_iff.1 hlen)
    rw [hlen, sumMatrixVectorMul_eq _ k hk matrices hm, List.zip_map', List.mapM_map]
    have h := mapM_ok (f := fun j => (((.noPrecomp (fftGens vectors (k + 1) j) : FixedBaseMSM K G)).msm
        (fftScals matrices (k + 1) j) : Outcome ε G))
      (g := fun j => lcSum (fftGens vectors (k + 1) j) (fftScals matrices (k + 1) j))
      (l := List.range (2 ^ (k + 1))) (by
        intro j _
        simp [FixedBaseMSM.msm, lincomb_eq, expect])
    simp only [Function.comp_def] at h ⊢
    rw [h, Outcome.ok_bind, toeplitz_value_any vectors matrices k hk hlen hl]
    simp only [circulant_list]
end

/-! Concrete cases: a matrix of size 1 with vectors of size 2. The product with the vector is neither an error nor the product with the
matrix filled up with zeros, which would be `[1, 0]`. No vectors, and vectors of length 3, panic. -/
section
open Toy

example : ∃ bt : BatchToeplitz Fr Fr, (BatchToeplitz.new [[1, 10]] .no : Outcome Unit (BatchToeplitz Fr Fr)) = .ok bt ∧
    (bt.sumMatrixVectorMul [⟨[1], [1]⟩] : Outcome Unit (List Fr)) = .ok [1, 11] ∧
    (bt.sumMatrixVectorMul [] : Outcome Unit (List Fr)) = .panic := by
  obtain ⟨bt, hbt, -, h⟩ := C29_any_matrices (ε := Unit) (K := Fr) [[(1 : Fr), 10]] [⟨[1], [1]⟩] 1 (by norm_num) (by simp) (by simp)
  obtain ⟨bt', hbt', h', -⟩ := C29_any_matrices (ε := Unit) (K := Fr) [[(1 : Fr), 10]] [] 1 (by norm_num) (by simp) (by simp)
  rw [hbt] at hbt'
  cases hbt'
  refine ⟨bt, hbt, ?_, h' (by simp)⟩
  rw [h rfl]
  decide +kernel
example : (BatchToeplitz.new [] .no : Outcome Unit (BatchToeplitz Fr Fr)) = .panic :=
  (C29_new [] (by simp)).2.2 (by simp)
example : (BatchToeplitz.new [[1, 2, 3]] .no : Outcome Unit (BatchToeplitz Fr Fr)) = .panic := by
  refine (C29_new [[1, 2, 3]] (by simp)).2.2 ?_
  rintro ⟨-, k, -, h⟩
  have := h [1, 2, 3] (by simp)
  rcases k with _ | k
  · simp at this
  · rw [pow_succ] at this
    simp at this
    omega
end

end Verif
