import Verif.Model.Naive
import Verif.Lemmas.LongKey

set_option linter.unusedSectionVars false

/-! The products of a Toeplitz matrix with a vector in `toeplitz.rs`. -/
namespace Verif
open Finset

variable {ε : Type}

section
variable {G : Type} [AddCommGroup G] [Module Fr G] [DecidableEq G]

theorem idft_product {ω : Fr} {N : Nat} (h : IsPrimitiveRoot ω N) (hn : (N : Fr) ≠ 0) (hN : 0 < N)
    (c : Nat → Fr) (v : Nat → G) {a : Nat} (ha : a < N) :
    (N : Fr)⁻¹ • Spec.dft ω⁻¹ N (fun j => Spec.dft ω N c j • Spec.dft ω N v j) a =
      ∑ t ∈ range N, c ((a + N - t) % N) • v t := by
  have := idft_sum_products h hn hN (Finset.range 1) (fun _ => c) (fun _ => v) ha
  simpa using this

theorem circulant_sum (tm : ToeplitzMatrix) (v : List G) (k : Nat) (hr : tm.row.length = 2 ^ k) (hc : tm.col.length = 2 ^ k)
    (hv : v.length = 2 ^ k) (a : Nat) (ha : a < 2 ^ k) :
    ∑ t ∈ range (2 ^ (k + 1)), (circulantFromToeplitz tm).getD ((a + 2 ^ (k + 1) - t) % 2 ^ (k + 1)) 0 • v.getD t 0 =
      Spec.toeplitzMul tm.row tm.col v (2 ^ k) a := by
  have h2 : 2 ^ (k + 1) = 2 * 2 ^ k := by rw [pow_succ]; ring
  unfold Spec.toeplitzMul
  rw [h2]
  rw [show 2 * 2 ^ k = 2 ^ k + 2 ^ k by ring, sum_range_add]
  have z : ∑ x ∈ range (2 ^ k), (circulantFromToeplitz tm).getD ((a + (2 ^ k + 2 ^ k) - (2 ^ k + x)) % (2 ^ k + 2 ^ k)) 0 •
      v.getD (2 ^ k + x) 0 = 0 := by
    apply sum_eq_zero
    intro x _
    rw [List.getD_eq_default v _ (by omega), smul_zero]
  rw [z, add_zero]
  apply sum_congr rfl
  intro t ht
  rw [show 2 ^ k + 2 ^ k = 2 * 2 ^ k by ring, circulant_getD tm (2 ^ k) hr hc ha (mem_range.1 ht)]

theorem vectorMulG1_eq (tm : ToeplitzMatrix) (v : List G) (k : Nat) (hk : k + 1 ≤ 32) (hr : tm.row.length = 2 ^ k)
    (hc : tm.col.length = 2 ^ k) (hv : v.length = 2 ^ k) :
    (tm.vectorMulG1 v : Outcome ε (List G)) = .ok ((List.range (2 ^ k)).map (Spec.toeplitzMul tm.row tm.col v (2 ^ k))) := by
  unfold ToeplitzMatrix.vectorMulG1 circulantVectorMulG1
  have hlt : 2 ^ k < 2 ^ (k + 1) := by rw [pow_succ]; have := Nat.two_pow_pos k; omega
  rw [hv, assertP_true (isPow2_two_pow k), Outcome.ok_bind, ← pow_succ, domain_new_two_pow (k + 1) hk, Outcome.ok_bind,
    fftG1_spec (k + 1) hk, Outcome.ok_bind]
  obtain ⟨B, hB, hR⟩ := fftScalars_spec (ε := ε) (k + 1) hk (circulantFromToeplitz tm)
  rw [hB, Outcome.ok_bind, hR.eq_map, List.zip_map', List.map_map, ifftG1_spec (k + 1) hk, Outcome.ok_bind, ← List.map_take,
    List.take_range, Nat.min_eq_left hlt.le, Outcome.pure_eq]
  congr 1
  apply List.map_congr_left
  intro a ha
  have ha := List.mem_range.1 ha
  rw [← circulant_sum tm v k hr hc hv a ha,
    ← idft_product (omega_primitive (k + 1) hk) (two_pow_ne_zero (k + 1)) (Nat.two_pow_pos _)
      (fun i => (circulantFromToeplitz tm).getD i 0) (fun i => v.getD i 0) (a := a) (by omega)]
  congr 1
  apply dft_congr
  intro j hj
  exact (rep_map_range _ _).getD 0 hj
end

theorem vectorMulScalars_eq (tm : ToeplitzMatrix) (v : List Fr) (k : Nat) (hk : k + 1 ≤ 32) (hr : tm.row.length = 2 ^ k)
    (hc : tm.col.length = 2 ^ k) (hv : v.length = 2 ^ k) :
    (tm.vectorMulScalars v : Outcome ε (List Fr)) =
      .ok ((List.range (2 ^ k)).map (Spec.toeplitzMul tm.row tm.col v (2 ^ k))) := by
  unfold ToeplitzMatrix.vectorMulScalars circulantVectorMulScalar
  have hlt : 2 ^ k < 2 ^ (k + 1) := by rw [pow_succ]; have := Nat.two_pow_pos k; omega
  rw [hv, assertP_true hc.symm, Outcome.ok_bind, ← pow_succ, domain_new_two_pow (k + 1) hk, Outcome.ok_bind]
  obtain ⟨A, hA, hRA⟩ := fftScalars_spec (ε := ε) (k + 1) hk v
  obtain ⟨B, hB, hR⟩ := fftScalars_spec (ε := ε) (k + 1) hk (circulantFromToeplitz tm)
  rw [hA, Outcome.ok_bind, hB, Outcome.ok_bind, hR.eq_map, hRA.eq_map, List.zip_map', List.map_map]
  obtain ⟨D, hD, hRD⟩ := ifftScalars_spec (ε := ε) (k + 1) hk ((List.range (2 ^ (k + 1))).map
    ((fun q : Fr × Fr => q.1 * q.2) ∘ fun a => (Spec.dft (Spec.omega (k + 1)) (2 ^ (k + 1)) (fun i => v.getD i 0) a,
      Spec.dft (Spec.omega (k + 1)) (2 ^ (k + 1)) (fun i => (circulantFromToeplitz tm).getD i 0) a)))
  rw [hD, Outcome.ok_bind, hRD.eq_map, ← List.map_take, List.take_range, Nat.min_eq_left hlt.le, Outcome.pure_eq]
  congr 1
  apply List.map_congr_left
  intro a ha
  have ha := List.mem_range.1 ha
  rw [← circulant_sum tm v k hr hc hv a ha,
    ← idft_product (omega_primitive (k + 1) hk) (two_pow_ne_zero (k + 1)) (Nat.two_pow_pos _)
      (fun i => (circulantFromToeplitz tm).getD i 0) (fun i => v.getD i 0) (a := a) (by omega)]
  congr 1
  apply dft_congr
  intro j hj
  rw [(rep_map_range _ _).getD 0 hj, Function.comp_apply, smul_eq_mul, mul_comm]

/-- entry `(i, j)` as `DenseMatrix::from_toeplitz` fills it -/
def denseEntry (tm : ToeplitzMatrix) (i j : Nat) : Fr := if i ≤ j then tm.row.getD (j - i) 0 else tm.col.getD (i - j) 0

theorem denseRow_spec (tm : ToeplitzMatrix) (n i : Nat) (hr : tm.row.length = n) (hc : tm.col.length = n) (hi : i < n)
    (M : List (List Fr)) (F : Nat → List Fr) (hM : Rep M n F) (hF : F i = List.replicate n 0) :
    ∃ M', ((List.range n).foldlM (fun matrix j => do
      let v ← (if i ≤ j then idx tm.row (j - i) else idx tm.col (i - j))
      let r ← idx matrix i
      let r ← setIdx r j v
      setIdx matrix i r) M : Outcome ε _) = .ok M' ∧
      Rep M' n (Function.update F i ((List.range n).map (denseEntry tm i))) := by
  obtain ⟨M', h1, h2⟩ := foldlM_range_inv (ε := ε) (n := n) (s := M) (body := fun matrix j => do
      let v ← (if i ≤ j then idx tm.row (j - i) else idx tm.col (i - j))
      let r ← idx matrix i
      let r ← setIdx r j v
      setIdx matrix i r)
    (fun t A => Rep A n (Function.update F i ((List.range n).map (fun j => if j < t then denseEntry tm i j else 0))))
    (by
      refine hM.congr (fun a _ => ?_)
      by_cases ha : a = i
      · subst ha
        rw [Function.update_self, hF]
        apply List.ext_getElem (by simp)
        intro j h1 h2
        simp
      · rw [Function.update_of_ne ha])
    (by
      intro j A hj hA
      have hv : (if i ≤ j then idx tm.row (j - i) else idx tm.col (i - j) : Outcome ε Fr) = .ok (denseEntry tm i j) := by
        unfold denseEntry
        split
        · exact (rep_getD tm.row (0 : Fr)).idx (i := j - i) (by omega)
        · exact (rep_getD tm.col (0 : Fr)).idx (i := i - j) (by omega)
      refine ⟨A.set i (((List.range n).map (fun j' => if j' < j then denseEntry tm i j' else 0)).set j (denseEntry tm i j)), ?_, ?_⟩
      · rw [hv, Outcome.ok_bind, hA.idx hi, Outcome.ok_bind, Function.update_self,
          (rep_map_range n _).setIdx hj, Outcome.ok_bind, hA.setIdx hi]
      · refine (hA.set _).congr (fun a _ => ?_)
        by_cases ha : a = i
        · subst ha
          rw [Function.update_self, Function.update_self]
          refine (((rep_map_range n _).set _).congr (fun b hb => ?_)).eq_map
          by_cases hbj : b = j
          · subst hbj; rw [Function.update_self, if_pos (by omega)]
          · rw [Function.update_of_ne hbj]
            by_cases h : b < j
            · rw [if_pos h, if_pos (by omega)]
            · rw [if_neg h, if_neg (by omega)]
        · rw [Function.update_of_ne ha, Function.update_of_ne ha, Function.update_of_ne ha])
  refine ⟨M', h1, h2.congr (fun a _ => ?_)⟩
  have : (List.range n).map (fun j => if j < n then denseEntry tm i j else 0) = (List.range n).map (denseEntry tm i) := by
    apply List.map_congr_left
    intro j hj
    rw [if_pos (List.mem_range.1 hj)]
  rw [this]

theorem denseFromToeplitz_eq (tm : ToeplitzMatrix) (n : Nat) (hr : tm.row.length = n) (hc : tm.col.length = n) :
    (denseFromToeplitz tm : Outcome ε _) = .ok ((List.range n).map (fun i => (List.range n).map (denseEntry tm i))) := by
  unfold denseFromToeplitz
  rw [hr, hc]
  obtain ⟨M', h1, h2⟩ := foldlM_range_inv (ε := ε) (n := n) (s := List.replicate n (List.replicate n (0 : Fr)))
    (body := fun matrix i => (List.range n).foldlM (fun matrix j => do
      let v ← (if i ≤ j then idx tm.row (j - i) else idx tm.col (i - j))
      let r ← idx matrix i
      let r ← setIdx r j v
      setIdx matrix i r) matrix)
    (fun t A => Rep A n (fun i => if i < t then (List.range n).map (denseEntry tm i) else List.replicate n 0))
    ⟨by simp, fun i hi => by simp [hi]⟩
    (by
      intro i A hi hA
      obtain ⟨M', h1, h2⟩ := denseRow_spec (ε := ε) tm n i hr hc hi A _ hA (by simp)
      refine ⟨M', h1, h2.congr (fun a _ => ?_)⟩
      by_cases ha : a = i
      · subst ha; rw [Function.update_self, if_pos (by omega)]
      · rw [Function.update_of_ne ha]
        by_cases h : a < i
        · rw [if_pos h, if_pos (by omega)]
        · rw [if_neg h, if_neg (by omega)])
  rw [h1]
  congr 1
  refine (h2.congr (fun a ha => ?_)).eq_map
  rw [if_pos ha]

theorem denseVectorMul_eq (tm : ToeplitzMatrix) (v : List Fr) (n : Nat) (hn : 0 < n) (hr : tm.row.length = n)
    (hc : tm.col.length = n) (hv : v.length = n) :
    (do let dm ← denseFromToeplitz tm
        denseVectorMulScalar dm v : Outcome ε (List Fr)) =
      .ok ((List.range n).map (fun a => ∑ b ∈ range n, denseEntry tm a b * v.getD b 0)) := by
  rw [denseFromToeplitz_eq tm n hr hc, Outcome.ok_bind]
  unfold denseVectorMulScalar
  rw [(rep_map_range n _).idx hn, Outcome.ok_bind, assertP_true (by simp [hv]), Outcome.ok_bind, List.map_map, Outcome.pure_eq]
  congr 1
  apply List.map_congr_left
  intro a _
  rw [Function.comp_apply, sum_zip_eq (fun q : Fr × Fr => q.1 * q.2) v _ 0 0 n hv (by simp)]
  apply sum_congr rfl
  intro b hb
  rw [(rep_map_range n _).getD 0 (mem_range.1 hb), mul_comm]

end Verif
