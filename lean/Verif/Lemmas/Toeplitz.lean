import Verif.Model.Toeplitz
import Verif.Spec.Toeplitz
import Verif.Lemmas.Domain
import Mathlib.Data.List.GetD
import Verif.Lemmas.Lincomb

/-! The circulant embedding computes Toeplitz products. -/
namespace Verif
open Finset

variable {ε : Type}

section conv
variable {G : Type} [AddCommGroup G] [Module Fr G]

/-- cyclic convolution theorem -/
theorem dft_convolution {ω : Fr} {N : Nat} (hN : 0 < N) (hω : ω ^ N = 1) (c : Nat → Fr) (v : Nat → G) (j : Nat) :
    Spec.dft ω N (fun a => ∑ t ∈ range N, c ((a + N - t) % N) • v t) j =
      Spec.dft ω N c j • Spec.dft ω N v j := by
  unfold Spec.dft
  simp only [smul_sum, smul_smul, smul_eq_mul]
  rw [sum_comm]
  have hmod : ∀ e, ω ^ (e % N * j) = ω ^ (e * j) := by
    intro e
    conv_rhs => rw [← Nat.mod_add_div e N, add_mul, pow_add, mul_assoc N, pow_mul ω N, hω, one_pow, mul_one]
  apply sum_congr rfl
  intro t ht
  rw [sum_mul, sum_smul]
  have ht : t < N := mem_range.1 ht
  refine sum_nbij' (fun a => (a + N - t) % N) (fun s => (s + t) % N) ?_ ?_ ?_ ?_ ?_
  · intro a _; exact mem_range.2 (Nat.mod_lt _ hN)
  · intro a _; exact mem_range.2 (Nat.mod_lt _ hN)
  · intro a ha
    have ha : a < N := mem_range.1 ha
    by_cases h : t ≤ a
    · have e : (a + N - t) % N = a - t := by
        have : a + N - t = (a - t) + N := by omega
        rw [this, Nat.add_mod_right, Nat.mod_eq_of_lt (by omega)]
      rw [e, Nat.sub_add_cancel h, Nat.mod_eq_of_lt ha]
    · have e : (a + N - t) % N = a + N - t := Nat.mod_eq_of_lt (by omega)
      rw [e]
      have : a + N - t + t = a + N := by omega
      rw [this, Nat.add_mod_right, Nat.mod_eq_of_lt ha]
  · intro s hs
    have hs : s < N := mem_range.1 hs
    by_cases h : s + t < N
    · rw [Nat.mod_eq_of_lt h]
      have : s + t + N - t = s + N := by omega
      rw [this, Nat.add_mod_right, Nat.mod_eq_of_lt hs]
    · have e : (s + t) % N = s + t - N := by
        rw [Nat.mod_eq_sub_mod (by omega), Nat.mod_eq_of_lt (by omega)]
      rw [e]
      have : s + t - N + N - t = s := by omega
      rw [this, Nat.mod_eq_of_lt hs]
  · intro a ha
    have ha : a < N := mem_range.1 ha
    congr 1
    rw [hmod, mul_right_comm, ← pow_add, ← add_mul]
    congr 1
    have : a + N - t + t = a + N := by omega
    rw [this, add_mul, pow_add, pow_mul ω N j, hω, one_pow, mul_one]

/-- summed version -/
theorem idft_sum_products {ι : Type} {ω : Fr} {N : Nat} (h : IsPrimitiveRoot ω N) (hn : (N : Fr) ≠ 0) (hN : 0 < N)
    (s : Finset ι) (c : ι → Nat → Fr) (v : ι → Nat → G) {a : Nat} (ha : a < N) :
    (N : Fr)⁻¹ • Spec.dft ω⁻¹ N (fun j => ∑ i ∈ s, Spec.dft ω N (c i) j • Spec.dft ω N (v i) j) a =
      ∑ i ∈ s, ∑ t ∈ range N, c i ((a + N - t) % N) • v i t := by
  have e : (fun j => ∑ i ∈ s, Spec.dft ω N (c i) j • Spec.dft ω N (v i) j) =
      Spec.dft ω N (fun a => ∑ i ∈ s, ∑ t ∈ range N, c i ((a + N - t) % N) • v i t) := by
    funext j
    have : ∀ i ∈ s, Spec.dft ω N (c i) j • Spec.dft ω N (v i) j =
        Spec.dft ω N (fun a => ∑ t ∈ range N, c i ((a + N - t) % N) • v i t) j :=
      fun i _ => (dft_convolution hN h.pow_eq_one (c i) (v i) j).symm
    rw [sum_congr rfl this]
    unfold Spec.dft
    rw [sum_comm]
    simp only [smul_sum]
  rw [e, idft_dft h hn _ ha]
end conv

/-! ### circulant rows -/

theorem length_circulant (tm : ToeplitzMatrix) (n : Nat) (hr : tm.row.length = n) (hc : tm.col.length = n) :
    (circulantFromToeplitz tm).length = 2 * n := by
  simp [circulantFromToeplitz, hr, hc]; omega

theorem circulant_getD (tm : ToeplitzMatrix) (n : Nat) (hr : tm.row.length = n) (hc : tm.col.length = n) {a t : Nat}
    (ha : a < n) (ht : t < n) :
    (circulantFromToeplitz tm).getD ((a + 2 * n - t) % (2 * n)) 0 = Spec.toeplitzEntry tm.row tm.col a t := by
  unfold Spec.toeplitzEntry circulantFromToeplitz
  by_cases h : t ≤ a
  · rw [if_pos h]
    have e : (a + 2 * n - t) % (2 * n) = a - t := by
      have : a + 2 * n - t = (a - t) + 2 * n := by omega
      rw [this, Nat.add_mod_right, Nat.mod_eq_of_lt (by omega)]
    rw [e]
    simp only [List.getD]
    rw [List.getElem?_append_left (by omega)]
  · rw [if_neg h]
    have e : (a + 2 * n - t) % (2 * n) = 2 * n - (t - a) := by
      rw [Nat.mod_eq_of_lt (by omega)]; omega
    rw [e]
    simp only [List.getD]
    rw [List.getElem?_append_right (by omega), List.getElem?_reverse (by simp; omega),
      List.getElem?_append_left (by simp; omega), List.getElem?_drop]
    congr 2
    simp; omega

/-! ### transpose -/

theorem transposeRow_spec {α : Type} (z : α) {A : List (List α)} {c : Nat} {f : Nat → List α} (h : Rep A c f)
    (row : List α) (hr : row.length = c) :
    ∃ B, (transposeRow A row : Outcome ε (List (List α))) = .ok B ∧
      Rep B c (fun i => f i ++ [row.getD i z]) := by
  unfold transposeRow
  obtain ⟨B, hB, hR⟩ := foldlM_list_inv (ε := ε) (l := row.zipIdx) (s := A)
    (body := fun result (q : α × Nat) => do
      let c ← idx result q.2
      setIdx result q.2 (c ++ [q.1]))
    (fun q B => Rep B c (fun i => if i < q then f i ++ [row.getD i z] else f i))
    (by simpa using h)
    (by
      intro q B hq hB
      have hq' : q < row.length := by simpa using hq
      refine ⟨B.set q (f q ++ [row[q]]), ?_, (hB.set _).congr ?_⟩
      · simp only [List.getElem_zipIdx, zero_add]
        rw [hB.idx (by omega)]
        simp [hB.setIdx (show q < c by omega)]
      · intro i _
        by_cases hi : i = q
        · subst hi
          simp [List.getD, hq']
        · rw [Function.update_of_ne hi]
          by_cases h1 : i < q
          · simp [h1, show i < q + 1 by omega]
          · simp [h1, show ¬ i < q + 1 by omega])
  refine ⟨B, hB, hR.congr ?_⟩
  intro i hi
  simp [hr, hi]

theorem transpose_spec {α : Type} (z : α) (v : List (List α)) (c : Nat) (hc : 0 < c) (hv : v ≠ [])
    (h : ∀ row ∈ v, row.length = c) :
    (transpose v : Outcome ε (List (List α))) =
      .ok ((List.range c).map (fun i => v.map (fun row => row.getD i z))) := by
  cases v with
  | nil => exact absurd rfl hv
  | cons v0 vs =>
    have h0 : v0.length = c := h v0 (by simp)
    have hne : v0.isEmpty = false := by
      cases v0 with
      | nil => simp at h0; omega
      | cons _ _ => rfl
    simp only [transpose, hne]
    obtain ⟨B, hB, hR⟩ := foldlM_list_inv (ε := ε) (l := v0 :: vs) (s := List.replicate v0.length [])
      (body := transposeRow)
      (fun q B => Rep B c (fun i => ((v0 :: vs).take q).map (fun row => row.getD i z)))
      (by
        refine ⟨by simp [h0], fun i hi => ?_⟩
        simp [h0, hi])
      (by
        intro q B hq hB
        obtain ⟨B', hB', hR'⟩ := transposeRow_spec (ε := ε) z hB (v0 :: vs)[q] (h _ (List.getElem_mem hq))
        refine ⟨B', hB', hR'.congr ?_⟩
        intro i _
        rw [List.take_succ_eq_append_getElem hq, List.map_append]
        simp)
    rw [List.take_length] at hR
    simp only [Bool.false_eq_true, if_false]
    rw [hB, hR.eq_map]

/-! ### `BatchToeplitzMatrixVecMul` -/
section
variable {K G : Type} [Field K] [DecidableEq K] [AddCommGroup G] [Module Fr G] [DecidableEq G] [Curve K G]

/-- generators of the `j`-th fixed-base MSM -/
def fftGens (vectors : List (List G)) (k j : Nat) : List G :=
  vectors.map (fun v => Spec.dft (Spec.omega k) (2 ^ k) (fun i => v.getD i 0) j)

omit [Field K] [DecidableEq K] in
theorem batchToeplitz_new (vectors : List (List G)) (k : Nat) (hk : k + 1 ≤ 32) (hv : vectors ≠ [])
    (hl : ∀ v ∈ vectors, v.length = 2 ^ k) (up : UsePrecomp) :
    (BatchToeplitz.new vectors up : Outcome ε (BatchToeplitz K G)) =
      (((List.range (2 ^ (k + 1))).map (fftGens vectors (k + 1))).mapM (fun v => FixedBaseMSM.new v up)) >>=
        fun table => .ok ⟨vectors.length, table, 2 ^ k, domainOf (k + 1)⟩ := by
  unfold BatchToeplitz.new
  cases vectors with
  | nil => exact absurd rfl hv
  | cons v0 vs =>
    have h0 : v0.length = 2 ^ k := hl v0 (by simp)
    have hidx : (idx (v0 :: vs) 0 : Outcome ε (List G)) = .ok v0 := rfl
    rw [hidx]
    simp only [Outcome.ok_bind]
    rw [assertP_true (by
      rw [List.all_eq_true]; intro v hv'; rw [hl v hv', h0]; simp), assertP_true (by rw [h0]; exact isPow2_two_pow k)]
    simp only [Outcome.ok_bind]
    have hd : (Domain.new (v0.length * 2) : Outcome ε Domain) = .ok (domainOf (k + 1)) := by
      rw [h0, ← pow_succ]; exact domain_new_two_pow (k + 1) hk
    rw [hd]
    simp only [Outcome.ok_bind]
    rw [mapM_ok (g := fun v => (List.range (2 ^ (k + 1))).map
      (Spec.dft (Spec.omega (k + 1)) (2 ^ (k + 1)) (fun i => v.getD i 0)))
      (fun v _ => fftG1_spec (k + 1) hk v)]
    simp only [Outcome.ok_bind]
    rw [transpose_spec 0 _ (2 ^ (k + 1)) (Nat.two_pow_pos _) (by simp) (by
      intro row hrow
      obtain ⟨v, _, rfl⟩ := List.mem_map.1 hrow
      simp)]
    simp only [Outcome.ok_bind, List.length_map, Outcome.pure_eq, h0]
    congr 2
    apply List.map_congr_left
    intro j hj
    rw [List.mem_range] at hj
    unfold fftGens
    rw [List.map_map]
    apply List.map_congr_left
    intro v _
    simp [List.getD, hj]

/-- scalars of the `j`-th MSM -/
def fftScals (matrices : List ToeplitzMatrix) (k j : Nat) : List Fr :=
  matrices.map (fun tm => Spec.dft (Spec.omega k) (2 ^ k) (fun i => (circulantFromToeplitz tm).getD i 0) j)

theorem sumMatrixVectorMul_eq (ms : List (FixedBaseMSM K G)) (k : Nat) (hk : k + 1 ≤ 32)
    (matrices : List ToeplitzMatrix) (hm : matrices ≠ []) :
    ((⟨matrices.length, ms, 2 ^ k, domainOf (k + 1)⟩ : BatchToeplitz K G).sumMatrixVectorMul matrices :
      Outcome ε (List G)) =
    ((ms.zip ((List.range (2 ^ (k + 1))).map (fftScals matrices (k + 1)))).mapM (fun q => q.1.msm q.2)) >>=
      fun result => (domainOf (k + 1)).ifftG1TakeN result (some (2 ^ k)) := by
  unfold BatchToeplitz.sumMatrixVectorMul
  rw [assertP_true rfl]
  simp only [Outcome.ok_bind]
  rw [mapM_ok (g := fun row => (List.range (2 ^ (k + 1))).map
      (Spec.dft (Spec.omega (k + 1)) (2 ^ (k + 1)) (fun i => row.getD i 0)))
      (fun row _ => by
        obtain ⟨B, hB, hR⟩ := fftScalars_spec (ε := ε) (k + 1) hk row
        rw [hB, hR.eq_map])]
  simp only [Outcome.ok_bind]
  rw [transpose_spec 0 _ (2 ^ (k + 1)) (Nat.two_pow_pos _) (by simpa using hm) (by
      intro row hrow
      obtain ⟨v, _, rfl⟩ := List.mem_map.1 hrow
      simp)]
  simp only [Outcome.ok_bind]
  congr 3
  apply List.map_congr_left
  intro j hj
  rw [List.mem_range] at hj
  unfold fftScals
  rw [List.map_map, List.map_map]
  apply List.map_congr_left
  intro v _
  simp [List.getD, hj]

/-- the value computed when every MSM is exact -/
theorem toeplitz_value (vectors : List (List G)) (matrices : List ToeplitzMatrix) (k : Nat) (hk : k + 1 ≤ 32)
    (hlen : vectors.length = matrices.length)
    (hl : ∀ v ∈ vectors, v.length = 2 ^ k)
    (hm : ∀ tm ∈ matrices, tm.row.length = 2 ^ k ∧ tm.col.length = 2 ^ k) :
    ((domainOf (k + 1)).ifftG1TakeN ((List.range (2 ^ (k + 1))).map (fun j =>
        lcSum (fftGens vectors (k + 1) j) (fftScals matrices (k + 1) j))) (some (2 ^ k)) : Outcome ε (List G)) =
      .ok ((List.range (2 ^ k)).map (fun a => ((vectors.zip matrices).map (fun q =>
        Spec.toeplitzMul q.2.row q.2.col q.1 (2 ^ k) a)).sum)) := by
  have hlt : 2 ^ k < 2 ^ (k + 1) := by rw [pow_succ]; have := Nat.two_pow_pos k; omega
  rw [ifftG1TakeN_spec (k + 1) hk _ _ hlt]
  congr 1
  apply List.map_congr_left
  intro a ha
  rw [List.mem_range] at ha
  set N := 2 ^ (k + 1) with hN
  have hNk : N = 2 * 2 ^ k := by rw [hN, pow_succ]; ring
  set m := vectors.length with hmdef
  set c : Nat → Nat → Fr := fun i s => (circulantFromToeplitz (matrices.getD i ⟨[], []⟩)).getD s 0 with hc
  set w : Nat → Nat → G := fun i s => (vectors.getD i []).getD s 0 with hw
  have e1 : Spec.dft (Spec.omega (k + 1))⁻¹ N (fun i => ((List.range N).map (fun j =>
        lcSum (fftGens vectors (k + 1) j) (fftScals matrices (k + 1) j))).getD i 0) a =
      Spec.dft (Spec.omega (k + 1))⁻¹ N (fun j => ∑ i ∈ range m,
        Spec.dft (Spec.omega (k + 1)) N (c i) j • Spec.dft (Spec.omega (k + 1)) N (w i) j) a := by
    apply dft_congr
    intro j hj
    simp only [List.getD, List.getElem?_map, List.getElem?_range hj, Option.map_some, Option.getD_some]
    rw [lcSum_eq _ _ m (by simp [fftGens, hmdef]) (by simp [fftScals, hlen])]
    apply sum_congr rfl
    intro i hi
    have hi : i < m := mem_range.1 hi
    have hi' : i < matrices.length := by omega
    have h1 : (fftScals matrices (k + 1) j).getD i 0 = Spec.dft (Spec.omega (k + 1)) N (c i) j := by
      simp [fftScals, List.getD, hi', hc, hN]
    have h2 : (fftGens vectors (k + 1) j).getD i 0 = Spec.dft (Spec.omega (k + 1)) N (w i) j := by
      simp [fftGens, List.getD, show i < vectors.length from hi, hw, hN]
    rw [h1, h2]
  rw [e1, idft_sum_products (omega_primitive (k + 1) hk) (two_pow_ne_zero (k + 1)) (Nat.two_pow_pos _) _ _ _
    (by omega)]
  have e2 : ((vectors.zip matrices).map (fun q => Spec.toeplitzMul q.2.row q.2.col q.1 (2 ^ k) a)).sum =
      ∑ i ∈ range m, Spec.toeplitzMul (matrices.getD i ⟨[], []⟩).row (matrices.getD i ⟨[], []⟩).col
        (vectors.getD i []) (2 ^ k) a :=
    sum_zip_eq (fun q : List G × ToeplitzMatrix => Spec.toeplitzMul q.2.row q.2.col q.1 (2 ^ k) a)
      vectors matrices [] ⟨[], []⟩ m rfl hlen.symm
  rw [e2]
  apply sum_congr rfl
  intro i hi
  have hi : i < m := mem_range.1 hi
  have hi' : i < matrices.length := by omega
  have hiv : i < vectors.length := hi
  have hmi := hm (matrices.getD i ⟨[], []⟩) (by simp [List.getD, hi'])
  have hvi := hl (vectors.getD i []) (by simp [List.getD, hiv])
  unfold Spec.toeplitzMul
  rw [← hN, hNk, two_mul, sum_range_add]
  have hz : ∑ x ∈ range (2 ^ k), c i ((a + (2 ^ k + 2 ^ k) - (2 ^ k + x)) % (2 ^ k + 2 ^ k)) • w i (2 ^ k + x) = 0 := by
    apply sum_eq_zero
    intro x _
    have : w i (2 ^ k + x) = 0 := by
      simp only [hw]
      exact List.getD_eq_default _ _ (by omega)
    rw [this, smul_zero]
  rw [hz, add_zero]
  apply sum_congr rfl
  intro t ht
  have ht : t < 2 ^ k := mem_range.1 ht
  have := circulant_getD (matrices.getD i ⟨[], []⟩) (2 ^ k) hmi.1 hmi.2 ha ht
  rw [two_mul] at this
  simp only [hc, hw, this]

/-- exact variant: the fixed-base MSMs are exact -/
theorem sumMatrixVectorMul_exact (vectors : List (List G)) (matrices : List ToeplitzMatrix) (k : Nat) (hk : k + 1 ≤ 32)
    (hne : matrices ≠ []) (hlen : vectors.length = matrices.length)
    (hl : ∀ v ∈ vectors, v.length = 2 ^ k)
    (hm : ∀ tm ∈ matrices, tm.row.length = 2 ^ k ∧ tm.col.length = 2 ^ k)
    (M : Nat → FixedBaseMSM K G)
    (hM : ∀ j < 2 ^ (k + 1), ∀ s : List Fr, s.length = vectors.length →
      ((M j).msm s : Outcome ε G) = .panic ∨ ((M j).msm s : Outcome ε G) = .ok (lcSum (fftGens vectors (k + 1) j) s)) :
    ∀ r, r = ((⟨vectors.length, (List.range (2 ^ (k + 1))).map M, 2 ^ k, domainOf (k + 1)⟩ :
        BatchToeplitz K G).sumMatrixVectorMul matrices : Outcome ε (List G)) →
      r = .panic ∨ r = .ok ((List.range (2 ^ k)).map (fun a => ((vectors.zip matrices).map (fun q =>
        Spec.toeplitzMul q.2.row q.2.col q.1 (2 ^ k) a)).sum)) := by
  rintro r rfl
  rw [hlen, sumMatrixVectorMul_eq _ k hk matrices hne, List.zip_map', List.mapM_map]
  rcases mapM_panic_or_ok (f := fun j => ((M j).msm (fftScals matrices (k + 1) j) : Outcome ε G))
    (g := fun j => lcSum (fftGens vectors (k + 1) j) (fftScals matrices (k + 1) j))
    (l := List.range (2 ^ (k + 1))) (by
      intro j hj
      exact hM j (List.mem_range.1 hj) _ (by simp [fftScals, hlen])) with h | h
  · left
    simp only [Function.comp_def] at h ⊢
    rw [h]; rfl
  · right
    simp only [Function.comp_def] at h ⊢
    rw [h, Outcome.ok_bind, toeplitz_value vectors matrices k hk hlen hl hm]

theorem sumMatrixVectorMul_noPrecomp (vectors : List (List G)) (matrices : List ToeplitzMatrix) (k : Nat) (hk : k + 1 ≤ 32)
    (hne : matrices ≠ []) (hlen : vectors.length = matrices.length)
    (hl : ∀ v ∈ vectors, v.length = 2 ^ k)
    (hm : ∀ tm ∈ matrices, tm.row.length = 2 ^ k ∧ tm.col.length = 2 ^ k) :
    ((⟨vectors.length, (List.range (2 ^ (k + 1))).map (fun j => .noPrecomp (fftGens vectors (k + 1) j)), 2 ^ k,
        domainOf (k + 1)⟩ : BatchToeplitz K G).sumMatrixVectorMul matrices : Outcome ε (List G)) =
      .ok ((List.range (2 ^ k)).map (fun a => ((vectors.zip matrices).map (fun q =>
        Spec.toeplitzMul q.2.row q.2.col q.1 (2 ^ k) a)).sum)) := by
  rw [hlen, sumMatrixVectorMul_eq _ k hk matrices hne, List.zip_map', List.mapM_map]
  have h := mapM_ok (f := fun j => (((.noPrecomp (fftGens vectors (k + 1) j) : FixedBaseMSM K G)).msm
      (fftScals matrices (k + 1) j) : Outcome ε G))
    (g := fun j => lcSum (fftGens vectors (k + 1) j) (fftScals matrices (k + 1) j))
    (l := List.range (2 ^ (k + 1))) (by
      intro j _
      simp [FixedBaseMSM.msm, lincomb_eq, expect])
  simp only [Function.comp_def] at h ⊢
  rw [h, Outcome.ok_bind, toeplitz_value vectors matrices k hk hlen hl hm]

end

end Verif
