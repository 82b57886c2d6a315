import Verif.Lemmas.Domain
import Verif.Lemmas.Cosets
import Verif.Lemmas.ReedSolomon

/-! C19, C20, C28, C37: FFT, bit reversal and field constants. -/
namespace Verif
open Polynomial Finset

variable {ε : Type}

/-- C37: the modulus is prime. -/
theorem C37_prime : Nat.Prime frOrder := frOrder_prime

/-- C37: the root of unity of domain.rs:95-97 is a primitive `2^32`-th root, and the generator of the domain of size
`2^k` has order exactly `2^k`; larger `usize` powers of two make the constructor panic. -/
theorem C37_roots (k : Nat) :
    IsPrimitiveRoot ROOT_OF_UNITY (2 ^ 32) ∧
    (k ≤ 32 → ∃ d, (Domain.new (2 ^ k) : Outcome ε Domain) = .ok d ∧ IsPrimitiveRoot d.generator (2 ^ k) ∧
      d.generatorInv * d.generator = 1 ∧ d.domainSizeInv * (2 ^ k : Nat) = 1) ∧
    (32 < k → k < 64 → (Domain.new (2 ^ k) : Outcome ε Domain) = .panic) := by
  refine ⟨?_, ?_, ?_⟩
  · rw [rootOfUnity_eq]; exact omega_primitive 32 le_rfl
  · intro hk
    refine ⟨domainOf k, domain_new_two_pow k hk, omega_primitive k hk, ?_, ?_⟩
    · exact inv_mul_cancel₀ (omega_ne_zero k hk)
    · exact inv_mul_cancel₀ (two_pow_ne_zero k)
  · intro hk hk'
    unfold Domain.new Domain.computeGeneratorForSize
    rw [if_pos (isPow2_two_pow k)]
    have ht : trailingZeros (2 ^ k) = k := trailingZeros_two_pow k hk'
    simp only [assertP_true (isPow2_two_pow k), Outcome.ok_bind, ht]
    rw [if_pos hk]
    rfl

/-- C37: the coset generator 7 is outside of every domain, so the erasure polynomial of any pattern has no zero on the
coset of any domain. -/
theorem C37_coset_generator (c d : Nat) (hcd : c + d ≤ 32) (er : List Nat) (p : Nat) :
    (7 : Fr) ^ 2 ^ (c + d) ≠ 1 ∧ MULTIPLICATIVE_GENERATOR = 7 ∧
    ((er.map (fun i => (X : Fr[X]) ^ 2 ^ d - C (Spec.omega c ^ i))).prod).eval (7 * Spec.omega (c + d) ^ p) ≠ 0 :=
  ⟨seven_pow_ne_one (c + d) hcd, rfl, erasureZ_coset_ne_zero c d hcd er p⟩

theorem getD_take {α : Type} (l : List α) (n i : Nat) (hi : i < n) (z : α) : (l.take n).getD i z = l.getD i z := by
  simp [List.getD_eq_getElem?_getD, hi]

/-- C19, scalars: for every domain of size `2^k` up to `2^32` and every input, the transform returns the values at all
domain points of the polynomial with the first `2^k` inputs as coefficients (missing ones zero). -/
theorem C19_fft_scalars (k : Nat) (hk : k ≤ 32) (p : List Fr) :
    ∃ d B, (Domain.new (2 ^ k) : Outcome ε Domain) = .ok d ∧ (d.fftScalars p : Outcome ε (List Fr)) = .ok B ∧
      B.length = 2 ^ k ∧ ∀ j < 2 ^ k, B[j]? = some ((Spec.polyOf (p.take (2 ^ k))).eval (Spec.omega k ^ j)) := by
  obtain ⟨B, hB, hR⟩ := fftScalars_spec (ε := ε) k hk p
  refine ⟨_, B, domain_new_two_pow k hk, hB, hR.1, ?_⟩
  intro j hj
  rw [hR.2 j hj, ← dft_eq_eval _ (2 ^ k) _ (by simp)]
  congr 1
  apply dft_congr
  intro i hi
  rw [getD_take _ _ _ hi]

/-- C19, group elements: the same linear combination. -/
theorem C19_fft_points {G : Type} [AddCommGroup G] [Module Fr G] [DecidableEq G] (k : Nat) (hk : k ≤ 32) (p : List G) :
    ∃ d B, (Domain.new (2 ^ k) : Outcome ε Domain) = .ok d ∧ (d.fftG1 p : Outcome ε (List G)) = .ok B ∧
      B.length = 2 ^ k ∧
      ∀ j < 2 ^ k, B[j]? = some (∑ i ∈ range (2 ^ k), (Spec.omega k ^ j) ^ i • p.getD i 0) := by
  refine ⟨_, _, domain_new_two_pow k hk, fftG1_spec k hk p, by simp, ?_⟩
  intro j hj
  rw [(rep_map_range (2 ^ k) _).2 j hj]
  congr 1
  apply sum_congr rfl
  intro i _
  rw [← pow_mul, mul_comm]

/-- C19: domain sizes that are not a power of two are rounded up to the next one. -/
theorem C19_size_rounded (size k : Nat) (h1 : 2 ^ k < size) (h2 : size ≤ 2 ^ (k + 1)) :
    (Domain.new size : Outcome ε Domain) = Domain.new (2 ^ (k + 1)) := by
  rw [domain_new_round]
  have : Nat.clog 2 size = k + 1 := by
    apply le_antisymm
    · exact (Nat.clog_le_iff_le_pow (by norm_num)).2 h2
    · exact (Nat.lt_clog_iff_pow_lt (by norm_num)).2 h1
  rw [this]

theorem eq_of_rep_getD {α : Type} {A x : List α} {n : Nat} {z : α} (h : Rep A n (fun i => x.getD i z)) (hx : x.length = n) :
    A = x := by
  have h2 := rep_getD x z
  rw [hx] at h2
  exact h.eq_map.trans h2.eq_map.symm

/-- C20, scalars: both compositions are the identity. -/
theorem C20_fft_ifft (k : Nat) (hk : k ≤ 32) (x : List Fr) (hx : x.length = 2 ^ k) :
    ∃ d, (Domain.new (2 ^ k) : Outcome ε Domain) = .ok d ∧
      (d.fftScalars x >>= d.ifftScalars : Outcome ε (List Fr)) = .ok x ∧
      (d.ifftScalars x >>= d.fftScalars : Outcome ε (List Fr)) = .ok x := by
  have hprim := omega_primitive k hk
  have hn := two_pow_ne_zero k
  refine ⟨_, domain_new_two_pow k hk, ?_, ?_⟩
  · obtain ⟨B, hB, hR⟩ := fftScalars_spec (ε := ε) k hk x
    rw [hB, Outcome.ok_bind]
    obtain ⟨C', hC, hR'⟩ := ifftScalars_spec (ε := ε) k hk B
    rw [hC]
    congr 1
    refine eq_of_rep_getD (z := 0) (hR'.congr ?_) hx
    intro i hi
    rw [dft_congr _ _ (y := Spec.dft (Spec.omega k) (2 ^ k) (fun i => x.getD i 0)) (fun j hj => hR.getD 0 hj) i]
    exact idft_dft hprim hn _ hi
  · obtain ⟨B, hB, hR⟩ := ifftScalars_spec (ε := ε) k hk x
    rw [hB, Outcome.ok_bind]
    obtain ⟨C', hC, hR'⟩ := fftScalars_spec (ε := ε) k hk B
    rw [hC]
    congr 1
    refine eq_of_rep_getD (z := 0) (hR'.congr ?_) hx
    intro i hi
    rw [dft_congr _ _ (fun j hj => hR.getD 0 hj) i]
    exact dft_idft hprim hn _ hi

/-- C20, group elements. -/
theorem C20_fft_ifft_points {G : Type} [AddCommGroup G] [Module Fr G] [DecidableEq G] (k : Nat) (hk : k ≤ 32)
    (x : List G) (hx : x.length = 2 ^ k) :
    ∃ d, (Domain.new (2 ^ k) : Outcome ε Domain) = .ok d ∧
      (d.fftG1 x >>= d.ifftG1 : Outcome ε (List G)) = .ok x ∧
      (d.ifftG1 x >>= d.fftG1 : Outcome ε (List G)) = .ok x := by
  have hprim := omega_primitive k hk
  have hn := two_pow_ne_zero k
  refine ⟨_, domain_new_two_pow k hk, ?_, ?_⟩
  · rw [fftG1_spec k hk, Outcome.ok_bind, ifftG1_spec k hk]
    congr 1
    refine eq_of_rep_getD (z := 0) ((rep_map_range _ _).congr ?_) hx
    intro i hi
    rw [dft_congr _ _ (fun j hj => (rep_map_range (2 ^ k) _).getD 0 hj) i]
    exact idft_dft hprim hn _ hi
  · rw [ifftG1_spec k hk, Outcome.ok_bind, fftG1_spec k hk]
    congr 1
    refine eq_of_rep_getD (z := 0) ((rep_map_range _ _).congr ?_) hx
    intro i hi
    rw [dft_congr _ _ (fun j hj => (rep_map_range (2 ^ k) _).getD 0 hj) i]
    exact dft_idft hprim hn _ hi

/-- C20, cosets: both compositions are the identity for every non-zero generator; zero makes the constructor panic. -/
theorem C20_coset (k : Nat) (hk : k ≤ 32) (g : Fr) (x : List Fr) (hx : x.length = 2 ^ k) :
    (g ≠ 0 → ∃ d c, (Domain.new (2 ^ k) : Outcome ε Domain) = .ok d ∧ (CosetFFT.new g : Outcome ε CosetFFT) = .ok c ∧
      (d.cosetFftScalars x c >>= (fun y => d.cosetIfftScalars y c) : Outcome ε (List Fr)) = .ok x ∧
      (d.cosetIfftScalars x c >>= (fun y => d.cosetFftScalars y c) : Outcome ε (List Fr)) = .ok x) ∧
    (CosetFFT.new 0 : Outcome ε CosetFFT) = .panic := by
  refine ⟨?_, by simp [CosetFFT.new, invertExpect]⟩
  intro hg
  refine ⟨_, ⟨g, g⁻¹⟩, domain_new_two_pow k hk, by simp [CosetFFT.new, invertExpect, hg], ?_, ?_⟩
  · rw [cosetFftScalars_eval k hk x (by omega), Outcome.ok_bind]
    rw [cosetIfftScalars_eq k hk _ ⟨g, g⁻¹⟩ hg rfl (Spec.polyOf x) (by rw [← hx]; exact Spec.degree_polyOf_lt x)
      (fun j hj => ((rep_map_range (2 ^ k) (fun j => eval (g * Spec.omega k ^ j) (Spec.polyOf x))).getD 0 hj).symm)]
    congr 1
    refine eq_of_rep_getD (z := 0) ((rep_map_range _ _).congr ?_) hx
    intro i _
    exact Spec.coeff_polyOf x i
  · obtain ⟨f, hf, hfe⟩ := exists_interp k hk g hg (fun j => x.getD j 0)
    rw [cosetIfftScalars_eq k hk x ⟨g, g⁻¹⟩ hg rfl f hf hfe, Outcome.ok_bind,
      cosetFftScalars_eval k hk _ (by simp [Spec.coeffs]), Spec.polyOf_coeffs hf]
    congr 1
    exact eq_of_rep_getD (z := 0) ((rep_map_range _ _).congr hfe) hx

/-- C28: for every power-of-two length below `2^32`, element `i` is the element at the bit-reversed index, and applying
the permutation twice gives back the input. -/
theorem C28_reverse_bit_order {α : Type} (L : Nat) (hL : L < 32) (a : List α) (ha : a.length = 2 ^ L) :
    ∃ b, (reverseBitOrder a : Outcome ε (List α)) = .ok b ∧ b.length = 2 ^ L ∧
      (∀ i < 2 ^ L, b[Spec.brev L i]? = a[i]?) ∧ (reverseBitOrder b : Outcome ε (List α)) = .ok a := by
  cases a with
  | nil => have := Nat.two_pow_pos L; simp at ha; omega
  | cons z l =>
    set a := z :: l with hadef
    have hR : Rep a (2 ^ L) (fun i => a.getD i z) := by
      have := rep_getD a z; rwa [ha] at this
    obtain ⟨b, hb, hRb⟩ := reverseBitOrder_spec (ε := ε) L hL hR
    refine ⟨b, hb, hRb.1, ?_, ?_⟩
    · intro i hi
      rw [hRb.2 _ (Spec.brev_lt L i), hR.2 i hi]
      simp only [Spec.brev_brev L i hi]
    · obtain ⟨c, hc, hRc⟩ := reverseBitOrder_spec (ε := ε) L hL hRb
      rw [hc]
      congr 1
      refine eq_of_rep_getD (z := z) (hRc.congr ?_) ha
      intro i hi
      simp only [Spec.brev_brev L i hi]

/-- C28: lengths below `2^32` that are not a power of two panic. -/
theorem C28_panics {α : Type} (a : List α) (h : a.length < 2 ^ 32) (hp : ∀ k, a.length ≠ 2 ^ k) :
    (reverseBitOrder a : Outcome ε (List α)) = .panic := reverseBitOrder_panic h hp

/-- C28: a length of `2^32` and above is cut to 32 bits: with `2^L` left over, only the first `2^L` elements are moved and the
others keep their places; otherwise the call panics. -/
theorem C28_long_lists {α : Type} (a : List α) :
    (∀ L < 32, a.length % 2 ^ 32 = 2 ^ L → ∃ q, (reverseBitOrder (a.take (2 ^ L)) : Outcome ε (List α)) = .ok q ∧
      (reverseBitOrder a : Outcome ε (List α)) = .ok (q ++ a.drop (2 ^ L))) ∧
    ((∀ L, a.length % 2 ^ 32 ≠ 2 ^ L) → (reverseBitOrder a : Outcome ε (List α)) = .panic) := by
  constructor
  · intro L hL h
    have hd := Nat.div_add_mod a.length (2 ^ 32)
    rw [h] at hd
    have := reverseBitOrder_append (ε := ε) L (a.length / 2 ^ 32) hL (a.take (2 ^ L)) (a.drop (2 ^ L))
      (by rw [List.length_take]; omega) (by rw [List.length_drop]; omega)
    rwa [List.take_append_drop] at this
  · intro hp
    unfold reverseBitOrder
    simp only []
    rw [assertP_false]
    · rfl
    · rw [isPow2_iff]; rintro ⟨k, hk⟩; exact hp k hk

/-- C28: `log2` of a `u32` is the exponent of a power of two and panics on everything else. -/
theorem C28_log2 (x : Nat) (hx : x < 2 ^ 32) :
    (∀ k, (log2u32 x : Outcome ε Nat) = .ok k ↔ x = 2 ^ k) ∧
      ((log2u32 x : Outcome ε Nat) = .panic ↔ ∀ k, x ≠ 2 ^ k) := by
  by_cases h : ∃ k, x = 2 ^ k
  · obtain ⟨k, rfl⟩ := h
    have hk : k < 32 := (Nat.pow_lt_pow_iff_right (by norm_num)).1 hx
    rw [log2u32_two_pow k hk]
    refine ⟨fun j => ?_, ?_⟩
    · constructor
      · intro e; cases e; rfl
      · intro e; rw [Nat.pow_right_injective (le_refl 2) e]
    · simp
  · have : (log2u32 x : Outcome ε Nat) = .panic := by
      unfold log2u32
      rw [assertP_false]
      · rfl
      · rintro ⟨-, h2⟩; exact h ((isPow2_iff x).1 h2)
    push Not at h
    rw [this]
    simp only [reduceCtorEq, true_iff, false_iff]
    exact ⟨h, h⟩

/-- C28: the generators of `m` cosets of the domain with `2^a` points are the powers of its generator, in natural order for
every `m` and in bit-reversed order for every power of two `m`; every other positive `m` below `2^32` panics in
bit-reversed order. -/
theorem C28_coset_gens (a m : Nat) (ha : a ≤ 32) (hm : m < 2 ^ 32) :
    (cosetGens (2 ^ a) m false : Outcome ε (List Fr)) = .ok ((List.range m).map (fun i => Spec.omega a ^ i)) ∧
    (∀ b, m = 2 ^ b → (cosetGens (2 ^ a) m true : Outcome ε (List Fr)) =
      .ok ((List.range m).map (fun i => Spec.omega a ^ Spec.brev b i))) ∧
    (m ≠ 0 → (∀ b, m ≠ 2 ^ b) → (cosetGens (2 ^ a) m true : Outcome ε (List Fr)) = .panic) ∧
    (m = 0 → (cosetGens (2 ^ a) m true : Outcome ε (List Fr)) = .ok []) := by
  refine ⟨cosetGens_spec_false a m ha, ?_, ?_, ?_⟩
  · rintro b rfl
    exact cosetGens_spec a b ha ((Nat.pow_lt_pow_iff_right (by norm_num)).1 hm)
  · intro h0 hp
    obtain ⟨n, rfl⟩ := Nat.exists_eq_succ_of_ne_zero h0
    unfold cosetGens
    rw [domain_new_two_pow a ha, Outcome.ok_bind, List.range_succ_eq_map, List.mapM_cons]
    unfold cosetGenAt
    rw [Nat.mod_eq_of_lt hm, ((C28_log2 _ hm).2.2 hp)]
    rfl
  · rintro rfl
    unfold cosetGens
    rw [domain_new_two_pow a ha, Outcome.ok_bind]
    rfl

/-- C28: `trailing_zeros` counts the factors of two of a positive word; zero has as many as the word has bits. -/
theorem C28_trailing_zeros (n : Nat) :
    (0 < n → n < 2 ^ 64 → 2 ^ trailingZeros n ∣ n ∧ ¬ 2 ^ (trailingZeros n + 1) ∣ n) ∧
    (0 < n → n < 2 ^ 32 → 2 ^ trailingZeros32 n ∣ n ∧ ¬ 2 ^ (trailingZeros32 n + 1) ∣ n) ∧
    trailingZeros 0 = 64 ∧ trailingZeros32 0 = 32 := by
  have key : ∀ f n : Nat, 0 < n → n < 2 ^ f → 2 ^ ctz f n ∣ n ∧ ¬ 2 ^ (ctz f n + 1) ∣ n := by
    intro f
    induction f with
    | zero => intro n h0 h1; simp at h1; omega
    | succ f ih =>
      intro n h0 h1
      unfold ctz
      by_cases h : n % 2 = 1
      · rw [if_pos h]
        refine ⟨by simp, ?_⟩
        rw [zero_add, pow_one]; omega
      · rw [if_neg h]
        have h2 : n = 2 * (n / 2) := by omega
        obtain ⟨ha, hb⟩ := ih (n / 2) (by omega) (by rw [pow_succ] at h1; omega)
        constructor
        · rw [pow_succ, mul_comm]; rw [h2] at *
          simpa using mul_dvd_mul_left 2 (by simpa using ha)
        · intro hd
          apply hb
          rw [pow_succ, mul_comm] at hd
          rw [h2] at hd
          have := Nat.dvd_of_mul_dvd_mul_left (by norm_num) hd
          simpa using this
  exact ⟨key 64 n, key 32 n, by decide, by decide⟩

/-! Non-vacuity -/

example : ∃ B : List Fr, ((domainOf 2).fftScalars [1, 2, 3] : Outcome Unit (List Fr)) = .ok B ∧ B[0]? = some 6 := by
  obtain ⟨d, B, hd, hB, -, hv⟩ := C19_fft_scalars (ε := Unit) 2 (by norm_num) [1, 2, 3]
  rw [domain_new_two_pow 2 (by norm_num)] at hd
  cases hd
  refine ⟨B, hB, ?_⟩
  rw [hv 0 (by norm_num)]
  simp [Spec.polyOf]
  norm_num

example : (reverseBitOrder [10, 11, 12, 13, 14, 15, 16, 17] : Outcome Unit (List Nat)) =
    .ok [10, 14, 12, 16, 11, 15, 13, 17] := by decide +kernel

example : ∀ k, ([1, 2, 3] : List Nat).length ≠ 2 ^ k := by
  intro k
  rcases k with _ | _ | k
  · decide
  · decide
  · have : 4 ≤ 2 ^ (k + 2) := by rw [pow_add]; have := Nat.two_pow_pos k; omega
    simp only [List.length_cons, List.length_nil]; omega

example : ([1, 2, 3, 4] : List Fr).length = 2 ^ 2 ∧ (5 : Fr) ≠ 0 := ⟨rfl, by decide +kernel⟩

/-- with `2^32 + 4` elements the second and the third trade places and nothing else moves -/
example (z : List Nat) (h : z.length = 1 * 2 ^ 32) :
    (reverseBitOrder ([1, 2, 3, 4] ++ z) : Outcome Unit (List Nat)) = .ok ([1, 3, 2, 4] ++ z) := by
  obtain ⟨q, h1, h2⟩ := reverseBitOrder_append (ε := Unit) 2 1 (by norm_num) [1, 2, 3, 4] z rfl h
  have h3 : (reverseBitOrder [1, 2, 3, 4] : Outcome Unit (List Nat)) = .ok [1, 3, 2, 4] := by decide +kernel
  rw [h3] at h1
  rw [h2, ← Outcome.ok.inj h1]

example : (log2u32 8 : Outcome Unit Nat) = .ok 3 := ((C28_log2 8 (by norm_num)).1 3).2 rfl

example : (cosetGens (2 ^ 3) 4 true : Outcome Unit (List Fr)) =
    .ok [1, Spec.omega 3 ^ 2, Spec.omega 3, Spec.omega 3 ^ 3] := by
  rw [(C28_coset_gens 3 4 (by norm_num) (by norm_num)).2.1 2 rfl]
  have h : List.range 4 = [0, 1, 2, 3] := rfl
  have b : Spec.brev 2 0 = 0 ∧ Spec.brev 2 1 = 2 ∧ Spec.brev 2 2 = 1 ∧ Spec.brev 2 3 = 3 := by decide
  simp [h, b]

end Verif
