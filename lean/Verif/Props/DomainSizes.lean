import Verif.Props.Transforms

/-! C19, continued: all sizes of domains, the inverse transforms and the transforms on cosets -/
namespace Verif
open Polynomial Finset

variable {ε : Type}

/-- C19: `Domain::new` for every size up to `2^63`: the domain has the least power of two of points that is not below the size
(one point for size zero), they are the powers of a primitive root of unity, and sizes above `2^32` panic. -/
theorem C19_sizes (size : Nat) (h63 : size ≤ 2 ^ 63) :
    (size ≤ 2 ^ 32 → ∃ d k, (Domain.new size : Outcome ε Domain) = .ok d ∧ size ≤ 2 ^ k ∧
      (∀ m, size ≤ 2 ^ m → k ≤ m) ∧ IsPrimitiveRoot d.generator (2 ^ k) ∧
      d.roots = (List.range (2 ^ k)).map (fun i => d.generator ^ i)) ∧
    (2 ^ 32 < size → (Domain.new size : Outcome ε Domain) = .panic) := by
  rw [domain_new_round]
  constructor
  · intro h
    have hk : Nat.clog 2 size ≤ 32 := (Nat.clog_le_iff_le_pow (by norm_num)).2 h
    exact ⟨domainOf _, Nat.clog 2 size, domain_new_two_pow _ hk, Nat.le_pow_clog (by norm_num) _,
      fun m hm => (Nat.clog_le_iff_le_pow (by norm_num)).2 hm, omega_primitive _ hk, rfl⟩
  · intro h
    have h1 : 32 < Nat.clog 2 size := (Nat.lt_clog_iff_pow_lt (by norm_num)).2 h
    have h2 : Nat.clog 2 size ≤ 63 := (Nat.clog_le_iff_le_pow (by norm_num)).2 h63
    exact (C37_roots (ε := ε) (Nat.clog 2 size)).2.2 h1 (by omega)

/-- C19: the inverse transform of any list returns the coefficients of the only polynomial of degree below `2^k` with
these values (missing ones zero, further ones ignored) at the points of the domain. -/
theorem C19_inverse (k : Nat) (hk : k ≤ 32) (y : List Fr) :
    ∃ d B, (Domain.new (2 ^ k) : Outcome ε Domain) = .ok d ∧ (d.ifftScalars y : Outcome ε (List Fr)) = .ok B ∧
      B.length = 2 ^ k ∧ (∀ j < 2 ^ k, (Spec.polyOf B).eval (Spec.omega k ^ j) = y.getD j 0) ∧
      ∀ f : Fr[X], f.degree < (2 ^ k : Nat) → (∀ j < 2 ^ k, f.eval (Spec.omega k ^ j) = y.getD j 0) →
        f = Spec.polyOf B := by
  obtain ⟨B, hB, hl, hE⟩ := ifftScalars_interp (ε := ε) k hk y
  refine ⟨_, B, domain_new_two_pow k hk, hB, hl, hE, fun f hf he => ?_⟩
  have h1 := ifftScalars_eq (ε := ε) k hk y f hf he
  rw [hB] at h1
  cases h1
  rw [Spec.polyOf_coeffs hf]

/-- C19: the transforms on the coset with a non-zero generator `g`: the forward one returns the values at `g ω^j` of the polynomial
with the first `2^k` inputs as coefficients, the inverse one the coefficients of the only polynomial with given values there. -/
theorem C19_coset (k : Nat) (hk : k ≤ 32) (g : Fr) (hg : g ≠ 0) (p y : List Fr) :
    ∃ d c B, (Domain.new (2 ^ k) : Outcome ε Domain) = .ok d ∧ (CosetFFT.new g : Outcome ε CosetFFT) = .ok c ∧
      (d.cosetFftScalars p c : Outcome ε (List Fr)) =
        .ok ((List.range (2 ^ k)).map (fun j => (Spec.polyOf (p.take (2 ^ k))).eval (g * Spec.omega k ^ j))) ∧
      (d.cosetIfftScalars y c : Outcome ε (List Fr)) = .ok B ∧ B.length = 2 ^ k ∧
      (∀ j < 2 ^ k, (Spec.polyOf B).eval (g * Spec.omega k ^ j) = y.getD j 0) ∧
      ∀ f : Fr[X], f.degree < (2 ^ k : Nat) → (∀ j < 2 ^ k, f.eval (g * Spec.omega k ^ j) = y.getD j 0) →
        f = Spec.polyOf B := by
  obtain ⟨f, hf, hfe⟩ := exists_interp k hk g hg (fun j => y.getD j 0)
  refine ⟨_, ⟨g, g⁻¹⟩, Spec.coeffs (2 ^ k) f, domain_new_two_pow k hk, by simp [CosetFFT.new, invertExpect, hg], ?_,
    cosetIfftScalars_eq k hk y ⟨g, g⁻¹⟩ hg rfl f hf hfe, by simp [Spec.coeffs], ?_, ?_⟩
  · have h1 : ((domainOf k).cosetFftScalars p ⟨g, g⁻¹⟩ : Outcome ε (List Fr)) =
        (domainOf k).cosetFftScalars (p.take (2 ^ k)) ⟨g, g⁻¹⟩ := by
      have : resize p (2 ^ k) (0 : Fr) = resize (p.take (2 ^ k)) (2 ^ k) 0 := by
        rw [(rep_resize p (2 ^ k) (0 : Fr)).eq_map, (rep_resize (p.take (2 ^ k)) (2 ^ k) (0 : Fr)).eq_map]
        refine List.map_congr_left (fun i hi => ?_)
        rw [getD_take _ _ _ (List.mem_range.1 hi)]
      unfold Domain.cosetFftScalars
      rw [domainOf_size, this]
    rw [h1, cosetFftScalars_eval k hk _ (by simp)]
  · rw [Spec.polyOf_coeffs hf]; exact hfe
  · intro f' hf' he'
    rw [Spec.polyOf_coeffs hf]
    exact poly_eq_of_coset (omega_primitive k hk) hg hf' hf (fun j hj => by rw [he' j hj, hfe j hj])

/-- C19: `ifft_g1_take_n` returns the first `n` elements of the inverse transform if these are fewer than all, and panics
otherwise. -/
theorem C19_take {G : Type} [AddCommGroup G] [Module Fr G] [DecidableEq G] (k n : Nat) (hk : k ≤ 32) (x : List G) :
    ∃ d all, (Domain.new (2 ^ k) : Outcome ε Domain) = .ok d ∧ (d.ifftG1 x : Outcome ε (List G)) = .ok all ∧
      all.length = 2 ^ k ∧
      (n < 2 ^ k → (d.ifftG1TakeN x (some n) : Outcome ε (List G)) = .ok (all.take n)) ∧
      (2 ^ k ≤ n → (d.ifftG1TakeN x (some n) : Outcome ε (List G)) = .panic) := by
  obtain ⟨B, hB, hR⟩ := fft_domainOf_inv (ε := ε) k hk x
  refine ⟨_, B.map (fun e => (domainOf k).domainSizeInv • e), domain_new_two_pow k hk, ?_, by simp [hR.1], ?_, ?_⟩
  · unfold Domain.ifftG1 Domain.ifftG1TakeN
    rw [domainOf_size, hB]
    rfl
  · intro hn
    unfold Domain.ifftG1TakeN
    rw [domainOf_size, hB, Outcome.ok_bind]
    simp only []
    rw [assertP_true (by rw [hR.1]; exact hn), Outcome.ok_bind]
    have : (slice B 0 n : Outcome ε (List G)) = .ok (B.take n) := by
      unfold slice
      rw [if_pos (by rw [hR.1]; omega)]
      simp
    rw [this, Outcome.ok_bind, Outcome.pure_eq, List.map_take]
  · intro hn
    unfold Domain.ifftG1TakeN
    rw [domainOf_size, hB, Outcome.ok_bind]
    simp only []
    rw [assertP_false (by rw [hR.1]; omega)]
    rfl

/-! Concrete cases: a domain of size 3 has 4 points; on the domain with one point only the first coefficient counts; on the coset of 7
with one point the value of `1 + 2X` cut to one coefficient is 1, and the polynomial with the value 5 is constant. -/
example : ∃ d : Domain, (Domain.new 3 : Outcome Unit Domain) = .ok d ∧ d.roots.length = 4 := by
  obtain ⟨d, k, hd, h1, h2, -, hr⟩ := (C19_sizes (ε := Unit) 3 (by norm_num)).1 (by norm_num)
  have hk : k ≤ 2 := h2 2 (by norm_num)
  have : k = 2 := by
    interval_cases k
    · norm_num at h1
    · norm_num at h1
    · rfl
  subst this
  exact ⟨d, hd, by rw [hr]; simp⟩
example : (Domain.new (2 ^ 32 + 1) : Outcome Unit Domain) = .panic :=
  (C19_sizes (2 ^ 32 + 1) (by norm_num)).2 (by norm_num)
example : ∃ d c B, (Domain.new (2 ^ 0) : Outcome Unit Domain) = .ok d ∧ (CosetFFT.new 7 : Outcome Unit CosetFFT) = .ok c ∧
    (d.cosetFftScalars [1, 2] c : Outcome Unit (List Fr)) = .ok [1] ∧
    (d.cosetIfftScalars [5] c : Outcome Unit (List Fr)) = .ok B ∧ (Spec.polyOf B).eval 7 = 5 := by
  obtain ⟨d, c, B, hd, hc, h1, h2, -, h3, -⟩ := C19_coset (ε := Unit) 0 (by norm_num) 7 seven_ne_zero [1, 2] [5]
  refine ⟨d, c, B, hd, hc, ?_, h2, ?_⟩
  · rw [h1]
    simp only [pow_zero, Spec.eval_polyOf]
    simp
  · have := h3 0 (by norm_num)
    simpa using this

end Verif
