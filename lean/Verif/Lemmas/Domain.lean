import Mathlib.RingTheory.RootsOfUnity.Lemmas
import Mathlib.Algebra.Field.GeomSum
import Verif.Lemmas.Fft
import Verif.Model.Domain
import Verif.Spec.Poly

/-! Domains: construction, transforms as DFT, inversion, relation with polynomials. -/
namespace Verif
open Finset Polynomial

theorem two_pow_32_dvd : 2 ^ 32 ∣ frOrder - 1 := by
  rw [frOrder_sub_one]; exact Dvd.intro _ rfl

theorem omega_primitive (k : Nat) (hk : k ≤ 32) : IsPrimitiveRoot (Spec.omega k) (2 ^ k) := by
  have hg : IsPrimitiveRoot (7 : Fr) (frOrder - 1) := by
    have := generator_primitive
    simpa [MULTIPLICATIVE_GENERATOR] using this
  have hd : 2 ^ k ∣ frOrder - 1 := (Nat.pow_dvd_pow 2 hk).trans two_pow_32_dvd
  refine hg.pow ?_ (Nat.div_mul_cancel hd).symm
  have := frOrder_gt
  omega

theorem rootOfUnity_eq : ROOT_OF_UNITY = Spec.omega 32 := by
  have : ROOT_OF_UNITY = ((7 : Nat) : Fr) ^ ((frOrder - 1) / 2 ^ 32) :=
    (pow_eq_of_powMod (b := 7)
      (c := 0x16a2a19edfe81f20d09b681922c813b4b63683508c2280b93829971f439f0d2b)
      (by decide +kernel) (by decide +kernel)).symm
  simpa [Spec.omega] using this

theorem omega_pow (k j : Nat) (h : k ≤ j) (hj : j ≤ 32) : Spec.omega j ^ (2 ^ (j - k)) = Spec.omega k := by
  unfold Spec.omega
  rw [← pow_mul]
  congr 1
  have hd : 2 ^ j ∣ frOrder - 1 := (Nat.pow_dvd_pow 2 hj).trans two_pow_32_dvd
  obtain ⟨c, hc⟩ := hd
  rw [hc, Nat.mul_div_cancel_left _ (by positivity)]
  have : 2 ^ j = 2 ^ k * 2 ^ (j - k) := by rw [← pow_add]; congr 1; omega
  rw [this, mul_assoc, Nat.mul_div_cancel_left _ (by positivity), mul_comm]

theorem two_pow_ne_zero (k : Nat) : ((2 ^ k : Nat) : Fr) ≠ 0 := by
  intro h
  rw [ZMod.natCast_eq_zero_iff] at h
  have h2 := (frOrder_prime.dvd_of_dvd_pow h)
  have := Nat.le_of_dvd (by norm_num) h2
  have := frOrder_gt
  omega

variable {ε : Type}

/-- The value of `Domain::new(2^k)`. -/
def domainOf (k : Nat) : Domain where
  roots := (List.range (2 ^ k)).map (fun i => Spec.omega k ^ i)
  domainSize := ((2 ^ k : Nat) : Fr)
  domainSizeInv := ((2 ^ k : Nat) : Fr)⁻¹
  generator := Spec.omega k
  generatorInv := (Spec.omega k)⁻¹
  twiddleFactors := precomputeTwiddleFactors (Spec.omega k) (2 ^ k)
  twiddleFactorsInv := precomputeTwiddleFactors (Spec.omega k)⁻¹ (2 ^ k)

theorem omega_ne_zero (k : Nat) (hk : k ≤ 32) : Spec.omega k ≠ 0 :=
  (omega_primitive k hk).ne_zero (by positivity)

@[simp] theorem domainOf_size (k : Nat) : (domainOf k).size = 2 ^ k := by simp [domainOf, Domain.size]

theorem domain_new_two_pow (k : Nat) (hk : k ≤ 32) : (Domain.new (2 ^ k) : Outcome ε Domain) = .ok (domainOf k) := by
  have hgen : ROOT_OF_UNITY ^ (2 ^ (32 - k)) = Spec.omega k := by
    rw [rootOfUnity_eq, omega_pow k 32 hk le_rfl]
  have hc : (Domain.computeGeneratorForSize (2 ^ k) : Outcome ε Fr) = .ok (Spec.omega k) := by
    simp only [Domain.computeGeneratorForSize, isPow2_two_pow, assertP_true,
      trailingZeros_two_pow k (by omega), Outcome.ok_bind, hgen, Outcome.pure_eq]
    rw [if_neg (by omega)]
  have h0 := omega_ne_zero k hk
  have h2 := two_pow_ne_zero k
  obtain ⟨roots, hr, hR⟩ := foldlM_range_inv (ε := ε) (n := 2 ^ k - 1) (s := [(1 : Fr)])
    (body := fun (roots : List Fr) i => do
      let prev ← idx roots (i + 1 - 1)
      pure (roots ++ [prev * Spec.omega k]))
    (fun i l => l = (List.range (i + 1)).map (fun i => Spec.omega k ^ i))
    (by simp)
    (by
      rintro i l hi rfl
      refine ⟨(List.range (i + 1 + 1)).map (fun i => Spec.omega k ^ i), ?_, rfl⟩
      have : (idx ((List.range (i + 1)).map (fun i => Spec.omega k ^ i)) (i + 1 - 1) : Outcome ε Fr) =
            .ok (Spec.omega k ^ i) := idx_ok (by simp)
      simp only [this, Outcome.ok_bind, Outcome.pure_eq]
      rw [List.range_succ (n := i + 1), List.map_append]
      simp [pow_succ])
  have hpos : 0 < 2 ^ k := by positivity
  rw [show 2 ^ k - 1 + 1 = 2 ^ k by omega] at hR
  have hi1 : (invertExpect (Spec.omega k) : Outcome ε Fr) = .ok (Spec.omega k)⁻¹ := by
    simp [invertExpect, h0]
  have hi2 : (invertExpect ((2 ^ k : Nat) : Fr) : Outcome ε Fr) = .ok ((2 ^ k : Nat) : Fr)⁻¹ := by
    simp only [invertExpect, h2, if_false]
  have hloop : (Domain.rootsLoop (Spec.omega k) (2 ^ k) : Outcome ε (List Fr)) = .ok roots := hr
  unfold Domain.new
  simp only [isPow2_two_pow, if_true, hc, Outcome.ok_bind, hi1, hi2, hloop, Outcome.pure_eq, hR]
  rfl

/-- `Domain::new` rounds up to a power of two. -/
theorem domain_new_round (size : Nat) : (Domain.new size : Outcome ε Domain) = Domain.new (2 ^ Nat.clog 2 size) := by
  by_cases h : isPow2 size = true
  · obtain ⟨k, rfl⟩ := (isPow2_iff size).1 h
    rw [Nat.clog_pow 2 k (by norm_num)]
  · unfold Domain.new
    simp [h, nextPow2]

/-! ### transforms -/

section
variable {T : Type} [AddCommGroup T] [Module Fr T] [DecidableEq T]

theorem fft_domainOf (k : Nat) (hk : k ≤ 32) (a : List T) :
    ∃ B, (fftInplace (domainOf k).twiddleFactors (resize a (2 ^ k) 0) : Outcome ε (List T)) = .ok B ∧
      Rep B (2 ^ k) (Spec.dft (Spec.omega k) (2 ^ k) (fun i => a.getD i 0)) :=
  fftInplace_spec (Spec.omega k) k hk (omega_primitive k hk) (rep_resize a _ 0)

theorem fft_domainOf_inv (k : Nat) (hk : k ≤ 32) (a : List T) :
    ∃ B, (fftInplace (domainOf k).twiddleFactorsInv (resize a (2 ^ k) 0) : Outcome ε (List T)) = .ok B ∧
      Rep B (2 ^ k) (Spec.dft (Spec.omega k)⁻¹ (2 ^ k) (fun i => a.getD i 0)) :=
  fftInplace_spec (Spec.omega k)⁻¹ k hk (omega_primitive k hk).inv (rep_resize a _ 0)
end

theorem getElem?_cosetScale (g : Fr) (l : List Fr) (c : Fr) (i : Nat) :
    (cosetScale g l c)[i]? = (l[i]?).map (fun x => x * (c * g ^ i)) := by
  induction l generalizing c i with
  | nil => simp [cosetScale]
  | cons a l ih =>
    cases i with
    | zero => simp [cosetScale]
    | succ i =>
      simp only [cosetScale, List.getElem?_cons_succ, ih]
      congr 1; funext x; ring

@[simp] theorem length_cosetScale (g : Fr) (l : List Fr) (c : Fr) : (cosetScale g l c).length = l.length := by
  induction l generalizing c with
  | nil => simp [cosetScale]
  | cons a l ih => simp [cosetScale, ih]

theorem Rep.cosetScale {A : List Fr} {n : Nat} {f : Nat → Fr} (h : Rep A n f) (g : Fr) :
    Rep (cosetScale g A 1) n (fun i => f i * g ^ i) :=
  ⟨by simp [h.1], fun i hi => by simp [getElem?_cosetScale, h.2 i hi]⟩

/-! ### DFT algebra -/

section
variable {F T : Type} [Field F] [AddCommGroup T] [Module F T]

theorem dft_congr (ω : F) (n : Nat) {x y : Nat → T} (h : ∀ i, i < n → x i = y i) (j : Nat) :
    Spec.dft ω n x j = Spec.dft ω n y j := by
  unfold Spec.dft
  exact sum_congr rfl (fun i hi => by rw [h i (mem_range.1 hi)])

theorem root_orthogonality {ω : F} {n : Nat} (h : IsPrimitiveRoot ω n) {i k : Nat} (hi : i < n)
    (hk : k < n) : ∑ j ∈ range n, (ω⁻¹) ^ (j * i) * ω ^ (k * j) = if i = k then (n : F) else 0 := by
  have h0 : ω ≠ 0 := h.ne_zero (by omega)
  have e : ∀ j, (ω⁻¹) ^ (j * i) * ω ^ (k * j) = ((ω⁻¹) ^ i * ω ^ k) ^ j := by
    intro j; rw [mul_pow, ← pow_mul, ← pow_mul, Nat.mul_comm i j]
  simp only [e]
  by_cases hik : i = k
  · subst hik
    have : (ω⁻¹) ^ i * ω ^ i = 1 := by rw [← mul_pow, inv_mul_cancel₀ h0, one_pow]
    simp only [this, one_pow, sum_const, card_range, nsmul_eq_mul, mul_one, if_true]
  · rw [if_neg hik]
    have hne : (ω⁻¹) ^ i * ω ^ k ≠ 1 := by
      intro hc
      have h1 : ω ^ k = ω ^ i := by
        have : ω ^ i * ((ω⁻¹) ^ i * ω ^ k) = ω ^ k := by
          rw [← mul_assoc, ← mul_pow, mul_inv_cancel₀ h0, one_pow, one_mul]
        rw [hc, mul_one] at this
        exact this.symm
      exact hik (h.pow_inj hk hi h1).symm
    rw [geom_sum_eq hne, mul_pow, ← pow_mul, ← pow_mul, Nat.mul_comm i n, Nat.mul_comm k n, pow_mul, pow_mul,
      h.pow_eq_one, inv_pow, h.pow_eq_one]
    simp

theorem dft_inv_dft {ω : F} {n : Nat} (h : IsPrimitiveRoot ω n) (x : Nat → T) {i : Nat} (hi : i < n) :
    Spec.dft ω⁻¹ n (Spec.dft ω n x) i = (n : F) • x i := by
  unfold Spec.dft
  simp only [smul_sum, smul_smul]
  rw [sum_comm]
  simp only [← sum_smul]
  have : ∀ k ∈ range n, (∑ j ∈ range n, (ω⁻¹) ^ (j * i) * ω ^ (k * j)) • x k =
      if i = k then (n : F) • x k else 0 := by
    intro k hk
    rw [root_orthogonality h hi (mem_range.1 hk)]
    split_ifs <;> simp
  rw [sum_congr rfl this]
  simp [hi]

/-- inverse DFT -/
theorem idft_dft {ω : F} {n : Nat} (h : IsPrimitiveRoot ω n) (hn : (n : F) ≠ 0) (x : Nat → T) {i : Nat}
    (hi : i < n) : (n : F)⁻¹ • Spec.dft ω⁻¹ n (Spec.dft ω n x) i = x i := by
  rw [dft_inv_dft h x hi, smul_smul, inv_mul_cancel₀ hn, one_smul]

theorem dft_idft {ω : F} {n : Nat} (h : IsPrimitiveRoot ω n) (hn : (n : F) ≠ 0) (x : Nat → T) {i : Nat}
    (hi : i < n) : Spec.dft ω n (fun j => (n : F)⁻¹ • Spec.dft ω⁻¹ n x j) i = x i := by
  have h2 := dft_inv_dft h.inv x hi
  rw [inv_inv] at h2
  have : Spec.dft ω n (fun j => (n : F)⁻¹ • Spec.dft ω⁻¹ n x j) i =
      (n : F)⁻¹ • Spec.dft ω n (Spec.dft ω⁻¹ n x) i := by
    unfold Spec.dft
    rw [smul_sum]
    apply sum_congr rfl
    intro k _
    rw [smul_comm]
  rw [this, h2, smul_smul, inv_mul_cancel₀ hn, one_smul]

/-- DFT of a coefficient function is polynomial evaluation. -/
theorem dft_eq_eval (ω : F) (n : Nat) (l : List F) (hl : l.length ≤ n) (j : Nat) :
    Spec.dft ω n (fun i => l.getD i 0) j = (Spec.polyOf l).eval (ω ^ j) := by
  rw [Spec.eval_polyOf]
  unfold Spec.dft
  rw [← Finset.sum_subset (s₁ := range l.length) (s₂ := range n)]
  · apply sum_congr rfl
    intro i _
    rw [smul_eq_mul, ← pow_mul, mul_comm, Nat.mul_comm]
  · exact range_mono hl
  · intro i _ hi
    have : l.length ≤ i := by simpa using hi
    simp [List.getD, List.getElem?_eq_none this]

/-- Coset version: scaling the coefficients by powers of `g` evaluates at `g ω^j`. -/
theorem dft_eq_eval_coset (ω g : F) (n : Nat) (l : List F) (hl : l.length ≤ n) (j : Nat) :
    Spec.dft ω n (fun i => l.getD i 0 * g ^ i) j = (Spec.polyOf l).eval (g * ω ^ j) := by
  rw [Spec.eval_polyOf]
  unfold Spec.dft
  rw [← Finset.sum_subset (s₁ := range l.length) (s₂ := range n)]
  · apply sum_congr rfl
    intro i _
    rw [smul_eq_mul, mul_pow, ← pow_mul, Nat.mul_comm i j]; ring
  · exact range_mono hl
  · intro i _ hi
    have : l.length ≤ i := by simpa using hi
    simp [List.getD, List.getElem?_eq_none this]

/-- Two polynomials of degree `< n` agreeing at `n` distinct points of a coset are equal. -/
theorem poly_eq_of_coset {ω g : F} {n : Nat} (h : IsPrimitiveRoot ω n) (hg : g ≠ 0) {p q : F[X]}
    (hp : p.degree < n) (hq : q.degree < n) (he : ∀ j, j < n → p.eval (g * ω ^ j) = q.eval (g * ω ^ j)) :
    p = q := by
  have hinj : Set.InjOn (fun j : Nat => g * ω ^ j) (range n : Finset ℕ) := by
    intro i hi j hj hij
    have hi' : i < n := by simpa using hi
    have hj' : j < n := by simpa using hj
    exact h.pow_inj hi' hj' (mul_left_cancel₀ hg hij)
  refine Polynomial.eq_of_degrees_lt_of_eval_index_eq (range n) hinj (by simpa using hp) (by simpa using hq) ?_
  intro j hj
  exact he j (mem_range.1 hj)

end

/-! ### the Domain methods -/

theorem fftScalars_spec (k : Nat) (hk : k ≤ 32) (p : List Fr) :
    ∃ B, ((domainOf k).fftScalars p : Outcome ε (List Fr)) = .ok B ∧
      Rep B (2 ^ k) (Spec.dft (Spec.omega k) (2 ^ k) (fun i => p.getD i 0)) := by
  have := fft_domainOf (ε := ε) k hk p
  simpa [Domain.fftScalars] using this

/-- Forward transform = evaluation. -/
theorem fftScalars_eval (k : Nat) (hk : k ≤ 32) (p : List Fr) (hp : p.length ≤ 2 ^ k) :
    ((domainOf k).fftScalars p : Outcome ε (List Fr)) =
      .ok ((List.range (2 ^ k)).map (fun j => (Spec.polyOf p).eval (Spec.omega k ^ j))) := by
  obtain ⟨B, hB, hR⟩ := fftScalars_spec (ε := ε) k hk p
  rw [hB, (hR.congr (fun j _ => dft_eq_eval _ _ p hp j)).eq_map]

theorem ifftScalars_spec (k : Nat) (hk : k ≤ 32) (p : List Fr) :
    ∃ B, ((domainOf k).ifftScalars p : Outcome ε (List Fr)) = .ok B ∧
      Rep B (2 ^ k) (fun j => ((2 ^ k : Nat) : Fr)⁻¹ • Spec.dft (Spec.omega k)⁻¹ (2 ^ k) (fun i => p.getD i 0) j) := by
  obtain ⟨B, hB, hR⟩ := fft_domainOf_inv (ε := ε) k hk p
  refine ⟨_, ?_, (hR.map (· * ((2 ^ k : Nat) : Fr)⁻¹)).congr ?_⟩
  · simp only [Domain.ifftScalars, domainOf_size, hB, Outcome.ok_bind, Outcome.pure_eq]; rfl
  · intro i _; rw [smul_eq_mul, mul_comm]

/-- Inverse transform = interpolation. -/
theorem ifftScalars_interp (k : Nat) (hk : k ≤ 32) (y : List Fr) :
    ∃ B, ((domainOf k).ifftScalars y : Outcome ε (List Fr)) = .ok B ∧ B.length = 2 ^ k ∧
      ∀ j, j < 2 ^ k → (Spec.polyOf B).eval (Spec.omega k ^ j) = y.getD j 0 := by
  obtain ⟨B, hB, hR⟩ := ifftScalars_spec (ε := ε) k hk y
  refine ⟨B, hB, hR.1, fun j hj => ?_⟩
  rw [← dft_eq_eval _ (2 ^ k) B (le_of_eq hR.1)]
  rw [dft_congr _ _ (fun i hi => hR.getD 0 hi)]
  exact dft_idft (omega_primitive k hk) (two_pow_ne_zero k) _ hj

/-- The result of the inverse transform is the coefficient list of any polynomial of degree `< 2^k` with
the given values. -/
theorem ifftScalars_eq (k : Nat) (hk : k ≤ 32) (y : List Fr) (f : Fr[X]) (hf : f.degree < (2 ^ k : Nat))
    (he : ∀ j, j < 2 ^ k → f.eval (Spec.omega k ^ j) = y.getD j 0) :
    ((domainOf k).ifftScalars y : Outcome ε (List Fr)) = .ok (Spec.coeffs (2 ^ k) f) := by
  obtain ⟨B, hB, hl, hE⟩ := ifftScalars_interp (ε := ε) k hk y
  have : Spec.polyOf B = f := by
    apply poly_eq_of_coset (omega_primitive k hk) one_ne_zero _ hf
    · intro j hj; rw [one_mul, hE j hj, he j hj]
    · have := Spec.degree_polyOf_lt B
      rwa [hl] at this
  rw [hB]
  congr 1
  apply Spec.polyOf_injective
  · simp [hl, Spec.coeffs]
  · rw [this, Spec.polyOf_coeffs hf]

theorem cosetFftScalars_eval (k : Nat) (hk : k ≤ 32) (p : List Fr) (hp : p.length ≤ 2 ^ k) (c : CosetFFT) :
    ((domainOf k).cosetFftScalars p c : Outcome ε (List Fr)) =
      .ok ((List.range (2 ^ k)).map (fun j => (Spec.polyOf p).eval (c.generator * Spec.omega k ^ j))) := by
  have hrep := (rep_resize p (2 ^ k) (0 : Fr)).cosetScale c.generator
  obtain ⟨B, hB, hR⟩ := fftInplace_spec (ε := ε) (Spec.omega k) k hk (omega_primitive k hk) hrep
  have e : ((domainOf k).cosetFftScalars p c : Outcome ε (List Fr)) = .ok B := by
    simp only [Domain.cosetFftScalars, domainOf_size]
    exact hB
  rw [e, (hR.congr (fun j _ => dft_eq_eval_coset _ _ _ p hp j)).eq_map]

/-- Coset interpolation: the result is the coefficient list of any polynomial of degree `< 2^k` with the
given values on the coset. -/
theorem cosetIfftScalars_eq (k : Nat) (hk : k ≤ 32) (y : List Fr) (c : CosetFFT) (hc : c.generator ≠ 0)
    (hci : c.generatorInv = c.generator⁻¹) (f : Fr[X]) (hf : f.degree < (2 ^ k : Nat))
    (he : ∀ j, j < 2 ^ k → f.eval (c.generator * Spec.omega k ^ j) = y.getD j 0) :
    ((domainOf k).cosetIfftScalars y c : Outcome ε (List Fr)) = .ok (Spec.coeffs (2 ^ k) f) := by
  have hcomp : ∀ x, (f.comp (C c.generator * X)).eval x = f.eval (c.generator * x) := by
    intro x; simp [eval_comp]
  have hdeg : (f.comp (C c.generator * X)).degree < (2 ^ k : Nat) := by
    rw [degree_lt_iff_coeff_zero] at hf ⊢
    intro m hm
    rw [comp_C_mul_X_coeff, hf m hm, zero_mul]
  have h1 := ifftScalars_eq (ε := ε) k hk y (f.comp (C c.generator * X)) hdeg
    (fun j hj => by rw [hcomp, he j hj])
  simp only [Domain.cosetIfftScalars, h1, Outcome.ok_bind, Outcome.pure_eq]
  congr 1
  have hr := (rep_map_range (2 ^ k) (f.comp (C c.generator * X)).coeff).cosetScale c.generatorInv
  rw [Spec.coeffs, hr.eq_map, Spec.coeffs]
  apply List.map_congr_left
  intro i _
  rw [comp_C_mul_X_coeff, hci, mul_assoc, ← mul_pow, mul_inv_cancel₀ hc, one_pow, mul_one]

/-- Existence of the interpolating polynomial on a coset. -/
theorem exists_interp (k : Nat) (hk : k ≤ 32) (g : Fr) (hg : g ≠ 0) (y : Nat → Fr) :
    ∃ f : Fr[X], f.degree < (2 ^ k : Nat) ∧ ∀ j, j < 2 ^ k → f.eval (g * Spec.omega k ^ j) = y j := by
  have h := omega_primitive k hk
  have hinj : Set.InjOn (fun j : Nat => g * Spec.omega k ^ j) (range (2 ^ k) : Finset ℕ) := by
    intro i hi j hj hij
    have hi' : i < 2 ^ k := by simpa using hi
    have hj' : j < 2 ^ k := by simpa using hj
    exact h.pow_inj hi' hj' (mul_left_cancel₀ hg hij)
  refine ⟨Lagrange.interpolate (range (2 ^ k)) (fun j => g * Spec.omega k ^ j) y, ?_, ?_⟩
  · have := Lagrange.degree_interpolate_lt y hinj
    simpa using this
  · intro j hj
    exact Lagrange.eval_interpolate_at_node y hinj (mem_range.2 hj)

/-! ### group elements -/

section
variable {G1 : Type} [AddCommGroup G1] [Module Fr G1] [DecidableEq G1]

theorem fftG1_spec (k : Nat) (hk : k ≤ 32) (p : List G1) :
    ((domainOf k).fftG1 p : Outcome ε (List G1)) =
      .ok ((List.range (2 ^ k)).map (Spec.dft (Spec.omega k) (2 ^ k) (fun i => p.getD i 0))) := by
  obtain ⟨B, hB, hR⟩ := fft_domainOf (ε := ε) k hk p
  simp only [Domain.fftG1, domainOf_size, hB, hR.eq_map]

theorem ifftG1TakeN_spec (k : Nat) (hk : k ≤ 32) (p : List G1) (n : Nat) (hn : n < 2 ^ k) :
    ((domainOf k).ifftG1TakeN p (some n) : Outcome ε (List G1)) =
      .ok ((List.range n).map (fun j => ((2 ^ k : Nat) : Fr)⁻¹ •
        Spec.dft (Spec.omega k)⁻¹ (2 ^ k) (fun i => p.getD i 0) j)) := by
  obtain ⟨B, hB, hR⟩ := fft_domainOf_inv (ε := ε) k hk p
  simp only [Domain.ifftG1TakeN, domainOf_size, hB, Outcome.ok_bind, hR.1, assertP_true hn, slice,
    Nat.zero_le, true_and, hn.le, if_true, List.drop_zero, Nat.sub_zero, Outcome.pure_eq]
  congr 1
  rw [hR.eq_map, ← List.map_take, List.take_range, Nat.min_eq_left hn.le, List.map_map]
  rfl

theorem ifftG1_spec (k : Nat) (hk : k ≤ 32) (p : List G1) :
    ((domainOf k).ifftG1 p : Outcome ε (List G1)) =
      .ok ((List.range (2 ^ k)).map (fun j => ((2 ^ k : Nat) : Fr)⁻¹ •
        Spec.dft (Spec.omega k)⁻¹ (2 ^ k) (fun i => p.getD i 0) j)) := by
  obtain ⟨B, hB, hR⟩ := fft_domainOf_inv (ε := ε) k hk p
  simp only [Domain.ifftG1, Domain.ifftG1TakeN, domainOf_size, hB, Outcome.ok_bind, Outcome.pure_eq]
  congr 1
  rw [hR.eq_map, List.map_map]
  rfl

end

end Verif
