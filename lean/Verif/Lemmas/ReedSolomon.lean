import Mathlib.Algebra.Polynomial.Expand
import Verif.Model.ReedSolomon
import Verif.Lemmas.Domain
import Verif.Lemmas.PolyCoeff
import Verif.Lemmas.BatchInverse
import Verif.Lemmas.Outcome

/-! Reed–Solomon erasure decoding. Parameters: `polyLen = 2^a`, `expansionFactor = 2^b`,
`blockSize = 2^c`, `c ≤ a + b`. -/
namespace Verif
open Finset Polynomial

variable {ε : Type}

/-- the value of `ReedSolomon::new(2^a, 2^b, 2^c)` -/
def rsOf (a b c : Nat) : ReedSolomon where
  polyLen := 2 ^ a
  expansionFactor := 2 ^ b
  evaluationDomain := domainOf (a + b)
  blockSize := 2 ^ c
  numBlocks := 2 ^ (a + b) / 2 ^ c
  blockSizeDomain := domainOf c
  fftCosetGen := ⟨7, 7⁻¹⟩

theorem seven_ne_zero : (7 : Fr) ≠ 0 := by
  have h := generator_primitive
  have : (MULTIPLICATIVE_GENERATOR : Fr) ≠ 0 := h.ne_zero (by have := frOrder_gt; omega)
  simpa [MULTIPLICATIVE_GENERATOR] using this

theorem seven_pow_ne_one (k : Nat) (hk : k ≤ 32) : (7 : Fr) ^ 2 ^ k ≠ 1 := by
  have h := generator_primitive
  intro h1
  have h2 := h.dvd_of_pow_eq_one (l := 2 ^ k) (by simpa [MULTIPLICATIVE_GENERATOR] using h1)
  have h3 := Nat.le_of_dvd (Nat.two_pow_pos k) h2
  have h4 : 2 ^ k ≤ 2 ^ 32 := Nat.pow_le_pow_right (by norm_num) hk
  have h5 : 2 ^ 32 + 1 < frOrder := by decide +kernel
  omega

theorem rs_new (a b c : Nat) (hab : a + b ≤ 32) (hc : c ≤ 32) :
    (ReedSolomon.new (2 ^ a) (2 ^ b) (2 ^ c) : Outcome ε ReedSolomon) = .ok (rsOf a b c) := by
  unfold ReedSolomon.new
  rw [assertP_true (isPow2_two_pow _), assertP_true (isPow2_two_pow _), assertP_true (isPow2_two_pow _)]
  simp only [Outcome.ok_bind, ← pow_add]
  rw [domain_new_two_pow (a + b) hab, domain_new_two_pow c hc]
  have : (CosetFFT.new MULTIPLICATIVE_GENERATOR : Outcome ε CosetFFT) = .ok ⟨7, 7⁻¹⟩ := by
    have h7 : MULTIPLICATIVE_GENERATOR = (7 : Fr) := by simp [MULTIPLICATIVE_GENERATOR]
    simp [CosetFFT.new, invertExpect, h7, seven_ne_zero]
  simp only [Outcome.ok_bind, this, Outcome.pure_eq]
  rfl

/-! ### the vanishing polynomial -/

theorem spreadLoop_spec (nb : Nat) (hnb : 0 < nb) (cs : List Fr) (n : Nat) (h : (cs.length - 1) * nb < n) :
    ∃ z, (ReedSolomon.spreadLoop nb cs (List.replicate n 0) : Outcome ε (List Fr)) = .ok z ∧
      Rep z n (fun i => if nb ∣ i then cs.getD (i / nb) 0 else 0) := by
  unfold ReedSolomon.spreadLoop
  obtain ⟨z, hz, hR⟩ := foldlM_list_inv (ε := ε) (l := cs.zipIdx) (s := List.replicate n (0 : Fr))
    (body := fun z (q : Fr × Nat) => setIdx z (q.2 * nb) q.1)
    (fun q z => Rep z n (fun i => if nb ∣ i ∧ i / nb < q then cs.getD (i / nb) 0 else 0))
    (by
      refine ⟨by simp, fun i hi => ?_⟩
      simp [hi])
    (by
      intro q z hq hz
      have hq' : q < cs.length := by simpa using hq
      have hlt : q * nb < n := lt_of_le_of_lt (Nat.mul_le_mul_right _ (by omega)) h
      refine ⟨z.set (q * nb) cs[q], ?_, (hz.set _).congr ?_⟩
      · simp only [List.getElem_zipIdx, zero_add]
        exact hz.setIdx hlt _
      · intro i _
        by_cases hi : i = q * nb
        · subst hi
          simp [List.getD, hq', hnb]
        · rw [Function.update_of_ne hi]
          by_cases hd : nb ∣ i
          · have hne : i / nb ≠ q := by
              rintro rfl
              exact hi (Nat.div_mul_cancel hd).symm
            simp only [hd, true_and]
            by_cases h1 : i / nb < q
            · rw [if_pos h1, if_pos (by omega)]
            · rw [if_neg h1, if_neg (by omega)]
          · simp [hd])
  refine ⟨z, hz, hR.congr ?_⟩
  intro i _
  by_cases hd : nb ∣ i
  · simp only [hd, true_and, if_true, List.length_zipIdx]
    split_ifs with h1
    · rfl
    · simp [List.getD, List.getElem?_eq_none (by omega : cs.length ≤ i / nb)]
  · simp [hd]

/-- the vanishing polynomial of the erased blocks -/
noncomputable def erasureZ (c d : Nat) (er : List Nat) : Fr[X] :=
  (er.map (fun i => X ^ 2 ^ d - C (Spec.omega c ^ i))).prod

theorem erasureZ_monic (c d : Nat) (er : List Nat) : (erasureZ c d er).Monic := by
  unfold erasureZ
  induction er with
  | nil => simp
  | cons i er ih =>
    rw [List.map_cons, List.prod_cons]
    exact (monic_X_pow_sub_C _ (Nat.two_pow_pos d).ne').mul ih

theorem erasureZ_natDegree (c d : Nat) (er : List Nat) : (erasureZ c d er).natDegree = er.length * 2 ^ d := by
  unfold erasureZ
  induction er with
  | nil => simp
  | cons i er ih =>
    have hm := erasureZ_monic c d er
    unfold erasureZ at hm
    rw [List.map_cons, List.prod_cons, Monic.natDegree_mul (monic_X_pow_sub_C _ (Nat.two_pow_pos d).ne') hm, ih, natDegree_X_pow_sub_C, List.length_cons]
    ring

theorem erasureZ_eval (c d : Nat) (er : List Nat) (x : Fr) :
    (erasureZ c d er).eval x = (er.map (fun i => x ^ 2 ^ d - Spec.omega c ^ i)).prod := by
  unfold erasureZ
  induction er with
  | nil => simp
  | cons i er ih => simp only [List.map_cons, List.prod_cons, eval_mul, ih]; simp

theorem constructVanishing_spec (a b c : Nat) (hc : c ≤ a + b) (er : List Nat)
    (hlt : ∀ i ∈ er, i < 2 ^ c) (hm : er.length < 2 ^ c) :
    ∃ z, ((rsOf a b c).constructVanishingPolyFromBlockErasures er : Outcome ε (List Fr)) = .ok z ∧
      z.length = 2 ^ (a + b) ∧ Spec.polyOf z = erasureZ c (a + b - c) er := by
  unfold ReedSolomon.constructVanishingPolyFromBlockErasures
  have hb : (rsOf a b c).blockSize = 2 ^ c := rfl
  have hr : (rsOf a b c).blockSizeDomain.roots = (List.range (2 ^ c)).map (fun i => Spec.omega c ^ i) := rfl
  have he : (rsOf a b c).evaluationDomain.roots.length = 2 ^ (a + b) := by simp [rsOf, domainOf]
  have hnb : (rsOf a b c).numBlocks = 2 ^ (a + b - c) := by
    show 2 ^ (a + b) / 2 ^ c = _
    rw [Nat.pow_div hc (by norm_num)]
  rw [hb, hr, he, hnb, assertP_true (by omega), Outcome.ok_bind,
    mapM_ok (g := fun i => Spec.omega c ^ i) (fun i hi => (rep_map_range _ _).idx (hlt i hi)), Outcome.ok_bind]
  obtain ⟨cs, hcs, hl, hp⟩ := vanishingPoly_spec (ε := ε) (er.map (fun i => Spec.omega c ^ i))
  rw [hcs, Outcome.ok_bind]
  rw [List.length_map] at hl
  set nb := 2 ^ (a + b - c) with hnbd
  have hnb0 : 0 < nb := Nat.two_pow_pos _
  have hmul : 2 ^ c * nb = 2 ^ (a + b) := by rw [hnbd, ← pow_add]; congr 1; omega
  obtain ⟨z, hz, hR⟩ := spreadLoop_spec (ε := ε) nb hnb0 cs (2 ^ (a + b)) (by
    rw [hl, Nat.add_sub_cancel, ← hmul]
    exact Nat.mul_lt_mul_of_pos_right hm hnb0)
  refine ⟨z, hz, hR.1, ?_⟩
  have hexp : erasureZ c (a + b - c) er = expand Fr nb (Spec.polyOf cs) := by
    rw [hp, map_list_prod, List.map_map, List.map_map]
    unfold erasureZ
    congr 1
    apply List.map_congr_left
    intro i _
    simp [← hnbd]
  rw [hexp]
  ext i
  rw [coeff_expand hnb0, Spec.coeff_polyOf, Spec.coeff_polyOf]
  by_cases hi : i < 2 ^ (a + b)
  · rw [hR.getD 0 hi]
  · have : z.getD i 0 = 0 := by
      simp [List.getD, List.getElem?_eq_none (by rw [hR.1]; omega : z.length ≤ i)]
    rw [this]
    split_ifs with hd
    · have hge : 2 ^ c ≤ i / nb := by
        rw [Nat.le_div_iff_mul_le hnb0, hmul]; omega
      simp [List.getD, List.getElem?_eq_none (by omega : cs.length ≤ i / nb)]
    · rfl

/-- the erasure polynomial vanishes exactly on the erased positions -/
theorem erasureZ_zero_iff (c d : Nat) (hcd : c + d ≤ 32) (er : List Nat) (hlt : ∀ i ∈ er, i < 2 ^ c) (p : Nat) :
    (erasureZ c d er).eval (Spec.omega (c + d) ^ p) = 0 ↔ p % 2 ^ c ∈ er := by
  rw [erasureZ_eval, List.prod_eq_zero_iff, List.mem_map]
  have hprim := omega_primitive c (by omega)
  have hw : (Spec.omega (c + d) ^ p) ^ 2 ^ d = Spec.omega c ^ (p % 2 ^ c) := by
    rw [← pow_mul, mul_comm, pow_mul]
    have := omega_pow c (c + d) (by omega) hcd
    rw [Nat.add_sub_cancel_left] at this
    rw [this]
    conv_lhs => rw [← Nat.mod_add_div p (2 ^ c), pow_add, pow_mul, hprim.pow_eq_one, one_pow, mul_one]
  constructor
  · rintro ⟨i, hi, h0⟩
    rw [hw, sub_eq_zero] at h0
    have := hprim.pow_inj (Nat.mod_lt _ (Nat.two_pow_pos c)) (hlt i hi) h0
    rwa [this]
  · intro hp
    exact ⟨_, hp, by rw [hw, sub_self]⟩

theorem erasureZ_coset_ne_zero (c d : Nat) (hcd : c + d ≤ 32) (er : List Nat) (p : Nat) :
    (erasureZ c d er).eval (7 * Spec.omega (c + d) ^ p) ≠ 0 := by
  rw [erasureZ_eval, Ne, List.prod_eq_zero_iff, List.mem_map]
  rintro ⟨i, -, h0⟩
  rw [sub_eq_zero] at h0
  have h1 := congrArg (· ^ 2 ^ c) h0
  rw [← pow_mul, ← pow_add, add_comm d c, mul_pow, ← pow_mul, mul_comm p, pow_mul,
    (omega_primitive (c + d) hcd).pow_eq_one, one_pow, mul_one, ← pow_mul, mul_comm i, pow_mul,
    (omega_primitive c (by omega)).pow_eq_one, one_pow] at h1
  exact seven_pow_ne_one _ hcd h1

/-! ### decoding -/

theorem acceptable_eq (a b c : Nat) (hc : c ≤ a + b) :
    ((rsOf a b c).acceptableNumBlockErasures : Outcome ε Nat) =
      .ok ((2 ^ (a + b) - 2 ^ a) / 2 ^ (a + b - c)) := by
  have hnb : (rsOf a b c).numBlocks = 2 ^ (a + b - c) := by
    show 2 ^ (a + b) / 2 ^ c = _
    rw [Nat.pow_div hc (by norm_num)]
  unfold ReedSolomon.acceptableNumBlockErasures
  rw [hnb, assertP_true (Nat.two_pow_pos _).ne', Outcome.ok_bind, Outcome.pure_eq]
  unfold ReedSolomon.acceptableNumRandomErasures
  show Outcome.ok ((2 ^ a * 2 ^ b - 2 ^ a) / _) = _
  rw [← pow_add]

theorem acceptable_mul (a b c : Nat) (m : Nat) (hm : m ≤ (2 ^ (a + b) - 2 ^ a) / 2 ^ (a + b - c)) :
    2 ^ a + m * 2 ^ (a + b - c) ≤ 2 ^ (a + b) := by
  have h1 := (Nat.le_div_iff_mul_le (Nat.two_pow_pos _)).1 hm
  have h2 : 2 ^ a ≤ 2 ^ (a + b) := Nat.pow_le_pow_right (by norm_num) (by omega)
  omega

/-- `f` (of degree below `2^a`) agrees with the data outside of the erased blocks -/
def Agrees (a b c : Nat) (data : List Fr) (er : List Nat) (f : Fr[X]) : Prop :=
  f.degree < (2 ^ a : Nat) ∧ ∀ p < 2 ^ (a + b), p % 2 ^ c ∉ er → f.eval (Spec.omega (a + b) ^ p) = data.getD p 0

/-- `f` (of degree below `2^a`) agrees with the data outside of the places of `S` -/
def AgreesOff (a b : Nat) (data : List Fr) (S : Nat → Prop) (f : Fr[X]) : Prop :=
  f.degree < (2 ^ a : Nat) ∧ ∀ p < 2 ^ (a + b), ¬S p → f.eval (Spec.omega (a + b) ^ p) = data.getD p 0

/-- Decoding with a polynomial that vanishes, in the domain, at the places of `S` only. -/
theorem recoverFrom_spec (a b c : Nat) (hab : a + b ≤ 32) (data : List Fr) (hd : data.length = 2 ^ (a + b)) (z : List Fr)
    (hzl : z.length ≤ 2 ^ (a + b)) (Z : Fr[X]) (hzp : Spec.polyOf z = Z) (hZdeg : 2 ^ a + Z.natDegree ≤ 2 ^ (a + b))
    (S : Nat → Prop) (hZ0 : ∀ p < 2 ^ (a + b), (Z.eval (Spec.omega (a + b) ^ p) = 0 ↔ S p))
    (hZ7 : ∀ p, Z.eval (7 * Spec.omega (a + b) ^ p) ≠ 0) :
    (∃ f, AgreesOff a b data S f ∧
      (rsOf a b c).recoverFromVanishing data z = .ok (Spec.coeffs (2 ^ a) f)) ∨
    ((¬ ∃ f, AgreesOff a b data S f) ∧
      (rsOf a b c).recoverFromVanishing data z = .err (.PolynomialHasInvalidLength (2 ^ (a + b)) (2 ^ a))) := by
  have hpa := Nat.two_pow_pos a
  -- degrees of products with `Z`
  have hprod : ∀ f : Fr[X], f.degree < (2 ^ a : Nat) → (f * Z).degree < (2 ^ (a + b) : Nat) := by
    intro f hf
    by_cases hf0 : f = 0
    · rw [hf0, zero_mul, degree_zero]; exact WithBot.bot_lt_coe _
    · have hfn : f.natDegree < 2 ^ a := (natDegree_lt_iff_degree_lt hf0).2 hf
      apply lt_of_le_of_lt degree_le_natDegree
      rw [Nat.cast_lt]
      apply lt_of_le_of_lt natDegree_mul_le
      omega
  unfold ReedSolomon.recoverFromVanishing
  have hev : (rsOf a b c).evaluationDomain = domainOf (a + b) := rfl
  have hg : (rsOf a b c).fftCosetGen = ⟨7, 7⁻¹⟩ := rfl
  have hpl : (rsOf a b c).polyLen = 2 ^ a := rfl
  rw [hev, hg, hpl, fftScalars_eval (a + b) hab z hzl, Outcome.ok_bind, hzp]
  -- E
  set ez := (((List.range (2 ^ (a + b))).map (fun j => Z.eval (Spec.omega (a + b) ^ j))).zip data).map
    (fun q => q.1 * q.2) with hez
  have hezD : ∀ p < 2 ^ (a + b), ez.getD p 0 = Z.eval (Spec.omega (a + b) ^ p) * data.getD p 0 := by
    intro p hp
    have hpd : p < data.length := by omega
    simp [hez, List.getD, hp, hpd]
  obtain ⟨E, hE, hElen, hEev⟩ := ifftScalars_interp (ε := RSError) (a + b) hab ez
  have hEdeg : (Spec.polyOf E).degree < (2 ^ (a + b) : Nat) := by
    have := Spec.degree_polyOf_lt E; rwa [hElen] at this
  simp only
  rw [hE, Outcome.ok_bind, cosetFftScalars_eval (a + b) hab E (le_of_eq hElen), Outcome.ok_bind,
    cosetFftScalars_eval (a + b) hab z hzl, Outcome.ok_bind, hzp, batchInverse_ok _ (by
      intro x hx
      obtain ⟨j, -, rfl⟩ := List.mem_map.1 hx
      exact hZ7 j), Outcome.ok_bind]
  -- R
  obtain ⟨R, hRdeg, hRev⟩ := exists_interp (a + b) hab 7 seven_ne_zero
    (fun p => (Spec.polyOf E).eval (7 * Spec.omega (a + b) ^ p) * (Z.eval (7 * Spec.omega (a + b) ^ p))⁻¹)
  rw [cosetIfftScalars_eq (a + b) hab _ _ seven_ne_zero rfl R hRdeg (by
    intro p hp
    rw [hRev p hp]
    simp [List.getD, hp]), Outcome.ok_bind]
  have hRZ : ∀ p < 2 ^ (a + b), (R * Z).eval (7 * Spec.omega (a + b) ^ p) =
      (Spec.polyOf E).eval (7 * Spec.omega (a + b) ^ p) := by
    intro p hp
    rw [eval_mul, hRev p hp, mul_assoc, inv_mul_cancel₀ (hZ7 p), mul_one]
  have hprim := omega_primitive (a + b) hab
  have hle : 2 ^ a ≤ 2 ^ (a + b) := Nat.pow_le_pow_right (by norm_num) (by omega)
  have hany : ((Spec.coeffs (2 ^ (a + b)) R).drop (2 ^ a)).any (fun c => c ≠ 0) = true ↔ ¬ R.degree < (2 ^ a : Nat) := by
    rw [degree_lt_iff_coeff_zero]
    push Not
    simp only [List.any_eq_true, decide_eq_true_eq]
    constructor
    · rintro ⟨x, hx, hx0⟩
      obtain ⟨i, hi, rfl⟩ := List.getElem_of_mem hx
      refine ⟨2 ^ a + i, by omega, ?_⟩
      simpa [Spec.coeffs] using hx0
    · rintro ⟨i, hi, h0⟩
      have hi2 : i < 2 ^ (a + b) := by
        by_contra h
        exact h0 ((degree_lt_iff_coeff_zero _ _).1 hRdeg i (by omega))
      refine ⟨R.coeff i, ?_, h0⟩
      rw [List.mem_iff_getElem?]
      refine ⟨i - 2 ^ a, ?_⟩
      rw [List.getElem?_drop, show 2 ^ a + (i - 2 ^ a) = i by omega]
      simp [Spec.coeffs, hi2]
  have hAB : ∀ f, AgreesOff a b data S f → f = R := by
    rintro f ⟨hf, hfd⟩
    have h1 : f * Z = Spec.polyOf E := by
      apply poly_eq_of_coset hprim one_ne_zero (hprod f hf) hEdeg
      intro p hp
      rw [one_mul, hEev p hp, hezD p hp, eval_mul]
      by_cases hpe : S p
      · rw [(hZ0 p hp).2 hpe]; ring
      · rw [hfd p hp hpe, mul_comm]
    apply poly_eq_of_coset hprim seven_ne_zero (lt_of_lt_of_le hf (by exact_mod_cast hle)) hRdeg
    intro p hp
    have h2 := hRZ p hp
    rw [← h1, eval_mul, eval_mul] at h2
    exact (mul_right_cancel₀ (hZ7 p) h2).symm
  by_cases hRa : R.degree < (2 ^ a : Nat)
  · left
    refine ⟨R, ⟨hRa, ?_⟩, ?_⟩
    · have h1 : R * Z = Spec.polyOf E :=
        poly_eq_of_coset hprim seven_ne_zero (hprod R hRa) hEdeg hRZ
      intro p hp hpe
      have h2 := hEev p hp
      rw [← h1, eval_mul, hezD p hp, mul_comm] at h2
      exact mul_left_cancel₀ (fun h => hpe ((hZ0 p hp).1 h)) h2
    · rw [if_neg (by rw [hany]; exact not_not.2 hRa), slice_zero (by simp [Spec.coeffs, hle])]
      simp only [Spec.coeffs, ← List.map_take, List.take_range, Nat.min_eq_left hle]
  · right
    refine ⟨?_, ?_⟩
    · rintro ⟨f, hf⟩
      apply hRa
      rw [← hAB f hf]
      exact hf.1
    · rw [if_pos (hany.2 hRa)]
      simp [Spec.coeffs]

theorem rs_recover (a b c : Nat) (hc : c ≤ a + b) (hab : a + b ≤ 32) (data : List Fr)
    (hd : data.length = 2 ^ (a + b)) (er : List Nat) (hlt : ∀ i ∈ er, i < 2 ^ c)
    (hm : er.length ≤ (2 ^ (a + b) - 2 ^ a) / 2 ^ (a + b - c)) :
    (∃ f, Agrees a b c data er f ∧
      (rsOf a b c).recoverPolynomialCoefficient data er = .ok (Spec.coeffs (2 ^ a) f)) ∨
    ((¬ ∃ f, Agrees a b c data er f) ∧
      (rsOf a b c).recoverPolynomialCoefficient data er = .err (.PolynomialHasInvalidLength (2 ^ (a + b)) (2 ^ a))) := by
  have hacc := acceptable_mul a b c _ hm
  have hpa := Nat.two_pow_pos a
  set d := a + b - c with hdd
  have hcd : c + d = a + b := by omega
  have hmul : 2 ^ c * 2 ^ d = 2 ^ (a + b) := by rw [← pow_add, hcd]
  have hmc : er.length < 2 ^ c := by
    by_contra h
    have : 2 ^ c * 2 ^ d ≤ er.length * 2 ^ d := Nat.mul_le_mul_right _ (by omega)
    omega
  obtain ⟨z, hz, hzl, hzp⟩ := constructVanishing_spec (ε := RSError) a b c hc er hlt hmc
  rw [← hdd] at hzp
  have hZ : (rsOf a b c).constructVanishingPoly er = .ok z := by
    unfold ReedSolomon.constructVanishingPoly
    have : er.find? (fun i => decide (i ≥ (rsOf a b c).blockSize)) = none := by
      rw [List.find?_eq_none]
      intro i hi
      have := hlt i hi
      have hb : (rsOf a b c).blockSize = 2 ^ c := rfl
      simp [hb]; omega
    rw [this, acceptable_eq a b c hc]
    simp only [Outcome.ok_bind]
    rw [← hdd, if_neg (by omega), hz]
  set Z := erasureZ c d er with hZdef
  unfold ReedSolomon.recoverPolynomialCoefficient
  rw [hZ, Outcome.ok_bind]
  have hZdeg : Z.natDegree = er.length * 2 ^ d := erasureZ_natDegree c d er
  have hZ0 : ∀ p, Z.eval (Spec.omega (a + b) ^ p) = 0 ↔ p % 2 ^ c ∈ er := by
    intro p
    have := erasureZ_zero_iff c d (by omega) er hlt p
    rwa [hcd] at this
  have hZ7 : ∀ p, Z.eval (7 * Spec.omega (a + b) ^ p) ≠ 0 := by
    intro p
    have := erasureZ_coset_ne_zero c d (by omega) er p
    rwa [hcd] at this
  exact recoverFrom_spec a b c hab data hd z hzl.le Z hzp (by rw [hZdeg]; exact hacc) (fun p => p % 2 ^ c ∈ er)
    (fun p _ => hZ0 p) hZ7

/-- uniqueness of the decoded polynomial -/
theorem agrees_unique (a b c : Nat) (hc : c ≤ a + b) (hab : a + b ≤ 32) (data : List Fr) (er : List Nat)
    (hlt : ∀ i ∈ er, i < 2 ^ c)
    (hm : er.length ≤ (2 ^ (a + b) - 2 ^ a) / 2 ^ (a + b - c)) {f g : Fr[X]} (hf : Agrees a b c data er f)
    (hg : Agrees a b c data er g) : f = g := by
  have hacc := acceptable_mul a b c _ hm
  set d := a + b - c with hdd
  have hcd : c + d = a + b := by omega
  set Z := erasureZ c d er with hZdef
  have hZdeg : Z.natDegree = er.length * 2 ^ d := erasureZ_natDegree c d er
  have hZ0 : ∀ p, Z.eval (Spec.omega (a + b) ^ p) = 0 ↔ p % 2 ^ c ∈ er := by
    intro p
    have := erasureZ_zero_iff c d (by omega) er hlt p
    rwa [hcd] at this
  have hprod : ∀ f : Fr[X], f.degree < (2 ^ a : Nat) → (f * Z).degree < (2 ^ (a + b) : Nat) := by
    intro f hf
    by_cases hf0 : f = 0
    · rw [hf0, zero_mul, degree_zero]; exact WithBot.bot_lt_coe _
    · have hfn : f.natDegree < 2 ^ a := (natDegree_lt_iff_degree_lt hf0).2 hf
      apply lt_of_le_of_lt degree_le_natDegree
      rw [Nat.cast_lt]
      apply lt_of_le_of_lt natDegree_mul_le
      omega
  have h : f * Z = g * Z := by
    apply poly_eq_of_coset (omega_primitive (a + b) hab) one_ne_zero (hprod f hf.1) (hprod g hg.1)
    intro p hp
    rw [one_mul, eval_mul, eval_mul]
    by_cases hpe : p % 2 ^ c ∈ er
    · rw [(hZ0 p).2 hpe, mul_zero, mul_zero]
    · rw [hf.2 p hp hpe, hg.2 p hp hpe]
  exact mul_right_cancel₀ (erasureZ_monic c d er).ne_zero h

/-- the vanishing polynomial of arbitrary erasures -/
theorem constructRandom_spec (a b c : Nat) (er : List Nat) (hlt : ∀ i ∈ er, i < 2 ^ (a + b))
    (hm : er.length ≤ 2 ^ (a + b) - 2 ^ a) :
    ∃ z, ((rsOf a b c).constructVanishingPolyRandom er : Outcome ε (List Fr)) = .ok z ∧ z.length = er.length + 1 ∧
      Spec.polyOf z = (er.map (fun i => X - C (Spec.omega (a + b) ^ i))).prod := by
  unfold ReedSolomon.constructVanishingPolyRandom
  have hacc : (rsOf a b c).acceptableNumRandomErasures = 2 ^ (a + b) - 2 ^ a := by
    show 2 ^ a * 2 ^ b - 2 ^ a = _
    rw [← pow_add]
  have hr : (rsOf a b c).evaluationDomain.roots = (List.range (2 ^ (a + b))).map (fun i => Spec.omega (a + b) ^ i) := rfl
  rw [assertP_true (by omega), Outcome.ok_bind, hr, mapM_ok (g := fun i => Spec.omega (a + b) ^ i) (by
    intro i hi
    exact (rep_map_range _ _).idx (hlt i hi)), Outcome.ok_bind]
  obtain ⟨z, hz, hzl, hzp⟩ := vanishingPoly_spec (ε := ε) (er.map (fun i => Spec.omega (a + b) ^ i))
  exact ⟨z, hz, by simpa using hzl, by rw [hzp, List.map_map]; rfl⟩

/-- decoding with arbitrary erasures -/
theorem rs_recover_random (a b c : Nat) (hab : a + b ≤ 32) (data : List Fr) (hd : data.length = 2 ^ (a + b)) (er : List Nat)
    (hlt : ∀ i ∈ er, i < 2 ^ (a + b)) (hm : er.length ≤ 2 ^ (a + b) - 2 ^ a) :
    (∃ f, AgreesOff a b data (· ∈ er) f ∧
      (rsOf a b c).recoverPolynomialCoefficientRandomErasure data er = .ok (Spec.coeffs (2 ^ a) f)) ∨
    ((¬ ∃ f, AgreesOff a b data (· ∈ er) f) ∧
      (rsOf a b c).recoverPolynomialCoefficientRandomErasure data er =
        .err (.PolynomialHasInvalidLength (2 ^ (a + b)) (2 ^ a))) := by
  obtain ⟨z, hz, hzl, hzp⟩ := constructRandom_spec (ε := RSError) a b c er hlt hm
  have hle : 2 ^ a ≤ 2 ^ (a + b) := Nat.pow_le_pow_right (by norm_num) (by omega)
  have hpa := Nat.two_pow_pos a
  have hprim := omega_primitive (a + b) hab
  have hev : ∀ x : Fr, ((er.map (fun i => (X - C (Spec.omega (a + b) ^ i) : Fr[X]))).prod).eval x = 0 ↔
      ∃ i ∈ er, x = Spec.omega (a + b) ^ i := by
    intro x
    rw [eval_list_prod, List.prod_eq_zero_iff, List.map_map, List.mem_map]
    simp [sub_eq_zero]
  have hdeg : ((er.map (fun i => (X - C (Spec.omega (a + b) ^ i) : Fr[X]))).prod).natDegree ≤ er.length := by
    clear hz hzl hzp hev hlt hm
    induction er with
    | nil => simp
    | cons i er ih =>
      rw [List.map_cons, List.prod_cons, List.length_cons]
      refine natDegree_mul_le.trans ?_
      rw [natDegree_X_sub_C]
      omega
  unfold ReedSolomon.recoverPolynomialCoefficientRandomErasure
  rw [hz, Outcome.ok_bind]
  refine recoverFrom_spec a b c hab data hd z (by omega) _ hzp (by omega) (· ∈ er) ?_ ?_
  · intro p hp
    rw [hev]
    constructor
    · rintro ⟨i, hi, h⟩
      rwa [hprim.pow_inj hp (hlt i hi) h]
    · intro h
      exact ⟨p, h, rfl⟩
  · intro p h
    obtain ⟨i, -, h⟩ := (hev _).1 h
    have h1 := congrArg (· ^ 2 ^ (a + b)) h
    simp only [mul_pow] at h1
    rw [← pow_mul, mul_comm p, pow_mul, hprim.pow_eq_one, one_pow, mul_one, ← pow_mul, mul_comm i, pow_mul, hprim.pow_eq_one,
      one_pow] at h1
    exact seven_pow_ne_one _ hab h1

/-- uniqueness, for arbitrary erasures -/
theorem agreesOff_unique (a b : Nat) (hab : a + b ≤ 32) (data : List Fr) (er : List Nat)
    (hm : er.length ≤ 2 ^ (a + b) - 2 ^ a) {f g : Fr[X]} (hf : AgreesOff a b data (· ∈ er) f)
    (hg : AgreesOff a b data (· ∈ er) g) : f = g := by
  have hprim := omega_primitive (a + b) hab
  have hle : 2 ^ a ≤ 2 ^ (a + b) := Nat.pow_le_pow_right (by norm_num) (by omega)
  set s := (range (2 ^ (a + b)) \ er.toFinset).image (fun p => Spec.omega (a + b) ^ p) with hs
  have hcard : 2 ^ a ≤ s.card := by
    rw [hs, card_image_of_injOn]
    · have h1 := Finset.le_card_sdiff er.toFinset (range (2 ^ (a + b)))
      have h2 := List.toFinset_card_le er
      rw [card_range] at h1
      omega
    · intro p hp q hq h
      simp only [coe_sdiff, coe_range, Set.mem_diff, Set.mem_Iio] at hp hq
      exact hprim.pow_inj hp.1 hq.1 h
  have hc : ((2 ^ a : Nat) : WithBot Nat) ≤ (s.card : WithBot Nat) := by exact_mod_cast hcard
  refine Polynomial.eq_of_degrees_lt_of_eval_finset_eq s (lt_of_lt_of_le hf.1 hc) (lt_of_lt_of_le hg.1 hc) ?_
  intro x hx
  rw [hs, mem_image] at hx
  obtain ⟨p, hp, rfl⟩ := hx
  rw [mem_sdiff, mem_range, List.mem_toFinset] at hp
  rw [hf.2 p hp.1 hp.2, hg.2 p hp.1 hp.2]

end Verif
