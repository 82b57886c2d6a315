import Verif.Lemmas.Fk20

set_option linter.unusedSectionVars false

/-! The FK20 prover with commit keys of other lengths than the polynomial bound. -/
namespace Verif
open Finset Polynomial

theorem le_ctz_two_pow (f k m : Nat) (hf : m ≤ f) (hk : m ≤ k) : m ≤ ctz f (2 ^ k) := by
  induction f generalizing k m with
  | zero => omega
  | succ f ih =>
    cases k with
    | zero => omega
    | succ k =>
      have h1 : 2 ^ (k + 1) % 2 = 0 := by rw [pow_succ]; omega
      have h2 : 2 ^ (k + 1) / 2 = 2 ^ k := by rw [pow_succ]; omega
      cases m with
      | zero => omega
      | succ m =>
        have := ih k m (by omega) (by omega)
        simp only [ctz, h1, h2]
        simp only [Nat.zero_ne_one, if_false]
        omega

theorem domain_new_size {ε : Type} (k : Nat) (d : Domain) (h : (Domain.new (2 ^ k) : Outcome ε Domain) = .ok d) : k ≤ 32 := by
  by_contra hk
  unfold Domain.new Domain.computeGeneratorForSize at h
  simp only [isPow2_two_pow, if_true, assertP_true] at h
  have : trailingZeros (2 ^ k) > 32 := le_ctz_two_pow 64 k 33 (by norm_num) (by omega)
  simp only [Outcome.ok_bind, if_pos this] at h
  cases h

section
variable {ε K G : Type} [Field K] [DecidableEq K] [AddCommGroup G] [Module Fr G] [DecidableEq G] [Curve K G]

/-- the value of the convolution for matrices of any size -/
theorem conv_value (vectors : List (List G)) (matrices : List ToeplitzMatrix) (k : Nat) (hk : k + 1 ≤ 32)
    (hlen : vectors.length = matrices.length) :
    ((domainOf (k + 1)).ifftG1TakeN ((List.range (2 ^ (k + 1))).map (fun j =>
        lcSum (fftGens vectors (k + 1) j) (fftScals matrices (k + 1) j))) (some (2 ^ k)) : Outcome ε (List G)) =
      .ok ((List.range (2 ^ k)).map (fun a => ∑ i ∈ range vectors.length, ∑ t ∈ range (2 ^ (k + 1)),
        (circulantFromToeplitz (matrices.getD i ⟨[], []⟩)).getD ((a + 2 ^ (k + 1) - t) % 2 ^ (k + 1)) 0 •
          (vectors.getD i []).getD t 0)) := by
  have hlt : 2 ^ k < 2 ^ (k + 1) := by rw [pow_succ]; have := Nat.two_pow_pos k; omega
  rw [ifftG1TakeN_spec (k + 1) hk _ _ hlt]
  congr 1
  apply List.map_congr_left
  intro a ha
  rw [List.mem_range] at ha
  set N := 2 ^ (k + 1) with hN
  set m := vectors.length with hmdef
  set c : Nat → Nat → Fr := fun i s => (circulantFromToeplitz (matrices.getD i ⟨[], []⟩)).getD s 0 with hc
  set w : Nat → Nat → G := fun i s => (vectors.getD i []).getD s 0 with hw
  have e1 : Spec.dft (Spec.omega (k + 1))⁻¹ N (fun i => ((List.range N).map (fun j =>
        lcSum (fftGens vectors (k + 1) j) (fftScals matrices (k + 1) j))).getD i 0) a =
      Spec.dft (Spec.omega (k + 1))⁻¹ N (fun j => ∑ i ∈ range m,
        Spec.dft (Spec.omega (k + 1)) N (c i) j • Spec.dft (Spec.omega (k + 1)) N (w i) j) a := by
    apply dft_congr
    intro j hj
    simp only [List.getD, List.getElem?_map, List.getElem?_range hj, Option.map_some, Option.getD_some]
    rw [lcSum_eq _ _ m (by simp [fftGens, hmdef]) (by simp [fftScals, hlen])]
    apply sum_congr rfl
    intro i hi
    have hi : i < m := mem_range.1 hi
    have hi' : i < matrices.length := by omega
    have h1 : (fftScals matrices (k + 1) j).getD i 0 = Spec.dft (Spec.omega (k + 1)) N (c i) j := by
      simp [fftScals, List.getD, hi', hc, hN]
    have h2 : (fftGens vectors (k + 1) j).getD i 0 = Spec.dft (Spec.omega (k + 1)) N (w i) j := by
      simp [fftGens, List.getD, show i < vectors.length from hi, hw, hN]
    rw [h1, h2]
  rw [e1, idft_sum_products (omega_primitive (k + 1) hk) (two_pow_ne_zero (k + 1)) (Nat.two_pow_pos _) _ _ _
    (by omega)]

theorem length_srsVectors (g : List G) (n : Nat) : (srsVectors g n).length = n := by simp [srsVectors, takeEveryNth]

/-- A prover accepted by the constructor without precomputation, any key length. -/
def proverAny (g : List G) (b q e k : Nat) : FK20Prover K G where
  batchToeplitz := ⟨2 ^ q, (List.range (2 ^ (k + 1))).map (fun j => .noPrecomp (fftGens (srsVectors g (2 ^ q)) (k + 1) j)), 2 ^ k, domainOf (k + 1)⟩
  cosetSize := 2 ^ q
  numberOfPointsToOpen := 2 ^ e
  proofDomain := domainOf (e - q)
  evaluationDomain := domainOf e
  polyDomain := domainOf b
  commitKey := g

theorem prover_new_any (g : List G) (b q e : Nat) (p : FK20Prover K G)
    (h : (FK20Prover.new g (2 ^ b) (2 ^ q) (2 ^ e) .no : Outcome ε (FK20Prover K G)) = .ok p) :
    ∃ k, k + 1 ≤ 32 ∧ e ≤ 32 ∧ b ≤ 32 ∧ 2 ^ q < g.length ∧ 2 ^ b ≤ g.length ∧ q < e ∧ (∀ v ∈ srsVectors g (2 ^ q), v.length = 2 ^ k) ∧
      p = proverAny g b q e k := by
  unfold FK20Prover.new at h
  simp only [bind_eq_ok, assertP_eq_ok] at h
  obtain ⟨_, -, _, -, _, hqe, _, -, _, hb, _, hq, bt, hbt, pd, hpd, ed, hed, qd, hqd, hp⟩ := h
  have hbt' := hbt
  unfold BatchToeplitz.new at hbt'
  simp only [bind_eq_ok, assertP_eq_ok] at hbt'
  obtain ⟨v0, hv0, _, hall, _, hpow, dom, hdom, -⟩ := hbt'
  obtain ⟨k, hk⟩ := (isPow2_iff _).1 hpow
  rw [hk, ← pow_succ] at hdom
  have hk32 := domain_new_size (k + 1) dom hdom
  have he32 := domain_new_size e ed hed
  have hb32 := domain_new_size b qd hqd
  have hqe' : q < e := (Nat.pow_lt_pow_iff_right (by norm_num)).1 hqe
  have hl : ∀ v ∈ srsVectors g (2 ^ q), v.length = 2 ^ k := by
    intro v hv
    have := List.all_eq_true.1 hall v hv
    rw [beq_iff_eq] at this
    rw [this, hk]
  have hlv := length_srsVectors g (2 ^ q)
  have hpos := Nat.two_pow_pos q
  rw [batchToeplitz_new _ k hk32 (by intro h; rw [h] at hlv; simp at hlv; omega) hl, List.mapM_map] at hbt
  simp only [Function.comp_def] at hbt
  rw [mapM_ok (f := fun j => (FixedBaseMSM.new (fftGens (srsVectors g (2 ^ q)) (k + 1) j) .no : Outcome ε (FixedBaseMSM K G)))
      (g := fun j => .noPrecomp (fftGens (srsVectors g (2 ^ q)) (k + 1) j)) (fun j _ => rfl), Outcome.ok_bind, hlv] at hbt
  rw [Nat.pow_div hqe'.le (by norm_num), domain_new_two_pow (e - q) (by omega)] at hpd
  rw [domain_new_two_pow e he32] at hed
  rw [domain_new_two_pow b hb32] at hqd
  refine ⟨k, hk32, he32, hb32, hq, hb, hqe', hl, ?_⟩
  simp only [Outcome.pure_eq, Outcome.ok.injEq] at hbt hpd hed hqd hp
  rw [← hp, ← hbt, ← hpd, ← hed, ← hqd]
  rfl

/-- The Toeplitz matrices of a coefficient list. -/
def hMats (f : List Fr) (q s : Nat) : List ToeplitzMatrix := (List.range (2 ^ q)).map (fun j =>
        (⟨(List.range (2 ^ s)).map (fun t => f.getD (2 ^ (q + s) - 1 - (j + t * 2 ^ q)) 0),
          (List.range (2 ^ s)).map (fun t => if t = 0 then f.getD (2 ^ (q + s) - 1 - j) 0 else 0)⟩ : ToeplitzMatrix))

theorem computeHPoly_any (g : List G) (f : List Fr) (b q s e k : Nat) (hk : k + 1 ≤ 32) (hf : f.length = 2 ^ (q + s)) :
    (computeHPolyCommitments (proverAny g b q e k : FK20Prover K G).batchToeplitz f (2 ^ q) : Outcome ε (List G)) =
      .ok ((List.range (2 ^ k)).map (fun a => ∑ i ∈ range (2 ^ q), ∑ t ∈ range (2 ^ (k + 1)),
        (circulantFromToeplitz ((hMats f q s).getD i ⟨[], []⟩)).getD ((a + 2 ^ (k + 1) - t) % 2 ^ (k + 1)) 0 •
          ((srsVectors g (2 ^ q)).getD i []).getD t 0)) := by
  unfold computeHPolyCommitments
  rw [assertP_true (isPow2_two_pow q), assertP_true (by rw [hf]; exact isPow2_two_pow _)]
  simp only [Outcome.ok_bind]
  rw [hPolyMatrices f q s hf, Outcome.ok_bind]
  have hfold : (List.range (2 ^ q)).map (fun j =>
        (⟨(List.range (2 ^ s)).map (fun t => f.getD (2 ^ (q + s) - 1 - (j + t * 2 ^ q)) 0),
          (List.range (2 ^ s)).map (fun t => if t = 0 then f.getD (2 ^ (q + s) - 1 - j) 0 else 0)⟩ : ToeplitzMatrix)) = hMats f q s := rfl
  rw [hfold]
  have hlm : (hMats f q s).length = 2 ^ q := by simp [hMats]
  have hne : hMats f q s ≠ [] := by
    intro h; rw [h] at hlm; have := Nat.two_pow_pos q; simp at hlm; omega
  have hv := length_srsVectors g (2 ^ q)
  unfold proverAny
  simp only
  conv_lhs => rw [← hlm]
  rw [sumMatrixVectorMul_eq _ k hk _ hne, List.zip_map', List.mapM_map]
  have h := mapM_ok (f := fun j => (((.noPrecomp (fftGens (srsVectors g (hMats f q s).length) (k + 1) j) : FixedBaseMSM K G)).msm
      (fftScals (hMats f q s) (k + 1) j) : Outcome ε G))
    (g := fun j => lcSum (fftGens (srsVectors g (hMats f q s).length) (k + 1) j) (fftScals (hMats f q s) (k + 1) j))
    (l := List.range (2 ^ (k + 1))) (by
      intro j _
      simp [FixedBaseMSM.msm, lincomb_eq, expect])
  simp only [Function.comp_def] at h ⊢
  rw [h, Outcome.ok_bind, conv_value _ _ k hk (by rw [hlm, hv]), hlm, hv]

/-- the first SRS vector -/
theorem srsVectors_zero (g : List G) (n : Nat) (hn : 0 < n) (hg : n < g.length) :
    (srsVectors g n).getD 0 [] = resize ((List.range ((g.length - 1) / n)).map (fun t => g.getD (g.length - 1 - n - t * n) 0))
      (nextPow2 ((g.length - 1) / n)) 0 := by
  unfold srsVectors takeEveryNth
  obtain ⟨m, rfl⟩ : ∃ m, n = m + 1 := ⟨n - 1, by omega⟩
  simp only
  rw [List.range_succ_eq_map, List.map_cons, List.map_cons]
  simp only [List.drop_zero, List.getD_cons_zero]
  have hd := Nat.div_add_mod (g.length - 1) (m + 1)
  have hm := Nat.mod_lt (g.length - 1) hn
  have hs : stepByList (g.reverse.drop (m + 1)) (m + 1) =
      (List.range ((g.length - 1) / (m + 1))).map (fun t => g.getD (g.length - 1 - (m + 1) - t * (m + 1)) 0) := by
    rw [stepByList_eq 0 _ (m + 1) ((g.length - 1) / (m + 1)) hn (by rw [List.length_drop, List.length_reverse]; omega)
      (by rw [List.length_drop, List.length_reverse]; omega)]
    apply List.map_congr_left
    intro t ht
    have ht := List.mem_range.1 ht
    have hlt : t * (m + 1) + (m + 1) < g.length := by
      have : (t + 1) * (m + 1) ≤ (g.length - 1) / (m + 1) * (m + 1) := Nat.mul_le_mul_right _ ht
      rw [mul_comm _ (m + 1), mul_comm _ (m + 1)] at this
      have h2 : (m + 1) * (t + 1) = t * (m + 1) + (m + 1) := by ring
      omega
    simp only [List.getD, List.getElem?_drop]
    rw [List.getElem?_reverse (by omega)]
    congr 2
    omega
  rw [hs, List.length_map, List.length_range]

/-- the coefficients of `X^(2^q - 1)` -/
def oneAt (q s : Nat) : List Fr := (List.range (2 ^ (q + s))).map (fun i => if i = 2 ^ q - 1 then 1 else 0)

theorem oneAt_getD (q s i : Nat) : (oneAt q s).getD i 0 = if i = 2 ^ q - 1 then 1 else 0 := by
  by_cases h : i < 2 ^ (q + s)
  · exact (rep_map_range _ _).getD 0 h
  · rw [List.getD_eq_default _ _ (by simp [oneAt]; omega), if_neg]
    have : 2 ^ q ≤ 2 ^ (q + s) := Nat.pow_le_pow_right (by norm_num) (by omega)
    have := Nat.two_pow_pos q
    omega

theorem oneAt_circulant (q s i u : Nat) (hs : 1 ≤ s) (hi : i < 2 ^ q) :
    (circulantFromToeplitz ((hMats (oneAt q s) q s).getD i ⟨[], []⟩)).getD u 0 = if i = 0 ∧ u = 2 ^ s + 1 then 1 else 0 := by
  have hq := Nat.two_pow_pos q
  have h2s : 2 ≤ 2 ^ s := by
    calc 2 = 2 ^ 1 := rfl
      _ ≤ 2 ^ s := Nat.pow_le_pow_right (by norm_num) hs
  have hqs : 2 ^ (q + s) = 2 ^ q * 2 ^ s := pow_add 2 q s
  have h2q : 2 ^ q * 2 ≤ 2 ^ q * 2 ^ s := Nat.mul_le_mul_left _ h2s
  unfold hMats
  rw [(rep_map_range (2 ^ q) _).getD _ hi]
  unfold circulantFromToeplitz
  simp only [oneAt_getD]
  have hcol : (List.range (2 ^ s)).map (fun t => if t = 0 then if 2 ^ (q + s) - 1 - i = 2 ^ q - 1 then (1 : Fr) else 0 else 0) =
      List.replicate (2 ^ s) 0 := by
    rw [List.map_congr_left (g := fun _ => (0 : Fr))]
    · simp
    · intro t _
      rw [if_neg (show ¬ 2 ^ (q + s) - 1 - i = 2 ^ q - 1 by omega)]
      simp
  have hrow : ∀ t < 2 ^ s, (2 ^ (q + s) - 1 - (i + t * 2 ^ q) = 2 ^ q - 1) ↔ (i = 0 ∧ t = 2 ^ s - 1) := by
    intro t ht
    obtain ⟨m, hm⟩ : ∃ m, 2 ^ s = m + 1 := ⟨2 ^ s - 1, by omega⟩
    rw [hqs, hm, mul_add, mul_one, mul_comm t, Nat.add_sub_cancel]
    constructor
    · intro h
      have ht' : t ≤ m := by omega
      obtain ⟨d, rfl⟩ := Nat.exists_eq_add_of_le ht'
      rw [mul_add] at h
      have : 2 ^ q * d = i := by omega
      have hd : d = 0 := by
        by_contra h0
        have : 2 ^ q * 1 ≤ 2 ^ q * d := Nat.mul_le_mul_left _ (by omega)
        omega
      subst hd
      simp at this
      omega
    · rintro ⟨rfl, rfl⟩
      omega
  rw [hcol]
  simp only [List.getD]
  by_cases hu : u < 2 ^ s
  · rw [List.getElem?_append_left (by simpa using hu), if_neg (by omega)]
    simp [hu]
  rw [List.getElem?_append_right (by simpa using hu)]
  simp only [List.length_replicate]
  by_cases hu2 : u < 2 ^ s + 2 ^ s
  · rw [List.getElem?_reverse (by simp; omega)]
    simp only [List.length_append, List.length_drop, List.length_take, List.length_map, List.length_range]
    by_cases hu0 : u = 2 ^ s
    · rw [if_neg (by omega), List.getElem?_append_right (by simp; omega)]
      simp only [List.length_drop, List.length_map, List.length_range]
      rw [List.getElem?_take_of_lt (by omega), List.getElem?_map, List.getElem?_range (by omega)]
      simp only [Option.map_some, Option.getD_some]
      rw [if_neg]
      rw [hrow _ (by omega)]
      omega
    · rw [List.getElem?_append_left (by simp; omega), List.getElem?_drop, List.getElem?_map, List.getElem?_range (by omega)]
      simp only [Option.map_some, Option.getD_some]
      refine if_congr ((hrow _ (by omega)).trans ?_) rfl rfl
      constructor
      · rintro ⟨h1, h2⟩; exact ⟨h1, by omega⟩
      · rintro ⟨h1, h2⟩; exact ⟨h1, by omega⟩
  · rw [List.getElem?_eq_none (by simp; omega), if_neg (by omega)]
    rfl

/-- the shift commitments computed for `X^(2^q - 1)` -/
theorem oneAt_hPoly (g : List G) (b q s e k : Nat) (hs : 1 ≤ s) (hk : k + 1 ≤ 32) (hsk : s ≤ k) :
    (computeHPolyCommitments (proverAny g b q e k : FK20Prover K G).batchToeplitz (oneAt q s) (2 ^ q) : Outcome ε (List G)) =
      .ok ((List.range (2 ^ k)).map (fun a => ((srsVectors g (2 ^ q)).getD 0 []).getD ((a + 2 ^ (k + 1) - (2 ^ s + 1)) % 2 ^ (k + 1)) 0)) := by
  rw [computeHPoly_any g (oneAt q s) b q s e k hk (by simp [oneAt])]
  congr 1
  apply List.map_congr_left
  intro a ha
  have ha := List.mem_range.1 ha
  have hN : 2 ^ (k + 1) = 2 * 2 ^ k := by rw [pow_succ]; ring
  have hle : 2 ^ s ≤ 2 ^ k := Nat.pow_le_pow_right (by norm_num) hsk
  have h2s : 2 ≤ 2 ^ s := by
    calc 2 = 2 ^ 1 := rfl
      _ ≤ 2 ^ s := Nat.pow_le_pow_right (by norm_num) hs
  rw [Finset.sum_eq_single 0]
  · rw [Finset.sum_eq_single ((a + 2 ^ (k + 1) - (2 ^ s + 1)) % 2 ^ (k + 1))]
    · rw [oneAt_circulant q s 0 _ hs (Nat.two_pow_pos q), if_pos, one_smul]
      refine ⟨rfl, ?_⟩
      by_cases h : 2 ^ s + 1 ≤ a
      · have e1 : (a + 2 ^ (k + 1) - (2 ^ s + 1)) % 2 ^ (k + 1) = a - (2 ^ s + 1) := by
          have : a + 2 ^ (k + 1) - (2 ^ s + 1) = (a - (2 ^ s + 1)) + 2 ^ (k + 1) := by omega
          rw [this, Nat.add_mod_right, Nat.mod_eq_of_lt (by omega)]
        rw [e1]
        have : a + 2 ^ (k + 1) - (a - (2 ^ s + 1)) = 2 ^ s + 1 + 2 ^ (k + 1) := by omega
        rw [this, Nat.add_mod_right, Nat.mod_eq_of_lt (by omega)]
      · have e1 : (a + 2 ^ (k + 1) - (2 ^ s + 1)) % 2 ^ (k + 1) = a + 2 ^ (k + 1) - (2 ^ s + 1) := Nat.mod_eq_of_lt (by omega)
        rw [e1]
        have : a + 2 ^ (k + 1) - (a + 2 ^ (k + 1) - (2 ^ s + 1)) = 2 ^ s + 1 := by omega
        rw [this, Nat.mod_eq_of_lt (by omega)]
    · intro t ht hne
      have ht := Finset.mem_range.1 ht
      rw [oneAt_circulant q s 0 _ hs (Nat.two_pow_pos q), if_neg, zero_smul]
      rintro ⟨-, h⟩
      apply hne
      by_cases hta : t ≤ a
      · have e1 : (a + 2 ^ (k + 1) - t) % 2 ^ (k + 1) = a - t := by
          have : a + 2 ^ (k + 1) - t = (a - t) + 2 ^ (k + 1) := by omega
          rw [this, Nat.add_mod_right, Nat.mod_eq_of_lt (by omega)]
        rw [e1] at h
        have : a + 2 ^ (k + 1) - (2 ^ s + 1) = t + 2 ^ (k + 1) := by omega
        rw [this, Nat.add_mod_right, Nat.mod_eq_of_lt ht]
      · rw [Nat.mod_eq_of_lt (by omega)] at h
        have : a + 2 ^ (k + 1) - (2 ^ s + 1) = t := by omega
        rw [this, Nat.mod_eq_of_lt ht]
    · intro h
      exact absurd (Finset.mem_range.2 (Nat.mod_lt _ (Nat.two_pow_pos _))) h
  · intro i hi hne
    have hi := Finset.mem_range.1 hi
    apply Finset.sum_eq_zero
    intro t _
    rw [oneAt_circulant q s i _ hs hi, if_neg (fun h => hne h.1), zero_smul]
  · intro h
    exact absurd (Finset.mem_range.2 (Nat.two_pow_pos q)) h

/-- Some shift commitment computed for `X^(2^q - 1)` with a longer key is not zero. -/
theorem oneAt_nonzero (g : List G) (hnz : ∀ i < g.length, g.getD i 0 ≠ 0) (q s k : Nat) (hs : 1 ≤ s)
    (hL : 2 ^ (q + s) < g.length) (hl : ∀ v ∈ srsVectors g (2 ^ q), v.length = 2 ^ k) :
    s ≤ k ∧ ∃ a, a < 2 ^ k ∧ a ≤ 2 ^ s + 1 ∧ ((srsVectors g (2 ^ q)).getD 0 []).getD ((a + 2 ^ (k + 1) - (2 ^ s + 1)) % 2 ^ (k + 1)) 0 ≠ 0 := by
  have hq := Nat.two_pow_pos q
  have h2s : 2 ≤ 2 ^ s := by
    calc 2 = 2 ^ 1 := rfl
      _ ≤ 2 ^ s := Nat.pow_le_pow_right (by norm_num) hs
  have hqs : 2 ^ (q + s) = 2 ^ q * 2 ^ s := pow_add 2 q s
  have h2q : 2 ^ q * 2 ≤ 2 ^ q * 2 ^ s := Nat.mul_le_mul_left _ h2s
  have hv := srsVectors_zero g (2 ^ q) hq (by omega)
  have hm0 : 2 ^ s ≤ (g.length - 1) / 2 ^ q := (Nat.le_div_iff_mul_le hq).2 (by rw [mul_comm]; omega)
  have hlen : nextPow2 ((g.length - 1) / 2 ^ q) = 2 ^ k := by
    have := hl ((srsVectors g (2 ^ q)).getD 0 []) (by
      rw [List.getD_eq_getElem _ _ (by rw [length_srsVectors]; exact hq)]
      exact List.getElem_mem _)
    rw [hv, length_resize] at this
    exact this
  have hmk : (g.length - 1) / 2 ^ q ≤ 2 ^ k := by
    rw [← hlen]
    unfold nextPow2
    exact Nat.le_pow_clog (by norm_num) _
  have hsk : s ≤ k := (Nat.pow_le_pow_iff_right (by norm_num)).1 (le_trans hm0 hmk)
  refine ⟨hsk, ?_⟩
  have hle : 2 ^ s ≤ 2 ^ k := Nat.pow_le_pow_right (by norm_num) hsk
  have hN : 2 ^ (k + 1) = 2 * 2 ^ k := by rw [pow_succ]; ring
  have hentry : ∀ t < (g.length - 1) / 2 ^ q, ((srsVectors g (2 ^ q)).getD 0 []).getD t 0 ≠ 0 := by
    intro t ht
    rw [hv, (rep_resize _ _ _).getD 0 (by rw [hlen]; omega), (rep_map_range _ _).getD 0 ht]
    apply hnz
    omega
  by_cases h : k = s
  · subst h
    refine ⟨0, by omega, by omega, ?_⟩
    have : (0 + 2 ^ (k + 1) - (2 ^ k + 1)) % 2 ^ (k + 1) = 2 ^ k - 1 := by
      rw [Nat.mod_eq_of_lt (by omega)]; omega
    rw [this]
    exact hentry _ (by omega)
  · have hlt : 2 ^ s * 2 ≤ 2 ^ k := by rw [← pow_succ]; exact Nat.pow_le_pow_right (by norm_num) (by omega)
    refine ⟨2 ^ s + 1, by omega, le_rfl, ?_⟩
    have : (2 ^ s + 1 + 2 ^ (k + 1) - (2 ^ s + 1)) % 2 ^ (k + 1) = 0 := by
      rw [Nat.add_sub_cancel_left, Nat.mod_self]
    rw [this]
    exact hentry _ (by omega)

theorem oneAt_polyOf (q s : Nat) : Spec.polyOf (oneAt q s) = X ^ (2 ^ q - 1) := by
  ext i
  rw [Spec.coeff_polyOf, oneAt_getD, coeff_X_pow]

/-- The quotient of a polynomial of degree below `2^q` is zero. -/
theorem openingProof_small (g : List G) (e q : Nat) (hq : q ≤ e) (he : e ≤ 32) (f : Fr[X]) (hf : f.degree < (2 ^ q : Nat)) (k : Nat) :
    Spec.openingProof g e q f k = 0 := by
  unfold Spec.openingProof
  have hm : (Spec.vanishing e q k).Monic := by
    rw [vanishing_eq e q k hq he]
    exact monic_X_pow_sub_C _ (Nat.two_pow_pos q).ne'
  have hd : (Spec.vanishing e q k).degree = (2 ^ q : Nat) := by
    rw [vanishing_eq e q k hq he]
    exact degree_X_pow_sub_C (Nat.two_pow_pos q) _
  rw [(divByMonic_eq_zero_iff hm).2 (by rw [hd]; exact hf)]
  simp [Spec.commitment]

theorem long_key_wrong (g : List G) (hnz : ∀ i < g.length, g.getD i 0 ≠ 0) (q s e : Nat) (hs : 1 ≤ s) (hse : q + s < e) (he : e < 32)
    (hL : 2 ^ (q + s) < g.length) (p : FK20Prover K G)
    (hp : (FK20Prover.new g (2 ^ (q + s)) (2 ^ q) (2 ^ e) .no : Outcome ε (FK20Prover K G)) = .ok p) :
    ∃ proofs, (p.computeMultiOpeningProofsPolyCoeff (oneAt q s) : Outcome ε _) =
      .ok (proofs, (List.range (2 ^ (e - q))).map (fun k => (List.range (2 ^ q)).map (fun j =>
        (Spec.polyOf (oneAt q s)).eval (Spec.point e (2 ^ q * k + j))))) ∧ proofs.length = 2 ^ (e - q) ∧ ∃ P ∈ proofs, P ≠ 0 := by
  obtain ⟨k, hk, -, -, -, -, -, hl, rfl⟩ := prover_new_any g (q + s) q e p hp
  obtain ⟨hsk, a, ha, ha', hne⟩ := oneAt_nonzero g hnz q s k hs hL hl
  have h1 := oneAt_hPoly (ε := ε) (K := K) g (q + s) q s e k hs hk hsk
  have h2 := computeCosetEvaluations_eq (ε := ε) g (oneAt q s) q s e hse.le he (by simp [oneAt]) (fun _ => .noPrecomp [] : Nat → FixedBaseMSM K G)
  have h2' : ((proverAny g (q + s) q e k : FK20Prover K G).computeCosetEvaluations (oneAt q s) : Outcome ε _) =
      (proverOf g q s e (fun _ => .noPrecomp []) : FK20Prover K G).computeCosetEvaluations (oneAt q s) := rfl
  rw [← h2'] at h2
  unfold FK20Prover.computeMultiOpeningProofsPolyCoeff
  have e1 : (proverAny g (q + s) q e k : FK20Prover K G).cosetSize = 2 ^ q := rfl
  have e2 : (proverAny g (q + s) q e k : FK20Prover K G).proofDomain = domainOf (e - q) := rfl
  rw [e1, e2, h1, Outcome.ok_bind, fftG1_spec (e - q) (by omega), Outcome.ok_bind,
    reverseBitOrder_eq (e - q) (by omega) (rep_map_range _ _), Outcome.ok_bind, h2, Outcome.ok_bind, Outcome.pure_eq]
  refine ⟨_, rfl, by simp, ?_⟩
  by_contra hall
  push Not at hall
  apply hne
  have hn : a < 2 ^ (e - q) := by
    have h3 : 2 ^ (s + 1) ≤ 2 ^ (e - q) := Nat.pow_le_pow_right (by norm_num) (by omega)
    have h2s : 2 ≤ 2 ^ s := by
      calc 2 = 2 ^ 1 := rfl
        _ ≤ 2 ^ s := Nat.pow_le_pow_right (by norm_num) hs
    rw [pow_succ] at h3
    omega
  have hz : ∀ j < 2 ^ (e - q), Spec.dft (Spec.omega (e - q)) (2 ^ (e - q)) (fun i => ((List.range (2 ^ k)).map (fun a =>
      ((srsVectors g (2 ^ q)).getD 0 []).getD ((a + 2 ^ (k + 1) - (2 ^ s + 1)) % 2 ^ (k + 1)) 0)).getD i 0) j = 0 := by
    intro j hj
    have := hall _ (List.mem_map.2 ⟨Spec.brev (e - q) j, List.mem_range.2 (Spec.brev_lt _ _), rfl⟩)
    rwa [Spec.brev_brev _ _ hj] at this
  have := idft_dft (omega_primitive (e - q) (by omega)) (two_pow_ne_zero (e - q)) (fun i => ((List.range (2 ^ k)).map (fun a =>
      ((srsVectors g (2 ^ q)).getD 0 []).getD ((a + 2 ^ (k + 1) - (2 ^ s + 1)) % 2 ^ (k + 1)) 0)).getD i 0) hn
  rw [dft_congr _ _ hz] at this
  rw [(rep_map_range (2 ^ k) _).getD 0 ha] at this
  rw [← this]
  simp [Spec.dft]

/-! ### bound twice the coset size -/

theorem nextPow2_one : nextPow2 1 = 1 := by simp [nextPow2]

theorem srsVectors_two (g : List G) (q : Nat) (hg : g.length = 2 ^ (q + 1)) :
    srsVectors g (2 ^ q) = (List.range (2 ^ q)).map (fun j => [g.getD (2 ^ q - 1 - j) 0]) := by
  have hq := Nat.two_pow_pos q
  have hmul : 2 ^ (q + 1) = 2 ^ q * 2 := pow_succ _ _
  have hlen : (g.reverse.drop (2 ^ q)).length = 2 ^ q * 1 := by
    rw [List.length_drop, List.length_reverse, hg, hmul]; omega
  unfold srsVectors
  simp only
  rw [takeEveryNth_eq 0 _ (2 ^ q) 1 hq hlen, List.map_map]
  apply List.map_congr_left
  intro j hj
  have hj : j < 2 ^ q := List.mem_range.1 hj
  simp only [Function.comp_apply, List.length_map, List.length_range, nextPow2_one]
  rw [(rep_resize _ _ _).eq_map]
  have hr : (g.reverse.drop (2 ^ q)).getD j 0 = g.getD (2 ^ q - 1 - j) 0 := by
    simp only [List.getD, List.getElem?_drop]
    rw [List.getElem?_reverse (by omega)]
    congr 2
    omega
  rw [← hr]
  simp

theorem two_exact (g : List G) (f : List Fr) (q e : Nat) (hse : q + 1 ≤ e) (he : e < 32)
    (hg : g.length = 2 ^ (q + 1)) (hf : f.length = 2 ^ (q + 1)) (p : FK20Prover K G)
    (hp : (FK20Prover.new g (2 ^ (q + 1)) (2 ^ q) (2 ^ e) .no : Outcome ε (FK20Prover K G)) = .ok p) :
    (p.computeMultiOpeningProofsPolyCoeff f : Outcome ε _) =
      .ok ((List.range (2 ^ (e - q))).map (Spec.openingProof g e q (Spec.polyOf f)),
        (List.range (2 ^ (e - q))).map (fun k => (List.range (2 ^ q)).map (fun j =>
          (Spec.polyOf f).eval (Spec.point e (2 ^ q * k + j))))) := by
  obtain ⟨k, hk, -, -, -, -, -, hl, rfl⟩ := prover_new_any g (q + 1) q e p hp
  have hq := Nat.two_pow_pos q
  have hmul : 2 ^ (q + 1) = 2 ^ q * 2 := pow_succ _ _
  have hv := srsVectors_two g q hg
  have hk0 : k = 0 := by
    have := hl [g.getD (2 ^ q - 1 - 0) 0] (by rw [hv]; exact List.mem_map.2 ⟨0, List.mem_range.2 hq, rfl⟩)
    simp only [List.length_singleton] at this
    by_contra h0
    have h2 : 2 ^ 1 ≤ 2 ^ k := Nat.pow_le_pow_right (by norm_num) (by omega)
    omega
  subst hk0
  have h1 : (computeHPolyCommitments (proverAny g (q + 1) q e 0 : FK20Prover K G).batchToeplitz f (2 ^ q) : Outcome ε (List G)) =
      .ok [shiftCommit g f q 0] := by
    rw [computeHPoly_any g f (q + 1) q 1 e 0 (by norm_num) hf]
    congr 1
    simp only [pow_zero, List.range_one, List.map_cons, List.map_nil, List.cons.injEq, and_true]
    unfold shiftCommit
    rw [hg, hmul, mul_two, sum_range_add]
    have hz : ∑ x ∈ range (2 ^ q), f.getD (2 ^ q + x + 2 ^ q * (0 + 1)) 0 • g.getD (2 ^ q + x) 0 = 0 := by
      apply sum_eq_zero
      intro x _
      rw [List.getD_eq_default _ _ (by omega), zero_smul]
    rw [hz, add_zero]
    refine Eq.trans ?_ (Finset.sum_range_reflect (fun x => f.getD (x + 2 ^ q * (0 + 1)) 0 • g.getD x 0) (2 ^ q))
    apply sum_congr rfl
    intro i hi
    have hi := Finset.mem_range.1 hi
    rw [hv, (rep_map_range (2 ^ q) _).getD _ hi]
    unfold hMats
    rw [(rep_map_range (2 ^ q) _).getD _ hi]
    rw [show (2 : Nat) ^ (0 + 1) = 2 by norm_num, Finset.sum_range_succ, Finset.sum_range_one]
    simp only [circulantFromToeplitz]
    have e1 : [g.getD (2 ^ q - 1 - i) 0].getD 1 0 = 0 := rfl
    have e0 : [g.getD (2 ^ q - 1 - i) 0].getD 0 0 = g.getD (2 ^ q - 1 - i) 0 := rfl
    rw [e1, smul_zero, add_zero, e0]
    congr 1
    simp only [List.getD]
    rw [show (0 + 2 - 0) % 2 = 0 by norm_num, List.getElem?_append_left (by simp), List.getElem?_map, List.getElem?_range (by norm_num)]
    simp only [Option.map_some, Option.getD_some, if_true]
    rw [hmul]
    congr 2
    omega
  have h2 := computeCosetEvaluations_eq (ε := ε) g f q 1 e hse he hf (fun _ => .noPrecomp [] : Nat → FixedBaseMSM K G)
  have h2' : ((proverAny g (q + 1) q e 0 : FK20Prover K G).computeCosetEvaluations f : Outcome ε _) =
      (proverOf g q 1 e (fun _ => .noPrecomp []) : FK20Prover K G).computeCosetEvaluations f := rfl
  rw [← h2'] at h2
  unfold FK20Prover.computeMultiOpeningProofsPolyCoeff
  have e1 : (proverAny g (q + 1) q e 0 : FK20Prover K G).cosetSize = 2 ^ q := rfl
  have e2 : (proverAny g (q + 1) q e 0 : FK20Prover K G).proofDomain = domainOf (e - q) := rfl
  rw [e1, e2, h1, Outcome.ok_bind, fftG1_spec (e - q) (by omega), Outcome.ok_bind,
    reverseBitOrder_eq (e - q) (by omega) (rep_map_range _ _), Outcome.ok_bind, h2, Outcome.ok_bind, Outcome.pure_eq]
  congr 2
  apply List.map_congr_left
  intro k _
  rw [← openingProof_eq g f q 1 e k hf hse he.le]
  apply dft_congr
  intro i _
  have hs1 : shiftCommit g f q 1 = 0 := by
    unfold shiftCommit
    apply sum_eq_zero
    intro x _
    rw [List.getD_eq_default _ _ (by omega), zero_smul]
  simp only [show (2 : Nat) ^ 1 = 2 by norm_num, List.range_succ, List.range_zero, List.nil_append, List.map_append, List.map_cons,
    List.map_nil, hs1]
  match i with
  | 0 => rfl
  | 1 => rfl
  | i + 2 => rfl

end
end Verif
