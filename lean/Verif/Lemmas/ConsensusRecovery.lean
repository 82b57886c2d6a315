import Verif.Lemmas.ConsensusProver
import Verif.Lemmas.ReedSolomon

/-! The recovery functions of the consensus specification: what they compute, as polynomials. -/
namespace Verif.Consensus
open Polynomial Finset

/-- Writing cells over a list of `8192` values: the cells seen so far hold the values of `v`, the rest is untouched. -/
theorem rbo_fold (v : Nat → Fr) (ps : List (Nat × List Fr)) (hps : ∀ p ∈ ps, p.1 < 128 ∧
    p.2 = (List.range 64).map (fun j => v (64 * p.1 + j))) (e : List Fr) (u : Nat → Fr)
    (he : Rep e 8192 u) :
    Rep (ps.foldl (fun e p => e.take (p.1 * 64) ++ p.2 ++ e.drop ((p.1 + 1) * 64)) e) 8192
      (fun i => if i / 64 ∈ ps.map Prod.fst then v i else u i) := by
  induction ps generalizing e u with
  | nil => simpa using he
  | cons p ps ih =>
    obtain ⟨hk, h2⟩ := hps p (by simp)
    have hl2 : p.2.length = 64 := by rw [h2]; simp
    have hlen : e.length = 8192 := he.1
    have h3 := ih (fun q hq => hps q (by simp [hq])) (e.take (p.1 * 64) ++ p.2 ++ e.drop ((p.1 + 1) * 64))
      (fun i => if i / 64 = p.1 then v i else u i) ⟨by
        simp only [List.length_append, List.length_take, List.length_drop, hl2, hlen]; omega, by
        intro i hi
        show _ = some (if i / 64 = p.1 then v i else u i)
        have hl1 : (e.take (p.1 * 64)).length = p.1 * 64 := by rw [List.length_take]; omega
        by_cases h1 : i < p.1 * 64
        · rw [List.append_assoc, List.getElem?_append_left (by omega), List.getElem?_take, if_pos h1, he.2 i hi,
            if_neg (by omega)]
        · rw [List.append_assoc, List.getElem?_append_right (by omega), hl1]
          by_cases h4 : i < (p.1 + 1) * 64
          · rw [List.getElem?_append_left (by omega), h2, List.getElem?_map, List.getElem?_range (by omega), Option.map_some,
              if_pos (by omega), show 64 * p.1 + (i - p.1 * 64) = i by omega]
          · rw [List.getElem?_append_right (by omega), List.getElem?_drop, hl2,
              show (p.1 + 1) * 64 + (i - p.1 * 64 - 64) = i by omega, he.2 i hi, if_neg (by omega)]⟩
    rw [List.foldl_cons]
    refine h3.congr ?_
    intro i _
    have hmc : (i / 64 ∈ (p :: ps).map Prod.fst) ↔ (i / 64 = p.1 ∨ i / 64 ∈ ps.map Prod.fst) := by
      rw [List.map_cons, List.mem_cons]
    by_cases h5 : i / 64 ∈ ps.map Prod.fst
    · rw [if_pos h5, if_pos (hmc.2 (Or.inr h5))]
    · rw [if_neg h5]
      by_cases h6 : i / 64 = p.1
      · rw [if_pos h6, if_pos (hmc.2 (Or.inl h6))]
      · rw [if_neg h6, if_neg (fun h => (hmc.1 h).elim h6 h5)]

theorem rbo_length (ps : List (Nat × List Fr)) (hps : ∀ p ∈ ps, p.1 < 128 ∧ p.2.length = 64) (e : List Fr)
    (he : e.length = 8192) :
    (ps.foldl (fun e p => e.take (p.1 * 64) ++ p.2 ++ e.drop ((p.1 + 1) * 64)) e).length = 8192 := by
  induction ps generalizing e with
  | nil => exact he
  | cons p ps ih =>
    obtain ⟨hk, h2⟩ := hps p (by simp)
    rw [List.foldl_cons]
    apply ih (fun q hq => hps q (by simp [hq]))
    simp only [List.length_append, List.length_take, List.length_drop, h2, he]; omega

/-- The vanishing polynomial of the missing cells. -/
theorem constructVanishing_eq (missing : List Nat) (hm : missing.length ≤ 64) :
    ∃ z, constructVanishingPolynomial missing = some z ∧ z.length = 8192 ∧
      Spec.polyOf z = erasureZ 7 6 (missing.map (Spec.brev 7)) := by
  unfold constructVanishingPolynomial
  have hmap : missing.map (fun i => (computeRootsOfUnity 128).getD (reverseBits i 128) 0) =
      missing.map (fun i => Spec.omega 7 ^ Spec.brev 7 i) := by
    apply List.map_congr_left
    intro i _
    have e : reverseBits i 128 = Spec.brev 7 i := by
      unfold reverseBits
      rw [show (128 : Nat) = 2 ^ 7 from rfl, Nat.log2_two_pow]
    rw [e, show (128 : Nat) = 2 ^ 7 from rfl, roots_eq, (rep_map_range _ _).getD 0 (Spec.brev_lt 7 i)]
  obtain ⟨s, hs, hsp, hsl⟩ := vanishing_spec' (missing.map (fun i => Spec.omega 7 ^ Spec.brev 7 i)) (by simp; omega)
  rw [List.length_map] at hsl
  simp only
  rw [hmap, bind_of hs]
  obtain ⟨n, hn⟩ : ∃ n : Nat, n = 8192 := ⟨_, rfl⟩
  rw [← hn]
  have key := foldl_range_inv (fun i (z : List Fr) => z.length = n ∧ (∀ k, i ≤ k → z.getD (k * 64) 0 = 0) ∧
      Spec.polyOf z = ∑ m ∈ range i, C (s.getD m 0) * (X ^ 64) ^ m)
    (fun z i => z.set (i * 64) (s.getD i 0)) (List.replicate n 0) s.length (by
      refine ⟨by simp, ?_, by simp⟩
      intro k _
      simp [List.getD, List.getElem?_replicate]
      split_ifs <;> rfl) (by
      rintro i hi z ⟨z1, z2, z3⟩
      have hlt : i * 64 < z.length := by rw [z1, hn]; omega
      refine ⟨by rw [List.length_set, z1], ?_, ?_⟩
      · intro k hk
        rw [List.getD, List.getElem?_set_ne (by omega)]
        exact z2 k (by omega)
      · have h0 : z[i * 64] = 0 := by
          have := z2 i le_rfl
          rwa [List.getD_eq_getElem _ _ hlt] at this
        have h1 := polyOf_set z (i * 64) hlt (s.getD i 0)
        rw [h0, zero_add] at h1
        rw [h1, z3, sum_range_succ, ← pow_mul, mul_comm 64 i])
  refine ⟨_, rfl, key.1, ?_⟩
  rw [key.2.2]
  have h1 : (Spec.polyOf s).comp (X ^ 64) = ∑ m ∈ range s.length, C (s.getD m 0) * (X ^ 64) ^ m := by
    have : Spec.polyOf s = ∑ m ∈ range s.length, C (s.getD m 0) * X ^ m := by
      ext i
      rw [Spec.coeff_polyOf, finsetSum_coeff]
      simp only [coeff_C_mul, coeff_X_pow]
      by_cases hi : i < s.length
      · rw [Finset.sum_eq_single i]
        · simp
        · intro b _ hb; rw [if_neg (fun h => hb h.symm), mul_zero]
        · intro h; exact absurd (mem_range.2 hi) h
      · rw [getD_of_le (by omega), Finset.sum_eq_zero]
        intro b hb
        rw [if_neg (by intro h; rw [mem_range] at hb; omega), mul_zero]
    conv_lhs => rw [this]
    simp
  rw [← h1, hsp]
  unfold erasureZ
  rw [List.map_map, List.map_map]
  clear hs hsp hsl hmap key h1 hm hn
  induction missing with
  | nil => simp
  | cons a l ih =>
    rw [List.map_cons, List.map_cons, List.prod_cons, List.prod_cons, mul_comp, ih]
    simp

/-- Recovery always yields 4096 coefficients; if the cells come from one polynomial of degree below 4096, its
coefficients. -/
theorem recoverPolynomialcoeff_eq (inds : List Nat) (evs : List (List Fr)) (hl : inds.length = evs.length)
    (hr : ∀ i ∈ inds, i < 128) (hnd : inds.Nodup) (h64 : 64 ≤ inds.length) (hev : ∀ e ∈ evs, e.length = 64) :
    ∃ c, recoverPolynomialcoeff inds evs = some c ∧ c.length = 4096 ∧
      ∀ f : Fr[X], f.degree < 4096 → (∀ p ∈ inds.zip evs, p.2 = (List.range 64).map (fun j => f.eval (Spec.point 13 (64 * p.1 + j)))) →
        c = Spec.coeffs 4096 f := by
  obtain ⟨missing, hmis⟩ : ∃ m, m = (List.range 128).filter (fun k => ¬ inds.contains k) := ⟨_, rfl⟩
  have hmem : ∀ k, k ∈ missing ↔ k < 128 ∧ k ∉ inds := by
    intro k; rw [hmis, List.mem_filter, List.mem_range]; simp
  have hmlen : missing.length ≤ 64 := by
    have h1 : (missing ++ inds).Nodup := by
      rw [List.nodup_append]
      refine ⟨by rw [hmis]; exact List.nodup_range.filter _, hnd, ?_⟩
      intro a ha b hb hab
      subst hab
      exact ((hmem a).1 ha).2 hb
    have h2 : (missing ++ inds) ⊆ List.range 128 := by
      intro a ha
      rw [List.mem_range]
      rcases List.mem_append.1 ha with h | h
      · exact ((hmem a).1 h).1
      · exact hr a h
    have h3 := (List.subperm_of_subset h1 h2).length_le
    rw [List.length_append, List.length_range] at h3
    omega
  obtain ⟨z, hz, hzl, hzp⟩ := constructVanishing_eq missing hmlen
  have hps : ∀ p ∈ inds.zip evs, p.1 < 128 ∧ p.2.length = 64 := by
    intro p hp
    exact ⟨hr _ (List.of_mem_zip hp).1, hev _ (List.of_mem_zip hp).2⟩
  obtain ⟨N, hN⟩ : ∃ N : Nat, N = 2 ^ 13 := ⟨_, rfl⟩
  have hN' : (8192 : Nat) = N := hN.symm
  obtain ⟨rbo, hrbo⟩ : ∃ e, e = (inds.zip evs).foldl (fun e p => e.take (p.1 * 64) ++ p.2 ++ e.drop ((p.1 + 1) * 64))
    (List.replicate 8192 (0 : Fr)) := ⟨_, rfl⟩
  have hrl : rbo.length = 8192 := by rw [hrbo]; exact rbo_length _ hps _ (List.length_replicate ..)
  unfold recoverPolynomialcoeff
  simp only
  rw [← hmis, ← hrbo, bind_of hz]
  obtain ⟨Z, hZ⟩ : ∃ Z, Z = erasureZ 7 6 (missing.map (Spec.brev 7)) := ⟨_, rfl⟩
  rw [← hZ] at hzp
  rw [brp_eq 13 rbo hrl]
  have e1 : fftField z (computeRootsOfUnity 8192) = (List.range (2 ^ 13)).map (fun j => Z.eval (Spec.omega 13 ^ j)) := by
    rw [← hzp]; exact fftField_eq 13 (by norm_num) z hzl
  have e2 : cosetFftField z (computeRootsOfUnity 8192) = (List.range (2 ^ 13)).map (fun j => Z.eval (7 * Spec.omega 13 ^ j)) := by
    rw [← hzp]; exact cosetFftField_eq 13 (by norm_num) z hzl
  rw [e1, e2]
  have hzip : ∀ (n : Nat) (a b : Nat → Fr) (op : Fr × Fr → Fr),
      (((List.range n).map a).zip ((List.range n).map b)).map op = (List.range n).map (fun j => op (a j, b j)) := by
    intro n a b op
    rw [List.zip_map', List.map_map]; rfl
  rw [hzip]
  obtain ⟨ez, hez, hezd, hezv⟩ : ∃ ez : Fr[X], ez.degree < (2 ^ 13 : Nat) ∧ (∀ j < 2 ^ 13, ez.eval (Spec.omega 13 ^ j) =
        Z.eval (Spec.omega 13 ^ j) * rbo.getD (Spec.brev 13 j) 0) ∧ True := by
    obtain ⟨f, h1, h2⟩ := exists_interp 13 (by norm_num) 1 one_ne_zero
      (fun j => Z.eval (Spec.omega 13 ^ j) * rbo.getD (Spec.brev 13 j) 0)
    exact ⟨f, h1, fun j hj => by have := h2 j hj; rwa [one_mul] at this, trivial⟩
  have e3 : ifftField ((List.range (2 ^ 13)).map (fun j =>
      Z.eval (Spec.omega 13 ^ j) * rbo.getD (Spec.brev 13 j) 0)) (computeRootsOfUnity 8192) = Spec.coeffs (2 ^ 13) ez := by
    refine ifftField_eq 13 (by norm_num) _ (by rw [List.length_map, List.length_range]) ez hez ?_
    intro j hj
    rw [(rep_map_range _ _).getD 0 hj, hezd j hj]
  rw [e3]
  have e4 : cosetFftField (Spec.coeffs (2 ^ 13) ez) (computeRootsOfUnity 8192) =
      (List.range (2 ^ 13)).map (fun j => ez.eval (7 * Spec.omega 13 ^ j)) := by
    have := cosetFftField_eq 13 (by norm_num) (Spec.coeffs (2 ^ 13) ez) (by
      unfold Spec.coeffs; rw [List.length_map, List.length_range])
    rw [Spec.polyOf_coeffs hez] at this
    exact this
  rw [e4, hzip]
  obtain ⟨g, hg, hgv⟩ := exists_interp 13 (by norm_num) 7 seven_ne_zero
      (fun j => ez.eval (7 * Spec.omega 13 ^ j) / Z.eval (7 * Spec.omega 13 ^ j))
  have e5 : cosetIfftField ((List.range (2 ^ 13)).map (fun j =>
      ez.eval (7 * Spec.omega 13 ^ j) / Z.eval (7 * Spec.omega 13 ^ j))) (computeRootsOfUnity 8192) =
      Spec.coeffs (2 ^ 13) g := by
    refine cosetIfftField_eq 13 (by norm_num) _ (by rw [List.length_map, List.length_range]) g hg ?_
    intro j hj
    rw [(rep_map_range _ _).getD 0 hj, hgv j hj]
  rw [e5]
  have e6 : (Spec.coeffs (2 ^ 13) g).take 4096 = Spec.coeffs 4096 g := by
    unfold Spec.coeffs
    rw [← List.map_take, List.take_range]
    rfl
  rw [e6]
  refine ⟨_, rfl, by unfold Spec.coeffs; rw [List.length_map, List.length_range], ?_⟩
  intro f hf hcon
  have hrep : Rep rbo 8192 (fun i => if i / 64 ∈ (inds.zip evs).map Prod.fst then f.eval (Spec.point 13 i) else 0) := by
    rw [hrbo]
    refine rbo_fold (fun i => f.eval (Spec.point 13 i)) (inds.zip evs) (fun p hp => ⟨(hps p hp).1, hcon p hp⟩) _ (fun _ => 0) ?_
    exact ⟨List.length_replicate .., fun i hi => by rw [List.getElem?_replicate, if_pos hi]⟩
  rw [List.map_fst_zip (by omega)] at hrep
  have hZd : Z.natDegree ≤ 4096 := by
    rw [hZ, erasureZ_natDegree, List.length_map]
    have : missing.length * 2 ^ 6 ≤ 64 * 2 ^ 6 := Nat.mul_le_mul_right _ hmlen
    omega
  have hZ0 : ∀ j < 2 ^ 13, Spec.brev 13 j / 64 ∉ inds → Z.eval (Spec.omega 13 ^ j) = 0 := by
    intro j hj hn
    have h1 := erasureZ_zero_iff 7 6 (by norm_num) (missing.map (Spec.brev 7)) (by
      intro i hi
      obtain ⟨k, -, rfl⟩ := List.mem_map.1 hi
      exact Spec.brev_lt 7 k) j
    rw [hZ, h1, List.mem_map]
    have hb := Spec.brev_lt 13 j
    refine ⟨Spec.brev 13 j / 64, (hmem _).2 ⟨by omega, hn⟩, ?_⟩
    have h2 := Spec.brev_add 7 6 j
    have h3 : Spec.brev 13 j / 64 = Spec.brev 7 (j % 2 ^ 7) := by
      rw [show (13 : Nat) = 7 + 6 from rfl, h2, show (64 : Nat) = 2 ^ 6 from rfl]
      have := Spec.brev_lt 6 (j / 2 ^ 7)
      rw [Nat.add_mul_div_left _ _ (by norm_num), Nat.div_eq_of_lt this, zero_add]
    rw [h3, Spec.brev_brev 7 _ (Nat.mod_lt _ (by norm_num))]
  have hfz : ez = f * Z := by
    apply poly_eq_of_coset (omega_primitive 13 (by norm_num)) one_ne_zero hez
    · refine lt_of_le_of_lt (degree_mul_le _ _) ?_
      by_cases hf0 : f = 0
      · rw [hf0, degree_zero, WithBot.bot_add]; exact WithBot.bot_lt_coe _
      · have hfn : f.natDegree < 4096 := (natDegree_lt_iff_degree_lt hf0).2 hf
        have hZne : Z ≠ 0 := by rw [hZ]; exact (erasureZ_monic _ _ _).ne_zero
        rw [degree_eq_natDegree hf0, degree_eq_natDegree hZne]
        have : f.natDegree + Z.natDegree < 2 ^ 13 := by norm_num; omega
        exact_mod_cast this
    · intro j hj
      rw [one_mul, hezd j hj, eval_mul, mul_comm]
      have hb : Spec.brev 13 j < 8192 := Spec.brev_lt 13 j
      rw [hrep.getD 0 hb]
      split_ifs with h1
      · rw [Spec.point, Spec.brev_brev 13 j hj]
      · rw [hZ0 j hj h1, mul_zero, mul_zero]
  have hgf : g = f := by
    apply poly_eq_of_coset (omega_primitive 13 (by norm_num)) seven_ne_zero hg
    · exact lt_trans hf (by norm_num)
    · intro j hj
      rw [hgv j hj, hfz, eval_mul, mul_div_assoc, div_self, mul_one]
      rw [hZ]
      exact erasureZ_coset_ne_zero 7 6 (by norm_num) _ j
  rw [hgf]

end Verif.Consensus
