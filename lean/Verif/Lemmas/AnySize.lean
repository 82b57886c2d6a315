import Verif.Spec.AnySize
import Verif.Lemmas.VerifyRun
import Verif.Lemmas.NaiveVerify

set_option linter.unusedSectionVars false

/-! `FK20Verifier::new` and `verify_multi_opening` for any power-of-two sizes. -/
namespace Verif
open Polynomial Finset

variable {ε : Type}

theorem any_bytes (n v : Nat) : natToBE n v = Spec.bytesBE n v := by
  induction n generalizing v with
  | zero => simp [natToBE, natToLE, Spec.bytesBE]
  | succ n ih =>
    rw [natToBE_succ, ih]
    unfold Spec.bytesBE
    rw [List.range_succ, List.map_append]
    congr 1
    · apply List.map_congr_left
      intro i hi
      have hi := List.mem_range.1 hi
      rw [Nat.div_div_eq_div_mul, show n + 1 - 1 - i = (n - 1 - i) + 1 by omega, pow_succ, mul_comm 256]
    · simp

theorem any_start_ne (e k i : Nat) (he : e ≤ 32) : Spec.cosetStart e k i ≠ 0 := pow_ne_zero _ (omega_ne_zero e he)

/-- `I` interpolates `ev` on coset `i` -/
def InterpAt (e k s i : Nat) (ev : List Fr) (I : Fr[X]) : Prop :=
  I.degree < (2 ^ s : Nat) ∧ ∀ j < 2 ^ s, I.eval (Spec.cosetPoint e k s i j) = ev.getD j 0

theorem any_exists (e k s i : Nat) (he : e ≤ 32) (hs : s ≤ 32) (ev : List Fr) : ∃ I, InterpAt e k s i ev I := by
  obtain ⟨I, h1, h2⟩ := exists_interp s hs _ (any_start_ne e k i he) (fun j => ev.getD (Spec.brev s j) 0)
  refine ⟨I, h1, ?_⟩
  intro j hj
  have := h2 (Spec.brev s j) (Spec.brev_lt s j)
  rw [Spec.brev_brev s j hj] at this
  exact this

theorem any_unique {e k s i : Nat} (he : e ≤ 32) (hs : s ≤ 32) {ev : List Fr} {I J : Fr[X]} (hI : InterpAt e k s i ev I)
    (hJ : InterpAt e k s i ev J) : I = J := by
  refine poly_eq_of_coset (omega_primitive s hs) (any_start_ne e k i he) hI.1 hJ.1 ?_
  intro j hj
  have h1 := hI.2 _ (Spec.brev_lt s j)
  have h2 := hJ.2 _ (Spec.brev_lt s j)
  unfold Spec.cosetPoint at h1 h2
  rw [Spec.brev_brev s j hj] at h1 h2
  rw [h1, h2]

/-- the coset transforms -/
def cosetFftGensAt (e k : Nat) : List CosetFFT :=
  (List.range (2 ^ k)).map (fun i => ⟨Spec.cosetStart e k i, (Spec.cosetStart e k i)⁻¹⟩)

theorem any_step (e k s : Nat) (he : e ≤ 32) (hs : s < 32) (acc ev : List Fr) (i : Nat) (x : Fr) (hi : i < 2 ^ k)
    (hev : ev.length = 2 ^ s) (hacc : acc.length ≤ 2 ^ s) (I : Fr[X]) (hI : InterpAt e k s i ev I) :
    ∃ acc', (sumInterpolationStep (domainOf s) (cosetFftGensAt e k) acc ((ev, i), x) : Outcome ε (List Fr)) = .ok acc' ∧
      acc'.length = 2 ^ s ∧ Spec.polyOf acc' = Spec.polyOf acc + C x * I := by
  unfold sumInterpolationStep
  have hR := rep_getD ev 0
  rw [hev] at hR
  simp only
  rw [reverseBitOrder_eq s hs hR, Outcome.ok_bind]
  unfold cosetFftGensAt
  rw [(rep_map_range (2 ^ k) _).idx hi, Outcome.ok_bind]
  rw [cosetIfftScalars_eq s hs.le _ ⟨Spec.cosetStart e k i, (Spec.cosetStart e k i)⁻¹⟩ (any_start_ne e k i he) rfl I
    hI.1 (by
      intro j hj
      rw [(rep_map_range (2 ^ s) _).getD 0 hj, ← hI.2 _ (Spec.brev_lt s j)]
      unfold Spec.cosetPoint
      rw [Spec.brev_brev s j hj])]
  rw [Outcome.ok_bind]
  obtain ⟨c, hc, hl, hp⟩ := polyAdd_spec (ε := ε) acc ((Spec.coeffs (2 ^ s) I).map (fun c => c * x))
  refine ⟨c, hc, ?_, ?_⟩
  · rw [hl, List.length_map]
    have : (Spec.coeffs (2 ^ s) I).length = 2 ^ s := by simp [Spec.coeffs]
    omega
  · rw [hp, scaled_poly s I x hI.1]

theorem any_sum (e k s : Nat) (he : e ≤ 32) (hs : s < 32) (evals : List (List Fr)) (inds : List Nat) (rp : List Fr)
    (hk : ∀ i ∈ inds, i < 2 ^ k) (hev : ∀ v ∈ evals, v.length = 2 ^ s) (J : Nat → List Fr → Fr[X])
    (hJ : ∀ i v, InterpAt e k s i v (J i v)) :
    ∃ c, (computeSumInterpolationPoly (domainOf s) (cosetFftGensAt e k) evals inds rp : Outcome ε (List Fr)) = .ok c ∧
      c.length = (if (evals.zip inds).zip rp = [] then 0 else 2 ^ s) ∧
      Spec.polyOf c = (((evals.zip inds).zip rp).map (fun q => C q.2 * J q.1.2 q.1.1)).sum := by
  unfold computeSumInterpolationPoly
  have key : ∀ (l : List ((List Fr × Nat) × Fr)) (acc : List Fr),
      (∀ q ∈ l, q.1.1.length = 2 ^ s ∧ q.1.2 < 2 ^ k) → acc.length ≤ 2 ^ s →
      ∃ c, (l.foldlM (sumInterpolationStep (domainOf s) (cosetFftGensAt e k)) acc : Outcome ε (List Fr)) = .ok c ∧
        c.length = (if l = [] then acc.length else 2 ^ s) ∧
        Spec.polyOf c = Spec.polyOf acc + (l.map (fun q => C q.2 * J q.1.2 q.1.1)).sum := by
    intro l
    induction l with
    | nil => intro acc _ hacc; exact ⟨acc, rfl, by simp, by simp⟩
    | cons q l ih =>
      intro acc hq hacc
      obtain ⟨h1, h2⟩ := hq q (by simp)
      obtain ⟨⟨ev, i⟩, x⟩ := q
      obtain ⟨a, ha, hal, hap⟩ := any_step (ε := ε) e k s he hs acc ev i x h2 h1 hacc (J i ev) (hJ i ev)
      obtain ⟨c, hc, hcl, hcp⟩ := ih a (fun q hq' => hq q (by simp [hq'])) (by omega)
      refine ⟨c, ?_, ?_, ?_⟩
      · rw [List.foldlM_cons, ha]; exact hc
      · rw [hcl, hal]; simp
      · rw [hcp, hap, List.map_cons, List.sum_cons, add_assoc]
  obtain ⟨c, h1, h2, h3⟩ := key ((evals.zip inds).zip rp) [] (by
    rintro ⟨⟨v, i⟩, x⟩ hq
    have h1 := (List.of_mem_zip (List.of_mem_zip hq).1)
    exact ⟨hev v h1.1, hk i h1.2⟩) (by simp)
  exact ⟨c, h1, by simpa using h2, by rw [h3]; simp [Spec.polyOf]⟩

section
variable {G1 G2 : Type} [AddCommGroup G1] [Module Fr G1] [DecidableEq G1] [PointCodec G1] [AddCommGroup G2] [Module Fr G2]

/-- the verifier that `FK20Verifier::new` builds -/
def verifierAt (vk : VerificationKey G1 G2) (e k s : Nat) : FK20Verifier G1 G2 where
  verificationKey := vk
  cosetGensBitReversed := (List.range (2 ^ k)).map (fun i => Spec.cosetStart e k i)
  cosetDomain := domainOf s
  tauPowN := vk.g2s.getD (2 ^ s) 0
  negG2Gen := -vk.g2Gen
  bitReversedCosetGensPowN := (List.range (2 ^ k)).map (fun i => Spec.cosetStart e k i ^ 2 ^ s)
  bitReversedCosetFftGens := cosetFftGensAt e k

theorem any_new (vk : VerificationKey G1 G2) (e k s : Nat) (he : e ≤ 32) (hk : k < 32) (hs : s ≤ 32) (hvs : vk.cosetSize = 2 ^ s)
    (h2 : 2 ^ s < vk.g2s.length) :
    (FK20Verifier.new vk (2 ^ e) (2 ^ k) : Outcome ε (FK20Verifier G1 G2)) =
      if 2 ^ e / 2 ^ k ≤ vk.g2s.length then .ok (verifierAt vk e k s) else .panic := by
  unfold FK20Verifier.new
  rw [cosetGens_spec e k he hk, Outcome.ok_bind, assertP_true (Nat.two_pow_pos k).ne', Outcome.ok_bind]
  simp only
  split_ifs with h
  · rw [assertP_true h, Outcome.ok_bind, hvs, domain_new_two_pow s hs, Outcome.ok_bind,
      (rep_getD vk.g2s 0).idx h2, Outcome.ok_bind, List.mapM_map,
      mapM_ok (g := fun i => (⟨Spec.cosetStart e k i, (Spec.cosetStart e k i)⁻¹⟩ : CosetFFT))]
    · simp only [Outcome.ok_bind, Outcome.pure_eq, List.map_map]
      rfl
    · intro i _
      have : Spec.omega e ^ Spec.brev k i ≠ 0 := any_start_ne e k i he
      simp [CosetFFT.new, invertExpect, this, Spec.cosetStart]
  · rw [assertP_false h]; rfl

theorem any_commit (vk : VerificationKey G1 G2) (c : List Fr) :
    (vk.commitG1 c : Outcome ε G1) =
      if c.length ≤ vk.g1s.length then .ok (Spec.commitment vk.g1s (Spec.polyOf c)) else .panic := by
  unfold VerificationKey.commitG1
  split_ifs with h
  · rw [assertP_true h, Outcome.ok_bind, slice_zero h, Outcome.ok_bind, lincomb_eq]
    show Outcome.ok _ = _
    rw [commitment_take vk.g1s c.length _ (Spec.degree_polyOf_lt c) h, lcSum_eq _ _ c.length (by simp; omega) rfl]
    congr 1
    apply sum_congr rfl
    intro i hi
    have hi := mem_range.1 hi
    rw [Spec.coeff_polyOf]
    congr 1
    simp [List.getD_eq_getElem?_getD, hi]
  · rw [assertP_false h]; rfl

variable {GT : Type} [AddCommGroup GT] [DecidableEq GT] [Pairing G1 G2 GT]

/-- The combined check, for a given challenge. -/
theorem any_verify [LawfulPointCodec G1 48] (sha256 : List UInt8 → List UInt8) (vk : VerificationKey G1 G2) (e k s : Nat)
    (he : e ≤ 32) (hs : s < 32) (hvs : vk.cosetSize = 2 ^ s) (dedup : List G1) (rows inds : List Nat)
    (evals : List (List Fr)) (proofs : List G1) (n : Nat) (hr : rows.length = n) (hi : inds.length = n)
    (hel : evals.length = n) (hp : proofs.length = n) (hrows : ∀ i ∈ rows, i < dedup.length) (hinds : ∀ i ∈ inds, i < 2 ^ k)
    (hev : ∀ v ∈ evals, v.length = 2 ^ s) (I : Nat → Fr[X])
    (hI : ∀ i < n, InterpAt e k s (inds.getD i 0) (evals.getD i []) (I i))
    (r : Fr) (hrr : r = reduceBytesToScalarBias (sha256 (transcriptOf vk dedup rows inds evals proofs))) :
    (verifierAt vk e k s).verifyMultiOpening sha256 dedup rows inds evals proofs =
      if n = 0 ∨ 2 ^ s ≤ vk.g1s.length then
        if pair (∑ i ∈ range n, r ^ i • proofs.getD i 0) (vk.g2s.getD (2 ^ s) 0) +
            pair ((∑ i ∈ range n, r ^ i • dedup.getD (rows.getD i 0) 0 -
                ∑ i ∈ range n, r ^ i • Spec.commitment vk.g1s (I i)) +
              ∑ i ∈ range n, (r ^ i * Spec.cosetStart e k (inds.getD i 0) ^ 2 ^ s) • proofs.getD i 0) (-vk.g2Gen) =
            (0 : GT)
        then .ok () else .err .InvalidProof
      else .panic := by
  unfold FK20Verifier.verifyMultiOpening
  rw [assertP_true (by omega), assertP_true (by omega), assertP_true (by omega)]
  simp only [Outcome.ok_bind]
  unfold computeFiatShamirChallenge
  have hvk : (verifierAt vk e k s).verificationKey = vk := rfl
  rw [hvk, fiatShamirHashInput_eq _ dedup rows inds evals proofs n hr hi hel hp (by rw [hvs]; exact hev)]
  simp only [Outcome.ok_bind, Outcome.pure_eq]
  rw [← hrr, computePowers_eq, hi, lincomb_eq]
  simp only [expect, Outcome.ok_bind]
  have hgens : (verifierAt vk e k s).bitReversedCosetGensPowN =
      (List.range (2 ^ k)).map (fun i => Spec.cosetStart e k i ^ 2 ^ s) := rfl
  have hdom : (verifierAt vk e k s).cosetDomain = domainOf s := rfl
  have hfft : (verifierAt vk e k s).bitReversedCosetFftGens = cosetFftGensAt e k := rfl
  have htau : (verifierAt vk e k s).tauPowN = vk.g2s.getD (2 ^ s) 0 := rfl
  have hneg : (verifierAt vk e k s).negG2Gen = -vk.g2Gen := rfl
  rw [hgens, hdom, hfft, htau, hneg, weightedRPowers_eq _ _ _ (by simpa using hinds), Outcome.ok_bind, lincomb_eq]
  simp only [Outcome.ok_bind]
  obtain ⟨w, hw, hwl, hws⟩ := commitmentWeights_eq (ε := FK20VerifierError) dedup rows ((List.range n).map (fun i => r ^ i)) hrows
  rw [hw, Outcome.ok_bind, lincomb_eq]
  simp only [Outcome.ok_bind]
  have hJ : ∃ J : Nat → List Fr → Fr[X], ∀ i v, InterpAt e k s i v (J i v) := by
    choose J hJ using fun i v => any_exists e k s i he hs.le v
    exact ⟨J, hJ⟩
  obtain ⟨J, hJ⟩ := hJ
  obtain ⟨c, hc, hcl, hcp⟩ := any_sum (ε := FK20VerifierError) e k s he hs evals inds
    ((List.range n).map (fun i => r ^ i)) hinds hev J hJ
  have hnil : (evals.zip inds).zip ((List.range n).map (fun i => r ^ i)) = [] ↔ n = 0 := by
    rw [← List.length_eq_zero_iff]; simp [hel, hi]
  have hcn : c.length ≤ vk.g1s.length ↔ (n = 0 ∨ 2 ^ s ≤ vk.g1s.length) := by
    rw [hcl]
    by_cases hn : n = 0
    · rw [if_pos (hnil.2 hn)]; simp [hn]
    · rw [if_neg (fun h => hn (hnil.1 h))]; simp [hn]
  rw [hc, Outcome.ok_bind, any_commit]
  by_cases hlen : n = 0 ∨ 2 ^ s ≤ vk.g1s.length
  swap
  · rw [if_neg hlen, if_neg (fun h => hlen (hcn.1 h))]; rfl
  rw [if_pos hlen, if_pos (hcn.2 hlen), Outcome.ok_bind, hcp, commitment_list_sum, List.map_map, hws]
  have e1 : lcSum proofs ((List.range n).map (fun i => r ^ i)) = ∑ i ∈ range n, r ^ i • proofs.getD i 0 := by
    rw [← hp]; exact lcSum_powers proofs r
  have e2 : ((rows.zip ((List.range n).map (fun i => r ^ i))).map (fun q => q.2 • dedup.getD q.1 0)).sum =
      ∑ i ∈ range n, r ^ i • dedup.getD (rows.getD i 0) 0 := by
    rw [← hr]; exact sum_zip_powers rows 0 r (fun k x => x • dedup.getD k 0)
  have e3 : lcSum proofs ((inds.zip ((List.range n).map (fun i => r ^ i))).map (fun q => q.2 *
      ((List.range (2 ^ k)).map (fun i => Spec.cosetStart e k i ^ 2 ^ s)).getD q.1 0)) =
      ∑ i ∈ range n, (r ^ i * Spec.cosetStart e k (inds.getD i 0) ^ 2 ^ s) • proofs.getD i 0 := by
    rw [lcSum_eq _ _ n hp (by simp [hi])]
    apply sum_congr rfl
    intro i hin
    have hin := mem_range.1 hin
    congr 1
    have hk : inds.getD i 0 < 2 ^ k := by
      rw [List.getD_eq_getElem _ _ (by omega)]; exact hinds _ (List.getElem_mem _)
    have : (inds.zip ((List.range n).map (fun i => r ^ i)))[i]? = some (inds.getD i 0, r ^ i) := by
      rw [List.getElem?_zip_eq_some]
      exact ⟨by simp [List.getD, show i < inds.length by omega], by simp [hin]⟩
    rw [List.getD_eq_getElem?_getD, List.getElem?_map, this]
    simp only [Option.map_some, Option.getD_some]
    rw [(rep_map_range (2 ^ k) _).getD 0 hk]
  have e4 : (((evals.zip inds).zip ((List.range n).map (fun i => r ^ i))).map
      ((Spec.commitment vk.g1s) ∘ fun q => C q.2 * J q.1.2 q.1.1)).sum =
        ∑ i ∈ range n, r ^ i • Spec.commitment vk.g1s (I i) := by
    have hz : (evals.zip inds).length = n := by simp [hel, hi]
    have := sum_zip_powers (evals.zip inds) ([], 0) r (fun q x => Spec.commitment vk.g1s (C x * J q.2 q.1))
    rw [hz] at this
    rw [show ((Spec.commitment vk.g1s) ∘ fun (q : (List Fr × Nat) × Fr) => C q.2 * J q.1.2 q.1.1) =
      fun q => Spec.commitment vk.g1s (C q.2 * J q.1.2 q.1.1) from rfl, this]
    apply sum_congr rfl
    intro i hin
    have hin := mem_range.1 hin
    rw [commitment_C_mul]
    congr 2
    have hzi : (evals.zip inds).getD i ([], 0) = (evals.getD i [], inds.getD i 0) := by
      rw [List.getD_eq_getElem _ _ (by omega), List.getElem_zip, List.getD_eq_getElem _ _ (by omega),
        List.getD_eq_getElem _ _ (by omega)]
    rw [hzi]
    exact any_unique he hs.le (hJ _ _) (hI i hin)
  rw [e1, e2, e3, e4]
  unfold multiPairings2
  simp only [decide_eq_true_eq]

end

end Verif
