import Verif.Lemmas.Context
import Verif.Lemmas.PolyCoeff

set_option linter.unusedSectionVars false

/-! `verify_multi_opening` as one equation. -/
namespace Verif
open Polynomial Finset

variable {ε : Type}

theorem computePowers_eq (r : Fr) (n : Nat) : computePowers r n = (List.range n).map (fun i => r ^ i) := by
  unfold computePowers
  suffices h : (List.range n).foldl (fun (st : List Fr × Fr) _ => (st.1 ++ [st.2], st.2 * r)) ([], 1) =
      ((List.range n).map (fun i => r ^ i), r ^ n) by rw [h]
  induction n with
  | zero => simp
  | succ n ih => rw [List.range_succ, List.foldl_append, ih]; simp [pow_succ]

/-- sums over `zip` with powers -/
theorem sum_zip_powers {α G : Type} [AddCommGroup G] (l : List α) (z : α) (r : Fr) (F : α → Fr → G) :
    ((l.zip ((List.range l.length).map (fun i => r ^ i))).map (fun q => F q.1 q.2)).sum =
      ∑ i ∈ range l.length, F (l.getD i z) (r ^ i) := by
  rw [sum_zip_eq (fun q : α × Fr => F q.1 q.2) l _ z 0 l.length rfl (by simp)]
  apply sum_congr rfl
  intro i hi
  rw [(rep_map_range l.length _).getD 0 (mem_range.1 hi)]

section
variable {G1 : Type} [AddCommGroup G1] [Module Fr G1] [DecidableEq G1]

theorem lcSum_powers (l : List G1) (r : Fr) :
    lcSum l ((List.range l.length).map (fun i => r ^ i)) = ∑ i ∈ range l.length, r ^ i • l.getD i 0 :=
  sum_zip_powers l 0 r (fun p x => x • p)

theorem weightedRPowers_eq (gens : List Fr) (inds : List Nat) (rp : List Fr) (h : ∀ i ∈ inds, i < gens.length) :
    (weightedRPowers gens inds rp : Outcome ε (List Fr)) =
      .ok ((inds.zip rp).map (fun q => q.2 * gens.getD q.1 0)) := by
  unfold weightedRPowers
  apply mapM_ok
  intro q hq
  have := h q.1 (List.of_mem_zip hq).1
  rw [(rep_getD gens 0).idx this]
  rfl

theorem lcSum_set (pts : List G1) (w : List Fr) (i : Nat) (x : Fr) (hi : i < w.length) (hl : w.length = pts.length) :
    lcSum pts (w.set i (w.getD i 0 + x)) = lcSum pts w + x • pts.getD i 0 := by
  rw [lcSum_eq _ _ pts.length rfl (by simp [hl]), lcSum_eq _ _ pts.length rfl hl]
  have hR := rep_getD w 0
  have hR' := hR.set (i := i) (w.getD i 0 + x)
  rw [hl] at hR hR'
  have : ∀ j ∈ range pts.length, (w.set i (w.getD i 0 + x)).getD j 0 • pts.getD j 0 =
      w.getD j 0 • pts.getD j 0 + (if j = i then x • pts.getD i 0 else 0) := by
    intro j hj
    rw [hR'.getD 0 (mem_range.1 hj)]
    by_cases h : j = i
    · subst h; simp [add_smul]
    · simp [h]
  rw [sum_congr rfl this, sum_add_distrib, sum_ite_eq' (range pts.length) i, if_pos (mem_range.2 (by omega))]

theorem commitmentWeights_eq (pts : List G1) (rows : List Nat) (rp : List Fr) (h : ∀ i ∈ rows, i < pts.length) :
    ∃ w, (commitmentWeights pts.length rows rp : Outcome ε (List Fr)) = .ok w ∧ w.length = pts.length ∧
      lcSum pts w = ((rows.zip rp).map (fun q => q.2 • pts.getD q.1 0)).sum := by
  unfold commitmentWeights
  have key : ∀ (l : List (Nat × Fr)) (w : List Fr), (∀ q ∈ l, q.1 < pts.length) → w.length = pts.length →
      ∃ w', (l.foldlM (fun weights (q : Nat × Fr) => do
          let w ← idx weights q.1
          setIdx weights q.1 (w + q.2)) w : Outcome ε (List Fr)) = .ok w' ∧ w'.length = pts.length ∧
        lcSum pts w' = lcSum pts w + (l.map (fun q => q.2 • pts.getD q.1 0)).sum := by
    intro l
    induction l with
    | nil => intro w _ hw; exact ⟨w, rfl, hw, by simp⟩
    | cons q l ih =>
      intro w hq hw
      have hq0 := hq q (by simp)
      have hR := rep_getD w 0
      obtain ⟨w', h1, h2, h3⟩ := ih (w.set q.1 (w.getD q.1 0 + q.2)) (fun q hq' => hq q (by simp [hq'])) (by simp [hw])
      refine ⟨w', ?_, h2, ?_⟩
      · rw [List.foldlM_cons, hR.idx (by omega)]
        simp only [Outcome.ok_bind]
        rw [hR.setIdx (by omega)]
        exact h1
      · rw [h3, lcSum_set pts w q.1 q.2 (by omega) hw, List.map_cons, List.sum_cons, add_assoc]
  obtain ⟨w, h1, h2, h3⟩ := key (rows.zip rp) (List.replicate pts.length 0)
    (fun q hq => h q.1 (List.of_mem_zip hq).1) (by simp)
  refine ⟨w, h1, h2, ?_⟩
  rw [h3]
  have : lcSum pts (List.replicate pts.length 0) = 0 := by
    rw [lcSum_eq _ _ pts.length rfl (by simp)]
    apply sum_eq_zero
    intro j hj
    simp [List.getD, mem_range.1 hj]
  rw [this, zero_add]

end

/-- `I` is the interpolation polynomial of the values `ev` on coset `k` -/
def Interp (k : Nat) (ev : List Fr) (I : Fr[X]) : Prop :=
  I.degree < 64 ∧ ∀ j < 64, I.eval (Spec.point 13 (64 * k + j)) = ev.getD j 0

/-- coset generator number `k` -/
theorem point_start (k : Nat) : Spec.point 13 (64 * k) = Spec.omega 13 ^ Spec.brev 7 k := by
  have h := point_split 13 6 k 0 (by norm_num) (by norm_num) (by norm_num)
  have h0 : Spec.brev 6 0 = 0 := by decide
  rw [add_zero, h0, pow_zero, one_mul, show (2 : Nat) ^ 6 = 64 from rfl, show 13 - 6 = 7 from rfl] at h
  exact h

theorem point_coset (k j : Nat) (hj : j < 64) :
    Spec.point 13 (64 * k + Spec.brev 6 j) = Spec.omega 13 ^ Spec.brev 7 k * Spec.omega 6 ^ j := by
  have h := point_split 13 6 k (Spec.brev 6 j) (by norm_num) (by norm_num) (Spec.brev_lt 6 j)
  rw [Spec.brev_brev 6 j hj, mul_comm (Spec.omega 6 ^ j), show (2 : Nat) ^ 6 = 64 from rfl,
    show 13 - 6 = 7 from rfl] at h
  exact h

/-- the coset transforms of the verifier -/
def cosetFftGens : List CosetFFT :=
  (List.range 128).map (fun i => ⟨Spec.omega 13 ^ Spec.brev 7 i, (Spec.omega 13 ^ Spec.brev 7 i)⁻¹⟩)

theorem scaled_poly (n : Nat) (I : Fr[X]) (x : Fr) (hI : I.degree < (2 ^ n : Nat)) :
    Spec.polyOf ((Spec.coeffs (2 ^ n) I).map (fun c => c * x)) = C x * I := by
  ext i
  rw [Spec.coeff_polyOf, coeff_C_mul]
  have hc := Spec.coeff_polyOf (Spec.coeffs (2 ^ n) I) i
  rw [Spec.polyOf_coeffs hI] at hc
  rw [hc, mul_comm]
  simp only [List.getD, List.getElem?_map]
  cases (Spec.coeffs (2 ^ n) I)[i]? <;> simp

theorem sumInterpolationStep_eq (acc : List Fr) (ev : List Fr) (k : Nat) (x : Fr) (hk : k < 128) (hev : ev.length = 64)
    (hacc : acc.length ≤ 64) (I : Fr[X]) (hI : Interp k ev I) :
    ∃ acc', (sumInterpolationStep (domainOf 6) cosetFftGens acc ((ev, k), x) : Outcome ε (List Fr)) = .ok acc' ∧
      acc'.length = 64 ∧ Spec.polyOf acc' = Spec.polyOf acc + C x * I := by
  unfold sumInterpolationStep
  have hR := rep_getD ev 0
  rw [hev] at hR
  have h0 : Spec.omega 13 ^ Spec.brev 7 k ≠ 0 := pow_ne_zero _ (omega_ne_zero 13 (by norm_num))
  simp only
  rw [reverseBitOrder_eq 6 (by norm_num) hR, Outcome.ok_bind]
  unfold cosetFftGens
  rw [(rep_map_range 128 _).idx hk, Outcome.ok_bind]
  rw [cosetIfftScalars_eq 6 (by norm_num) _ ⟨Spec.omega 13 ^ Spec.brev 7 k, (Spec.omega 13 ^ Spec.brev 7 k)⁻¹⟩ h0 rfl I
    (by exact_mod_cast hI.1) (by
      intro j hj
      have hj : j < 64 := hj
      rw [(rep_map_range (2 ^ 6) _).getD 0 hj]
      rw [← hI.2 _ (Spec.brev_lt 6 j), point_coset k j hj])]
  rw [Outcome.ok_bind]
  obtain ⟨c, hc, hl, hp⟩ := polyAdd_spec (ε := ε) acc ((Spec.coeffs (2 ^ 6) I).map (fun c => c * x))
  refine ⟨c, hc, ?_, ?_⟩
  · rw [hl, List.length_map]
    have : (Spec.coeffs (2 ^ 6) I).length = 64 := by simp [Spec.coeffs]
    omega
  · rw [hp, scaled_poly 6 I x hI.1]

theorem computeSumInterpolationPoly_eq (evals : List (List Fr)) (inds : List Nat) (rp : List Fr)
    (hk : ∀ k ∈ inds, k < 128) (hev : ∀ e ∈ evals, e.length = 64) (J : Nat → List Fr → Fr[X])
    (hJ : ∀ k < 128, ∀ e, e.length = 64 → Interp k e (J k e)) :
    ∃ c, (computeSumInterpolationPoly (domainOf 6) cosetFftGens evals inds rp : Outcome ε (List Fr)) = .ok c ∧
      c.length ≤ 64 ∧
      Spec.polyOf c = (((evals.zip inds).zip rp).map (fun q => C q.2 * J q.1.2 q.1.1)).sum := by
  unfold computeSumInterpolationPoly
  have key : ∀ (l : List ((List Fr × Nat) × Fr)) (acc : List Fr),
      (∀ q ∈ l, q.1.1.length = 64 ∧ q.1.2 < 128) → acc.length ≤ 64 →
      ∃ c, (l.foldlM (sumInterpolationStep (domainOf 6) cosetFftGens) acc : Outcome ε (List Fr)) = .ok c ∧
        c.length ≤ 64 ∧ Spec.polyOf c = Spec.polyOf acc + (l.map (fun q => C q.2 * J q.1.2 q.1.1)).sum := by
    intro l
    induction l with
    | nil => intro acc _ hacc; exact ⟨acc, rfl, hacc, by simp⟩
    | cons q l ih =>
      intro acc hq hacc
      obtain ⟨h1, h2⟩ := hq q (by simp)
      obtain ⟨⟨ev, k⟩, x⟩ := q
      obtain ⟨a, ha, hal, hap⟩ := sumInterpolationStep_eq (ε := ε) acc ev k x h2 h1 hacc (J k ev) (hJ k h2 ev h1)
      obtain ⟨c, hc, hcl, hcp⟩ := ih a (fun q hq' => hq q (by simp [hq'])) (by omega)
      refine ⟨c, ?_, hcl, ?_⟩
      · rw [List.foldlM_cons, ha]; exact hc
      · rw [hcp, hap, List.map_cons, List.sum_cons, add_assoc]
  obtain ⟨c, h1, h2, h3⟩ := key ((evals.zip inds).zip rp) [] (by
    rintro ⟨⟨e, k⟩, x⟩ hq
    have h1 := (List.of_mem_zip (List.of_mem_zip hq).1)
    exact ⟨hev e h1.1, hk k h1.2⟩) (by simp)
  exact ⟨c, h1, h2, by rw [h3]; simp [Spec.polyOf]⟩

theorem exists_Interp (k : Nat) (ev : List Fr) : ∃ I, Interp k ev I := by
  have h0 : Spec.omega 13 ^ Spec.brev 7 k ≠ 0 := pow_ne_zero _ (omega_ne_zero 13 (by norm_num))
  obtain ⟨I, h1, h2⟩ := exists_interp 6 (by norm_num) _ h0 (fun j => ev.getD (Spec.brev 6 j) 0)
  refine ⟨I, by exact_mod_cast h1, ?_⟩
  intro j hj
  have hb : Spec.brev 6 j < 64 := Spec.brev_lt 6 j
  have := h2 (Spec.brev 6 j) hb
  rw [← point_coset k _ hb, Spec.brev_brev 6 j hj] at this
  exact this

theorem Interp_unique {k : Nat} {ev : List Fr} {I J : Fr[X]} (hI : Interp k ev I) (hJ : Interp k ev J) : I = J := by
  have h0 : Spec.omega 13 ^ Spec.brev 7 k ≠ 0 := pow_ne_zero _ (omega_ne_zero 13 (by norm_num))
  refine poly_eq_of_coset (omega_primitive 6 (by norm_num)) h0 (by exact_mod_cast hI.1) (by exact_mod_cast hJ.1) ?_
  intro j hj
  rw [← point_coset k j hj, hI.2 _ (Spec.brev_lt 6 j), hJ.2 _ (Spec.brev_lt 6 j)]

/-! ### transcript -/

section
variable {G1 G2 : Type} [AddCommGroup G1] [Module Fr G1] [DecidableEq G1] [PointCodec G1] [AddCommGroup G2] [Module Fr G2]

/-- transcript of opening number `k` -/
def itemBytes (rows inds : List Nat) (evals : List (List Fr)) (proofs : List G1) (k : Nat) : List UInt8 :=
  natToBE 8 (rows.getD k 0) ++ natToBE 8 (inds.getD k 0) ++ ((evals.getD k []).map scalarToBytesBE).flatten ++
    toCompressed (proofs.getD k 0)

/-- the whole transcript -/
def transcriptOf (vk : VerificationKey G1 G2) (dedup : List G1) (rows inds : List Nat) (evals : List (List Fr))
    (proofs : List G1) : List UInt8 :=
  DOMAIN_SEP ++ natToBE 8 vk.numCoefficientsInPolynomial ++ natToBE 8 vk.cosetSize ++ natToBE 8 dedup.length ++
    natToBE 8 inds.length ++ (dedup.map toCompressed).flatten ++
    ((List.range inds.length).map (itemBytes rows inds evals proofs)).flatten

theorem length_flatten_map {α β : Type} (f : α → List β) (l : List α) (w : Nat) (h : ∀ x ∈ l, (f x).length = w) :
    (l.map f).flatten.length = l.length * w := by
  rw [length_flatten_const (w := w) (by
    intro y hy; obtain ⟨x, hx, rfl⟩ := List.mem_map.1 hy; exact h x hx), List.length_map, mul_comm]

theorem length_itemBytes [LawfulPointCodec G1 48] (rows inds : List Nat) (evals : List (List Fr)) (proofs : List G1)
    (n s : Nat) (h3 : evals.length = n) (hev : ∀ e ∈ evals, e.length = s) {k : Nat} (hk : k < n) :
    (itemBytes rows inds evals proofs k).length = 16 + s * 32 + 48 := by
  unfold itemBytes
  have he : evals.getD k [] ∈ evals := by
    rw [List.getD_eq_getElem _ _ (by omega)]; exact List.getElem_mem _
  rw [List.length_append, List.length_append, List.length_append, length_natToBE, length_natToBE,
    LawfulPointCodec.length_toCompressed,
    length_flatten_map scalarToBytesBE _ 32 (fun s _ => length_scalarToBytesBE s), hev _ he]

theorem fiatShamirHashInput_eq [LawfulPointCodec G1 48] (vk : VerificationKey G1 G2) (dedup : List G1) (rows inds : List Nat)
    (evals : List (List Fr)) (proofs : List G1) (n : Nat) (h1 : rows.length = n) (h2 : inds.length = n)
    (h3 : evals.length = n) (h4 : proofs.length = n) (hev : ∀ e ∈ evals, e.length = vk.cosetSize) :
    (fiatShamirHashInput vk dedup rows inds evals proofs : Outcome ε (List UInt8)) =
      .ok (transcriptOf vk dedup rows inds evals proofs) := by
  unfold fiatShamirHashInput
  rw [h2]
  have hm : ((List.range n).mapM (transcriptItem rows inds evals proofs) : Outcome ε (List (List UInt8))) =
      .ok ((List.range n).map (itemBytes rows inds evals proofs)) := by
    apply mapM_ok
    intro k hk
    have hk := List.mem_range.1 hk
    unfold transcriptItem
    rw [(rep_getD rows 0).idx (by omega), (rep_getD inds 0).idx (by omega), (rep_getD evals []).idx (by omega),
      (rep_getD proofs 0).idx (by omega)]
    rfl
  rw [hm]
  simp only [Outcome.ok_bind]
  have ht : transcriptOf vk dedup rows inds evals proofs = DOMAIN_SEP ++ natToBE 8 vk.numCoefficientsInPolynomial ++
    natToBE 8 vk.cosetSize ++ natToBE 8 dedup.length ++
    natToBE 8 n ++ (dedup.map toCompressed).flatten ++
    ((List.range n).map (itemBytes rows inds evals proofs)).flatten := by unfold transcriptOf; rw [h2]
  rw [ht, assertP_true]
  · rfl
  · simp only [List.length_append, length_natToBE]
    rw [length_flatten_map toCompressed dedup 48 (fun p _ => LawfulPointCodec.length_toCompressed p),
      length_flatten_map (itemBytes rows inds evals proofs) (List.range n) (16 + vk.cosetSize * 32 + 48)
        (fun k hk => length_itemBytes rows inds evals proofs n _ h3 hev (List.mem_range.1 hk)), List.length_range, h1, h3, h4]
    ring

/-! ### commitments are linear -/

theorem commitment_add (g : List G1) (f h : Fr[X]) : Spec.commitment g (f + h) = Spec.commitment g f + Spec.commitment g h := by
  unfold Spec.commitment
  simp [add_smul, sum_add_distrib]

theorem commitment_zero (g : List G1) : Spec.commitment g 0 = 0 := by simp [Spec.commitment]

theorem commitment_C_mul (g : List G1) (x : Fr) (f : Fr[X]) : Spec.commitment g (C x * f) = x • Spec.commitment g f := by
  unfold Spec.commitment
  simp [smul_sum, mul_smul]

theorem commitment_list_sum (g : List G1) (l : List Fr[X]) : Spec.commitment g l.sum = (l.map (Spec.commitment g)).sum := by
  induction l with
  | nil => simp [commitment_zero]
  | cons a l ih => simp [commitment_add, ih]

/-- commitment to a polynomial of degree below `n` uses only the first `n` points -/
theorem commitment_take (g : List G1) (n : Nat) (f : Fr[X]) (hf : f.degree < n) (hn : n ≤ g.length) :
    Spec.commitment g f = ∑ i ∈ range n, f.coeff i • g.getD i 0 := by
  unfold Spec.commitment
  obtain ⟨d, hd⟩ := Nat.exists_eq_add_of_le hn
  rw [hd, sum_range_add]
  have : ∑ x ∈ range d, f.coeff (n + x) • g.getD (n + x) 0 = 0 := by
    apply sum_eq_zero
    intro x _
    rw [coeff_eq_zero_of_degree_lt (lt_of_lt_of_le hf (by exact_mod_cast Nat.le_add_right n x)), zero_smul]
  rw [this, add_zero]

theorem vkCommitG1_eq (g1 : List G1) (g2 : List G2) (h2 : 65 ≤ g2.length) (h1 : g2.length ≤ g1.length) (c : List Fr)
    (hc : c.length ≤ 64) :
    ((verifierOf g1 g2).verificationKey.commitG1 c : Outcome ε G1) = .ok (Spec.commitment g1 (Spec.polyOf c)) := by
  unfold VerificationKey.commitG1 verifierOf
  simp only
  have hl : (g1.take g2.length).length = g2.length := by simp [h1]
  rw [assertP_true (by omega), Outcome.ok_bind, slice_zero (by omega), Outcome.ok_bind, lincomb_eq]
  show Outcome.ok _ = _
  rw [commitment_take g1 c.length _ (Spec.degree_polyOf_lt c) (by omega), lcSum_eq _ _ c.length (by simp; omega) rfl]
  have : ∑ i ∈ range c.length, c.getD i 0 • (List.take c.length (List.take g2.length g1)).getD i 0 =
      ∑ i ∈ range c.length, (Spec.polyOf c).coeff i • g1.getD i 0 := by
    apply sum_congr rfl
    intro i hi
    have hi := mem_range.1 hi
    rw [Spec.coeff_polyOf]
    congr 1
    simp [List.getD_eq_getElem?_getD, hi, show i < g2.length by omega]
  rw [this]

/-! ### the equation -/

variable {GT : Type} [AddCommGroup GT] [DecidableEq GT] [Pairing G1 G2 GT]

/-- The combined check, for a given challenge. -/
theorem verifyMultiOpening_eq [LawfulPointCodec G1 48] (sha256 : List UInt8 → List UInt8) (g1 : List G1) (g2 : List G2)
    (h2 : 65 ≤ g2.length) (h1 : g2.length ≤ g1.length) (dedup : List G1) (rows inds : List Nat)
    (evals : List (List Fr)) (proofs : List G1) (n : Nat) (hr : rows.length = n) (hi : inds.length = n)
    (he : evals.length = n) (hp : proofs.length = n) (hrows : ∀ i ∈ rows, i < dedup.length) (hinds : ∀ i ∈ inds, i < 128)
    (hev : ∀ e ∈ evals, e.length = 64) (I : Nat → Fr[X]) (hI : ∀ i < n, Interp (inds.getD i 0) (evals.getD i []) (I i))
    (r : Fr) (hrr : r = reduceBytesToScalarBias
      (sha256 (transcriptOf (verifierOf g1 g2).verificationKey dedup rows inds evals proofs))) :
    (verifierOf g1 g2).verifyMultiOpening sha256 dedup rows inds evals proofs =
      if pair (∑ i ∈ range n, r ^ i • proofs.getD i 0) (g2.getD 64 0) +
          pair ((∑ i ∈ range n, r ^ i • dedup.getD (rows.getD i 0) 0 -
              ∑ i ∈ range n, r ^ i • Spec.commitment g1 (I i)) +
            ∑ i ∈ range n, (r ^ i * Spec.point 13 (64 * inds.getD i 0) ^ 64) • proofs.getD i 0) (-(g2.getD 0 0)) =
          (0 : GT)
      then .ok () else .err .InvalidProof := by
  unfold FK20Verifier.verifyMultiOpening
  rw [assertP_true (by omega), assertP_true (by omega), assertP_true (by omega)]
  simp only [Outcome.ok_bind]
  unfold computeFiatShamirChallenge
  rw [fiatShamirHashInput_eq _ dedup rows inds evals proofs n hr hi he hp hev]
  simp only [Outcome.ok_bind, Outcome.pure_eq]
  rw [← hrr, computePowers_eq, hi, lincomb_eq]
  simp only [expect, Outcome.ok_bind]
  have hgens : (verifierOf g1 g2).bitReversedCosetGensPowN =
      (List.range 128).map (fun i => (Spec.omega 13 ^ Spec.brev 7 i) ^ 64) := rfl
  have hdom : (verifierOf g1 g2).cosetDomain = domainOf 6 := rfl
  have hfft : (verifierOf g1 g2).bitReversedCosetFftGens = cosetFftGens := rfl
  have htau : (verifierOf g1 g2).tauPowN = g2.getD 64 0 := rfl
  have hneg : (verifierOf g1 g2).negG2Gen = -(g2.getD 0 0) := rfl
  rw [hgens, hdom, hfft, htau, hneg, weightedRPowers_eq _ _ _ (by simpa using hinds), Outcome.ok_bind, lincomb_eq]
  simp only [Outcome.ok_bind]
  obtain ⟨w, hw, hwl, hws⟩ := commitmentWeights_eq (ε := FK20VerifierError) dedup rows ((List.range n).map (fun i => r ^ i)) hrows
  rw [hw, Outcome.ok_bind, lincomb_eq]
  simp only [Outcome.ok_bind]
  have hJ : ∃ J : Nat → List Fr → Fr[X], ∀ k < 128, ∀ e, e.length = 64 → Interp k e (J k e) := by
    choose J hJ using exists_Interp
    exact ⟨J, fun k _ e _ => hJ k e⟩
  obtain ⟨J, hJ⟩ := hJ
  obtain ⟨c, hc, hcl, hcp⟩ := computeSumInterpolationPoly_eq (ε := FK20VerifierError) evals inds
    ((List.range n).map (fun i => r ^ i)) hinds hev J hJ
  rw [hc, Outcome.ok_bind, vkCommitG1_eq g1 g2 h2 h1 c hcl, Outcome.ok_bind, hcp, commitment_list_sum, List.map_map, hws]
  have e1 : lcSum proofs ((List.range n).map (fun i => r ^ i)) = ∑ i ∈ range n, r ^ i • proofs.getD i 0 := by
    rw [← hp]; exact lcSum_powers proofs r
  have e2 : ((rows.zip ((List.range n).map (fun i => r ^ i))).map (fun q => q.2 • dedup.getD q.1 0)).sum =
      ∑ i ∈ range n, r ^ i • dedup.getD (rows.getD i 0) 0 := by
    rw [← hr]; exact sum_zip_powers rows 0 r (fun k x => x • dedup.getD k 0)
  have e3 : lcSum proofs ((inds.zip ((List.range n).map (fun i => r ^ i))).map (fun q => q.2 *
      ((List.range 128).map (fun i => (Spec.omega 13 ^ Spec.brev 7 i) ^ 64)).getD q.1 0)) =
      ∑ i ∈ range n, (r ^ i * Spec.point 13 (64 * inds.getD i 0) ^ 64) • proofs.getD i 0 := by
    rw [lcSum_eq _ _ n hp (by simp [hi])]
    apply sum_congr rfl
    intro i hin
    have hin := mem_range.1 hin
    congr 1
    have hk : inds.getD i 0 < 128 := by
      rw [List.getD_eq_getElem _ _ (by omega)]; exact hinds _ (List.getElem_mem _)
    rw [point_start]
    have : (inds.zip ((List.range n).map (fun i => r ^ i)))[i]? = some (inds.getD i 0, r ^ i) := by
      rw [List.getElem?_zip_eq_some]
      exact ⟨by simp [List.getD, show i < inds.length by omega], by simp [hin]⟩
    rw [List.getD_eq_getElem?_getD, List.getElem?_map, this]
    simp only [Option.map_some, Option.getD_some]
    rw [(rep_map_range 128 _).getD 0 hk]
  have e4 : (((evals.zip inds).zip ((List.range n).map (fun i => r ^ i))).map
      ((Spec.commitment g1) ∘ fun q => C q.2 * J q.1.2 q.1.1)).sum = ∑ i ∈ range n, r ^ i • Spec.commitment g1 (I i) := by
    have hz : (evals.zip inds).length = n := by simp [he, hi]
    have := sum_zip_powers (evals.zip inds) ([], 0) r (fun q x => Spec.commitment g1 (C x * J q.2 q.1))
    rw [hz] at this
    rw [show ((Spec.commitment g1) ∘ fun (q : (List Fr × Nat) × Fr) => C q.2 * J q.1.2 q.1.1) =
      fun q => Spec.commitment g1 (C q.2 * J q.1.2 q.1.1) from rfl, this]
    apply sum_congr rfl
    intro i hin
    have hin := mem_range.1 hin
    rw [commitment_C_mul]
    congr 2
    have hk : inds.getD i 0 < 128 := by
      rw [List.getD_eq_getElem _ _ (by omega)]; exact hinds _ (List.getElem_mem _)
    have hel : (evals.getD i []).length = 64 := by
      rw [List.getD_eq_getElem _ _ (by omega)]; exact hev _ (List.getElem_mem _)
    have hzi : (evals.zip inds).getD i ([], 0) = (evals.getD i [], inds.getD i 0) := by
      rw [List.getD_eq_getElem _ _ (by omega), List.getElem_zip, List.getD_eq_getElem _ _ (by omega),
        List.getD_eq_getElem _ _ (by omega)]
    rw [hzi]
    exact Interp_unique (hJ _ hk _ hel) (hI i hin)
  rw [e1, e2, e3, e4]
  unfold multiPairings2
  simp only [decide_eq_true_eq]

end

end Verif
