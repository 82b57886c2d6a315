import Verif.Lemmas.AnySize
import Verif.Props.CommitKey
import Verif.Props.Verification
import Verif.Props.Toy

set_option linter.unusedSectionVars false

/-! C99: the multi-opening verifier for all sizes -/
namespace Verif
open Polynomial Finset

variable {ε : Type}

/-- C99: with `e = k + s` the cosets are the groups of consecutive points of the domain in bit-reversed order. -/
theorem C99_points (k s i j : Nat) (h : k + s ≤ 32) (hj : j < 2 ^ s) :
    Spec.cosetPoint (k + s) k s i j = Spec.point (k + s) (2 ^ s * i + j) := by
  rw [point_split (k + s) s i j (by omega) h hj, Nat.add_sub_cancel, mul_comm]
  rfl

/-- C99: with more cosets than fit into the domain, different coset numbers stand for the same points. -/
theorem C99_repeated (e k s : Nat) (hse : s ≤ e) (he : e ≤ 32) (h : e < k + s) :
    ∃ i < 2 ^ k, i ≠ 0 ∧ ∀ j < 2 ^ s, ∃ j' < 2 ^ s, Spec.cosetPoint e k s i j = Spec.cosetPoint e k s 0 j' := by
  have hlt : 2 ^ (e - s) < 2 ^ k := Nat.pow_lt_pow_right (by norm_num) (by omega)
  have hb : Spec.brev k (Spec.brev k (2 ^ (e - s))) = 2 ^ (e - s) := Spec.brev_brev k _ hlt
  have h00 : ∀ n, Spec.brev n 0 = 0 := by
    intro n
    induction n with
    | zero => rfl
    | succ n ih => simp [Spec.brev, ih]
  refine ⟨Spec.brev k (2 ^ (e - s)), Spec.brev_lt k _, ?_, ?_⟩
  · intro h0
    rw [h0, h00] at hb
    exact absurd hb.symm (Nat.two_pow_pos _).ne'
  intro j hj
  have hw := omega_pow s e hse he
  refine ⟨Spec.brev s ((Spec.brev s j + 1) % 2 ^ s), Spec.brev_lt s _, ?_⟩
  unfold Spec.cosetPoint Spec.cosetStart
  rw [hb, h00, pow_zero, one_mul, Spec.brev_brev s _ (Nat.mod_lt _ (Nat.two_pow_pos s)), hw, ← pow_succ',
    ← pow_mod_orderOf, ← pow_mod_orderOf (Spec.omega s) ((Spec.brev s j + 1) % 2 ^ s),
    ← (omega_primitive s (by omega)).eq_orderOf, Nat.mod_mod]

section
variable {K G1 G2 GT : Type} [Field K] [DecidableEq K] [AddCommGroup G1] [Module Fr G1] [DecidableEq G1] [Curve K G1]
  [PointCodec G1] [AddCommGroup G2] [Module Fr G2] [AddCommGroup GT] [DecidableEq GT] [Pairing G1 G2 GT]

/-- the two constructors one after the other, as eip7594/src/verifier.rs:26-40 calls them: verification_key.rs:36-56 and
fk20/verifier.rs:57-94 -/
def verifierNew (g1s : List G1) (g2s : List G2) (cosetSize numCoefficients numPoints numCosets : Nat) :
    Outcome ε (FK20Verifier G1 G2) := do
  let vk ← VerificationKey.new g1s g2s cosetSize numCoefficients
  FK20Verifier.new vk numPoints numCosets

theorem any_built (g1s : List G1) (g2s : List G2) (nc e k s : Nat) (he : e ≤ 32) (hk : k < 32) (hs : s ≤ 32) :
    (verifierNew g1s g2s (2 ^ s) nc (2 ^ e) (2 ^ k) : Outcome ε (FK20Verifier G1 G2)) =
      if 2 ^ s < g2s.length ∧ 2 ^ e / 2 ^ k ≤ g2s.length then
        .ok (verifierAt ⟨g1s, g2s, g2s.getD 0 0, 2 ^ s, nc⟩ e k s) else .panic := by
  unfold verifierNew VerificationKey.new
  cases g2s with
  | nil => simp [idx]
  | cons g g2s =>
    rw [(rep_getD (g :: g2s) 0).idx (by simp), Outcome.ok_bind]
    by_cases h : 2 ^ s < (g :: g2s).length
    · rw [assertP_true h, Outcome.ok_bind, Outcome.pure_eq, Outcome.ok_bind, any_new _ e k s he hk hs rfl h]
      simp only [h, true_and]
    · rw [assertP_false h]
      simp only [h, false_and, if_false]
      rfl

/-- C99: the constructors succeed exactly when there are more G2 points than a coset has, and at least as many as the number of
points divided by the number of cosets. They look at the number of G1 points at no time. -/
theorem C99_new (g1s : List G1) (g2s : List G2) (nc e k s : Nat) (he : e ≤ 32) (hk : k < 32) (hs : s ≤ 32) :
    ((∃ v, (verifierNew g1s g2s (2 ^ s) nc (2 ^ e) (2 ^ k) : Outcome ε (FK20Verifier G1 G2)) = .ok v) ↔
      2 ^ s < g2s.length ∧ 2 ^ e / 2 ^ k ≤ g2s.length) ∧
    (¬ (2 ^ s < g2s.length ∧ 2 ^ e / 2 ^ k ≤ g2s.length) →
      (verifierNew g1s g2s (2 ^ s) nc (2 ^ e) (2 ^ k) : Outcome ε (FK20Verifier G1 G2)) = .panic) := by
  rw [any_built g1s g2s nc e k s he hk hs]
  split_ifs with h
  · exact ⟨⟨fun _ => h, fun _ => ⟨_, rfl⟩⟩, fun h' => absurd h h'⟩
  · exact ⟨⟨fun hx => (hx.elim fun _ hv => nomatch hv), fun h' => absurd h' h⟩, fun _ => rfl⟩

theorem any_items [LawfulPointCodec G1 48] (sha256 : List UInt8 → List UInt8) (vk : VerificationKey G1 G2) (e k s : Nat)
    (he : e ≤ 32) (hs : s < 32) (hvs : vk.cosetSize = 2 ^ s) (unique : List G1) (rows : List Nat) (items : List (Spec.Opening G1))
    (hc : Spec.ClaimsAt k s unique rows items) (r : Fr)
    (hr : r = Spec.challengeAt sha256 e k s vk.numCoefficientsInPolynomial unique rows items) :
    (verifierAt vk e k s).verifyMultiOpening sha256 unique rows (items.map (·.index)) (items.map (·.valuesAt e k s))
        (items.map (·.proof)) =
      if items.length = 0 ∨ 2 ^ s ≤ vk.g1s.length then
        if pair (∑ i : Fin items.length, r ^ (i : Nat) • items[i].proof) (vk.g2s.getD (2 ^ s) 0) +
            pair ((∑ i : Fin items.length, r ^ (i : Nat) • items[i].commitment -
                ∑ i : Fin items.length, r ^ (i : Nat) • Spec.commitment vk.g1s items[i].interp) +
              ∑ i : Fin items.length, (r ^ (i : Nat) * Spec.cosetStart e k items[i].index ^ 2 ^ s) • items[i].proof)
              (-vk.g2Gen) = (0 : GT)
        then .ok () else .err .InvalidProof
      else .panic := by
  have hrl : rows.length = items.length := by simpa using congrArg List.length hc.rows
  have hrow : ∀ i (hi : i < items.length), unique[rows[i]'(by omega)]? = some items[i].commitment := by
    intro i hi
    have := congrArg (fun l => l[i]?) hc.rows
    simpa [hi, show i < rows.length by omega] using this
  have hrows : ∀ i ∈ rows, i < unique.length := by
    intro i hi
    obtain ⟨j, hj, rfl⟩ := List.mem_iff_getElem.1 hi
    have := hrow j (by omega)
    by_contra hn
    rw [List.getElem?_eq_none (by omega)] at this
    cases this
  have hlen : ∀ v ∈ items.map (fun o => o.valuesAt e k s), v.length = 2 ^ s := by
    intro v hv
    obtain ⟨o, -, rfl⟩ := List.mem_map.1 hv
    simp [Spec.Opening.valuesAt]
  have htr : transcriptOf vk unique rows (items.map (·.index)) (items.map (·.valuesAt e k s)) (items.map (·.proof)) =
      Spec.challengeInputAt e k s vk.numCoefficientsInPolynomial unique rows items := by
    unfold transcriptOf Spec.challengeInputAt
    rw [domainSep_eq, hvs, List.length_map]
    simp only [any_bytes]
    congr 2
    refine List.ext_getElem (by simp; omega) ?_
    intro i h1 h2
    have hi : i < items.length := by simpa using h1
    rw [List.getElem_map, List.getElem_map, List.getElem_range]
    simp only [List.getElem_zip]
    unfold itemBytes
    rw [List.getD_eq_getElem rows _ (by omega), List.getD_eq_getElem _ _ (by simpa using hi),
      List.getD_eq_getElem _ _ (by simpa using hi), List.getD_eq_getElem _ _ (by simpa using hi)]
    simp only [List.getElem_map, any_bytes]
    unfold scalarToBytesBE
    simp only [any_bytes]
  rw [any_verify (GT := GT) sha256 vk e k s he hs hvs unique rows _ _ _ items.length hrl (by simp) (by simp) (by simp) hrows
    (by
      intro i hi
      obtain ⟨o, ho, rfl⟩ := List.mem_map.1 hi
      exact hc.index o ho) hlen (fun i => (items.getD i ⟨0, 0, 0, 0⟩).interp) (by
      intro i hi
      rw [List.getD_eq_getElem items _ hi]
      refine ⟨hc.degree _ (List.getElem_mem _), ?_⟩
      intro j hj
      rw [List.getD_eq_getElem (items.map (·.index)) _ (by simpa using hi),
        List.getD_eq_getElem (items.map (·.valuesAt e k s)) _ (by simpa using hi)]
      simp only [List.getElem_map]
      unfold Spec.Opening.valuesAt
      rw [(rep_map_range (2 ^ s) _).getD 0 hj]) r (by
      rw [htr, hr]
      unfold Spec.challengeAt reduceBytesToScalarBias
      rw [beToNat_eq])]
  congr 1
  have e1 : ∑ i ∈ range items.length, r ^ i • (items.map (·.proof)).getD i 0 =
      ∑ i : Fin items.length, r ^ (i : Nat) • items[i].proof := by
    rw [Finset.sum_range]
    refine sum_congr rfl (fun i _ => ?_)
    rw [List.getD_eq_getElem _ _ (by simp)]; simp
  have e2 : ∑ i ∈ range items.length, r ^ i • unique.getD (rows.getD i 0) 0 =
      ∑ i : Fin items.length, r ^ (i : Nat) • items[i].commitment := by
    rw [Finset.sum_range]
    refine sum_congr rfl (fun i _ => ?_)
    rw [List.getD_eq_getElem rows _ (by omega), List.getD, hrow i i.2]
    rfl
  have e3 : ∑ i ∈ range items.length, r ^ i • Spec.commitment vk.g1s (items.getD i ⟨0, 0, 0, 0⟩).interp =
      ∑ i : Fin items.length, r ^ (i : Nat) • Spec.commitment vk.g1s items[i].interp := by
    rw [Finset.sum_range]
    refine sum_congr rfl (fun i _ => ?_)
    rw [List.getD_eq_getElem _ _ i.2]
    rfl
  have e4 : ∑ i ∈ range items.length, (r ^ i * Spec.cosetStart e k ((items.map (·.index)).getD i 0) ^ 2 ^ s) •
        (items.map (·.proof)).getD i 0 =
      ∑ i : Fin items.length, (r ^ (i : Nat) * Spec.cosetStart e k items[i].index ^ 2 ^ s) • items[i].proof := by
    rw [Finset.sum_range]
    refine sum_congr rfl (fun i _ => ?_)
    rw [List.getD_eq_getElem _ _ (by simp), List.getD_eq_getElem _ _ (by simp)]; simp
  rw [e1, e2, e3, e4]

/-- C99: for every choice of the three sizes and keys of powers of the same secret, the verifier accepts claims exactly when the
combination of their defects with the powers of the challenge pairs to zero, and reports an invalid proof otherwise. -/
theorem C99_decides [LawfulPointCodec G1 48] [LawfulPairing G1 G2 GT] (g1s : List G1) (g2s : List G2) (nc e k s : Nat)
    (he : e ≤ 32) (hk : k < 32) (hs : s < 32) (τ : Fr) (P : G1) (H : G2) (hp1 : Spec.IsPowers g1s τ P)
    (hp2 : Spec.IsPowers g2s τ H) (hg1 : 2 ^ s ≤ g1s.length) (v : FK20Verifier G1 G2)
    (hv : (verifierNew g1s g2s (2 ^ s) nc (2 ^ e) (2 ^ k) : Outcome ε (FK20Verifier G1 G2)) = .ok v)
    (sha256 : List UInt8 → List UInt8) (unique : List G1) (rows : List Nat) (items : List (Spec.Opening G1))
    (hc : Spec.ClaimsAt k s unique rows items) :
    v.verifyMultiOpening sha256 unique rows (items.map (·.index)) (items.map (·.valuesAt e k s)) (items.map (·.proof)) =
      if pair (Spec.combinedAt e k s τ P (Spec.challengeAt sha256 e k s nc unique rows items) items) H = (0 : GT)
      then .ok () else .err .InvalidProof := by
  rw [any_built g1s g2s nc e k s he hk hs.le] at hv
  split_ifs at hv with h
  obtain rfl := (Outcome.ok.inj hv).symm
  rw [any_items sha256 _ e k s he hs rfl unique rows items hc _ rfl, if_pos (.inr hg1)]
  simp only
  obtain ⟨r, hr⟩ : ∃ r, r = Spec.challengeAt sha256 e k s nc unique rows items := ⟨_, rfl⟩
  rw [← hr]
  have hn : g2s.getD (2 ^ s) 0 = τ ^ 2 ^ s • H := by rw [List.getD, hp2 _ h.1]; rfl
  have h0 : g2s.getD 0 0 = H := by
    rw [List.getD, hp2 0 (lt_of_le_of_lt (Nat.zero_le _) h.1), pow_zero, one_smul]; rfl
  rw [hn, h0, pairing_check]
  have : (τ ^ 2 ^ s • ∑ i : Fin items.length, r ^ (i : Nat) • items[i].proof -
      (∑ i : Fin items.length, r ^ (i : Nat) • items[i].commitment -
        ∑ i : Fin items.length, r ^ (i : Nat) • Spec.commitment g1s items[i].interp +
        ∑ i : Fin items.length, (r ^ (i : Nat) * Spec.cosetStart e k items[i].index ^ 2 ^ s) • items[i].proof)) =
      Spec.combinedAt e k s τ P r items := by
    unfold Spec.combinedAt
    rw [smul_sum, ← sum_sub_distrib, ← sum_add_distrib, ← sum_sub_distrib]
    refine sum_congr rfl (fun i _ => ?_)
    have hm : items[i] ∈ items := List.getElem_mem _
    rw [commitment_isPowers g1s τ P hp1 _ (lt_of_lt_of_le (hc.degree _ hm) (by exact_mod_cast hg1))]
    unfold Spec.Opening.defectAt
    simp only [smul_sub, smul_add, sub_smul, smul_smul, mul_comm]
    abel
  rw [this]

/-- C99: values of the right number are the values of exactly one polynomial, so that `C99_decides` is about all inputs. -/
theorem C99_any_values (e k s i : Nat) (he : e ≤ 32) (hs : s ≤ 32) (values : List Fr) (hl : values.length = 2 ^ s) :
    ∃! I : Fr[X], I.degree < (2 ^ s : Nat) ∧ values = (List.range (2 ^ s)).map (fun j => I.eval (Spec.cosetPoint e k s i j)) := by
  have key : ∀ I : Fr[X], (I.degree < (2 ^ s : Nat) ∧
      values = (List.range (2 ^ s)).map (fun j => I.eval (Spec.cosetPoint e k s i j))) ↔ InterpAt e k s i values I := by
    intro I
    refine and_congr_right fun _ => ⟨fun h j hj => ?_, fun h => ?_⟩
    · rw [h, (rep_map_range (2 ^ s) _).getD 0 hj]
    · refine List.ext_getElem (by simp [hl]) fun j h1 h2 => ?_
      rw [List.getElem_map, List.getElem_range, h j (by omega), List.getD_eq_getElem _ _ h1]
  obtain ⟨I, hI⟩ := any_exists e k s i he hs values
  exact ⟨I, (key I).2 hI, fun J hJ => any_unique he hs ((key J).1 hJ) hI⟩

/-- C99: a key with fewer G1 points than a coset has points passes both constructors, and every claim then makes the verifier panic. -/
theorem C99_short_key [LawfulPointCodec G1 48] (g1s : List G1) (g2s : List G2) (nc e k s : Nat) (he : e ≤ 32) (hk : k < 32)
    (hs : s < 32) (hg1 : g1s.length < 2 ^ s) (v : FK20Verifier G1 G2)
    (hv : (verifierNew g1s g2s (2 ^ s) nc (2 ^ e) (2 ^ k) : Outcome ε (FK20Verifier G1 G2)) = .ok v)
    (sha256 : List UInt8 → List UInt8) (unique : List G1) (rows : List Nat) (items : List (Spec.Opening G1))
    (hc : Spec.ClaimsAt k s unique rows items) (hne : items ≠ []) :
    v.verifyMultiOpening sha256 unique rows (items.map (·.index)) (items.map (·.valuesAt e k s)) (items.map (·.proof)) =
      .panic := by
  rw [any_built g1s g2s nc e k s he hk hs.le] at hv
  split_ifs at hv with h
  obtain rfl := (Outcome.ok.inj hv).symm
  rw [any_items sha256 _ e k s he hs rfl unique rows items hc _ rfl, if_neg]
  rintro (h0 | h0)
  · exact hne (List.length_eq_zero_iff.1 h0)
  · exact absurd h0 (by simpa using hg1)

/-- C99: a coset size that is not a power of two passes both constructors as well, and every claim about that many values then
makes the verifier panic. -/
theorem C99_not_a_power [LawfulPointCodec G1 48] (g1s : List G1) (g2s : List G2) (nc e k m : Nat) (he : e ≤ 32) (hk : k < 32)
    (hm : m < 2 ^ 31) (hpow : ∀ a, m ≠ 2 ^ a) (h2 : m < g2s.length) (h2' : 2 ^ e / 2 ^ k ≤ g2s.length) :
    ∃ v : FK20Verifier G1 G2, (verifierNew g1s g2s m nc (2 ^ e) (2 ^ k) : Outcome ε (FK20Verifier G1 G2)) = .ok v ∧
      ∀ (sha256 : List UInt8 → List UInt8) (unique : List G1) (rows inds : List Nat) (evals : List (List Fr)) (proofs : List G1),
        rows.length = proofs.length → inds.length = proofs.length → evals.length = proofs.length → proofs ≠ [] →
        (∀ i ∈ rows, i < unique.length) → (∀ i ∈ inds, i < 2 ^ k) → (∀ ev ∈ evals, ev.length = m) →
        v.verifyMultiOpening sha256 unique rows inds evals proofs = .panic := by
  have hclog : Nat.clog 2 m ≤ 32 := (Nat.clog_le_iff_le_pow (by norm_num)).2 (by omega)
  have hnew : (verifierNew g1s g2s m nc (2 ^ e) (2 ^ k) : Outcome ε (FK20Verifier G1 G2)) =
      .ok ⟨⟨g1s, g2s, g2s.getD 0 0, m, nc⟩, (List.range (2 ^ k)).map (fun i => Spec.cosetStart e k i), domainOf (Nat.clog 2 m),
        g2s.getD m 0, -g2s.getD 0 0, (List.range (2 ^ k)).map (fun i => Spec.cosetStart e k i ^ m), cosetFftGensAt e k⟩ := by
    unfold verifierNew VerificationKey.new FK20Verifier.new
    rw [(rep_getD g2s 0).idx (by omega), Outcome.ok_bind, assertP_true h2, Outcome.ok_bind, Outcome.pure_eq, Outcome.ok_bind,
      cosetGens_spec e k he hk, Outcome.ok_bind, assertP_true (Nat.two_pow_pos k).ne', Outcome.ok_bind]
    simp only
    rw [assertP_true h2', Outcome.ok_bind, domain_new_round, domain_new_two_pow _ hclog, Outcome.ok_bind,
      (rep_getD g2s 0).idx h2, Outcome.ok_bind, List.mapM_map,
      mapM_ok (g := fun i => (⟨Spec.cosetStart e k i, (Spec.cosetStart e k i)⁻¹⟩ : CosetFFT))]
    · simp only [Outcome.ok_bind, Outcome.pure_eq, List.map_map]
      rfl
    · intro i _
      have : Spec.omega e ^ Spec.brev k i ≠ 0 := any_start_ne e k i he
      simp [CosetFFT.new, invertExpect, this, Spec.cosetStart]
  refine ⟨_, hnew, ?_⟩
  intro sha256 unique rows inds evals proofs hr hi hel hne hrows hinds hev
  unfold FK20Verifier.verifyMultiOpening
  rw [assertP_true hr, assertP_true hi, assertP_true hel]
  simp only [Outcome.ok_bind]
  unfold computeFiatShamirChallenge
  rw [fiatShamirHashInput_eq _ unique rows inds evals proofs proofs.length hr hi hel rfl hev]
  simp only [Outcome.ok_bind, Outcome.pure_eq]
  rw [lincomb_eq]
  simp only [expect, Outcome.ok_bind]
  rw [weightedRPowers_eq _ _ _ (by simpa using hinds), Outcome.ok_bind, lincomb_eq]
  simp only [Outcome.ok_bind]
  obtain ⟨w, hw, -, -⟩ := commitmentWeights_eq (ε := FK20VerifierError) unique rows (computePowers (reduceBytesToScalarBias
    (sha256 (transcriptOf ⟨g1s, g2s, g2s.getD 0 0, m, nc⟩ unique rows inds evals proofs))) inds.length) hrows
  rw [hw, Outcome.ok_bind, lincomb_eq]
  simp only [Outcome.ok_bind]
  unfold computeSumInterpolationPoly
  rw [computePowers_eq]
  cases evals with
  | nil => exact absurd (List.length_eq_zero_iff.1 hel.symm) hne
  | cons ev evals =>
    cases inds with
    | nil => rw [List.length_nil] at hi; exact absurd (List.length_eq_zero_iff.1 hi.symm) hne
    | cons i inds =>
      rw [List.length_cons, List.range_succ_eq_map, List.map_cons, List.zip_cons_cons, List.zip_cons_cons, List.foldlM_cons]
      have hl := hev ev (by simp)
      rw [show sumInterpolationStep (ε := FK20VerifierError) (domainOf (Nat.clog 2 m)) (cosetFftGensAt e k) [] ((ev, i), _) = .panic by
        unfold sumInterpolationStep
        rw [reverseBitOrder_panic (by rw [hl]; omega) (by rw [hl]; exact hpow)]
        rfl]
      rfl

theorem any_zero_step (e k s t : Nat) (he : e ≤ 32) (hs : s < 32) (ht : t < 32) (acc : List Fr) (x : Fr)
    (hacc : acc.length ≤ 2 ^ s) (h0 : Spec.polyOf acc = 0) :
    ∃ acc', (sumInterpolationStep (domainOf s) (cosetFftGensAt e k) acc ((List.replicate (2 ^ t) 0, 0), x) : Outcome ε (List Fr)) =
      .ok acc' ∧ acc'.length ≤ 2 ^ s ∧ Spec.polyOf acc' = 0 := by
  unfold sumInterpolationStep
  have hR : Rep (List.replicate (2 ^ t) (0 : Fr)) (2 ^ t) (fun _ => 0) := ⟨by simp, fun i hi => by simp [hi]⟩
  simp only
  rw [reverseBitOrder_eq t ht hR, Outcome.ok_bind]
  unfold cosetFftGensAt
  rw [(rep_map_range (2 ^ k) _).idx (Nat.two_pow_pos k), Outcome.ok_bind]
  rw [cosetIfftScalars_eq s hs.le _ ⟨Spec.cosetStart e k 0, (Spec.cosetStart e k 0)⁻¹⟩ (any_start_ne e k 0 he) rfl 0
    (by rw [degree_zero]; exact WithBot.bot_lt_coe _) (by
      intro j hj
      simp only [eval_zero]
      by_cases hjt : j < 2 ^ t
      · rw [(rep_map_range (2 ^ t) _).getD 0 hjt]
      · rw [List.getD_eq_default _ _ (by simpa using hjt)])]
  rw [Outcome.ok_bind]
  obtain ⟨c, hc, hl, hp⟩ := polyAdd_spec (ε := ε) acc ((Spec.coeffs (2 ^ s) 0).map (fun c => c * x))
  refine ⟨c, hc, ?_, ?_⟩
  · rw [hl, List.length_map]
    have : (Spec.coeffs (2 ^ s) (0 : Fr[X])).length = 2 ^ s := by simp [Spec.coeffs]
    omega
  · rw [hp, scaled_poly s 0 x (by rw [degree_zero]; exact WithBot.bot_lt_coe _), h0]
    simp

/-- C99: the only check on the numbers of values is that of the length of the hash input, which is about their sum. Three claims
with twice, half and half as many values as a coset has points are accepted, although there is no such claim. -/
theorem C99_uneven [LawfulPointCodec G1 48] [LawfulPairing G1 G2 GT] (g1s : List G1) (g2s : List G2) (nc e k s : Nat)
    (he : e ≤ 32) (hk : k < 32) (hs : s + 1 < 31) (hg1 : 2 ^ (s + 1) ≤ g1s.length) (v : FK20Verifier G1 G2)
    (hv : (verifierNew g1s g2s (2 ^ (s + 1)) nc (2 ^ e) (2 ^ k) : Outcome ε (FK20Verifier G1 G2)) = .ok v)
    (sha256 : List UInt8 → List UInt8) :
    v.verifyMultiOpening sha256 [0] [0, 0, 0] [0, 0, 0]
      [List.replicate (2 ^ (s + 2)) 0, List.replicate (2 ^ s) 0, List.replicate (2 ^ s) 0] [0, 0, 0] = .ok () := by
  rw [any_built g1s g2s nc e k (s + 1) he hk (by omega)] at hv
  split_ifs at hv with h
  obtain rfl := (Outcome.ok.inj hv).symm
  obtain ⟨l1, hl1⟩ : ∃ l : List Fr, l = List.replicate (2 ^ (s + 2)) 0 := ⟨_, rfl⟩
  obtain ⟨l2, hl2⟩ : ∃ l : List Fr, l = List.replicate (2 ^ s) 0 := ⟨_, rfl⟩
  have hln1 : l1.length = 4 * 2 ^ s := by rw [hl1, List.length_replicate, pow_add]; ring
  have hln2 : l2.length = 2 ^ s := by rw [hl2, List.length_replicate]
  rw [← hl1, ← hl2]
  have hfs : ∀ vk : VerificationKey G1 G2, vk.cosetSize = 2 ^ (s + 1) →
      ∃ b, (fiatShamirHashInput vk [0] [0, 0, 0] [0, 0, 0] [l1, l2, l2] [0, 0, 0] : Outcome FK20VerifierError _) = .ok b := by
    intro vk hvk
    unfold fiatShamirHashInput
    have hm : ((List.range ([0, 0, 0] : List Nat).length).mapM (transcriptItem [0, 0, 0] [0, 0, 0] [l1, l2, l2] [(0 : G1), 0, 0]) :
        Outcome FK20VerifierError (List (List UInt8))) =
        .ok ((List.range 3).map (itemBytes [0, 0, 0] [0, 0, 0] [l1, l2, l2] [(0 : G1), 0, 0])) := by
      apply mapM_ok
      intro i hi
      have hi : i < 3 := by simpa using hi
      unfold transcriptItem
      rw [(rep_getD ([0, 0, 0] : List Nat) 0).idx hi, (rep_getD [l1, l2, l2] []).idx hi, (rep_getD [(0 : G1), 0, 0] 0).idx hi]
      rfl
    rw [hm]
    simp only [Outcome.ok_bind]
    rw [assertP_true]
    · exact ⟨_, rfl⟩
    · have hfl : ∀ l : List Fr, (l.map scalarToBytesBE).flatten.length = l.length * 32 := fun l =>
        length_flatten_map scalarToBytesBE _ 32 (fun s _ => length_scalarToBytesBE s)
      simp only [List.range_succ, List.range_zero, List.nil_append, List.cons_append, List.map_cons, List.map_nil, List.flatten_cons,
        List.flatten_nil, List.length_append, length_natToBE, itemBytes, List.getD_cons_zero, List.getD_cons_succ, hfl,
        LawfulPointCodec.length_toCompressed, hln1, hln2, hvk, List.length_cons, List.length_nil, pow_succ]
      ring
  have hvk : (verifierAt (⟨g1s, g2s, g2s.getD 0 0, 2 ^ (s + 1), nc⟩ : VerificationKey G1 G2) e k (s + 1)).verificationKey =
    ⟨g1s, g2s, g2s.getD 0 0, 2 ^ (s + 1), nc⟩ := rfl
  unfold FK20Verifier.verifyMultiOpening computeFiatShamirChallenge
  rw [hvk]
  obtain ⟨b, hb⟩ := hfs ⟨g1s, g2s, g2s.getD 0 0, 2 ^ (s + 1), nc⟩ rfl
  have hq : ([0, 0, 0] : List Nat).length = ([0, 0, 0] : List G1).length := rfl
  have hq' : [l1, l2, l2].length = ([0, 0, 0] : List G1).length := rfl
  rw [assertP_true hq, assertP_true hq', hb]
  simp only [Outcome.ok_bind, Outcome.pure_eq]
  obtain ⟨r, hr⟩ : ∃ r, r = reduceBytesToScalarBias (sha256 b) := ⟨_, rfl⟩
  rw [← hr, computePowers_eq, lincomb_eq]
  simp only [expect, Outcome.ok_bind]
  have hgens : (verifierAt (⟨g1s, g2s, g2s.getD 0 0, 2 ^ (s + 1), nc⟩ : VerificationKey G1 G2) e k (s + 1)).bitReversedCosetGensPowN =
      (List.range (2 ^ k)).map (fun i => Spec.cosetStart e k i ^ 2 ^ (s + 1)) := rfl
  have hdom : (verifierAt (⟨g1s, g2s, g2s.getD 0 0, 2 ^ (s + 1), nc⟩ : VerificationKey G1 G2) e k (s + 1)).cosetDomain =
    domainOf (s + 1) := rfl
  have hfft : (verifierAt (⟨g1s, g2s, g2s.getD 0 0, 2 ^ (s + 1), nc⟩ : VerificationKey G1 G2) e k (s + 1)).bitReversedCosetFftGens =
    cosetFftGensAt e k := rfl
  rw [hgens, hdom, hfft, weightedRPowers_eq _ _ _ (by simp), Outcome.ok_bind, lincomb_eq]
  simp only [Outcome.ok_bind]
  obtain ⟨w, hw, hwl, hws⟩ := commitmentWeights_eq (ε := FK20VerifierError) [(0 : G1)] [0, 0, 0]
    ((List.range ([0, 0, 0] : List Nat).length).map (fun i => r ^ i)) (by simp)
  rw [hw, Outcome.ok_bind, lincomb_eq]
  simp only [Outcome.ok_bind]
  have hsum : ∃ c, (computeSumInterpolationPoly (domainOf (s + 1)) (cosetFftGensAt e k) [l1, l2, l2] [0, 0, 0]
      ((List.range ([0, 0, 0] : List Nat).length).map (fun i => r ^ i)) : Outcome FK20VerifierError _) = .ok c ∧
      c.length ≤ 2 ^ (s + 1) ∧ Spec.polyOf c = 0 := by
    unfold computeSumInterpolationPoly
    rw [show ([0, 0, 0] : List Nat).length = 3 from rfl,
      show (List.range 3).map (fun i => r ^ i) = [r ^ 0, r ^ 1, r ^ 2] from rfl]
    simp only [List.zip_cons_cons, List.zip_nil_left, List.foldlM_cons, List.foldlM_nil]
    obtain ⟨a1, h1, hl1', hp1⟩ := any_zero_step (ε := FK20VerifierError) e k (s + 1) (s + 2) he (by omega) (by omega) [] (r ^ 0)
      (by simp) (by simp [Spec.polyOf])
    obtain ⟨a2, h2, hl2', hp2⟩ := any_zero_step (ε := FK20VerifierError) e k (s + 1) s he (by omega) (by omega) a1 (r ^ 1) hl1' hp1
    obtain ⟨a3, h3, hl3', hp3⟩ := any_zero_step (ε := FK20VerifierError) e k (s + 1) s he (by omega) (by omega) a2 (r ^ 2) hl2' hp2
    rw [← hl1] at h1
    rw [← hl2] at h2 h3
    rw [h1, Outcome.ok_bind, h2, Outcome.ok_bind, h3, Outcome.ok_bind]
    exact ⟨a3, rfl, hl3', hp3⟩
  obtain ⟨c, hc, hcl, hcp⟩ := hsum
  rw [hc, Outcome.ok_bind, any_commit, if_pos (hcl.trans hg1), Outcome.ok_bind, hcp, commitment_zero, hws]
  have hz : ∀ w : List Fr, lcSum [(0 : G1), 0, 0] w = 0 := by
    intro w
    unfold lcSum
    refine List.sum_eq_zero (fun y hy => ?_)
    obtain ⟨q, hq, rfl⟩ := List.mem_map.1 hy
    have := (List.of_mem_zip hq).1
    have h0 : q.1 = 0 := by simpa using this
    simp [h0]
  rw [hz, hz]
  have hp0 : ∀ Q : G2, (pair (0 : G1) Q : GT) = 0 := by
    intro Q
    have h2 := LawfulPairing.pair_add_left (GT := GT) (0 : G1) 0 Q
    rw [add_zero] at h2
    exact left_eq_add.1 h2
  have hsum0 : (((([0, 0, 0] : List Nat).zip ((List.range ([0, 0, 0] : List Nat).length).map (fun i => r ^ i))).map
      (fun q => q.2 • [(0 : G1)].getD q.1 0)).sum) = 0 := by
    refine List.sum_eq_zero (fun y hy => ?_)
    obtain ⟨q, hq, rfl⟩ := List.mem_map.1 hy
    have h0 : q.1 = 0 := by simpa using (List.of_mem_zip hq).1
    simp [h0]
  rw [hsum0]
  unfold multiPairings2
  simp [hp0]

/-- C99, completeness: claims all of which hold are accepted, whatever the hash function. -/
theorem C99_complete [LawfulPointCodec G1 48] [LawfulPairing G1 G2 GT] (g1s : List G1) (g2s : List G2) (nc e k s : Nat)
    (he : e ≤ 32) (hk : k < 32) (hs : s < 32) (τ : Fr) (P : G1) (H : G2) (hp1 : Spec.IsPowers g1s τ P)
    (hp2 : Spec.IsPowers g2s τ H) (hg1 : 2 ^ s ≤ g1s.length) (v : FK20Verifier G1 G2)
    (hv : (verifierNew g1s g2s (2 ^ s) nc (2 ^ e) (2 ^ k) : Outcome ε (FK20Verifier G1 G2)) = .ok v)
    (sha256 : List UInt8 → List UInt8) (unique : List G1) (rows : List Nat) (items : List (Spec.Opening G1))
    (hc : Spec.ClaimsAt k s unique rows items)
    (hvalid : ∀ o ∈ items, (τ ^ 2 ^ s - Spec.cosetStart e k o.index ^ 2 ^ s) • o.proof = o.commitment - o.interp.eval τ • P) :
    v.verifyMultiOpening sha256 unique rows (items.map (·.index)) (items.map (·.valuesAt e k s)) (items.map (·.proof)) =
      .ok () := by
  rw [C99_decides g1s g2s nc e k s he hk hs τ P H hp1 hp2 hg1 v hv sha256 unique rows items hc, if_pos]
  have : Spec.combinedAt e k s τ P (Spec.challengeAt sha256 e k s nc unique rows items) items = 0 := by
    unfold Spec.combinedAt
    refine sum_eq_zero (fun i _ => ?_)
    have hm : items[i] ∈ items := List.getElem_mem _
    unfold Spec.Opening.defectAt
    rw [hvalid _ hm]
    simp
  rw [this]
  have h2 := LawfulPairing.pair_add_left (GT := GT) (0 : G1) 0 H
  rw [add_zero] at h2
  exact left_eq_add.1 h2

/-- C99, soundness: if one of `n` claims is false, all but at most `n - 1` challenges lead to a rejection. -/
theorem C99_sound [LawfulPointCodec G1 48] [LawfulPairing G1 G2 GT] (g1s : List G1) (g2s : List G2) (nc e k s : Nat)
    (he : e ≤ 32) (hk : k < 32) (hs : s < 32) (τ : Fr) (P : G1) (H : G2) (hp1 : Spec.IsPowers g1s τ P)
    (hp2 : Spec.IsPowers g2s τ H) (hnd : ∀ a : G1, pair a H = (0 : GT) → a = 0) (hg1 : 2 ^ s ≤ g1s.length) (v : FK20Verifier G1 G2)
    (hv : (verifierNew g1s g2s (2 ^ s) nc (2 ^ e) (2 ^ k) : Outcome ε (FK20Verifier G1 G2)) = .ok v)
    (unique : List G1) (rows : List Nat) (items : List (Spec.Opening G1)) (hc : Spec.ClaimsAt k s unique rows items)
    (hbad : ∃ o ∈ items, (τ ^ 2 ^ s - Spec.cosetStart e k o.index ^ 2 ^ s) • o.proof ≠ o.commitment - o.interp.eval τ • P) :
    ∃ bad : Finset Fr, bad.card ≤ items.length - 1 ∧ ∀ sha256 : List UInt8 → List UInt8,
      v.verifyMultiOpening sha256 unique rows (items.map (·.index)) (items.map (·.valuesAt e k s)) (items.map (·.proof)) =
        .ok () → Spec.challengeAt sha256 e k s nc unique rows items ∈ bad := by
  let items' : List (Spec.Opening G1) := items.map (fun o => ⟨-o.defectAt e k s τ P, 0, 0, 0⟩)
  have hd : ∀ o : Spec.Opening G1, (⟨-o.defectAt e k s τ P, 0, 0, 0⟩ : Spec.Opening G1).defect τ P = o.defectAt e k s τ P := by
    intro o
    simp [Spec.Opening.defect]
  obtain ⟨bad, hcard, hall⟩ := few_challenges items' τ P (by
    obtain ⟨o, ho, hne⟩ := hbad
    refine ⟨_, List.mem_map.2 ⟨o, ho, rfl⟩, ?_⟩
    rw [hd]
    intro h0
    apply hne
    unfold Spec.Opening.defectAt at h0
    rw [← sub_eq_zero, ← h0]
    abel)
  refine ⟨bad, by simpa [items'] using hcard, fun sha256 hok => hall _ ?_⟩
  rw [C99_decides g1s g2s nc e k s he hk hs τ P H hp1 hp2 hg1 v hv sha256 unique rows items hc] at hok
  split_ifs at hok with h
  have := hnd _ h
  rw [← this, combined_eq]
  unfold Spec.combinedAt
  rw [Finset.sum_range]
  refine (sum_equiv (finCongr (by simp [items'])) (by simp) (fun i _ => ?_))
  rw [List.getD_eq_getElem _ _ i.2]
  simp only [items', List.getElem_map, hd]
  rfl

/-- C99, prover and verifier: at all sizes at which the prover works, the verifier accepts everything it returns. -/
theorem C99_prover [LawfulPointCodec G1 48] [LawfulPairing G1 G2 GT] (g g1s : List G1) (g2s : List G2) (q s e nc : Nat)
    (hse : q + s ≤ e) (he : e < 32) (hg : g.length = 2 ^ (q + s)) (τ : Fr) (P : G1) (H : G2) (hp : Spec.IsPowers g τ P)
    (hp1 : Spec.IsPowers g1s τ P) (hp2 : Spec.IsPowers g2s τ H) (hg1 : 2 ^ q ≤ g1s.length) (p : FK20Prover K G1)
    (hprover : (FK20Prover.new g (2 ^ (q + s)) (2 ^ q) (2 ^ e) .no : Outcome ε (FK20Prover K G1)) = .ok p)
    (v : FK20Verifier G1 G2)
    (hv : (verifierNew g1s g2s (2 ^ q) nc (2 ^ e) (2 ^ (e - q)) : Outcome ε (FK20Verifier G1 G2)) = .ok v)
    (f : List Fr) (hf : f.length = 2 ^ (q + s)) (sha256 : List UInt8 → List UInt8) :
    ∃ proofs values, (p.computeMultiOpeningProofsPolyCoeff f : Outcome ε _) = .ok (proofs, values) ∧
      v.verifyMultiOpening sha256 [Spec.commitment g (Spec.polyOf f)] (List.replicate (2 ^ (e - q)) 0)
        (List.range (2 ^ (e - q))) values proofs = .ok () := by
  refine ⟨_, _, C31_exact g q s e hse he hg p hprover f hf, ?_⟩
  let it : Nat → Spec.Opening G1 := fun k => ⟨Spec.commitment g (Spec.polyOf f), k, Spec.polyOf f %ₘ Spec.vanishing e q k,
    Spec.openingProof g e q (Spec.polyOf f) k⟩
  have hmonic : ∀ k, (Spec.vanishing e q k).Monic := fun k => monic_prod_of_monic _ _ (fun j _ => monic_X_sub_C _)
  have hdeg : ∀ k, (Spec.vanishing e q k).degree = (2 ^ q : Nat) := by
    intro k
    unfold Spec.vanishing
    rw [degree_prod, sum_congr rfl fun y _ => degree_X_sub_C _, sum_const]
    simp
  have hpt : ∀ k j, j < 2 ^ q → Spec.cosetPoint e (e - q) q k j = Spec.point e (2 ^ q * k + j) := by
    intro k j hj
    have := C99_points (e - q) q k j (by omega) hj
    rwa [show e - q + q = e by omega] at this
  have hroot : ∀ k j, j < 2 ^ q → (Spec.polyOf f %ₘ Spec.vanishing e q k).eval (Spec.point e (2 ^ q * k + j)) =
      (Spec.polyOf f).eval (Spec.point e (2 ^ q * k + j)) := by
    intro k j hj
    conv_rhs => rw [← modByMonic_add_div (Spec.polyOf f) (Spec.vanishing e q k)]
    rw [eval_add, eval_mul]
    have : (Spec.vanishing e q k).eval (Spec.point e (2 ^ q * k + j)) = 0 := by
      unfold Spec.vanishing
      rw [eval_prod]
      exact prod_eq_zero (mem_range.2 hj) (by simp)
    rw [this, zero_mul, add_zero]
  have hfd : (Spec.polyOf f).degree < g.length := by
    rw [hg, ← hf]; exact Spec.degree_polyOf_lt f
  have hC : Spec.commitment g (Spec.polyOf f) = (Spec.polyOf f).eval τ • P := commitment_isPowers g τ P hp _ hfd
  have hO : ∀ k, Spec.openingProof g e q (Spec.polyOf f) k = (Spec.polyOf f /ₘ Spec.vanishing e q k).eval τ • P := fun k =>
    commitment_isPowers g τ P hp _ (lt_of_le_of_lt (degree_divByMonic_le _ _) hfd)
  have hvan : ∀ k, (Spec.vanishing e q k).eval τ = τ ^ 2 ^ q - Spec.cosetStart e (e - q) k ^ 2 ^ q := by
    intro k
    rw [vanishing_eq e q k (by omega) he.le]
    have h := omega_pow (e - q) e (by omega) he.le
    rw [show e - (e - q) = q by omega] at h
    unfold Spec.cosetStart
    rw [← pow_mul, mul_comm (Spec.brev _ _), pow_mul, h]
    simp
  have := C99_complete g1s g2s nc e (e - q) q he.le (by omega) (by omega) τ P H hp1 hp2 hg1 v hv sha256
    [Spec.commitment g (Spec.polyOf f)] (List.replicate (2 ^ (e - q)) 0) ((List.range (2 ^ (e - q))).map it) ⟨by
      refine List.ext_getElem (by simp) (fun i h1 h2 => ?_)
      simp [it], by
      intro o ho
      obtain ⟨i, hi, rfl⟩ := List.mem_map.1 ho
      exact List.mem_range.1 hi, by
      intro o ho
      obtain ⟨i, hi, rfl⟩ := List.mem_map.1 ho
      have := degree_modByMonic_lt (Spec.polyOf f) (hmonic i)
      rwa [hdeg] at this⟩ (by
      intro o ho
      obtain ⟨i, hi, rfl⟩ := List.mem_map.1 ho
      simp only [it]
      rw [hC, hO, ← hvan, ← mul_smul, ← sub_smul]
      congr 1
      have := congrArg (eval τ) (modByMonic_add_div (Spec.polyOf f) (Spec.vanishing e q i))
      rw [eval_add, eval_mul] at this
      rw [← this]; ring)
  have e1 : ((List.range (2 ^ (e - q))).map it).map (·.index) = List.range (2 ^ (e - q)) := by
    rw [List.map_map]; exact List.map_id _
  have e2 : ((List.range (2 ^ (e - q))).map it).map (fun o => o.valuesAt e (e - q) q) =
      (List.range (2 ^ (e - q))).map (fun k => (List.range (2 ^ q)).map (fun j =>
          (Spec.polyOf f).eval (Spec.point e (2 ^ q * k + j)))) := by
    rw [List.map_map]
    refine List.map_congr_left (fun k _ => ?_)
    simp only [Function.comp_apply, Spec.Opening.valuesAt, it]
    refine List.map_congr_left (fun j hj => ?_)
    have hj := List.mem_range.1 hj
    rw [hpt k j hj, hroot k j hj]
  have e3 : ((List.range (2 ^ (e - q))).map it).map (·.proof) =
      (List.range (2 ^ (e - q))).map (Spec.openingProof g e q (Spec.polyOf f)) := by
    rw [List.map_map]; rfl
  rw [e1, e2, e3] at this
  exact this

end

/-! ### Hypotheses can be met -/

open Toy

theorem any_toy_powers (n : Nat) : Spec.IsPowers ((List.range n).map (fun i => (7 : Fr) ^ i)) 7 (1 : Fr) := by
  intro i hi
  have hi : i < n := by simpa using hi
  simp [hi]

/-- four cosets of two points, in a domain of eight points: the verifier exists, a true claim about the polynomial `3X + 5` -/
example : ∃ v : FK20Verifier Fr Fr,
    (verifierNew ((List.range 4).map (fun i => (7 : Fr) ^ i)) ((List.range 3).map (fun i => (7 : Fr) ^ i)) (2 ^ 1) 4 (2 ^ 3)
      (2 ^ 2) : Outcome Error _) = .ok v ∧ ∀ sha256,
      v.verifyMultiOpening sha256 [26] [0] [3]
        [(List.range 2).map (fun j => 3 * Spec.cosetPoint 3 2 1 3 j + 5)] [(0 : Fr)] = .ok () := by
  obtain ⟨v, hv⟩ := (C99_new (ε := Error) ((List.range 4).map (fun i => (7 : Fr) ^ i)) ((List.range 3).map (fun i => (7 : Fr) ^ i))
    4 3 2 1 (by norm_num) (by norm_num) (by norm_num)).1.2 (by simp)
  refine ⟨v, hv, fun sha256 => ?_⟩
  have hd : (C 3 * X + C 5 : Fr[X]).degree < ((2 ^ 1 : Nat) : WithBot Nat) :=
    lt_of_le_of_lt degree_linear_le (by norm_num)
  have := C99_complete (GT := Fr) _ _ 4 3 2 1 (by norm_num) (by norm_num) (by norm_num) 7 (1 : Fr) (1 : Fr) (any_toy_powers 4)
    (any_toy_powers 3) (by simp) v hv sha256 [26] [0] [⟨26, 3, C 3 * X + C 5, 0⟩]
    ⟨by simp, by simp, by simpa using hd⟩ (by simp; norm_num)
  simpa [Spec.Opening.valuesAt] using this

/-- a false claim: the proof is altered -/
example : ∃ o ∈ [(⟨26, 3, C 3 * X + C 5, 1⟩ : Spec.Opening Fr)],
    ((7 : Fr) ^ 2 ^ 1 - Spec.cosetStart 3 2 o.index ^ 2 ^ 1) • o.proof ≠ o.commitment - o.interp.eval 7 • (1 : Fr) := by
  refine ⟨_, List.mem_singleton.2 rfl, ?_⟩
  have h : Spec.cosetStart 3 2 3 = Spec.omega 3 ^ 3 := by
    unfold Spec.cosetStart; congr 1
  intro he
  simp only [h, smul_eq_mul, mul_one, eval_add, eval_mul, eval_C, eval_X] at he
  have h8 : Spec.omega 3 ^ 8 = 1 := (omega_primitive 3 (by norm_num)).pow_eq_one
  have h4 : (Spec.omega 3 ^ 3) ^ 2 ^ 1 = 49 := by
    have : (26 : Fr) - (3 * 7 + 5) = 0 := by norm_num
    rw [this] at he
    have := sub_eq_zero.1 he
    rw [← this]; norm_num
  have : (49 : Fr) ^ 4 = 1 := by
    rw [← h4]
    calc ((Spec.omega 3 ^ 3) ^ 2 ^ 1) ^ 4 = (Spec.omega 3 ^ 8) ^ 3 := by ring
      _ = 1 := by rw [h8, one_pow]
  exact absurd this (by decide +kernel)

/-- a prover and a verifier for eight cosets of one point -/
example : (∃ p, (FK20Prover.new [(1 : Fr), 7, 49, 343] (2 ^ (0 + 2)) (2 ^ 0) (2 ^ 3) .no : Outcome Error (FK20Prover Fr Fr)) = .ok p) ∧
    (∃ v : FK20Verifier Fr Fr, (verifierNew [(1 : Fr)] [(1 : Fr), 7] (2 ^ 0) 4 (2 ^ 3) (2 ^ (3 - 0)) : Outcome Error _) = .ok v) :=
  ⟨C31_accepts _ 0 2 3 (by norm_num) (by norm_num) (by norm_num) (by simp) (by simp),
    (C99_new (ε := Error) [(1 : Fr)] [(1 : Fr), 7] 4 3 (3 - 0) 0 (by norm_num) (by norm_num) (by norm_num)).1.2 (by simp)⟩

/-- cosets of three points -/
example : ∀ a, 3 ≠ 2 ^ a := by
  intro a
  rcases a with _ | _ | a
  · norm_num
  · norm_num
  · rw [pow_add]; omega

/-- a key with one G1 point for cosets of two points -/
example : (∃ v : FK20Verifier Fr Fr, (verifierNew [(1 : Fr)] [(1 : Fr), 7, 49] (2 ^ 1) 4 (2 ^ 3) (2 ^ 2) : Outcome Error _) = .ok v) ∧
    [(1 : Fr)].length < 2 ^ 1 :=
  ⟨(C99_new (ε := Error) [(1 : Fr)] [(1 : Fr), 7, 49] 4 3 2 1 (by norm_num) (by norm_num) (by norm_num)).1.2 (by simp), by simp⟩

end Verif
