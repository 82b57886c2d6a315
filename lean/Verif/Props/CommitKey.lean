import Verif.Lemmas.LongKey
import Verif.Props.Toy

set_option linter.unusedSectionVars false

/-! C31: the commit key must have exactly the length of the polynomial bound. -/
namespace Verif
open Polynomial Finset

section
variable {ε K G : Type} [Field K] [DecidableEq K] [AddCommGroup G] [Module Fr G] [DecidableEq G] [Curve K G]

/-- C31, exact keys: a prover built from a key of `2^(q+s)` points for polynomials of that bound returns, for every
coefficient list of that length, the commitments to the quotients by the vanishing polynomials of the cosets. -/
theorem C31_exact (g : List G) (q s e : Nat) (hse : q + s ≤ e) (he : e < 32) (hg : g.length = 2 ^ (q + s))
    (p : FK20Prover K G)
    (hp : (FK20Prover.new g (2 ^ (q + s)) (2 ^ q) (2 ^ e) .no : Outcome ε (FK20Prover K G)) = .ok p)
    (f : List Fr) (hf : f.length = 2 ^ (q + s)) :
    (p.computeMultiOpeningProofsPolyCoeff f : Outcome ε _) =
      .ok ((List.range (2 ^ (e - q))).map (Spec.openingProof g e q (Spec.polyOf f)),
        (List.range (2 ^ (e - q))).map (fun k => (List.range (2 ^ q)).map (fun j =>
          (Spec.polyOf f).eval (Spec.point e (2 ^ q * k + j))))) := by
  rcases Nat.lt_or_ge s 2 with h | h
  · obtain rfl | rfl : s = 0 ∨ s = 1 := by omega
    · obtain ⟨k, -, -, -, h1, -⟩ := prover_new_any g (q + 0) q e p hp
      simp only [add_zero] at hg
      omega
    · exact two_exact g f q e hse he hg hf p hp
  · obtain ⟨M, rfl, hM⟩ := prover_new_ok g q s e h hse he hg .no p hp
    exact multiOpening_exact g f q s e h hse he hg hf M (msmExact_no g q s M hM)

theorem length_stepByList {α : Type} (z : α) (l : List α) (n : Nat) (hn : 0 < n) :
    (stepByList l n).length = (l.length + n - 1) / n := by
  have h1 := Nat.div_add_mod (l.length + n - 1) n
  have h2 := Nat.mod_lt (l.length + n - 1) hn
  rw [stepByList_eq z l n ((l.length + n - 1) / n) hn (by omega) (by omega)]
  simp

theorem nextPow2_self (s : Nat) : nextPow2 (2 ^ s) = 2 ^ s := by
  unfold nextPow2
  rw [Nat.clog_pow _ _ (by norm_num)]

theorem srs_lengths (g : List G) (q s : Nat) (hs : 2 ≤ s) (h1 : 2 ^ (q + s) ≤ g.length)
    (h2 : g.length ≤ 2 ^ (q + s) + 2 ^ q) : ∀ v ∈ srsVectors g (2 ^ q), v.length = 2 ^ s := by
  intro v hv
  have hq := Nat.two_pow_pos q
  have hqs : 2 ^ (q + s) = 2 ^ q * 2 ^ s := pow_add 2 q s
  have h2s : 4 ≤ 2 ^ s := by
    calc 4 = 2 ^ 2 := rfl
      _ ≤ 2 ^ s := Nat.pow_le_pow_right (by norm_num) hs
  have h4 : 2 ^ q * 4 ≤ 2 ^ q * 2 ^ s := Nat.mul_le_mul_left _ h2s
  unfold srsVectors takeEveryNth at hv
  simp only [List.map_map] at hv
  obtain ⟨j, hj, rfl⟩ := List.mem_map.1 hv
  have hj := List.mem_range.1 hj
  simp only [Function.comp_apply]
  rw [length_resize, length_stepByList 0 _ _ hq, List.length_drop, List.length_drop, List.length_reverse,
    show g.length - 2 ^ q - j + 2 ^ q - 1 = g.length - 1 - j by omega]
  have lo : 2 ^ s - 1 ≤ (g.length - 1 - j) / 2 ^ q := by
    rw [Nat.le_div_iff_mul_le hq, Nat.sub_mul, mul_comm]; omega
  have hi : (g.length - 1 - j) / 2 ^ q < 2 ^ s + 1 := by
    rw [Nat.div_lt_iff_lt_mul hq, Nat.add_mul, mul_comm]; omega
  obtain h | h : (g.length - 1 - j) / 2 ^ q = 2 ^ s - 1 ∨ (g.length - 1 - j) / 2 ^ q = 2 ^ s := by omega
  · rw [h, nextPow2_pred s hs]
  · rw [h, nextPow2_self]

/-- C31: keys with up to one coset of additional points are accepted. -/
theorem C31_accepts (g : List G) (q s e : Nat) (hs : 2 ≤ s) (hse : q + s ≤ e) (he : e < 32)
    (h1 : 2 ^ (q + s) ≤ g.length) (h2 : g.length ≤ 2 ^ (q + s) + 2 ^ q) :
    ∃ p, (FK20Prover.new g (2 ^ (q + s)) (2 ^ q) (2 ^ e) .no : Outcome ε (FK20Prover K G)) = .ok p := by
  have hq := Nat.two_pow_pos q
  have h3 : 2 ^ q < 2 ^ (q + s) := Nat.pow_lt_pow_right (by norm_num) (by omega)
  have h4 : 2 ^ (q + s) ≤ 2 ^ e := Nat.pow_le_pow_right (by norm_num) hse
  have hlv := length_srsVectors g (2 ^ q)
  unfold FK20Prover.new
  rw [assertP_true (isPow2_two_pow _), assertP_true (isPow2_two_pow _), assertP_true (by omega),
    assertP_true (isPow2_two_pow _), assertP_true (by omega), assertP_true (by omega)]
  simp only [Outcome.ok_bind]
  rw [batchToeplitz_new _ s (by omega) (by intro h; rw [h] at hlv; simp at hlv; omega) (srs_lengths g q s hs h1 h2),
    Nat.pow_div (by omega) (by norm_num), domain_new_two_pow (e - q) (by omega),
    domain_new_two_pow e (by omega), domain_new_two_pow (q + s) (by omega),
    mapM_ok (f := fun v => (FixedBaseMSM.new v .no : Outcome ε (FixedBaseMSM K G))) (g := .noPrecomp) (fun v _ => rfl)]
  simp only [Outcome.ok_bind, Outcome.pure_eq]
  exact ⟨_, rfl⟩

/-- C31, longer keys: whenever the constructor accepts a key with more points than the bound (none of them the
identity), the prover returns, for the polynomial `X^(2^q-1)`, the right evaluations with a wrong proof. -/
theorem C31_longer_wrong (g : List G) (hnz : ∀ x ∈ g, x ≠ 0) (q s e : Nat) (hs : 1 ≤ s) (hse : q + s < e) (he : e < 32)
    (hg : 2 ^ (q + s) < g.length) (p : FK20Prover K G)
    (hp : (FK20Prover.new g (2 ^ (q + s)) (2 ^ q) (2 ^ e) .no : Outcome ε (FK20Prover K G)) = .ok p) :
    ∃ f : List Fr, f.length = 2 ^ (q + s) ∧ Spec.polyOf f = X ^ (2 ^ q - 1) ∧
    ∃ proofs, (p.computeMultiOpeningProofsPolyCoeff f : Outcome ε _) =
      .ok (proofs, (List.range (2 ^ (e - q))).map (fun k => (List.range (2 ^ q)).map (fun j =>
        (Spec.polyOf f).eval (Spec.point e (2 ^ q * k + j))))) ∧ proofs.length = 2 ^ (e - q) ∧
      ∃ k < 2 ^ (e - q), ∃ P, proofs[k]? = some P ∧ P ≠ Spec.openingProof g e q (Spec.polyOf f) k := by
  obtain ⟨proofs, h1, h2, P, hP, hne⟩ := long_key_wrong g (by
    intro i hi
    rw [List.getD_eq_getElem _ _ hi]
    exact hnz _ (List.getElem_mem _)) q s e hs hse he hg p hp
  refine ⟨oneAt q s, by simp [oneAt], oneAt_polyOf q s, proofs, h1, h2, ?_⟩
  obtain ⟨k, hk, rfl⟩ := List.getElem_of_mem hP
  refine ⟨k, by omega, _, List.getElem?_eq_getElem hk, ?_⟩
  rw [openingProof_small g e q (by omega) (by omega)]
  · exact hne
  · rw [oneAt_polyOf, degree_X_pow]
    have := Nat.two_pow_pos q
    exact_mod_cast (show 2 ^ q - 1 < 2 ^ q by omega)

end

section
variable {K G1 G2 : Type} [Field K] [DecidableEq K] [AddCommGroup G1] [Module Fr G1] [DecidableEq G1]
  [Curve K G1] [PointCodec G1] [AddCommGroup G2] [Module Fr G2]

theorem coeffs_X63 : Spec.coeffs 4096 (X ^ 63 : Fr[X]) = oneAt 6 6 := by
  unfold Spec.coeffs oneAt
  rw [show (2 : Nat) ^ (6 + 6) = 4096 by norm_num]
  apply List.map_congr_left
  intro i _
  rw [coeff_X_pow]
  norm_num

/-- C31 at the API: a setup with 4097 to 4160 G1 points, none the identity, yields a context, and for the blob of `X^63` the
context returns the right cells with proofs one of which is wrong. -/
theorem C31_context [LawfulPointCodec G1 48] (setup : SetupPoints G1 G2) (h1 : 4096 < setup.g1Monomial.length)
    (h1' : setup.g1Monomial.length ≤ 4160) (hnz : ∀ x ∈ setup.g1Monomial, x ≠ 0) (h2 : 65 ≤ setup.g2Monomial.length)
    (h3 : setup.g2Monomial.length ≤ 4096) :
    ∃ ctx, (DASContext.new setup .no : Outcome Error (DASContext K G1 G2)) = .ok ctx ∧
      ∀ blob, Spec.IsBlobPoly blob (X ^ 63) →
      ∃ cells proofs, ctx.computeCellsAndKzgProofs blob = .ok (cells, proofs) ∧
        (∀ k < 128, ∃ cell, cells[k]? = some cell ∧ Spec.IsCell (X ^ 63) k cell) ∧
        ∃ k < 128, ∃ b, proofs[k]? = some b ∧
          b ≠ toCompressed (Spec.openingProof setup.g1Monomial 13 6 (X ^ 63) k) := by
  obtain ⟨p, hp⟩ := C31_accepts (ε := Error) (K := K) setup.g1Monomial 6 6 13 (by norm_num) (by norm_num) (by norm_num) (by norm_num; omega)
    (by norm_num; omega)
  have hrs : (ReedSolomon.new FIELD_ELEMENTS_PER_BLOB EXPANSION_FACTOR CELLS_PER_EXT_BLOB : Outcome Error ReedSolomon) =
      .ok (rsOf 12 1 7) := rs_new 12 1 7 (by norm_num) (by norm_num)
  have hp' : (FK20Prover.new setup.g1Monomial FIELD_ELEMENTS_PER_BLOB FIELD_ELEMENTS_PER_CELL
      FIELD_ELEMENTS_PER_EXT_BLOB .no : Outcome Error (FK20Prover K G1)) = .ok p := hp
  have hctx : (DASContext.new setup .no : Outcome Error (DASContext K G1 G2)) =
      .ok ⟨⟨p, rsOf 12 1 7⟩, ⟨verifierOf setup.g1Monomial setup.g2Monomial⟩⟩ := by
    unfold DASContext.new
    rw [verifierContext_new setup h2 (by omega)]
    unfold ProverContext.new commitKeyNew
    rw [assertP_true (by intro h; rw [h] at h1; simp at h1)]
    simp only [Outcome.ok_bind, Outcome.pure_eq, hp', hrs]
  refine ⟨_, hctx, ?_⟩
  intro blob hf
  obtain ⟨proofs, hc, hl, P, hP, hne⟩ := long_key_wrong setup.g1Monomial (by
    intro i hi
    rw [List.getD_eq_getElem _ _ hi]
    exact hnz _ (List.getElem_mem _)) 6 6 13 (by norm_num) (by norm_num) (by norm_num) (by norm_num; omega) p hp
  obtain ⟨k0, -, -, -, -, -, -, -, hpk⟩ := prover_new_any setup.g1Monomial (6 + 6) 6 13 p hp
  have hpoly : ∀ xs, xs.length = 4096 → (∀ i < 4096, xs.getD i 0 = (X ^ 63 : Fr[X]).eval (Spec.point 12 i)) →
      (p.inputToPoly (.data xs) : Outcome Error (List Fr)) = .ok (oneAt 6 6) := by
    intro xs hx he
    have := inputToPoly_data (ε := Error) setup.g1Monomial (fun _ => .noPrecomp [] : Nat → FixedBaseMSM K G1) xs hx (X ^ 63) hf.1 he
    rw [coeffs_X63] at this
    rw [← this, hpk]
    rfl
  rcases blob_cases hf.2.1 with ⟨f', xs, hf', hx, hlen, hev⟩ | ⟨hne, -⟩
  swap
  · exact absurd ⟨_, hf⟩ hne
  have := isBlobPoly_unique hf' hf
  subst this
  have hser := serialize_of (ε := Error) (X ^ 63 : Fr[X]) proofs (by rw [hl]; norm_num)
  refine ⟨cellsOf (X ^ 63), proofs.map toCompressed, ?_, ?_, ?_⟩
  · unfold DASContext.computeCellsAndKzgProofs FK20Prover.computeMultiOpeningProofs
    rw [hx]
    simp only [Outcome.mapErr, Outcome.ok_bind]
    rw [hpoly xs hlen hev, Outcome.ok_bind, hc, Outcome.ok_bind]
    simp only
    rw [oneAt_polyOf, show 2 ^ 6 - 1 = 63 by norm_num, hser]
  · intro k hk
    exact ⟨cellOf (X ^ 63) k, by rw [cellsOf_eq, List.getElem?_map, List.getElem?_range hk, Option.map_some], (isCell_iff _ _ _).2 rfl⟩
  · obtain ⟨k, hk, rfl⟩ := List.getElem_of_mem hP
    refine ⟨k, by rw [hl] at hk; exact hk, toCompressed proofs[k], by simp [hk], ?_⟩
    rw [openingProof_small _ 13 6 (by norm_num) (by norm_num) _ (by
      rw [degree_X_pow]; norm_num)]
    intro h
    have := congrArg (fromCompressed (G := G1)) h
    rw [LawfulPointCodec.fromCompressed_toCompressed (size := 48), LawfulPointCodec.fromCompressed_toCompressed (size := 48)] at this
    exact hne (Option.some.inj this)

end

open scoped Toy

theorem Toy.long_key (n : Nat) (h : 4096 < n) (h' : n ≤ 4160) (τ : Fr) (hτ : τ ≠ 0) :
    ∃ ctx blob cells proofs, (DASContext.new ⟨(List.range n).map (τ ^ ·), (List.range 65).map (τ ^ ·)⟩ .no :
      Outcome Error (DASContext Fr Fr Fr)) = .ok ctx ∧ ctx.computeCellsAndKzgProofs blob = .ok (cells, proofs) ∧
      ∃ k < 128, ∃ b, proofs[k]? = some b ∧
          b ≠ toCompressed (Spec.openingProof ((List.range n).map (τ ^ ·)) 13 6 (X ^ 63) k) := by
  obtain ⟨ctx, h, h'⟩ := C31_context (K := Fr) (⟨(List.range n).map (τ ^ ·), (List.range 65).map (τ ^ ·)⟩ : SetupPoints Fr Fr)
    (by simpa using h) (by simpa using h') (by
      intro x hx
      obtain ⟨i, -, rfl⟩ := List.mem_map.1 hx
      exact pow_ne_zero _ hτ) (by simp) (by simp)
  obtain ⟨cells, proofs, h1, -, h2⟩ := h' (blobOf (X ^ 63)) (isBlobPoly_blobOf _ (by rw [degree_X_pow]; norm_num))
  exact ⟨ctx, _, cells, proofs, h, h1, h2⟩

/-- C31 is not vacuous: the hypotheses hold for 4100 powers of 7, and the blob of `X^63` exists. -/
example : ∃ ctx blob cells proofs, (DASContext.new ⟨(List.range 4100).map ((7 : Fr) ^ ·), (List.range 65).map ((7 : Fr) ^ ·)⟩ .no :
      Outcome Error (DASContext Fr Fr Fr)) = .ok ctx ∧ ctx.computeCellsAndKzgProofs blob = .ok (cells, proofs) ∧
      ∃ k < 128, ∃ b, proofs[k]? = some b ∧
          b ≠ toCompressed (Spec.openingProof ((List.range 4100).map ((7 : Fr) ^ ·)) 13 6 (X ^ 63) k) :=
  Toy.long_key 4100 (by norm_num) (by norm_num) 7 (by decide +kernel)

/-- C31, exact keys, is not vacuous. -/
example : ∃ p, (FK20Prover.new [(1 : Fr), 7, 49, 343] (2 ^ (0 + 2)) (2 ^ 0) (2 ^ 3) .no : Outcome Error (FK20Prover Fr Fr)) = .ok p :=
  C31_accepts _ 0 2 3 (by norm_num) (by norm_num) (by norm_num) (by simp) (by simp)

end Verif
