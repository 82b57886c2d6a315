import Verif.Lemmas.VerifyRun
import Verif.Lemmas.PrecompPanic
import Verif.Model.WordSize
import Verif.Spec.WordSize

set_option linter.unusedSectionVars false

/-! Platform arithmetic that does not overflow. -/
namespace Verif

theorem Platform.asUsize_of_lt (m : Platform) {n : Nat} (h : n < 2 ^ m.bits) : m.asUsize n = n := Nat.mod_eq_of_lt h

theorem Platform.usize_of_lt {ε : Type} (m : Platform) {n : Nat} (h : n < 2 ^ m.bits) : (m.usize n : Outcome ε Nat) = .ok n := by
  simp [Platform.usize, h]

theorem Platform.map_asUsize (m : Platform) {l : List Nat} (h : ∀ i ∈ l, i < 2 ^ m.bits) : l.map m.asUsize = l := by
  conv_rhs => rw [← List.map_id l]
  exact List.map_congr_left fun i hi => m.asUsize_of_lt (h i hi)

theorem foldlM_congr' {ε σ α : Type} {f g : σ → α → Outcome ε σ} {l : List α} (h : ∀ x ∈ l, ∀ s, f s x = g s x) (s : σ) :
    l.foldlM f s = l.foldlM g s := by
  induction l generalizing s with
  | nil => rfl
  | cons a l ih =>
    rw [List.foldlM_cons, List.foldlM_cons, h a (by simp)]
    cases g s a with
    | ok b => exact ih (fun x hx => h x (by simp [hx])) b
    | err e => rfl
    | panic => rfl

theorem hashInputSizeOn_eq {ε : Type} (m : Platform) (cosetSize c r k e p : Nat)
    (h : DOMAIN_SEP.length + 8 + 8 + 8 + 8 + c * 48 + r * 8 + k * 8 + e * cosetSize * 32 + p * 48 < 2 ^ m.bits) :
    (hashInputSizeOn m cosetSize c r k e p : Outcome ε Nat) =
      .ok (DOMAIN_SEP.length + 8 + 8 + 8 + 8 + c * 48 + r * 8 + k * 8 + e * cosetSize * 32 + p * 48) := by
  unfold hashInputSizeOn Platform.add Platform.mul
  rw [m.usize_of_lt (by omega), Outcome.ok_bind, m.usize_of_lt (by omega), Outcome.ok_bind, m.usize_of_lt (by omega),
    Outcome.ok_bind, m.usize_of_lt (by omega), Outcome.ok_bind, m.usize_of_lt (by omega), Outcome.ok_bind,
    m.usize_of_lt (by omega), Outcome.ok_bind, m.usize_of_lt (by omega), Outcome.ok_bind, m.usize_of_lt (by omega),
    Outcome.ok_bind, m.usize_of_lt (by omega), Outcome.ok_bind, m.usize_of_lt (by omega), Outcome.ok_bind,
    m.usize_of_lt (by omega), Outcome.ok_bind, m.usize_of_lt (by omega), Outcome.ok_bind, m.usize_of_lt (by omega),
    Outcome.ok_bind, m.usize_of_lt (by omega), Outcome.ok_bind, m.usize_of_lt (by omega)]

section
variable {K G1 G2 GT : Type} [Field K] [DecidableEq K] [AddCommGroup G1] [Module Fr G1] [DecidableEq G1]
  [Curve K G1] [PointCodec G1] [AddCommGroup G2] [Module Fr G2] [AddCommGroup GT] [DecidableEq GT]
  [Pairing G1 G2 GT]

theorem fiatShamirHashInputOn_eq {ε : Type} (m : Platform) (vk : VerificationKey G1 G2) (rowCommitments : List G1)
    (rowIndices cosetIndices : List Nat) (cosetEvals : List (List Fr)) (proofs : List G1)
    (h : DOMAIN_SEP.length + 8 + 8 + 8 + 8 + rowCommitments.length * 48 + rowIndices.length * 8 + cosetIndices.length * 8 +
      cosetEvals.length * vk.cosetSize * 32 + proofs.length * 48 < 2 ^ m.bits) :
    (fiatShamirHashInputOn m vk rowCommitments rowIndices cosetIndices cosetEvals proofs : Outcome ε _) =
      fiatShamirHashInput vk rowCommitments rowIndices cosetIndices cosetEvals proofs := by
  unfold fiatShamirHashInputOn fiatShamirHashInput
  rw [hashInputSizeOn_eq m _ _ _ _ _ _ h, Outcome.ok_bind]
  rw [mapM_congr' (f := fun k => transcriptItem rowIndices cosetIndices cosetEvals proofs (m.asUsize k))
    (g := transcriptItem rowIndices cosetIndices cosetEvals proofs)]
  intro k hk
  rw [m.asUsize_of_lt]
  have := List.mem_range.1 hk
  omega

theorem Platform.usize_cases {ε : Type} (m : Platform) (n : Nat) :
    (∃ k, (m.usize n : Outcome ε Nat) = .ok k) ∨ (m.usize n : Outcome ε Nat) = .panic := by
  unfold Platform.usize
  split_ifs
  · exact .inl ⟨n, rfl⟩
  · exact .inr rfl
  · exact .inl ⟨_, rfl⟩

theorem Platform.bind_cases {ε β : Type} (m : Platform) (n : Nat) (f : Nat → Outcome ε β)
    (h : ∀ k, (∃ b, f k = .ok b) ∨ f k = .panic) :
    (∃ b, (m.usize n : Outcome ε Nat) >>= f = .ok b) ∨ (m.usize n : Outcome ε Nat) >>= f = .panic := by
  rcases m.usize_cases (ε := ε) n with ⟨k, hk⟩ | hk
  · rw [hk]; exact h k
  · rw [hk]; exact .inr rfl

theorem hashInputSizeOn_cases {ε : Type} (m : Platform) (cosetSize c r k e p : Nat) :
    (∃ s, (hashInputSizeOn m cosetSize c r k e p : Outcome ε Nat) = .ok s) ∨
      (hashInputSizeOn m cosetSize c r k e p : Outcome ε Nat) = .panic := by
  unfold hashInputSizeOn Platform.add Platform.mul
  iterate 14 refine m.bind_cases _ _ fun _ => ?_
  exact m.usize_cases _

/-- Without the bound on the memory: the same bytes, or a panic. -/
theorem fiatShamirHashInputOn_cases {ε : Type} (m : Platform) (vk : VerificationKey G1 G2) (rowCommitments : List G1)
    (rowIndices cosetIndices : List Nat) (cosetEvals : List (List Fr)) (proofs : List G1) (b : List UInt8)
    (h : cosetIndices.length ≤ 2 ^ m.bits)
    (hok : (fiatShamirHashInput vk rowCommitments rowIndices cosetIndices cosetEvals proofs : Outcome ε _) = .ok b) :
    (fiatShamirHashInputOn m vk rowCommitments rowIndices cosetIndices cosetEvals proofs : Outcome ε _) = .ok b ∨
    (fiatShamirHashInputOn m vk rowCommitments rowIndices cosetIndices cosetEvals proofs : Outcome ε _) = .panic := by
  unfold fiatShamirHashInputOn
  rw [mapM_congr' (f := fun k => transcriptItem rowIndices cosetIndices cosetEvals proofs (m.asUsize k))
    (g := transcriptItem rowIndices cosetIndices cosetEvals proofs)]
  · rcases hashInputSizeOn_cases (ε := ε) m vk.cosetSize rowCommitments.length rowIndices.length cosetIndices.length
      cosetEvals.length proofs.length with ⟨s, hs⟩ | hs
    · rw [hs, Outcome.ok_bind]
      unfold fiatShamirHashInput at hok
      simp only [bind_eq_ok, Outcome.pure_eq, assertP_eq_ok] at hok
      obtain ⟨items, hi, -, -, hb⟩ := hok
      rw [hi, Outcome.ok_bind]
      dsimp only
      rw [Outcome.ok.inj hb]
      unfold assertP
      split_ifs
      · exact .inl rfl
      · exact .inr rfl
    · rw [hs]
      exact .inr rfl
  · intro k hk
    rw [m.asUsize_of_lt]
    have := List.mem_range.1 hk
    omega

theorem weightedRPowersOn_eq {ε : Type} (m : Platform) (gens : List Fr) (inds : List Nat) (hinds : ∀ i ∈ inds, i < 2 ^ m.bits)
    (rp : List Fr) : (weightedRPowersOn m gens inds rp : Outcome ε _) = weightedRPowers gens inds rp := by
  unfold weightedRPowersOn weightedRPowers
  apply mapM_congr'
  rintro ⟨i, s⟩ hx
  rw [m.asUsize_of_lt (hinds i (List.of_mem_zip hx).1)]

theorem commitmentWeightsOn_eq {ε : Type} (m : Platform) (rows : List Nat) (hrows : ∀ i ∈ rows, i < 2 ^ m.bits) (n : Nat)
    (rp : List Fr) : (commitmentWeightsOn m n rows rp : Outcome ε _) = commitmentWeights n rows rp := by
  unfold commitmentWeightsOn commitmentWeights
  apply foldlM_congr'
  rintro ⟨i, s⟩ hx st
  rw [m.asUsize_of_lt (hrows i (List.of_mem_zip hx).1)]

theorem computeSumInterpolationPolyOn_eq {ε : Type} (m : Platform) (dom : Domain) (gens : List CosetFFT) (evals : List (List Fr))
    (inds : List Nat) (hinds : ∀ i ∈ inds, i < 2 ^ m.bits) (rp : List Fr) :
    (computeSumInterpolationPolyOn m dom gens evals inds rp : Outcome ε _) =
      computeSumInterpolationPoly dom gens evals inds rp := by
  unfold computeSumInterpolationPolyOn computeSumInterpolationPoly
  apply foldlM_congr'
  rintro ⟨⟨e, i⟩, s⟩ hx st
  unfold sumInterpolationStepOn sumInterpolationStep
  rw [m.asUsize_of_lt (hinds i (List.of_mem_zip (List.of_mem_zip hx).1).2)]

theorem verifyMultiOpeningOn_eq (m : Platform) (sha256 : List UInt8 → List UInt8) (v : FK20Verifier G1 G2)
    (dedup : List G1) (rows inds : List Nat) (evals : List (List Fr)) (proofs : List G1)
    (hrows : ∀ i ∈ rows, i < 2 ^ m.bits) (hinds : ∀ i ∈ inds, i < 2 ^ m.bits)
    (h : DOMAIN_SEP.length + 8 + 8 + 8 + 8 + dedup.length * 48 + rows.length * 8 + inds.length * 8 +
      evals.length * v.verificationKey.cosetSize * 32 + proofs.length * 48 < 2 ^ m.bits) :
    v.verifyMultiOpeningOn m sha256 dedup rows inds evals proofs = v.verifyMultiOpening sha256 dedup rows inds evals proofs := by
  unfold FK20Verifier.verifyMultiOpeningOn FK20Verifier.verifyMultiOpening computeFiatShamirChallenge
  simp only [weightedRPowersOn_eq m _ _ hinds, commitmentWeightsOn_eq m _ hrows, computeSumInterpolationPolyOn_eq m _ _ _ _ hinds,
    fiatShamirHashInputOn_eq m _ _ _ _ _ _ h, bind_assoc, Outcome.pure_eq, Outcome.ok_bind]

theorem verifyMultiOpeningOn_cases [LawfulPointCodec G1 48] (m : Platform) (sha256 : List UInt8 → List UInt8)
    (v : FK20Verifier G1 G2) (dedup : List G1) (rows inds : List Nat) (evals : List (List Fr)) (proofs : List G1)
    (hrows : ∀ i ∈ rows, i < 2 ^ m.bits) (hinds : ∀ i ∈ inds, i < 2 ^ m.bits) (hlen : inds.length ≤ 2 ^ m.bits)
    (hev : ∀ e ∈ evals, e.length = v.verificationKey.cosetSize) :
    v.verifyMultiOpeningOn m sha256 dedup rows inds evals proofs = v.verifyMultiOpening sha256 dedup rows inds evals proofs ∨
    v.verifyMultiOpeningOn m sha256 dedup rows inds evals proofs = .panic := by
  unfold FK20Verifier.verifyMultiOpeningOn FK20Verifier.verifyMultiOpening computeFiatShamirChallenge
  by_cases h1 : rows.length = proofs.length
  swap
  · exact .inr (by simp [assertP, h1])
  by_cases h2 : inds.length = proofs.length
  swap
  · exact .inr (by simp [assertP, h1, h2])
  by_cases h3 : evals.length = proofs.length
  swap
  · exact .inr (by simp [assertP, h1, h2, h3])
  have hok := fiatShamirHashInput_eq (ε := FK20VerifierError) v.verificationKey dedup rows inds evals proofs _ h1 h2 h3 rfl hev
  rw [hok]
  rw [assertP_true h1, assertP_true h2, assertP_true h3]
  rcases fiatShamirHashInputOn_cases m _ _ _ _ _ _ _ hlen hok with h | h
  · left
    simp only [weightedRPowersOn_eq m _ _ hinds, commitmentWeightsOn_eq m _ hrows,
      computeSumInterpolationPolyOn_eq m _ _ _ _ hinds, h, Outcome.pure_eq, Outcome.ok_bind]
  · right
    rw [h]
    rfl

theorem lt_of_find_none {inds : List Nat} {n : Nat} (h : inds.find? (fun i => decide (i ≥ n)) = none) : ∀ i ∈ inds, i < n := by
  intro i hi
  have := List.find?_eq_none.1 h i hi
  simp at this
  exact this

theorem validateRecover_lt {inds : List Nat} {cells : List (List UInt8)} (h : validateRecover inds cells = .ok ()) :
    ∀ i ∈ inds, i < 128 := by
  unfold validateRecover at h
  split at h
  · cases h
  · split at h
    · cases h
    · rename_i hf
      exact lt_of_find_none hf

theorem eraseDups_length_bytes (l : List (List UInt8)) : l.eraseDups.length = l.dedup.length := by
  have hnd : l.eraseDups.Nodup := by
    have := eraseDups_order l
    rw [beq_bytes] at this
    exact this.imp (fun hab e => by rw [e] at hab; exact lt_irrefl _ hab)
  exact ((List.perm_ext_iff_of_nodup hnd l.nodup_dedup).2 fun x => by rw [mem_eraseDups_bytes, List.mem_dedup]).length_eq

theorem recoverPolynomialCoeffOn_eq (m : Platform) (hm : 7 ≤ m.bits) (rs : ReedSolomon) (inds : List Nat)
    (cells : List (List UInt8)) : recoverPolynomialCoeffOn m rs inds cells = recoverPolynomialCoeff rs inds cells := by
  unfold recoverPolynomialCoeffOn recoverPolynomialCoeff
  rcases hv : validateRecover inds cells with _ | _ | _
  · have hlt := validateRecover_lt hv
    rw [m.map_asUsize (fun i hi => lt_of_lt_of_le (hlt i hi) (Nat.pow_le_pow_right (n := 2) (by norm_num) hm))]
  · rfl
  · rfl

theorem verifyCellKzgProofBatchOn_eq (m : Platform) (hm : 7 ≤ m.bits) (sha256 : List UInt8 → List UInt8)
    (ctx : DASContext K G1 G2) (h64 : ctx.verifierCtx.kzgMultipointVerifier.verificationKey.cosetSize = 64)
    (commitments : List (List UInt8)) (inds : List Nat) (cells proofs : List (List UInt8))
    (hr : Spec.Resident m.bits commitments inds cells proofs) :
    ctx.verifyCellKzgProofBatchOn m sha256 commitments inds cells proofs =
      ctx.verifyCellKzgProofBatch sha256 commitments inds cells proofs := by
  unfold DASContext.verifyCellKzgProofBatchOn DASContext.verifyCellKzgProofBatch
  rw [dedup_bytes]
  dsimp only
  by_cases hl : commitments.length = inds.length ∧ commitments.length = cells.length ∧ commitments.length = proofs.length
  · rw [validateVerify_tail hl]
    rcases hf : inds.find? (fun i => decide (i ≥ CELLS_PER_EXT_BLOB)) with _ | i
    · have hlt := lt_of_find_none hf
      show (if cells.isEmpty then _ else _) = (if cells.isEmpty then _ else _)
      rcases cells with _ | ⟨c, cells⟩
      · rfl
      · rw [if_neg (by simp), if_neg (by simp)]
        rcases hc : (deserializeCompressedG1Points commitments.eraseDups : SerOutcome (List G1)) with cs | e | _
        · rcases hp : (deserializeCompressedG1Points proofs : SerOutcome (List G1)) with ps | e | _
          · rcases he : deserializeCells (c :: cells) with es | e | _
            · have hcl : cs.length = commitments.eraseDups.length := mapM_length hc
              have hpl : ps.length = proofs.length := mapM_length hp
              have hel : es.length = (c :: cells).length := mapM_length he
              have hrow := rows_lt commitments
              unfold Spec.Resident at hr
              rw [← eraseDups_length_bytes] at hr
              have hpos : 0 < (c :: cells).length := by simp
              have hne : 0 < commitments.eraseDups.length := by
                rcases commitments with _ | ⟨d, ds⟩
                · simp at hl
                · exact List.length_pos_of_mem ((mem_eraseDups_bytes _ d).2 (by simp))
              generalize commitments.eraseDups.length = k at *
              generalize (c :: cells).length = n at *
              show Outcome.mapErr _ (FK20Verifier.verifyMultiOpeningOn _ _ _ _ _ _ _ _) = Outcome.mapErr _ _
              rw [verifyMultiOpeningOn_eq m sha256 _ cs _ inds es ps]
              · intro i hi
                have := hrow i hi
                omega
              · intro i hi
                exact lt_of_lt_of_le (hlt i hi) (Nat.pow_le_pow_right (n := 2) (by norm_num) hm)
              · rw [h64, hcl, hpl, hel, List.length_map]
                have : DOMAIN_SEP.length = 16 := by decide
                omega
            · rfl
            · rfl
          · rfl
          · rfl
        · rfl
        · rfl
    · rfl
  · rw [validateVerify_lengths hl]
    rfl

theorem verifyCellKzgProofBatchOn_cases [LawfulPointCodec G1 48] (m : Platform) (hm : 7 ≤ m.bits) (sha256 : List UInt8 → List UInt8)
    (ctx : DASContext K G1 G2) (h64 : ctx.verifierCtx.kzgMultipointVerifier.verificationKey.cosetSize = 64)
    (commitments : List (List UInt8)) (inds : List Nat) (cells proofs : List (List UInt8))
    (hcell : ∀ c ∈ cells, c.length = 2048) (hlen : inds.length ≤ 2 ^ m.bits) :
    ctx.verifyCellKzgProofBatchOn m sha256 commitments inds cells proofs =
      ctx.verifyCellKzgProofBatch sha256 commitments inds cells proofs ∨
    ctx.verifyCellKzgProofBatchOn m sha256 commitments inds cells proofs = .panic := by
  unfold DASContext.verifyCellKzgProofBatchOn DASContext.verifyCellKzgProofBatch
  rw [dedup_bytes]
  dsimp only
  by_cases hl : commitments.length = inds.length ∧ commitments.length = cells.length ∧ commitments.length = proofs.length
  · rw [validateVerify_tail hl]
    rcases hf : inds.find? (fun i => decide (i ≥ CELLS_PER_EXT_BLOB)) with _ | i
    · have hlt := lt_of_find_none hf
      show (if cells.isEmpty then _ else _) = (if cells.isEmpty then _ else _) ∨ (if cells.isEmpty then _ else _) = _
      by_cases hemp : cells.isEmpty = true
      · rw [if_pos hemp, if_pos hemp]
        exact .inl rfl
      · rw [if_neg hemp, if_neg hemp]
        rcases hc : (deserializeCompressedG1Points commitments.eraseDups : SerOutcome (List G1)) with cs | e | _
        · rcases hp : (deserializeCompressedG1Points proofs : SerOutcome (List G1)) with ps | e | _
          · rcases deserializeCells_cases cells hcell with ⟨es, he, -, -, he64, -⟩ | ⟨_, _, _, _, _, _, _, _, _, he⟩
            · rw [he]
              have hrow := rows_lt commitments
              have hle : commitments.eraseDups.length ≤ commitments.length := by
                rw [eraseDups_length_bytes]; exact (List.dedup_sublist _).length_le
              rcases verifyMultiOpeningOn_cases m sha256 ctx.verifierCtx.kzgMultipointVerifier cs
                (commitments.map fun x => commitments.eraseDups.idxOf x) inds es ps (fun i hi => by
                  have := hrow i hi
                  omega) (fun i hi => lt_of_lt_of_le (hlt i hi) (Nat.pow_le_pow_right (n := 2) (by norm_num) hm)) hlen
                  (fun e h => by rw [h64]; exact he64 e h) with h | h
              · exact .inl (congrArg (Outcome.mapErr _) h)
              · exact .inr (congrArg (Outcome.mapErr _) h)
            · rw [he]; exact .inl rfl
          · exact .inl rfl
          · exact .inl rfl
        · exact .inl rfl
        · exact .inl rfl
    · exact .inl rfl
  · rw [validateVerify_lengths hl]
    exact .inl rfl

end
end Verif
