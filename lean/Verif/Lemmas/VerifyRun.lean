import Verif.Lemmas.VerifierApi
import Verif.Lemmas.RecoveryApi

set_option linter.unusedSectionVars false

/-! Complete case analysis of `verify_cell_kzg_proof_batch`. -/
namespace Verif
open Polynomial Finset

attribute [local irreducible] Spec.coeffs

/-! ### byte strings -/

theorem u64be_eq (v : Nat) : natToBE 8 v = Spec.u64be v := by
  unfold Spec.u64be
  simp only [natToBE, natToLE, List.range_succ, List.range_zero, List.map_cons, List.map_nil,
    List.nil_append, List.reverse_cons, List.reverse_nil, List.cons_append, Nat.div_div_eq_div_mul]
  norm_num

theorem domainSep_eq : DOMAIN_SEP = "RCKZGCBATCH__V1_".toUTF8.toList := by decide +kernel

theorem forall₂_getElem {α β : Type} {R : α → β → Prop} {l : List α} {m : List β} (h : List.Forall₂ R l m) {i : Nat}
    (hi : i < l.length) (hi' : i < m.length) : R l[i] m[i] := by
  have := (List.forall₂_iff_get.1 h).2 i hi hi'
  simpa using this

section
variable {K G1 G2 GT : Type} [Field K] [DecidableEq K] [AddCommGroup G1] [Module Fr G1] [DecidableEq G1]
  [Curve K G1] [PointCodec G1] [AddCommGroup G2] [Module Fr G2] [AddCommGroup GT] [DecidableEq GT]
  [Pairing G1 G2 GT]

/-! ### defects -/

theorem verify_wellFormed_or_defect (commitments : List (List UInt8)) (inds : List Nat) (cells proofs : List (List UInt8))
    (hc : ∀ c ∈ cells, c.length = 2048) : Spec.VerifyWellFormed G1 commitments inds cells proofs ∨
      ∃ e, Spec.VerifyDefect G1 commitments inds cells proofs e := by
  by_cases hl : commitments.length = inds.length ∧ commitments.length = cells.length ∧ commitments.length = proofs.length
  swap
  · right; exact ⟨_, .lengths hl⟩
  rcases split_range inds with hr | ⟨pre, i, post, hs, hpre, hi⟩
  swap
  · right; exact ⟨_, .range hl pre post i hs hpre hi⟩
  rcases split_points G1 commitments with hcm | ⟨pre, b, post, hs, hpre, hb⟩
  swap
  · right; exact ⟨_, .commitment hl hr pre post b hs hpre hb⟩
  rcases split_points G1 proofs with hpf | ⟨pre, b, post, hs, hpre, hb⟩
  swap
  · right; exact ⟨_, .proof hl hr hcm pre post b hs hpre hb⟩
  rcases deserializeCells_cases cells hc with ⟨evs, _, _, hcan, -⟩ | ⟨pre, c, post, i, hs, hpre, hi, hbad, hfirst, -⟩
  · left; exact ⟨hl, hr, hcm, hpf, hcan⟩
  · right; exact ⟨_, .cell hl hr hcm hpf pre post c i hs hpre hi hfirst hbad⟩

theorem verify_not_both {commitments : List (List UInt8)} {inds : List Nat} {cells proofs : List (List UInt8)} {e : Error}
    (hw : Spec.VerifyWellFormed G1 commitments inds cells proofs)
    (he : Spec.VerifyDefect G1 commitments inds cells proofs e) : False := by
  cases he with
  | lengths h => exact h hw.1
  | range h pre post k hs hpre hk => have := hw.2 k (by rw [hs]; simp); omega
  | commitment h hr pre post b hs hpre hb =>
    obtain ⟨p, hp⟩ := hw.3 b (by rw [hs]; simp)
    rw [hp] at hb; cases hb
  | proof h hr hcm pre post b hs hpre hb =>
    obtain ⟨p, hp⟩ := hw.4 b (by rw [hs]; simp)
    rw [hp] at hb; cases hb
  | cell h hr hcm hp pre post c i hs hpre hi hfirst hbad => exact canonical_not_bad hs hi hbad hw.5

theorem validate_ok {commitments : List (List UInt8)} {inds : List Nat} {cells proofs : List (List UInt8)}
    (hl : commitments.length = inds.length ∧ commitments.length = cells.length ∧ commitments.length = proofs.length)
    (hr : ∀ k ∈ inds, k < 128) :
    validateVerify commitments.eraseDups (commitments.map (fun x => commitments.eraseDups.idxOf x)) inds cells proofs =
      .ok () := by
  rw [validateVerify_tail hl, find_none_of hr]

theorem verify_defect (sha256 : List UInt8 → List UInt8) (ctx : DASContext K G1 G2) {commitments : List (List UInt8)}
    {inds : List Nat} {cells proofs : List (List UInt8)} (hc : ∀ c ∈ cells, c.length = 2048)
    (hcm : ∀ c ∈ commitments, c.length = 48) (hpf : ∀ c ∈ proofs, c.length = 48) {e : Error}
    (h : Spec.VerifyDefect G1 commitments inds cells proofs e) :
    ctx.verifyCellKzgProofBatch sha256 commitments inds cells proofs = .err e := by
  unfold DASContext.verifyCellKzgProofBatch
  rw [dedup_bytes]
  simp only
  have hdl : ∀ b ∈ commitments.eraseDups, b.length = 48 := fun b hb => hcm b ((mem_eraseDups_bytes _ _).1 hb)
  cases h with
  | lengths h =>
    rw [validateVerify_lengths h]
    rfl
  | range h pre post k hs hpre hk =>
    have : inds.find? (fun i => decide (i ≥ CELLS_PER_EXT_BLOB)) = some k := by rw [hs]; exact find_some_of hpre hk
    rw [validateVerify_tail h, this]
    rfl
  | commitment h hr pre post b hs hpre hb =>
    rw [validate_ok h hr]
    simp only [Outcome.mapErr, Outcome.ok_bind]
    have hne : cells.isEmpty = false := by
      cases cells with
      | nil => have := h.2.1; rw [hs] at this; simp at this
      | cons => rfl
    rw [hne]
    simp only [Bool.false_eq_true, if_false]
    obtain ⟨pre', post', hs', hpre'⟩ := eraseDups_split_bytes hs (fun c => ∃ p : G1, fromCompressed c = some p) hpre
      (by rintro ⟨p, hp⟩; rw [hp] at hb; cases hb)
    rw [hs', points_err (by rw [← hs']; exact hdl) hpre' hb]
    rfl
  | proof h hr hcd pre post b hs hpre hb =>
    rw [validate_ok h hr]
    simp only [Outcome.mapErr, Outcome.ok_bind]
    have hne : cells.isEmpty = false := by
      cases cells with
      | nil => have h1 := h.2.1; have h2 := h.2.2; rw [h1, hs] at h2; simp at h2
      | cons => rfl
    rw [hne]
    simp only [Bool.false_eq_true, if_false]
    obtain ⟨pts, hpts⟩ := exists_points (l := commitments.eraseDups) (G1 := G1)
      (fun b hb => hcd b ((mem_eraseDups_bytes _ _).1 hb))
    rw [points_ok hdl hpts, hs, points_err (by rw [← hs]; exact hpf) hpre hb]
    rfl
  | cell h hr hcd hpd pre post c i hs hpre hi hfirst hbad =>
    rw [validate_ok h hr]
    simp only [Outcome.mapErr, Outcome.ok_bind]
    have hne : cells.isEmpty = false := by
      cases cells with
      | nil => simp at hs
      | cons => rfl
    rw [hne]
    simp only [Bool.false_eq_true, if_false]
    obtain ⟨pts, hpts⟩ := exists_points (l := commitments.eraseDups) (G1 := G1)
      (fun b hb => hcd b ((mem_eraseDups_bytes _ _).1 hb))
    obtain ⟨pps, hpps⟩ := exists_points (l := proofs) (G1 := G1) hpd
    rw [points_ok hdl hpts, points_ok hpf hpps]
    rcases deserializeCells_cases cells hc with ⟨evs, _, _, hcan, -⟩ | ⟨pre', c', post', i', hs', hpre', hi', hbad', hfirst', herr⟩
    · exact (canonical_not_bad hs hi hbad hcan).elim
    · rw [herr, first_bad_unique hs' hs hpre' hpre hi' hi hbad' hbad hfirst' hfirst]
      rfl

/-- The empty batch is accepted. -/
theorem verify_empty (sha256 : List UInt8 → List UInt8) (ctx : DASContext K G1 G2) :
    ctx.verifyCellKzgProofBatch sha256 [] [] [] [] = .ok () := rfl

/-! ### the pairing equation -/

theorem pair_zero_left [LawfulPairing G1 G2 GT] (c : G2) : pair (0 : G1) c = (0 : GT) := by
  have := LawfulPairing.pair_add_left (GT := GT) (0 : G1) 0 c
  rw [add_zero] at this
  simpa using this

theorem pair_neg_left [LawfulPairing G1 G2 GT] (a : G1) (c : G2) : pair (-a) c = (-(pair a c) : GT) := by
  have := LawfulPairing.pair_add_left (GT := GT) (-a) a c
  rw [neg_add_cancel, pair_zero_left] at this
  exact eq_neg_of_add_eq_zero_left this.symm

theorem pair_neg_right [LawfulPairing G1 G2 GT] (a : G1) (c : G2) : pair a (-c) = (pair (-a) c : GT) := by
  have := LawfulPairing.pair_smul (GT := GT) (-1) a c
  rw [neg_smul, neg_smul, one_smul, one_smul] at this
  exact this.symm

theorem pairing_check [LawfulPairing G1 G2 GT] (t : Fr) (A B : G1) (H : G2) :
    (pair A (t • H) + pair B (-H) : GT) = pair (t • A - B) H := by
  rw [pair_neg_right, ← LawfulPairing.pair_smul, ← LawfulPairing.pair_add_left, sub_eq_add_neg]

theorem commitment_eval {g1 : List G1} {g2 : List G2} {τ : Fr} {P : G1} {H : G2} (h : Spec.PowersOfTau g1 g2 τ P H)
    (f : Fr[X]) (hf : f.degree < 4096) : Spec.commitment g1 f = f.eval τ • P := by
  have : ∀ n : Nat, g1.length = n → (∀ i < n, g1[i]? = some (τ ^ i • P)) → f.degree < n → Spec.commitment g1 f = f.eval τ • P := by
    intro n hn hg hf
    unfold Spec.commitment
    rw [hn, eval_eq_sum_range' (n := n) (by
      by_cases h0 : f = 0
      · subst h0
        rw [natDegree_zero]
        rcases Nat.eq_zero_or_pos n with h | h
        · subst h; simp at hn; have h4 := h.length_g1; rw [hn] at h4; simp at h4
        · exact h
      · exact (natDegree_lt_iff_degree_lt h0).2 hf), sum_smul]
    apply sum_congr rfl
    intro i hi
    rw [List.getD, hg i (mem_range.1 hi), Option.getD_some, mul_smul]
  exact this 4096 h.length_g1 h.g1_eq hf

theorem combined_eq (τ : Fr) (P : G1) (r : Fr) (items : List (Spec.Opening G1)) : Spec.combined τ P r items =
    ∑ i ∈ range items.length, r ^ i • (items.getD i ⟨0, 0, 0, 0⟩).defect τ P := by
  unfold Spec.combined
  rw [Finset.sum_range (n := items.length)]
  apply sum_congr rfl
  intro i _
  rw [List.getD_eq_getElem _ _ i.2]
  rfl

/-- The equation that is checked, for any setup. -/
theorem verify_run [LawfulPointCodec G1 48] (sha256 : List UInt8 → List UInt8)
    (ctx : DASContext K G1 G2) (g1 : List G1) (g2 : List G2) (h2 : 65 ≤ g2.length) (h1 : g2.length ≤ g1.length)
    (hv : ctx.verifierCtx.kzgMultipointVerifier = verifierOf g1 g2) (commitments : List (List UInt8))
    (inds : List Nat) (cells proofs : List (List UInt8))
    (hcm : ∀ c ∈ commitments, c.length = 48) (hpf : ∀ c ∈ proofs, c.length = 48) (items : List (Spec.Opening G1))
    (hd : Spec.Decodes commitments inds cells proofs items) (hne : items ≠ []) (r : Fr)
    (hrr : r = Spec.challenge sha256 commitments inds cells proofs) (it : Nat → Spec.Opening G1)
    (hite : ∀ i, it i = items.getD i ⟨0, 0, 0, 0⟩) :
    ctx.verifyCellKzgProofBatch sha256 commitments inds cells proofs =
      if pair (∑ i ∈ range items.length, r ^ i • (it i).proof) (g2.getD 64 0) +
          pair ((∑ i ∈ range items.length, r ^ i • (it i).commitment -
              ∑ i ∈ range items.length, r ^ i • Spec.commitment g1 (it i).interp) +
            ∑ i ∈ range items.length, (r ^ i * Spec.point 13 (64 * (it i).index) ^ 64) • (it i).proof) (-(g2.getD 0 0)) =
          (0 : GT)
      then .ok () else .err (.Verifier (.FK20 .InvalidProof)) := by
  obtain ⟨n, hn⟩ : ∃ n, items.length = n := ⟨_, rfl⟩
  have hlc : commitments.length = n := by rw [hd.commitments.length_eq, hn]
  have hli : inds.length = n := by rw [hd.indices.length_eq, hn]
  have hlce : cells.length = n := by rw [hd.cells.length_eq, hn]
  have hlp : proofs.length = n := by rw [hd.proofs.length_eq, hn]
  have hr : ∀ k ∈ inds, k < 128 := by
    intro k hk
    obtain ⟨i, hi, rfl⟩ := List.mem_iff_getElem.1 hk
    exact (forall₂_getElem hd.indices hi (by omega)).2
  have hc : ∀ c ∈ cells, c.length = 2048 := by
    intro k hk
    obtain ⟨i, hi, rfl⟩ := List.mem_iff_getElem.1 hk
    exact (forall₂_getElem hd.cells hi (by omega)).2.1
  have hdl : ∀ b ∈ commitments.eraseDups, b.length = 48 := fun b hb => hcm b ((mem_eraseDups_bytes _ _).1 hb)
  have hcd : ∀ b ∈ commitments, ∃ p : G1, fromCompressed b = some p := by
    intro b hb
    obtain ⟨i, hi, rfl⟩ := List.mem_iff_getElem.1 hb
    exact ⟨_, forall₂_getElem hd.commitments hi (by omega)⟩
  obtain ⟨D, hD⟩ := exists_points (l := commitments.eraseDups) (G1 := G1)
      (fun b hb => hcd b ((mem_eraseDups_bytes _ _).1 hb))
  have hpp : List.Forall₂ (fun b p => fromCompressed b = some p) proofs (items.map (·.proof)) := by
    rw [List.forall₂_map_right_iff]; exact hd.proofs
  have hev : ∃ evs, deserializeCells cells = .ok evs ∧ evs.length = n ∧ (∀ e ∈ evs, e.length = 64) ∧
      ∀ i (hi : i < cells.length) (hi' : i < evs.length), ∀ j < 64,
        Spec.Encodes (Spec.block 32 j cells[i]) (evs[i].getD j 0) := by
    rcases deserializeCells_cases cells hc with ⟨evs, h1, h2, _, h3, h4⟩ | ⟨pre, c, post, i, hs, hpre, hi, hbad, hfirst, -⟩
    · exact ⟨evs, h1, h2.trans hlce, h3, h4⟩
    · exfalso
      obtain ⟨k, hk, hke⟩ := List.mem_iff_getElem.1 (show c ∈ cells by rw [hs]; simp)
      have := (forall₂_getElem hd.cells hk (by omega)).2.2 i hi
      rw [hke] at this
      have := (exists_encodes_iff this.1).1 ⟨_, this⟩
      omega
  obtain ⟨evs, hevs, hel, he64, hee⟩ := hev
  let rows := commitments.map (fun x => commitments.eraseDups.idxOf x)
  have hrl : rows.length = n := by simp [rows, hlc]
  have hDl : D.length = commitments.eraseDups.length := hD.length_eq.symm
  unfold DASContext.verifyCellKzgProofBatch
  rw [dedup_bytes]
  simp only
  rw [validate_ok ⟨by omega, by omega, by omega⟩ hr]
  have hcne : cells.isEmpty = false := by
    cases cells with
    | nil => simp at hlce; subst hlce; exact absurd (List.length_eq_zero_iff.1 hn) hne
    | cons => rfl
  rw [hcne]
  simp only [Outcome.mapErr, Outcome.ok_bind, Bool.false_eq_true, if_false]
  rw [points_ok hdl hD, points_ok hpf hpp, hevs]
  simp only [Outcome.ok_bind]
  have hit : ∀ i (hi : i < n), it i = items[i]'(by omega) := fun i hi => by
    rw [hite]; exact List.getD_eq_getElem _ _ (by omega)
  have hinds : ∀ i < n, inds.getD i 0 = (it i).index := by
    intro i hi
    rw [List.getD_eq_getElem _ _ (by omega), hit i hi]
    exact (forall₂_getElem hd.indices (by omega) (by omega)).1
  have hproofs : ∀ i < n, (items.map (·.proof)).getD i 0 = (it i).proof := by
    intro i hi
    rw [List.getD_eq_getElem _ _ (by simp; omega), hit i hi, List.getElem_map]
  have hcell : ∀ i (hi : i < n), (it i).interp.degree < 64 ∧ Spec.IsCell (it i).interp (it i).index (cells[i]'(by omega)) := by
    intro i hi
    rw [hit i hi]
    exact forall₂_getElem hd.cells (by omega) (by omega)
  have hrow : ∀ i (hi : i < n), rows.getD i 0 = commitments.eraseDups.idxOf (commitments[i]'(by omega)) := by
    intro i hi
    rw [List.getD_eq_getElem _ _ (by omega)]
    simp [rows]
  have hcom : ∀ i < n, D.getD (rows.getD i 0) 0 = (it i).commitment := by
    intro i hi
    have hlt : commitments.eraseDups.idxOf (commitments[i]'(by omega)) < commitments.eraseDups.length :=
      List.idxOf_lt_length_iff.2 ((mem_eraseDups_bytes _ _).2 (List.getElem_mem _))
    rw [hrow i hi, List.getD_eq_getElem _ _ (by omega), hit i hi]
    have h1 := forall₂_getElem hD hlt (by omega)
    rw [List.getElem_idxOf hlt] at h1
    have h2 := forall₂_getElem hd.commitments (i := i) (by omega) (by omega)
    rw [h1] at h2
    exact Option.some.inj h2
  have hI : ∀ i < n, Interp (inds.getD i 0) (evs.getD i []) (it i).interp := by
    intro i hi
    refine ⟨(hcell i hi).1, ?_⟩
    intro j hj
    have h1 := (hcell i hi).2.2 j hj
    have h2 := hee i (by omega) (by omega) j hj
    rw [hinds i hi, List.getD_eq_getElem evs [] (by omega)]
    exact encodes_inj h1 h2
  have htr : transcriptOf (verifierOf g1 g2).verificationKey D rows inds evs (items.map (·.proof)) =
      Spec.challengeInput commitments inds cells proofs := by
    unfold transcriptOf Spec.challengeInput
    simp only [u64be_eq, domainSep_eq]
    have hk1 : (verifierOf g1 g2).verificationKey.numCoefficientsInPolynomial = 4096 := rfl
    have hk2 : (verifierOf g1 g2).verificationKey.cosetSize = 64 := rfl
    rw [hk1, hk2, hDl]
    have hm : D.map toCompressed = commitments.eraseDups := by
      refine List.ext_getElem (by simp [hDl]) ?_
      intro i h1 h2
      rw [List.getElem_map]
      exact LawfulPointCodec.toCompressed_fromCompressed _ _ (hdl _ (List.getElem_mem _)) (forall₂_getElem hD h2 (by simpa using h1))
    rw [hm]
    congr 2
    refine List.ext_getElem (by simp; omega) ?_
    intro i h1 h2
    have hi : i < n := by simpa [hli] using h1
    rw [List.getElem_map, List.getElem_map, List.getElem_range]
    simp only [List.getElem_zip]
    unfold itemBytes
    rw [hrow i hi, List.getD_eq_getElem inds _ (by omega), hproofs i hi, u64be_eq, u64be_eq]
    have hp1 : toCompressed (it i).proof = proofs[i]'(by omega) := by
      rw [hit i hi]
      exact LawfulPointCodec.toCompressed_fromCompressed _ _ (hpf _ (List.getElem_mem _))
        (forall₂_getElem hd.proofs (by omega) (by omega))
    have hc1 : ((evs.getD i []).map scalarToBytesBE).flatten = cells[i]'(by omega) := by
      rw [List.getD_eq_getElem _ _ (by omega)]
      have h64 := he64 _ (List.getElem_mem (l := evs) (n := i) (by omega))
      rw [← flatten_blocks 32 64 (cells[i]'(by omega)) (hc _ (List.getElem_mem _))]
      congr 1
      refine List.ext_getElem (by simp [h64]) ?_
      intro j h1 h2
      have hj : j < 64 := by simpa using h2
      have := hee i (by omega) (by omega) j hj
      rw [List.getElem_map, List.getElem_map, List.getElem_range, encodes_iff.1 this,
        List.getD_eq_getElem _ _ (by omega)]
    rw [hp1, hc1]
  have hch : Spec.challenge sha256 commitments inds cells proofs = reduceBytesToScalarBias
      (sha256 (transcriptOf (verifierOf g1 g2).verificationKey D rows inds evs (items.map (·.proof)))) := by
    rw [htr]
    unfold Spec.challenge reduceBytesToScalarBias
    rw [beToNat_eq]
  rw [← hrr] at hch
  rw [hv]
  have hrun := verifyMultiOpening_eq (GT := GT) sha256 g1 g2 h2 h1 D rows inds evs
    (items.map (·.proof)) n hrl hli hel (by simp [hn]) (by
      intro i hi
      rw [hDl]
      exact rows_lt commitments i hi) hr he64 (fun i => (it i).interp) hI r (by rw [hch])
  have e1 : ∑ i ∈ range n, r ^ i • (items.map (·.proof)).getD i 0 = ∑ i ∈ range n, r ^ i • (it i).proof :=
    sum_congr rfl (fun i hi => by rw [hproofs i (mem_range.1 hi)])
  have e2 : ∑ i ∈ range n, r ^ i • D.getD (rows.getD i 0) 0 = ∑ i ∈ range n, r ^ i • (it i).commitment :=
    sum_congr rfl (fun i hi => by rw [hcom i (mem_range.1 hi)])
  have e3 : ∑ i ∈ range n, (r ^ i * Spec.point 13 (64 * inds.getD i 0) ^ 64) • (items.map (·.proof)).getD i 0 =
      ∑ i ∈ range n, (r ^ i * Spec.point 13 (64 * (it i).index) ^ 64) • (it i).proof :=
    sum_congr rfl (fun i hi => by rw [hproofs i (mem_range.1 hi), hinds i (mem_range.1 hi)])
  rw [e1, e2, e3] at hrun
  rw [hrun, hn]
  split_ifs <;> rfl

theorem verify_decodes [LawfulPointCodec G1 48] [LawfulPairing G1 G2 GT] (sha256 : List UInt8 → List UInt8)
    (ctx : DASContext K G1 G2) (g1 : List G1) (g2 : List G2)
    (hv : ctx.verifierCtx.kzgMultipointVerifier = verifierOf g1 g2) (τ : Fr) (P : G1) (H : G2)
    (hpt : Spec.PowersOfTau g1 g2 τ P H) (commitments : List (List UInt8))
    (inds : List Nat) (cells proofs : List (List UInt8))
    (hcm : ∀ c ∈ commitments, c.length = 48) (hpf : ∀ c ∈ proofs, c.length = 48) (items : List (Spec.Opening G1))
    (hd : Spec.Decodes commitments inds cells proofs items) (hne : items ≠ []) :
    ctx.verifyCellKzgProofBatch sha256 commitments inds cells proofs =
      if pair (Spec.combined τ P (Spec.challenge sha256 commitments inds cells proofs) items) H = (0 : GT)
      then .ok () else .err (.Verifier (.FK20 .InvalidProof)) := by
  obtain ⟨it, hite⟩ : ∃ it : Nat → Spec.Opening G1, ∀ i, it i = items.getD i ⟨0, 0, 0, 0⟩ := ⟨_, fun _ => rfl⟩
  have hg2l := hpt.length_g2
  obtain ⟨r, hr⟩ : ∃ r, r = Spec.challenge sha256 commitments inds cells proofs := ⟨_, rfl⟩
  rw [← hr, verify_run (GT := GT) sha256 ctx g1 g2 (by omega) (by rw [hpt.length_g1]; omega) hv commitments inds cells proofs
    hcm hpf items hd hne r hr it hite]
  have e64 : g2.getD 64 0 = τ ^ 64 • H := by rw [List.getD, hpt.g2_eq 64 (by omega), Option.getD_some]
  have e0 : g2.getD 0 0 = H := by rw [List.getD, hpt.g2_eq 0 (by omega), Option.getD_some, pow_zero, one_smul]
  rw [e64, e0, pairing_check]
  have hcomb : τ ^ 64 • ∑ i ∈ range items.length, r ^ i • (it i).proof -
      (∑ i ∈ range items.length, r ^ i • (it i).commitment -
          ∑ i ∈ range items.length, r ^ i • Spec.commitment g1 (it i).interp +
        ∑ i ∈ range items.length, (r ^ i * Spec.point 13 (64 * (it i).index) ^ 64) • (it i).proof) =
      Spec.combined τ P r items := by
    rw [combined_eq τ P r items, smul_sum, ← sum_sub_distrib, ← sum_add_distrib, ← sum_sub_distrib]
    apply sum_congr rfl
    intro i hi
    have hi := mem_range.1 hi
    have hdeg : (it i).interp.degree < 64 := by
      rw [hite, List.getD_eq_getElem _ _ hi]
      exact (forall₂_getElem hd.cells (by rw [hd.cells.length_eq]; exact hi) hi).1
    rw [commitment_eval hpt _ (lt_trans hdeg (by norm_num)), ← hite]
    unfold Spec.Opening.defect
    generalize (it i).proof = π
    generalize (it i).commitment = c
    module
  rw [hcomb]

/-- A context exists only if the number of G2 points is in range. -/
theorem context_verifier {ε : Type} (setup : SetupPoints G1 G2) (up : UsePrecomp) (h1 : setup.g1Monomial.length = 4096)
    (ctx : DASContext K G1 G2) (h : (DASContext.new setup up : Outcome ε (DASContext K G1 G2)) = .ok ctx) :
    65 ≤ setup.g2Monomial.length ∧ setup.g2Monomial.length ≤ 4096 ∧
      ctx.verifierCtx.kzgMultipointVerifier = verifierOf setup.g1Monomial setup.g2Monomial := by
  obtain ⟨M, -, -, -, hv⟩ := context_fields setup up h1 ctx h
  have hb : 65 ≤ setup.g2Monomial.length ∧ setup.g2Monomial.length ≤ setup.g1Monomial.length := by
    have hv' := hv
    unfold VerifierContext.new verificationKeyOfSetup VerificationKey.new at hv'
    simp only [bind_eq_ok, Outcome.pure_eq, assertP_eq_ok] at hv'
    obtain ⟨vk, ⟨g1s, hs, g2, hg2, -, hlen, -⟩, -⟩ := hv'
    refine ⟨hlen, ?_⟩
    unfold slice at hs
    split_ifs at hs with hc
    exact hc.2
  rw [verifierContext_new setup hb.1 hb.2] at hv
  refine ⟨hb.1, by omega, ?_⟩
  rw [← Outcome.ok.inj hv]

/-- A well-formed batch denotes a list of claims. -/
theorem exists_items {commitments : List (List UInt8)} {inds : List Nat} {cells proofs : List (List UInt8)}
    (hc : ∀ c ∈ cells, c.length = 2048) (hw : Spec.VerifyWellFormed G1 commitments inds cells proofs) :
    ∃ items : List (Spec.Opening G1), Spec.Decodes commitments inds cells proofs items := by
  obtain ⟨n, hn⟩ : ∃ n, commitments.length = n := ⟨_, rfl⟩
  obtain ⟨hl1, hl2, hl3⟩ := hw.lengths
  rw [hn] at hl1 hl2 hl3
  have hI : ∀ (k : Nat) (c : List UInt8), c.length = 2048 → Spec.Canonical 64 c → ∃ I : Fr[X], I.degree < 64 ∧ Spec.IsCell I k c := by
    intro k c hcl hcan
    have hx : ∀ j, ∃ x : Fr, j < 64 → Spec.Encodes (Spec.block 32 j c) x := by
      intro j
      by_cases hj : j < 64
      · obtain ⟨x, hx⟩ := (exists_encodes_iff (length_block_of (n := 64) hcl hj)).2 (hcan j hj)
        exact ⟨x, fun _ => hx⟩
      · exact ⟨0, fun h => absurd h hj⟩
    choose x hx using hx
    obtain ⟨I, hI1, hI2⟩ := exists_Interp k ((List.range 64).map x)
    refine ⟨I, hI1, hcl, ?_⟩
    intro j hj
    rw [hI2 j hj, (rep_map_range 64 x).getD 0 hj]
    exact hx j hj
  have hex : ∀ i, ∃ o : Spec.Opening G1, ∀ (hi : i < n), fromCompressed (commitments[i]'(by omega)) = some o.commitment ∧
      ((inds[i]'(by omega)) = o.index ∧ (inds[i]'(by omega)) < 128) ∧
      (o.interp.degree < 64 ∧ Spec.IsCell o.interp o.index (cells[i]'(by omega))) ∧
      fromCompressed (proofs[i]'(by omega)) = some o.proof := by
    intro i
    by_cases hi : i < n
    · obtain ⟨c, hc1⟩ := hw.commitments _ (List.getElem_mem (l := commitments) (n := i) (by omega))
      obtain ⟨p, hp1⟩ := hw.proofs _ (List.getElem_mem (l := proofs) (n := i) (by omega))
      obtain ⟨I, h1, h2⟩ := hI (inds[i]'(by omega)) _ (hc _ (List.getElem_mem (l := cells) (n := i) (by omega)))
        (hw.cells _ (List.getElem_mem (l := cells) (n := i) (by omega)))
      exact ⟨⟨c, inds[i]'(by omega), I, p⟩, fun _ => ⟨hc1, ⟨rfl, hw.inRange _ (List.getElem_mem _)⟩, ⟨h1, h2⟩, hp1⟩⟩
    · exact ⟨⟨0, 0, 0, 0⟩, fun h => absurd h hi⟩
  choose o ho using hex
  refine ⟨(List.range n).map o, ?_, ?_, ?_, ?_⟩ <;> rw [List.forall₂_iff_get] <;>
    refine ⟨by simp; omega, ?_⟩ <;> intro i h1 h2 <;>
    simp only [List.get_eq_getElem, List.getElem_map, List.getElem_range]
  · exact (ho i (by omega)).1
  · exact (ho i (by omega)).2.1
  · exact (ho i (by omega)).2.2.1
  · exact (ho i (by omega)).2.2.2

end
end Verif
