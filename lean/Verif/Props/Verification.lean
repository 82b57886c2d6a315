import Verif.Props.Proofs
import Mathlib.LinearAlgebra.Dual.Lemmas

set_option linter.unusedSectionVars false

/-! C06, C07, C08, C13, C14, C15: what `verify_cell_kzg_proof_batch` accepts, rejects and reports. -/
namespace Verif
open Polynomial Finset

section
variable {ε K G1 G2 GT : Type} [Field K] [DecidableEq K] [AddCommGroup G1] [Module Fr G1] [DecidableEq G1]
  [Curve K G1] [PointCodec G1] [AddCommGroup G2] [Module Fr G2] [AddCommGroup GT] [DecidableEq GT]
  [Pairing G1 G2 GT]

/-- C06, first part: every well-formed batch denotes exactly one list of claims. -/
theorem C06_decodes [LawfulPointCodec G1 48] (commitments : List (List UInt8)) (inds : List Nat)
    (cells proofs : List (List UInt8)) (hc : ∀ c ∈ cells, c.length = 2048)
    (hw : Spec.VerifyWellFormed G1 commitments inds cells proofs) :
    ∃! items : List (Spec.Opening G1), Spec.Decodes commitments inds cells proofs items := by
  obtain ⟨items, hd⟩ := exists_items hc hw
  refine ⟨items, hd, ?_⟩
  intro items' hd'
  have hl : items'.length = items.length := by rw [← hd'.indices.length_eq, hd.indices.length_eq]
  refine List.ext_getElem hl ?_
  intro i h1 h2
  have a1 := forall₂_getElem hd.commitments (by rw [hd.commitments.length_eq]; exact h2) h2
  have b1 := forall₂_getElem hd'.commitments (by rw [hd.commitments.length_eq]; exact h2) h1
  have a2 := (forall₂_getElem hd.indices (by rw [hd.indices.length_eq]; exact h2) h2).1
  have b2 := (forall₂_getElem hd'.indices (by rw [hd.indices.length_eq]; exact h2) h1).1
  have a3 := forall₂_getElem hd.cells (by rw [hd.cells.length_eq]; exact h2) h2
  have b3 := forall₂_getElem hd'.cells (by rw [hd.cells.length_eq]; exact h2) h1
  have a4 := forall₂_getElem hd.proofs (by rw [hd.proofs.length_eq]; exact h2) h2
  have b4 := forall₂_getElem hd'.proofs (by rw [hd.proofs.length_eq]; exact h2) h1
  rw [a1] at b1
  rw [a4] at b4
  rw [a2] at b2
  rw [← b2] at b3
  have hI := interp_unique a3.1 b3.1 a3.2 b3.2
  generalize items[i] = o at *
  generalize items'[i] = o' at *
  cases o; cases o'
  simp only [Option.some.injEq] at b1 b4 b2 hI
  subst b1 b4 b2 hI
  rfl

/-- C06: a well-formed batch is accepted iff the random linear combination of the defects of the single-cell equations is
zero, and otherwise reported as an invalid proof. -/
theorem C06_batch [LawfulPointCodec G1 48] [LawfulPairing G1 G2 GT] (setup : SetupPoints G1 G2) (up : UsePrecomp) (τ : Fr)
    (P : G1) (H : G2) (hpt : Spec.PowersOfTau setup.g1Monomial setup.g2Monomial τ P H)
    (hnd : ∀ a : G1, pair a H = (0 : GT) → a = 0)
    (ctx : DASContext K G1 G2) (hctx : (DASContext.new setup up : Outcome ε (DASContext K G1 G2)) = .ok ctx)
    (sha256 : List UInt8 → List UInt8) (commitments : List (List UInt8)) (inds : List Nat)
    (cells proofs : List (List UInt8)) (hcm : ∀ c ∈ commitments, c.length = 48) (hpf : ∀ c ∈ proofs, c.length = 48)
    (items : List (Spec.Opening G1)) (hd : Spec.Decodes commitments inds cells proofs items) :
    (ctx.verifyCellKzgProofBatch sha256 commitments inds cells proofs = .ok () ↔
      Spec.combined τ P (Spec.challenge sha256 commitments inds cells proofs) items = 0) ∧
    (ctx.verifyCellKzgProofBatch sha256 commitments inds cells proofs ≠ .ok () →
      ctx.verifyCellKzgProofBatch sha256 commitments inds cells proofs = .err (.Verifier (.FK20 .InvalidProof))) := by
  have hver := (context_verifier setup up hpt.length_g1 ctx hctx).2.2
  by_cases hne : items = []
  · subst hne
    obtain ⟨h1, h2, h3, h4⟩ := hd
    cases h1; cases h2; cases h3; cases h4
    rw [verify_empty]
    simp [Spec.combined]
  rw [verify_decodes (GT := GT) sha256 ctx _ _ hver τ P H hpt _ _ _ _ hcm hpf items hd hne]
  split_ifs with h
  · exact ⟨⟨fun _ => hnd _ h, fun _ => rfl⟩, fun hn => absurd rfl hn⟩
  · refine ⟨⟨fun hf => (by cases hf), fun hz => ?_⟩, fun _ => rfl⟩
    rw [hz] at h
    exact absurd (pair_zero_left H) h

/-- C06, one cell: the batch of one cell is accepted iff its KZG equation holds, for every hash function. -/
theorem C06_single [LawfulPointCodec G1 48] [LawfulPairing G1 G2 GT] (setup : SetupPoints G1 G2) (up : UsePrecomp) (τ : Fr)
    (P : G1) (H : G2) (hpt : Spec.PowersOfTau setup.g1Monomial setup.g2Monomial τ P H)
    (hnd : ∀ a : G1, pair a H = (0 : GT) → a = 0)
    (ctx : DASContext K G1 G2) (hctx : (DASContext.new setup up : Outcome ε (DASContext K G1 G2)) = .ok ctx)
    (sha256 : List UInt8 → List UInt8) (commitment : List UInt8) (k : Nat)
    (cell proof : List UInt8) (hcm : commitment.length = 48) (hpf : proof.length = 48)
    (C π : G1) (I : Fr[X]) (hC : fromCompressed commitment = some C) (hk : k < 128) (hI : I.degree < 64)
    (hcell : Spec.IsCell I k cell) (hπ : fromCompressed proof = some π) :
    ctx.verifyCellKzgProofBatch sha256 [commitment] [k] [cell] [proof] = .ok () ↔
      (τ ^ 64 - Spec.point 13 (64 * k) ^ 64) • π = C - I.eval τ • P := by
  have hd : Spec.Decodes [commitment] [k] [cell] [proof] [(⟨C, k, I, π⟩ : Spec.Opening G1)] :=
    ⟨.cons hC .nil, .cons ⟨rfl, hk⟩ .nil, .cons ⟨hI, hcell⟩ .nil, .cons hπ .nil⟩
  rw [(C06_batch setup up τ P H hpt hnd ctx hctx sha256 [commitment] [k] [cell] [proof] (by simpa using hcm)
    (by simpa using hpf) _ hd).1]
  have : Spec.combined τ P (Spec.challenge sha256 [commitment] [k] [cell] [proof]) [(⟨C, k, I, π⟩ : Spec.Opening G1)] =
      (⟨C, k, I, π⟩ : Spec.Opening G1).defect τ P := by
    unfold Spec.combined
    simp
  rw [this, ← Spec.Opening.valid_iff]
  rfl

/-- few challenges make a combination of group elements vanish -/
theorem few_challenges (items : List (Spec.Opening G1)) (τ : Fr) (P : G1) (hbad : ∃ o ∈ items, o.defect τ P ≠ 0) :
    ∃ bad : Finset Fr, bad.card ≤ items.length - 1 ∧ ∀ r, Spec.combined τ P r items = 0 → r ∈ bad := by
  obtain ⟨o, ho, hne⟩ := hbad
  obtain ⟨i₀, hi₀, rfl⟩ := List.mem_iff_getElem.1 ho
  have hφ : ∃ φ : Module.Dual Fr G1, φ ((items[i₀]).defect τ P) ≠ 0 := by
    by_contra hall
    push Not at hall
    exact hne ((Module.forall_dual_apply_eq_zero_iff Fr _).1 hall)
  obtain ⟨φ, hφ⟩ := hφ
  let p : Fr[X] := ∑ i : Fin items.length, Polynomial.C (φ ((items[i]).defect τ P)) * X ^ (i : Nat)
  have hcoeff : p.coeff i₀ = φ ((items[i₀]).defect τ P) := by
    simp only [p, finsetSum_coeff, coeff_C_mul, coeff_X_pow]
    rw [sum_eq_single (⟨i₀, hi₀⟩ : Fin items.length)]
    · simp
    · intro b _ hb
      rw [if_neg, mul_zero]
      intro h
      exact hb (Fin.ext h.symm)
    · intro h; exact absurd (mem_univ _) h
  have hp0 : p ≠ 0 := by
    intro h
    rw [h, coeff_zero] at hcoeff
    exact hφ hcoeff.symm
  have hdeg : p.natDegree ≤ items.length - 1 := by
    apply natDegree_sum_le_of_forall_le
    intro i _
    refine (natDegree_C_mul_X_pow_le _ _).trans ?_
    have := i.2
    omega
  refine ⟨p.roots.toFinset, ?_, ?_⟩
  · exact (Multiset.toFinset_card_le _).trans ((card_roots' p).trans hdeg)
  · intro r hr
    rw [Multiset.mem_toFinset, mem_roots hp0, IsRoot.def]
    have := congrArg φ hr
    rw [map_zero] at this
    rw [← this]
    simp only [p, Spec.combined, eval_finsetSum, eval_mul, eval_C, eval_pow, eval_X, map_sum, map_smul, smul_eq_mul]
    apply sum_congr rfl
    intro i _
    rw [mul_comm]

/-- C07: if some claim of a well-formed batch of `n` claims is false, there are at most `n - 1` challenges, independent of the
hash function, such that the batch is accepted only if the hash yields one of them. -/
theorem C07_false_item [LawfulPointCodec G1 48] [LawfulPairing G1 G2 GT] (setup : SetupPoints G1 G2) (up : UsePrecomp) (τ : Fr)
    (P : G1) (H : G2) (hpt : Spec.PowersOfTau setup.g1Monomial setup.g2Monomial τ P H)
    (hnd : ∀ a : G1, pair a H = (0 : GT) → a = 0)
    (ctx : DASContext K G1 G2) (hctx : (DASContext.new setup up : Outcome ε (DASContext K G1 G2)) = .ok ctx)
    (commitments : List (List UInt8)) (inds : List Nat)
    (cells proofs : List (List UInt8)) (hcm : ∀ c ∈ commitments, c.length = 48) (hpf : ∀ c ∈ proofs, c.length = 48)
    (items : List (Spec.Opening G1)) (hd : Spec.Decodes commitments inds cells proofs items)
    (hbad : ∃ o ∈ items, ¬ o.Valid τ P) :
    ∃ bad : Finset Fr, bad.card ≤ items.length - 1 ∧ ∀ sha256 : List UInt8 → List UInt8,
      ctx.verifyCellKzgProofBatch sha256 commitments inds cells proofs = .ok () →
        Spec.challenge sha256 commitments inds cells proofs ∈ bad := by
  obtain ⟨bad, hcard, hall⟩ := few_challenges items τ P (by
    obtain ⟨o, ho, hv⟩ := hbad
    exact ⟨o, ho, fun h => hv ((Spec.Opening.valid_iff τ P o).2 h)⟩)
  refine ⟨bad, hcard, ?_⟩
  intro sha256 hok
  exact hall _ (((C06_batch setup up τ P H hpt hnd ctx hctx sha256 commitments inds cells proofs hcm hpf items hd).1).1 hok)

/-- C07 in terms of the hash itself: of the `2^256` possible digests, at most `3 (n - 1)`, independent of the hash function, make
`verify_cell_kzg_proof_batch` accept a batch of `n` claims of which one is false. (A residue modulo `r` is hit by two or three
digests, so this is the exact meaning of the bias in `reduce_bytes_to_scalar_bias`.) -/
theorem C07_digests [LawfulPointCodec G1 48] [LawfulPairing G1 G2 GT] (setup : SetupPoints G1 G2) (up : UsePrecomp) (τ : Fr)
    (P : G1) (H : G2) (hpt : Spec.PowersOfTau setup.g1Monomial setup.g2Monomial τ P H)
    (hnd : ∀ a : G1, pair a H = (0 : GT) → a = 0)
    (ctx : DASContext K G1 G2) (hctx : (DASContext.new setup up : Outcome ε (DASContext K G1 G2)) = .ok ctx)
    (commitments : List (List UInt8)) (inds : List Nat)
    (cells proofs : List (List UInt8)) (hcm : ∀ c ∈ commitments, c.length = 48) (hpf : ∀ c ∈ proofs, c.length = 48)
    (items : List (Spec.Opening G1)) (hd : Spec.Decodes commitments inds cells proofs items)
    (hbad : ∃ o ∈ items, ¬ o.Valid τ P) :
    ∃ bad : Finset (List UInt8), bad.card ≤ 3 * (items.length - 1) ∧ ∀ sha256 : List UInt8 → List UInt8,
      (sha256 (Spec.challengeInput commitments inds cells proofs)).length = 32 →
      ctx.verifyCellKzgProofBatch sha256 commitments inds cells proofs = .ok () →
        sha256 (Spec.challengeInput commitments inds cells proofs) ∈ bad := by
  obtain ⟨bad, hcard, hall⟩ := C07_false_item setup up τ P H hpt hnd ctx hctx commitments inds cells proofs hcm hpf items hd hbad
  refine ⟨(bad ×ˢ range 3).image (fun x => natToBE 32 (x.1.val + frOrder * x.2)), ?_, ?_⟩
  · refine card_image_le.trans ?_
    rw [card_product, card_range]
    omega
  · intro sha256 hlen hok
    have hm := hall sha256 hok
    unfold Spec.challenge at hm
    generalize sha256 (Spec.challengeInput commitments inds cells proofs) = d at *
    have hlt : Spec.beValue d < 256 ^ 32 := by
      have := beToNat_lt d
      rwa [hlen, beToNat_eq] at this
    refine mem_image.2 ⟨((Spec.beValue d : Nat), Spec.beValue d / frOrder), mem_product.2 ⟨hm, mem_range.2 ?_⟩, ?_⟩
    · refine Nat.div_lt_of_lt_mul (hlt.trans_le ?_)
      decide +kernel
    · have e : ((Spec.beValue d : Nat) : Fr).val + frOrder * (Spec.beValue d / frOrder) = Spec.beValue d := by
        rw [ZMod.val_natCast]
        exact Nat.mod_add_div _ _
      dsimp only
      rw [e, ← beToNat_eq, ← hlen]
      exact natToBE_beToNat d

/-- C08: commitment and proof computed from polynomials `f` and `q`, cell different from the values of `f`. There is a set of at
most `max (deg f) (max (deg q + 64) 63)` secrets, depending only on `f`, `q`, the index and the cell, outside of which the
single-cell verification fails, for every setup with that secret and every hash function. -/
theorem C08_few_secrets [LawfulPointCodec G1 48] [LawfulPairing G1 G2 GT] (f q : Fr[X]) (k : Nat) (hk : k < 128)
    (cell : List UInt8) (hcl : cell.length = 2048) (hcan : Spec.Canonical 64 cell) (hwrong : ¬ Spec.IsCell f k cell) :
    ∃ bad : Finset Fr, bad.card ≤ max f.natDegree (max (q.natDegree + 64) 63) ∧
      ∀ (setup : SetupPoints G1 G2) (up : UsePrecomp) (τ : Fr) (P : G1) (H : G2) (ctx : DASContext K G1 G2)
        (sha256 : List UInt8 → List UInt8),
        Spec.PowersOfTau setup.g1Monomial setup.g2Monomial τ P H → (∀ a : G1, pair a H = (0 : GT) → a = 0) → P ≠ 0 →
        (DASContext.new setup up : Outcome ε (DASContext K G1 G2)) = .ok ctx →
        ctx.verifyCellKzgProofBatch sha256 [toCompressed (f.eval τ • P)] [k] [cell] [toCompressed (q.eval τ • P)] = .ok () →
        τ ∈ bad := by
  have hw : Spec.VerifyWellFormed G1 [toCompressed (0 : G1)] [k] [cell] [toCompressed (0 : G1)] :=
    ⟨⟨rfl, rfl, rfl⟩, by simpa using hk, by simp [LawfulPointCodec.fromCompressed_toCompressed],
      by simp [LawfulPointCodec.fromCompressed_toCompressed], by simpa using hcan⟩
  obtain ⟨items, hd⟩ := exists_items (by simpa using hcl) hw
  obtain ⟨I, hI, hcell⟩ : ∃ I : Fr[X], I.degree < 64 ∧ Spec.IsCell I k cell := by
    have h1 := hd.cells
    have h2 := hd.indices
    cases h1 with
    | cons hc h1 =>
      cases h1
      cases h2 with
      | cons hi h2 => exact ⟨_, hc.1, by rw [hi.1]; exact hc.2⟩
  let p : Fr[X] := cellDivisor k * q - (f - I)
  have hp0 : p ≠ 0 := by
    intro h0
    apply hwrong
    have hfe : f = cellDivisor k * q + I := by
      have : cellDivisor k * q = f - I := sub_eq_zero.1 h0
      rw [this]; ring
    have := div_modByMonic_unique q I (cellDivisor_monic k) (f := f)
      ⟨by rw [hfe]; ring, by rw [cellDivisor_degree]; exact hI⟩
    rw [← isCell_mod, this.2]
    exact hcell
  have hIn : I.natDegree ≤ 63 := by
    by_cases h0 : I = 0
    · rw [h0]; simp
    · have := (natDegree_lt_iff_degree_lt (n := 64) h0).2 (by exact_mod_cast hI)
      omega
  have hdeg : p.natDegree ≤ max f.natDegree (max (q.natDegree + 64) 63) := by
    refine (natDegree_sub_le _ _).trans (max_le ?_ ?_)
    · refine natDegree_mul_le.trans ?_
      rw [cellDivisor_natDegree]
      exact le_max_of_le_right (le_max_of_le_left (by omega))
    · exact (natDegree_sub_le _ _).trans (max_le (le_max_left _ _) (le_max_of_le_right (le_max_of_le_right hIn)))
  refine ⟨p.roots.toFinset, (Multiset.toFinset_card_le _).trans ((card_roots' p).trans hdeg), ?_⟩
  intro setup up τ P H ctx sha256 hpt hnd hP hctx hok
  rw [Multiset.mem_toFinset, mem_roots hp0, IsRoot.def]
  have := (C06_single setup up τ P H hpt hnd ctx hctx sha256 _ k cell _ (LawfulPointCodec.length_toCompressed _)
    (LawfulPointCodec.length_toCompressed _) (f.eval τ • P) (q.eval τ • P) I
    (LawfulPointCodec.fromCompressed_toCompressed _) hk hI hcell (LawfulPointCodec.fromCompressed_toCompressed _)).1 hok
  rw [← mul_smul, ← sub_smul, ← sub_eq_zero, ← sub_smul, smul_eq_zero] at this
  rcases this with h | h
  · simp only [p, eval_sub, eval_mul, cellDivisor_eval]
    exact h
  · exact absurd h hP

/-- C08, uniqueness: for given commitment, index and cell at most one proof point is accepted, unless the secret is one of the
64 points of the coset. -/
theorem C08_unique [LawfulPointCodec G1 48] [LawfulPairing G1 G2 GT] (setup : SetupPoints G1 G2) (up : UsePrecomp) (τ : Fr)
    (P : G1) (H : G2) (hpt : Spec.PowersOfTau setup.g1Monomial setup.g2Monomial τ P H)
    (hnd : ∀ a : G1, pair a H = (0 : GT) → a = 0)
    (ctx : DASContext K G1 G2) (hctx : (DASContext.new setup up : Outcome ε (DASContext K G1 G2)) = .ok ctx)
    (sha256 : List UInt8 → List UInt8) (commitment : List UInt8) (k : Nat)
    (cell proof proof' : List UInt8) (hcm : commitment.length = 48) (hcl : cell.length = 2048) (hpf : proof.length = 48)
    (hpf' : proof'.length = 48) (hτ : ∀ j < 64, τ ≠ Spec.point 13 (64 * k + j))
    (h : ctx.verifyCellKzgProofBatch sha256 [commitment] [k] [cell] [proof] = .ok ())
    (h' : ctx.verifyCellKzgProofBatch sha256 [commitment] [k] [cell] [proof'] = .ok ()) : proof = proof' := by
  have key : ∀ π : List UInt8, π.length = 48 → ctx.verifyCellKzgProofBatch sha256 [commitment] [k] [cell] [π] = .ok () →
      ∃ items : List (Spec.Opening G1), Spec.Decodes [commitment] [k] [cell] [π] items := by
    intro π hπ hok
    rcases verify_wellFormed_or_defect (G1 := G1) [commitment] [k] [cell] [π] (by simpa using hcl) with hw | ⟨e, he⟩
    · exact exists_items (by simpa using hcl) hw
    · rw [verify_defect sha256 ctx (by simpa using hcl) (by simpa using hcm) (by simpa using hπ) he] at hok
      cases hok
  have one : ∀ (π : List UInt8) (items : List (Spec.Opening G1)), Spec.Decodes [commitment] [k] [cell] [π] items →
      ∃ C p : G1, ∃ I : Fr[X], fromCompressed commitment = some C ∧ k < 128 ∧ I.degree < 64 ∧ Spec.IsCell I k cell ∧
        fromCompressed π = some p := by
    rintro π items ⟨h1, h2, h3, h4⟩
    cases h1 with
    | cons a1 h1 =>
      cases h1
      cases h2 with
      | cons a2 h2 =>
        cases h3 with
        | cons a3 h3 =>
          cases h4 with
          | cons a4 h4 => exact ⟨_, _, _, a1, a2.2, a3.1, by rw [a2.1]; exact a3.2, a4⟩
  obtain ⟨items, hd⟩ := key proof hpf h
  obtain ⟨items', hd'⟩ := key proof' hpf' h'
  obtain ⟨C, p, I, hC, hk, hI, hcell, hp⟩ := one _ _ hd
  obtain ⟨-, p', I', -, -, hI', hcell', hp'⟩ := one _ _ hd'
  have e1 := (C06_single setup up τ P H hpt hnd ctx hctx sha256 commitment k cell proof hcm hpf C p I hC hk hI hcell hp).1 h
  have e2 := (C06_single setup up τ P H hpt hnd ctx hctx sha256 commitment k cell proof' hcm hpf' C p' I hC hk hI hcell hp').1 h'
  have hne : τ ^ 64 - Spec.point 13 (64 * k) ^ 64 ≠ 0 := by
    rw [← cellDivisor_eval, ← cellDivisor_eq]
    unfold Spec.vanishing
    rw [eval_prod, prod_ne_zero_iff]
    intro j hj
    rw [eval_sub, eval_X, eval_C]
    exact sub_ne_zero.2 (hτ j (mem_range.1 hj))
  have hpp : p = p' := by
    rw [← e2, ← sub_eq_zero, ← smul_sub, smul_eq_zero] at e1
    rcases e1 with h | h
    · exact absurd h hne
    · exact sub_eq_zero.1 h
  rw [← LawfulPointCodec.toCompressed_fromCompressed proof p hpf hp, hpp,
    LawfulPointCodec.toCompressed_fromCompressed proof' p' hpf' hp']

/-! ### validation -/

/-- C13: exactly one of: the input is well-formed, or it has a defect; a defect is reported with the error and precedence of
`Spec.VerifyDefect`, whatever the context and the hash function. -/
theorem C13_validation (ctx : DASContext K G1 G2) (sha256 : List UInt8 → List UInt8)
    (commitments : List (List UInt8)) (inds : List Nat) (cells proofs : List (List UInt8))
    (hc : ∀ c ∈ cells, c.length = 2048) (hcm : ∀ c ∈ commitments, c.length = 48) (hpf : ∀ c ∈ proofs, c.length = 48) :
    (Spec.VerifyWellFormed G1 commitments inds cells proofs ∧ ∀ e, ¬ Spec.VerifyDefect G1 commitments inds cells proofs e) ∨
    (¬ Spec.VerifyWellFormed G1 commitments inds cells proofs ∧ ∃ e, Spec.VerifyDefect G1 commitments inds cells proofs e ∧
      ctx.verifyCellKzgProofBatch sha256 commitments inds cells proofs = .err e) := by
  rcases verify_wellFormed_or_defect (G1 := G1) commitments inds cells proofs hc with hw | ⟨e, he⟩
  · exact .inl ⟨hw, fun e he => verify_not_both hw he⟩
  · exact .inr ⟨fun hw => verify_not_both hw he, e, he, verify_defect sha256 ctx hc hcm hpf he⟩

/-- C13: the empty batch is accepted. -/
theorem C13_empty (ctx : DASContext K G1 G2) (sha256 : List UInt8 → List UInt8) :
    ctx.verifyCellKzgProofBatch sha256 [] [] [] [] = .ok () := verify_empty sha256 ctx

/-- C13: a well-formed batch gives acceptance or `InvalidProof`, for any setup of the right size (powers of tau or not). -/
theorem C13_wellFormed [LawfulPointCodec G1 48] (setup : SetupPoints G1 G2) (up : UsePrecomp)
    (h1 : setup.g1Monomial.length = 4096)
    (ctx : DASContext K G1 G2) (hctx : (DASContext.new setup up : Outcome ε (DASContext K G1 G2)) = .ok ctx)
    (sha256 : List UInt8 → List UInt8) (commitments : List (List UInt8)) (inds : List Nat) (cells proofs : List (List UInt8))
    (hc : ∀ c ∈ cells, c.length = 2048) (hcm : ∀ c ∈ commitments, c.length = 48) (hpf : ∀ c ∈ proofs, c.length = 48)
    (hw : Spec.VerifyWellFormed G1 commitments inds cells proofs) :
    ctx.verifyCellKzgProofBatch sha256 commitments inds cells proofs = .ok () ∨
    ctx.verifyCellKzgProofBatch sha256 commitments inds cells proofs = .err (.Verifier (.FK20 .InvalidProof)) := by
  obtain ⟨hb1, hb2, hver⟩ := context_verifier setup up h1 ctx hctx
  obtain ⟨items, hd⟩ := exists_items hc hw
  by_cases hne : items = []
  · subst hne
    obtain ⟨h1, h2, h3, h4⟩ := hd
    cases h1; cases h2; cases h3; cases h4
    exact .inl (verify_empty sha256 ctx)
  rw [verify_run (GT := GT) sha256 ctx _ _ hb1 (by omega) hver commitments inds cells proofs hcm hpf items hd hne _ rfl _
    (fun _ => rfl)]
  split_ifs
  · exact .inl rfl
  · exact .inr rfl

/-- C13: the check of the internally computed commitment indices never fails. -/
theorem C13_commitment_index [LawfulPointCodec G1 48] (setup : SetupPoints G1 G2) (up : UsePrecomp)
    (h1 : setup.g1Monomial.length = 4096)
    (ctx : DASContext K G1 G2) (hctx : (DASContext.new setup up : Outcome ε (DASContext K G1 G2)) = .ok ctx)
    (sha256 : List UInt8 → List UInt8) (commitments : List (List UInt8)) (inds : List Nat) (cells proofs : List (List UInt8))
    (hc : ∀ c ∈ cells, c.length = 2048) (hcm : ∀ c ∈ commitments, c.length = 48) (hpf : ∀ c ∈ proofs, c.length = 48)
    (a b : Nat) :
    ctx.verifyCellKzgProofBatch sha256 commitments inds cells proofs ≠ .err (.Verifier (.InvalidCommitmentIndex a b)) := by
  intro h
  rcases C13_validation ctx sha256 commitments inds cells proofs hc hcm hpf with ⟨hw, -⟩ | ⟨-, e, he, h'⟩
  · rcases C13_wellFormed setup up h1 ctx hctx sha256 commitments inds cells proofs hc hcm hpf hw with h' | h' <;>
      rw [h'] at h <;> cases h
  · rw [h'] at h
    cases h
    cases he

/-- C14: an error of verification is flagged by `invalid_proof()` exactly if all inputs are well-formed, and then the batch
equation fails. -/
theorem C14_verify [LawfulPointCodec G1 48] [LawfulPairing G1 G2 GT] (setup : SetupPoints G1 G2) (up : UsePrecomp) (τ : Fr)
    (P : G1) (H : G2) (hpt : Spec.PowersOfTau setup.g1Monomial setup.g2Monomial τ P H)
    (ctx : DASContext K G1 G2) (hctx : (DASContext.new setup up : Outcome ε (DASContext K G1 G2)) = .ok ctx)
    (sha256 : List UInt8 → List UInt8) (commitments : List (List UInt8)) (inds : List Nat) (cells proofs : List (List UInt8))
    (hc : ∀ c ∈ cells, c.length = 2048) (hcm : ∀ c ∈ commitments, c.length = 48) (hpf : ∀ c ∈ proofs, c.length = 48)
    (e : Error) (he : ctx.verifyCellKzgProofBatch sha256 commitments inds cells proofs = .err e) :
    (e.invalidProof = true ↔ Spec.VerifyWellFormed G1 commitments inds cells proofs) ∧
    (e.invalidProof = true → ∃ items : List (Spec.Opening G1), Spec.Decodes commitments inds cells proofs items ∧
      Spec.combined τ P (Spec.challenge sha256 commitments inds cells proofs) items ≠ 0) := by
  rcases C13_validation ctx sha256 commitments inds cells proofs hc hcm hpf with ⟨hw, -⟩ | ⟨hnw, e', hd, h'⟩
  · have h0 : e = .Verifier (.FK20 .InvalidProof) := by
      rcases C13_wellFormed setup up hpt.length_g1 ctx hctx sha256 commitments inds cells proofs hc hcm hpf hw with h' | h' <;>
        rw [h'] at he <;> cases he
      rfl
    refine ⟨⟨fun _ => hw, fun _ => by rw [h0]; rfl⟩, fun _ => ?_⟩
    obtain ⟨items, hd⟩ := exists_items hc hw
    refine ⟨items, hd, ?_⟩
    intro hz
    by_cases hne : items = []
    · subst hne
      obtain ⟨h1, h2, h3, h4⟩ := hd
      cases h1; cases h2; cases h3; cases h4
      rw [verify_empty] at he
      cases he
    rw [verify_decodes (GT := GT) sha256 ctx _ _ (context_verifier setup up hpt.length_g1 ctx hctx).2.2 τ P H hpt _ _ _ _
      hcm hpf items hd hne, hz, if_pos (pair_zero_left H)] at he
    cases he
  · rw [h'] at he
    cases he
    have hf : e.invalidProof = false := by cases hd <;> rfl
    rw [hf]
    exact ⟨⟨fun h => (by cases h), fun h => absurd h hnw⟩, fun h => by cases h⟩

/-- C14: no other entry point returns an error flagged by `invalid_proof()`. -/
theorem C14_others (setup : SetupPoints G1 G2) (up : UsePrecomp) (h1 : setup.g1Monomial.length = 4096)
    (ctx : DASContext K G1 G2) (hctx : (DASContext.new setup up : Outcome ε (DASContext K G1 G2)) = .ok ctx)
    (blob : List UInt8) (hb : blob.length = 131072) (inds : List Nat) (cells : List (List UInt8))
    (hc : ∀ c ∈ cells, c.length = 2048) (e : Error)
    (he : ctx.blobToKzgCommitment blob = .err e ∨ ctx.computeCellsAndKzgProofs blob = .err e ∨
      ctx.recoverCellsAndKzgProofs inds cells = .err e) : e.invalidProof = false := by
  obtain ⟨M, hp, -, hrs, -⟩ := context_fields setup up h1 ctx hctx
  rcases he with h | h | h
  · by_cases hex : ∃ f, Spec.IsBlobPoly blob f
    · obtain ⟨f, hf⟩ := hex
      rw [commitment_of_blob h1 hp hf] at h; cases h
    · obtain ⟨i, -, -, -, herr, -⟩ := bad_blob (ctx := ctx) hb hex
      rw [herr] at h; cases h; rfl
  · by_cases hex : ∃ f, Spec.IsBlobPoly blob f
    · obtain ⟨f, hf⟩ := hex
      rw [cells_of_blob hp hf] at h
      exact (prove_ne_err _ M f h).elim
    · obtain ⟨i, -, -, -, -, herr⟩ := bad_blob (ctx := ctx) hb hex
      rw [herr] at h; cases h; rfl
  · rcases recovery_wellFormed_or_defect inds cells hc with hw | ⟨e', he'⟩
    · rcases recoverPolynomialCoeff_cases hw.1 hw.2 hc hw.3 hw.4 hw.5 with ⟨⟨f, hf, h'⟩ | ⟨hne, h'⟩, -⟩
      · rw [recover_run hp hrs h'] at h
        exact (prove_ne_err _ M f h).elim
      · rw [recover_err hrs h'] at h
        cases h; rfl
    · rw [recover_err hrs (recoverPolynomialCoeff_defect hc he' _)] at h
      cases h
      cases he' <;> rfl

end

/-- C15: deduplication keeps exactly the different entries, each once, ordered by first occurrence, and the produced indices
recover the original list. -/
theorem C15_deduplication {α : Type} [DecidableEq α] (l dedup : List α) (indices : List Nat)
    (h : deduplicateWithIndices l = (dedup, indices)) :
    dedup.Nodup ∧ (∀ x, x ∈ dedup ↔ x ∈ l) ∧ dedup.Pairwise (fun a b => l.idxOf a < l.idxOf b) ∧
      indices.length = l.length ∧ indices.map (fun i => dedup[i]?) = l.map some := by
  rw [dedup_eq] at h
  cases h
  refine ⟨?_, mem_eraseDups' l, eraseDups_order l, by simp, ?_⟩
  · exact (eraseDups_order l).imp (fun hab e => by rw [e] at hab; exact lt_irrefl _ hab)
  · rw [List.map_map]
    apply List.map_congr_left
    intro x hx
    have hlt : l.eraseDups.idxOf x < l.eraseDups.length := List.idxOf_lt_length_iff.2 ((mem_eraseDups' l x).2 hx)
    simp only [Function.comp_apply]
    rw [List.getElem?_eq_getElem hlt, List.getElem_idxOf hlt]

/-! Non-vacuity: a true claim (commitment 0, zero cell, proof 0) and a false claim (commitment 1, zero cell, proof 0). -/
section
open Toy

/-- the encodings of the two commitments -/
def Toy.commitments : List (List UInt8) := [toCompressed (0 : Fr), toCompressed (1 : Fr)]

/-- zero cells -/
noncomputable def Toy.zeroCell : List UInt8 := cellOf 0 5

noncomputable def Toy.items : List (Spec.Opening Fr) := [⟨0, 5, 0, 0⟩, ⟨1, 5, 0, 0⟩]

theorem Toy.isCell_zero : Spec.IsCell 0 5 zeroCell := (isCell_iff 0 5 _).2 rfl

theorem Toy.decodes : Spec.Decodes Toy.commitments [5, 5] [zeroCell, zeroCell] [toCompressed (0 : Fr), toCompressed (0 : Fr)]
    Toy.items := by
  have h : ∀ x : Fr, fromCompressed (toCompressed x) = some x := LawfulPointCodec.fromCompressed_toCompressed
  have hz : ((0 : Fr[X]).degree : WithBot Nat) < 64 := by rw [degree_zero]; exact WithBot.bot_lt_coe _
  exact ⟨.cons (h 0) (.cons (h 1) .nil), .cons ⟨rfl, by norm_num⟩ (.cons ⟨rfl, by norm_num⟩ .nil),
    .cons ⟨hz, isCell_zero⟩ (.cons ⟨hz, isCell_zero⟩ .nil), .cons (h 0) (.cons (h 0) .nil)⟩

theorem Toy.false_item : ∃ o ∈ Toy.items, ¬ o.Valid 7 1 := by
  refine ⟨⟨1, 5, 0, 0⟩, by simp [Toy.items], ?_⟩
  simp [Spec.Opening.Valid]

/-- C06, C07: the batch meets the hypotheses. -/
example : ∃ ctx : DASContext Fr Fr Fr, (DASContext.new (setup 7) .no : Outcome Error _) = .ok ctx ∧
    ∃ bad : Finset Fr, bad.card ≤ 1 ∧ ∀ sha256 : List UInt8 → List UInt8,
      ctx.verifyCellKzgProofBatch sha256 Toy.commitments [5, 5] [zeroCell, zeroCell]
        [toCompressed (0 : Fr), toCompressed (0 : Fr)] = .ok () →
      Spec.challenge sha256 Toy.commitments [5, 5] [zeroCell, zeroCell]
        [toCompressed (0 : Fr), toCompressed (0 : Fr)] ∈ bad := by
  obtain ⟨ctx, hctx⟩ := context 7
  have hl : ∀ x : Fr, (toCompressed x).length = 48 := LawfulPointCodec.length_toCompressed
  exact ⟨ctx, hctx, C07_false_item (setup 7) .no 7 1 1 (powersOfTau 7) nondegenerate ctx hctx _ _ _ _
    (by simp [Toy.commitments, hl]) (by simp [hl]) Toy.items Toy.decodes false_item⟩

/-- C07: the false batch of two claims is accepted for at most three digests. -/
example : ∃ ctx : DASContext Fr Fr Fr, (DASContext.new (setup 7) .no : Outcome Error _) = .ok ctx ∧
    ∃ bad : Finset (List UInt8), bad.card ≤ 3 ∧ ∀ sha256 : List UInt8 → List UInt8,
      (sha256 (Spec.challengeInput Toy.commitments [5, 5] [zeroCell, zeroCell]
        [toCompressed (0 : Fr), toCompressed (0 : Fr)])).length = 32 →
      ctx.verifyCellKzgProofBatch sha256 Toy.commitments [5, 5] [zeroCell, zeroCell]
        [toCompressed (0 : Fr), toCompressed (0 : Fr)] = .ok () →
      sha256 (Spec.challengeInput Toy.commitments [5, 5] [zeroCell, zeroCell]
        [toCompressed (0 : Fr), toCompressed (0 : Fr)]) ∈ bad := by
  obtain ⟨ctx, hctx⟩ := context 7
  have hl : ∀ x : Fr, (toCompressed x).length = 48 := LawfulPointCodec.length_toCompressed
  exact ⟨ctx, hctx, C07_digests (setup 7) .no 7 1 1 (powersOfTau 7) nondegenerate ctx hctx _ _ _ _
    (by simp [Toy.commitments, hl]) (by simp [hl]) Toy.items Toy.decodes false_item⟩

/-- C06, C14: the true claim is accepted, the false one is rejected with an error flagged by `invalid_proof()`. -/
example (sha256 : List UInt8 → List UInt8) :
    ∃ ctx : DASContext Fr Fr Fr, (DASContext.new (setup 7) .no : Outcome Error _) = .ok ctx ∧
      ctx.verifyCellKzgProofBatch sha256 [toCompressed (0 : Fr)] [5] [zeroCell] [toCompressed (0 : Fr)] = .ok () ∧
      ∃ e, ctx.verifyCellKzgProofBatch sha256 [toCompressed (1 : Fr)] [5] [zeroCell] [toCompressed (0 : Fr)] = .err e ∧
        e.invalidProof = true := by
  obtain ⟨ctx, hctx⟩ := context 7
  have hl : ∀ x : Fr, (toCompressed x).length = 48 := LawfulPointCodec.length_toCompressed
  have h : ∀ x : Fr, fromCompressed (toCompressed x) = some x := LawfulPointCodec.fromCompressed_toCompressed
  have hz : ((0 : Fr[X]).degree : WithBot Nat) < 64 := by rw [degree_zero]; exact WithBot.bot_lt_coe _
  refine ⟨ctx, hctx, ?_, ?_⟩
  · rw [C06_single (setup 7) .no 7 1 1 (powersOfTau 7) nondegenerate ctx hctx sha256 _ 5 _ _ (hl _) (hl _) 0 0 0 (h _)
      (by norm_num) hz isCell_zero (h _)]
    simp
  · have hd : Spec.Decodes [toCompressed (1 : Fr)] [5] [zeroCell] [toCompressed (0 : Fr)] [(⟨1, 5, 0, 0⟩ : Spec.Opening Fr)] :=
      ⟨.cons (h 1) .nil, .cons ⟨rfl, by norm_num⟩ .nil, .cons ⟨hz, isCell_zero⟩ .nil, .cons (h 0) .nil⟩
    refine ⟨_, (C06_batch (setup 7) .no 7 1 1 (powersOfTau 7) nondegenerate ctx hctx sha256 _ _ _ _ (by simp [hl])
      (by simp [hl]) _ hd).2 ?_, rfl⟩
    rw [Ne, C06_single (setup 7) .no 7 1 1 (powersOfTau 7) nondegenerate ctx hctx sha256 _ 5 _ _ (hl _) (hl _) 1 0 0 (h _)
      (by norm_num) hz isCell_zero (h _)]
    simp

/-- C08: the zero cell is wrong for the constant polynomial 9. -/
example : ¬ Spec.IsCell (C 9) 5 zeroCell := by
  intro h
  have h1 := h.2 0 (by norm_num)
  have h2 := isCell_zero.2 0 (by norm_num)
  have := encodes_inj h1 h2
  rw [eval_C, eval_zero] at this
  exact absurd this (by decide +kernel)

/-- C13: three defects in one input; the length defect is reported. -/
example (ctx : DASContext Fr Fr Fr) (sha256 : List UInt8 → List UInt8) :
    ctx.verifyCellKzgProofBatch sha256 [List.replicate 48 255] [200] [] [] =
      .err (.Verifier (.BatchVerificationInputsMustHaveSameLength 1 1 0 0)) :=
  verify_defect (G1 := Fr) sha256 ctx (by simp) (by simp) (by simp) (.lengths (by simp))

/-- C15 -/
example : deduplicateWithIndices [3, 1, 3, 2, 1] = ([3, 1, 2], [0, 1, 0, 2, 1]) := by decide
end

end Verif
