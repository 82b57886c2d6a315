import Verif.Props.Proofs
import Verif.Props.BlsG2
import Verif.Props.EmbeddedSecret
import Verif.Props.Toy
import Verif.Spec.SelfTest

set_option linter.unusedSectionVars false

/-!
C87: for which setups the library accepts what it makes itself, and what such a test says about the setup.
-/
namespace Verif
open Polynomial Finset

section
variable {G1 G2 GT : Type} [AddCommGroup G1] [Module Fr G1] [DecidableEq G1] [PointCodec G1] [AddCommGroup G2] [Module Fr G2]
  [AddCommGroup GT] [DecidableEq GT] [Pairing G1 G2 GT]

/-- what the verifier computes from an honest commitment, cell and proof -/
theorem honest_sum (g : List G1) (f : Fr[X]) (k : Nat) :
    Spec.commitment g f - Spec.commitment g (f %ₘ cellDivisor k) + (Spec.point 13 (64 * k) ^ 64) • Spec.commitment g (f /ₘ cellDivisor k) =
      Spec.commitment g (X ^ 64 * (f /ₘ cellDivisor k)) := by
  rw [← commitment_C_mul, sub_add_eq_add_sub, sub_eq_iff_eq_add, ← commitment_add, ← commitment_add]
  have h : f + C (Spec.point 13 (64 * k) ^ 64) * (f /ₘ cellDivisor k) = X ^ 64 * (f /ₘ cellDivisor k) + f %ₘ cellDivisor k := by
    generalize hq : f /ₘ cellDivisor k = q
    generalize hr : f %ₘ cellDivisor k = r
    have e := modByMonic_add_div f (cellDivisor k)
    rw [hq, hr, cellDivisor, sub_mul] at e
    rw [← e]
    abel
  rw [h]

theorem pair_nsmul_left [LawfulPairing G1 G2 GT] (n : Nat) (a : G1) (b : G2) : (pair (n • a) b : GT) = n • pair a b := by
  induction n with
  | zero => rw [zero_smul, zero_smul, pair_zero_left]
  | succ n ih => rw [succ_nsmul, succ_nsmul, LawfulPairing.pair_add_left, ih]

theorem pair_smul_congr [LawfulPairing G1 G2 GT] {a a' : G1} {H H' : G2} (h : (pair a H : GT) = pair a' H') (s : Fr) :
    (pair (s • a) H : GT) = pair (s • a') H' := by
  have e : ∀ x : G1, s • x = s.val • x := by
    intro x
    conv_lhs => rw [← ZMod.natCast_zmod_val s]
    exact Nat.cast_smul_eq_nsmul Fr _ x
  rw [e, e, pair_nsmul_left, pair_nsmul_left, h]

theorem pair_sum_congr [LawfulPairing G1 G2 GT] {H H' : G2} {ι : Type} (s : Finset ι) (c : ι → Fr) (a a' : ι → G1)
    (h : ∀ i ∈ s, (pair (a i) H : GT) = pair (a' i) H') : (pair (∑ i ∈ s, c i • a i) H : GT) = pair (∑ i ∈ s, c i • a' i) H' := by
  classical
  induction s using Finset.induction_on with
  | empty => simp only [sum_empty, pair_zero_left]
  | insert i s hi ih =>
    rw [sum_insert hi, sum_insert hi, LawfulPairing.pair_add_left, LawfulPairing.pair_add_left,
      ih (fun j hj => h j (mem_insert_of_mem hj)), pair_smul_congr (h i (mem_insert_self _ _))]

theorem commitment_shift (g : List G1) (hg : g.length = 4096) (q : Fr[X]) :
    Spec.commitment g (X ^ 64 * q) = ∑ j ∈ range 4032, q.coeff j • g.getD (j + 64) 0 := by
  unfold Spec.commitment
  rw [hg, show 4096 = 64 + 4032 from rfl, sum_range_add, add_eq_right.2 (sum_eq_zero ?_)]
  · exact sum_congr rfl (fun j _ => by rw [coeff_X_pow_mul', if_pos (by omega), Nat.add_sub_cancel_left, Nat.add_comm])
  · intro i hi
    have := mem_range.1 hi
    rw [coeff_X_pow_mul', if_neg (by omega), zero_smul]

theorem commitment_low (g : List G1) (hg : g.length = 4096) (q : Fr[X]) (hq : q.degree < 4032) :
    Spec.commitment g q = ∑ j ∈ range 4032, q.coeff j • g.getD j 0 := by
  unfold Spec.commitment
  rw [hg, show 4096 = 4032 + 64 from rfl, sum_range_add, add_eq_left]
  refine sum_eq_zero (fun i _ => ?_)
  rw [coeff_eq_zero_of_degree_lt (lt_of_lt_of_le hq (by exact_mod_cast Nat.le_add_right _ _)), zero_smul]

theorem honest_quotient_degree {f : Fr[X]} (hf : f.degree < 4096) (k : Nat) : (f /ₘ cellDivisor k).degree < 4032 := by
  by_cases h0 : f /ₘ cellDivisor k = 0
  · rw [h0, degree_zero]
    exact WithBot.bot_lt_coe _
  · refine (natDegree_lt_iff_degree_lt h0 (n := 4032)).1 ?_
    rw [natDegree_divByMonic f (cellDivisor_monic k), cellDivisor_natDegree]
    have : f.natDegree < 4096 := by
      by_cases hf0 : f = 0
      · rw [hf0, natDegree_zero]; norm_num
      · exact (natDegree_lt_iff_degree_lt hf0).2 hf
    omega

theorem selfConsistent_iff {g1 : List G1} {g2 : List G2} (h1 : g1.length = 4096) (h2 : 65 ≤ g2.length) :
    Spec.SelfConsistent GT g1 g2 ↔ ∀ j < 4032, (pair (g1.getD (j + 64) 0) (g2.getD 0 0) : GT) = pair (g1.getD j 0) (g2.getD 64 0) := by
  constructor
  · intro h j hj
    refine h _ _ ?_ ?_ j _ _ ?_ ?_ <;> rw [List.getElem?_eq_getElem (by omega), List.getD_eq_getElem _ _ (by omega)]
  · intro h H H' e0 e64 j P P' e e'
    have hj : j < 4032 := by
      have := (List.getElem?_eq_some_iff.1 e').1
      omega
    have := h j hj
    rw [List.getD, List.getD, List.getD, List.getD, e0, e64, e, e'] at this
    exact this

/-- with a consistent setup honest openings satisfy the equation -/
theorem consistent_pair [LawfulPairing G1 G2 GT] {g1 : List G1} {g2 : List G2} (h1 : g1.length = 4096) (h2 : 65 ≤ g2.length)
    (hc : Spec.SelfConsistent GT g1 g2) (q : Fr[X]) (hq : q.degree < 4032) :
    (pair (Spec.commitment g1 (X ^ 64 * q)) (g2.getD 0 0) : GT) = pair (Spec.commitment g1 q) (g2.getD 64 0) := by
  rw [commitment_shift g1 h1, commitment_low g1 h1 q hq]
  exact pair_sum_congr _ _ _ _ (fun j hj => (selfConsistent_iff h1 h2).1 hc j (mem_range.1 hj))

end

section
variable {ε K G1 G2 GT : Type} [Field K] [DecidableEq K] [AddCommGroup G1] [Module Fr G1] [DecidableEq G1]
  [Curve K G1] [PointCodec G1] [AddCommGroup G2] [Module Fr G2] [AddCommGroup GT] [DecidableEq GT]
  [Pairing G1 G2 GT]

/-- what an honest prover publishes, for any setup -/
theorem honest_tuple (setup : SetupPoints G1 G2) (h1 : setup.g1Monomial.length = 4096) (ctx : DASContext K G1 G2)
    (hctx : (DASContext.new setup .no : Outcome Error (DASContext K G1 G2)) = .ok ctx)
    (t : List UInt8 × Nat × List UInt8 × List UInt8) :
    HonestTuple ctx t ↔ ∃ f : Fr[X], f.degree < 4096 ∧ t.1 = toCompressed (Spec.commitment setup.g1Monomial f) ∧ t.2.1 < 128 ∧
      t.2.2.1 = cellOf f t.2.1 ∧ t.2.2.2 = toCompressed (Spec.commitment setup.g1Monomial (f /ₘ cellDivisor t.2.1)) := by
  obtain ⟨M, hp, hM, -, -⟩ := context_fields setup .no h1 ctx hctx
  have hrun : ∀ blob f, Spec.IsBlobPoly blob f → ctx.computeCellsAndKzgProofs blob = .ok (cellsOf f, proofsOf setup.g1Monomial f) := by
    intro blob f hf
    rw [cells_of_blob hp hf, prove_exact _ h1 M (msmExact_no _ 6 6 M hM) f hf.1]
  have hcell : ∀ f k, k < 128 → (cellsOf f)[k]? = some (cellOf f k) := by
    intro f k hk
    rw [cellsOf_eq, List.getElem?_map, List.getElem?_range hk, Option.map_some]
  have hproof : ∀ f k, k < 128 → (proofsOf setup.g1Monomial f)[k]? =
      some (toCompressed (Spec.commitment setup.g1Monomial (f /ₘ cellDivisor k))) := by
    intro f k hk
    unfold proofsOf
    rw [List.getElem?_map, List.getElem?_range hk, Option.map_some]
    unfold Spec.openingProof
    rw [cellDivisor_eq]
  constructor
  · rintro ⟨blob, cells, proofs, hbl, hc, hcp, hk1, hk2⟩
    obtain ⟨⟨f, hf, -⟩, -⟩ := C02_cells_are_evaluations setup .no h1 ctx hctx blob hbl cells proofs hcp
    rw [hrun blob f hf] at hcp
    cases hcp
    rw [commitment_of_blob h1 hp hf] at hc
    have hk : t.2.1 < 128 := by
      have := (List.getElem?_eq_some_iff.1 hk1).1
      simpa [cellsOf] using this
    rw [hcell f _ hk] at hk1
    rw [hproof f _ hk] at hk2
    exact ⟨f, hf.1, (Outcome.ok.inj hc).symm, hk, (Option.some.inj hk1).symm, (Option.some.inj hk2).symm⟩
  · rintro ⟨f, hf, hc, hk, hcl, hpf⟩
    have hb := isBlobPoly_blobOf f hf
    exact ⟨blobOf f, _, _, hb.2.1, by rw [commitment_of_blob h1 hp hb, hc], hrun _ f hb, by rw [hcell f _ hk, hcl], by rw [hproof f _ hk, hpf]⟩

/-- the call on honest tuples, for any setup -/
theorem verify_honest [LawfulPointCodec G1 48] [LawfulPairing G1 G2 GT] (setup : SetupPoints G1 G2) (h1 : setup.g1Monomial.length = 4096)
    (up : UsePrecomp) (verifier : DASContext K G1 G2) (hver : (DASContext.new setup up : Outcome ε (DASContext K G1 G2)) = .ok verifier)
    (sha256 : List UInt8 → List UInt8) (batch : List (List UInt8 × Nat × List UInt8 × List UInt8)) (fs : List Fr[X]) (hne : batch ≠ [])
    (hb : List.Forall₂ (fun t f => f.degree < 4096 ∧ t.1 = toCompressed (Spec.commitment setup.g1Monomial f) ∧ t.2.1 < 128 ∧
      t.2.2.1 = cellOf f t.2.1 ∧ t.2.2.2 = toCompressed (Spec.commitment setup.g1Monomial (f /ₘ cellDivisor t.2.1))) batch fs) :
    ∃ (r : Fr) (q : Nat → Fr[X]), (∀ i < batch.length, ∀ t f, batch[i]? = some t → fs[i]? = some f → q i = f /ₘ cellDivisor t.2.1) ∧
    verifier.verifyCellKzgProofBatch sha256 (batch.map (·.1)) (batch.map (·.2.1)) (batch.map (·.2.2.1)) (batch.map (·.2.2.2)) =
      if (pair (∑ i ∈ range batch.length, r ^ i • Spec.commitment setup.g1Monomial (q i)) (setup.g2Monomial.getD 64 0) : GT) =
        pair (∑ i ∈ range batch.length, r ^ i • Spec.commitment setup.g1Monomial (X ^ 64 * q i)) (setup.g2Monomial.getD 0 0)
      then .ok () else .err (.Verifier (.FK20 .InvalidProof)) := by
  obtain ⟨h2, h3, hv⟩ := context_verifier setup up h1 verifier hver
  let item := fun (t : List UInt8 × Nat × List UInt8 × List UInt8) (f : Fr[X]) => (⟨Spec.commitment setup.g1Monomial f, t.2.1, f %ₘ cellDivisor t.2.1,
    Spec.commitment setup.g1Monomial (f /ₘ cellDivisor t.2.1)⟩ : Spec.Opening G1)
  let items := List.zipWith item batch fs
  have hlen : items.length = batch.length := by simp [items, ← hb.length_eq]
  have hitems : List.Forall₂ (fun t o => ∃ f : Fr[X], f.degree < 4096 ∧ t.1 = toCompressed (Spec.commitment setup.g1Monomial f) ∧ t.2.1 < 128 ∧
      t.2.2.1 = cellOf f t.2.1 ∧ t.2.2.2 = toCompressed (Spec.commitment setup.g1Monomial (f /ₘ cellDivisor t.2.1)) ∧ o = item t f) batch items := by
    have : ∀ (b : List (List UInt8 × Nat × List UInt8 × List UInt8)) (f : List Fr[X]), List.Forall₂ (fun t f => f.degree < 4096 ∧ t.1 = toCompressed (Spec.commitment setup.g1Monomial f) ∧ t.2.1 < 128 ∧
      t.2.2.1 = cellOf f t.2.1 ∧ t.2.2.2 = toCompressed (Spec.commitment setup.g1Monomial (f /ₘ cellDivisor t.2.1))) b f →
      List.Forall₂ (fun t o => ∃ f : Fr[X], f.degree < 4096 ∧ t.1 = toCompressed (Spec.commitment setup.g1Monomial f) ∧ t.2.1 < 128 ∧
      t.2.2.1 = cellOf f t.2.1 ∧ t.2.2.2 = toCompressed (Spec.commitment setup.g1Monomial (f /ₘ cellDivisor t.2.1)) ∧ o = item t f) b
        (List.zipWith item b f) := by
      intro b f h
      induction h with
      | nil => exact .nil
      | cons h _ ih => exact .cons ⟨_, h.1, h.2.1, h.2.2.1, h.2.2.2.1, h.2.2.2.2, rfl⟩ ih
    exact this _ _ hb
  have hd : Spec.Decodes (batch.map (·.1)) (batch.map (·.2.1)) (batch.map (·.2.2.1)) (batch.map (·.2.2.2)) items := by
    refine ⟨?_, ?_, ?_, ?_⟩ <;> rw [List.forall₂_map_left_iff] <;> refine hitems.imp (fun t o h => ?_) <;>
      obtain ⟨f, hf, e1, e2, e3, e4, rfl⟩ := h
    · rw [e1]; exact LawfulPointCodec.fromCompressed_toCompressed _
    · exact ⟨rfl, e2⟩
    · refine ⟨mod_degree f _, ?_⟩
      show Spec.IsCell (f %ₘ cellDivisor t.2.1) t.2.1 t.2.2.1
      rw [isCell_mod, isCell_iff, e3]
    · rw [e4]; exact LawfulPointCodec.fromCompressed_toCompressed _
  have hmem : ∀ t ∈ batch, ∃ f : Fr[X], t.1 = toCompressed (Spec.commitment setup.g1Monomial f) ∧
      t.2.2.2 = toCompressed (Spec.commitment setup.g1Monomial (f /ₘ cellDivisor t.2.1)) := by
    intro t ht
    obtain ⟨i, hi, rfl⟩ := List.mem_iff_getElem.1 ht
    obtain ⟨f, -, e1, -, -, e4, -⟩ := forall₂_getElem hitems hi (by omega)
    exact ⟨f, e1, e4⟩
  have hl48 : ∀ c ∈ batch.map (·.1), c.length = 48 := by
    intro c hc
    obtain ⟨t, ht, rfl⟩ := List.mem_map.1 hc
    obtain ⟨f, e, -⟩ := hmem t ht
    rw [e]
    exact LawfulPointCodec.length_toCompressed _
  have hp48 : ∀ c ∈ batch.map (·.2.2.2), c.length = 48 := by
    intro c hc
    obtain ⟨t, ht, rfl⟩ := List.mem_map.1 hc
    obtain ⟨f, -, e⟩ := hmem t ht
    rw [e]
    exact LawfulPointCodec.length_toCompressed _
  have hni : items ≠ [] := by
    intro e
    rw [e] at hlen
    exact hne (List.length_eq_zero_iff.1 hlen.symm)
  let it : Nat → Spec.Opening G1 := fun i => items.getD i ⟨0, 0, 0, 0⟩
  let q : Nat → Fr[X] := fun i => match batch[i]?, fs[i]? with
    | some t, some f => f /ₘ cellDivisor t.2.1
    | _, _ => 0
  refine ⟨Spec.challenge sha256 (batch.map (·.1)) (batch.map (·.2.1)) (batch.map (·.2.2.1)) (batch.map (·.2.2.2)), q, ?_, ?_⟩
  · intro i _ t f ht hf
    simp only [q, ht, hf]
  rw [verify_run (GT := GT) sha256 verifier setup.g1Monomial setup.g2Monomial (by omega) (by omega) hv _ _ _ _ hl48 hp48 items hd hni _ rfl it
    (fun _ => rfl)]
  generalize Spec.challenge sha256 _ _ _ _ = r
  have hit : ∀ i < batch.length, ∃ t f, batch[i]? = some t ∧ fs[i]? = some f ∧ it i = item t f := by
    intro i hi
    have hi' : i < fs.length := by rw [← hb.length_eq]; exact hi
    refine ⟨batch[i], fs[i], List.getElem?_eq_getElem hi, List.getElem?_eq_getElem hi', ?_⟩
    simp only [it, items]
    rw [List.getD_eq_getElem _ _ (by simp only [List.length_zipWith]; omega), List.getElem_zipWith]
  have e1 : ∑ i ∈ range items.length, r ^ i • (it i).proof = ∑ i ∈ range batch.length, r ^ i • Spec.commitment setup.g1Monomial (q i) := by
    rw [hlen]
    refine sum_congr rfl (fun i hi => ?_)
    obtain ⟨t, f, ht, hf, e⟩ := hit i (mem_range.1 hi)
    rw [e]
    simp only [q, ht, hf, item]
  have e2 : (∑ i ∈ range items.length, r ^ i • (it i).commitment - ∑ i ∈ range items.length, r ^ i • Spec.commitment setup.g1Monomial (it i).interp) +
      ∑ i ∈ range items.length, (r ^ i * Spec.point 13 (64 * (it i).index) ^ 64) • (it i).proof =
      ∑ i ∈ range batch.length, r ^ i • Spec.commitment setup.g1Monomial (X ^ 64 * q i) := by
    rw [hlen, ← sum_sub_distrib, ← sum_add_distrib]
    refine sum_congr rfl (fun i hi => ?_)
    obtain ⟨t, f, ht, hf, e⟩ := hit i (mem_range.1 hi)
    rw [e]
    simp only [q, ht, hf, item]
    rw [← smul_sub, mul_smul, ← smul_add, honest_sum]
  rw [e1, e2, pair_neg_right, pair_neg_left]
  congr 1
  rw [← sub_eq_add_neg, sub_eq_zero]

/-- C87: with a consistent setup every batch of honest cells and proofs is accepted, for every hash function. -/
theorem C87_complete [LawfulPointCodec G1 48] [LawfulPairing G1 G2 GT] (setup : SetupPoints G1 G2) (h1 : setup.g1Monomial.length = 4096)
    (hc : Spec.SelfConsistent GT setup.g1Monomial setup.g2Monomial) (prover : DASContext K G1 G2)
    (hpr : (DASContext.new setup .no : Outcome Error (DASContext K G1 G2)) = .ok prover)
    (up : UsePrecomp) (verifier : DASContext K G1 G2) (hver : (DASContext.new setup up : Outcome ε (DASContext K G1 G2)) = .ok verifier)
    (sha256 : List UInt8 → List UInt8) (batch : List (List UInt8 × Nat × List UInt8 × List UInt8))
    (hb : ∀ t ∈ batch, HonestTuple prover t) :
    verifier.verifyCellKzgProofBatch sha256 (batch.map (·.1)) (batch.map (·.2.1)) (batch.map (·.2.2.1)) (batch.map (·.2.2.2)) = .ok () := by
  by_cases hne : batch = []
  · subst hne
    exact verify_empty sha256 verifier
  obtain ⟨fs, hfs⟩ := exists_forall₂ (fun t ht => (honest_tuple setup h1 prover hpr t).1 (hb t ht))
  obtain ⟨r, q, hq, hrun⟩ := verify_honest (GT := GT) setup h1 up verifier hver sha256 batch fs hne hfs
  rw [hrun, if_pos]
  refine (pair_sum_congr _ _ _ _ (fun i hi => ?_)).symm
  have hi := mem_range.1 hi
  have hi' : i < fs.length := by rw [← hfs.length_eq]; exact hi
  rw [hq i hi _ _ (List.getElem?_eq_getElem hi) (List.getElem?_eq_getElem hi')]
  exact consistent_pair h1 (context_verifier setup up h1 verifier hver).1 hc _ (honest_quotient_degree (forall₂_getElem hfs hi hi').1 _)

/-- C87: and only with such setups. If for some cell index the cell and proof of each blob are accepted by themselves (with some hash
function), then the setup is consistent. -/
theorem C87_necessary [LawfulPointCodec G1 48] [LawfulPairing G1 G2 GT] (setup : SetupPoints G1 G2) (h1 : setup.g1Monomial.length = 4096)
    (prover : DASContext K G1 G2) (hpr : (DASContext.new setup .no : Outcome Error (DASContext K G1 G2)) = .ok prover)
    (up : UsePrecomp) (verifier : DASContext K G1 G2) (hver : (DASContext.new setup up : Outcome ε (DASContext K G1 G2)) = .ok verifier)
    (k : Nat) (hk : k < 128) (h : ∀ commitment cell proof, HonestTuple prover (commitment, k, cell, proof) →
      ∃ sha256, verifier.verifyCellKzgProofBatch sha256 [commitment] [k] [cell] [proof] = .ok ()) :
    Spec.SelfConsistent GT setup.g1Monomial setup.g2Monomial := by
  have h2 := (context_verifier setup up h1 verifier hver).1
  rw [selfConsistent_iff h1 h2]
  intro j hj
  let f : Fr[X] := cellDivisor k * X ^ j
  have hdiv : f /ₘ cellDivisor k = X ^ j := mul_divByMonic_cancel_left _ (cellDivisor_monic k)
  have hf : f.degree < 4096 := by
    simp only [f]
    rw [degree_mul, cellDivisor_degree, degree_X_pow]
    exact_mod_cast (show 64 + j < 4096 by omega)
  let t : List UInt8 × Nat × List UInt8 × List UInt8 :=
    (toCompressed (Spec.commitment setup.g1Monomial f), k, cellOf f k, toCompressed (Spec.commitment setup.g1Monomial (f /ₘ cellDivisor k)))
  have ht : f.degree < 4096 ∧ t.1 = toCompressed (Spec.commitment setup.g1Monomial f) ∧ t.2.1 < 128 ∧
      t.2.2.1 = cellOf f t.2.1 ∧ t.2.2.2 = toCompressed (Spec.commitment setup.g1Monomial (f /ₘ cellDivisor t.2.1)) :=
    ⟨hf, rfl, hk, rfl, rfl⟩
  obtain ⟨sha256, hok⟩ := h _ _ _ ((honest_tuple setup h1 prover hpr t).2 ⟨f, ht⟩)
  obtain ⟨r, q, hq, hrun⟩ := verify_honest (GT := GT) setup h1 up verifier hver sha256 [t] [f] (by simp) (.cons ht .nil)
  have hq0 : q 0 = X ^ j := (hq 0 (by simp) t f rfl rfl).trans hdiv
  change verifier.verifyCellKzgProofBatch sha256 [t.1] [t.2.1] [t.2.2.1] [t.2.2.2] = _ at hrun
  rw [show verifier.verifyCellKzgProofBatch sha256 [t.1] [t.2.1] [t.2.2.1] [t.2.2.2] = .ok () from hok] at hrun
  split_ifs at hrun with he
  have one : ∀ a : Nat → G1, ∑ i ∈ range [t].length, r ^ i • a i = a 0 := by
    intro a
    show ∑ i ∈ range 1, _ = _
    rw [sum_range_one, pow_zero, one_smul]
  rw [one, one, hq0, commitment_shift _ h1, commitment_low _ h1 _ (by rw [degree_X_pow]; exact_mod_cast hj)] at he
  have single : ∀ a : Nat → G1, ∑ i ∈ range 4032, (X ^ j : Fr[X]).coeff i • a i = a j := by
    intro a
    rw [sum_eq_single j]
    · rw [coeff_X_pow_self, one_smul]
    · intro i _ hij
      rw [coeff_X_pow, if_neg hij, zero_smul]
    · intro hn
      exact absurd (mem_range.2 hj) hn
  rw [single (fun i => setup.g1Monomial.getD i 0), single (fun i => setup.g1Monomial.getD (i + 64) 0)] at he
  exact he.symm

/-- A setup of powers is consistent. -/
theorem C87_powers_consistent [LawfulPairing G1 G2 GT] (g1 : List G1) (g2 : List G2) (τ : Fr) (P : G1) (H : G2)
    (hpt : Spec.PowersOfTau g1 g2 τ P H) : Spec.SelfConsistent GT g1 g2 := by
  intro Q Q' e0 e64 j A A' e e'
  have hj := (List.getElem?_eq_some_iff.1 e').1
  rw [hpt.length_g1] at hj
  have hl := hpt.length_g2
  rw [hpt.g2_eq 0 (by omega), Option.some.injEq, pow_zero, one_smul] at e0
  rw [hpt.g2_eq 64 (by omega), Option.some.injEq] at e64
  rw [hpt.g1_eq j (by omega), Option.some.injEq] at e
  rw [hpt.g1_eq (j + 64) (by omega), Option.some.injEq] at e'
  rw [← e0, ← e64, ← e, ← e', pow_add, mul_comm, mul_smul, LawfulPairing.pair_smul]

end

section
open Bls
variable {GT : Type} [AddCommGroup GT] [DecidableEq GT] [Pairing Bls.G1 Bls.G2 GT] [LawfulPairing Bls.G1 Bls.G2 GT]

theorem pair_eq_iff (hnd : (pair generator generator2 : GT) ≠ 0) (a b c d : Fr) :
    (pair (a • generator) (b • generator2) : GT) = pair (c • generator) (d • generator2) ↔ a * b = c * d := by
  have h := C74_equation hnd a b (-c) d
  rw [neg_smul, pair_neg_left, ← sub_eq_add_neg, sub_eq_zero, neg_mul, ← sub_eq_add_neg, sub_eq_zero] at h
  exact h

/-- C87: on BLS12-381, points that begin with the generators are the powers of some `τ` exactly if they pass the checks of a ceremony; so the
assumption of the other theorems can be checked with the pairing. -/
theorem C87_ceremony (hnd : (pair generator generator2 : GT) ≠ 0) (g1 : List Bls.G1) (g2 : List Bls.G2) (h1 : g1.length = 4096)
    (h2 : 64 < g2.length ∧ g2.length ≤ 4096) (e1 : g1[0]? = some generator) (e2 : g2[0]? = some generator2) :
    (∃ τ, Spec.PowersOfTau g1 g2 τ generator generator2) ↔ Spec.CeremonyChecks GT g1 g2 := by
  constructor
  · rintro ⟨τ, hpt⟩
    constructor
    · intro H H' a0 a1 j P P' e e'
      have hj := (List.getElem?_eq_some_iff.1 e').1
      rw [hpt.g2_eq 0 (by omega), Option.some.injEq] at a0
      rw [hpt.g2_eq 1 (by omega), Option.some.injEq] at a1
      rw [hpt.g1_eq j (by omega), Option.some.injEq] at e
      rw [hpt.g1_eq (j + 1) (by omega), Option.some.injEq] at e'
      rw [← a0, ← a1, ← e, ← e', pair_eq_iff hnd]
      ring
    · intro P P' a0 a1 j H H' e e'
      have hj := (List.getElem?_eq_some_iff.1 e').1
      rw [hpt.g1_eq 0 (by omega), Option.some.injEq] at a0
      rw [hpt.g1_eq 1 (by omega), Option.some.injEq] at a1
      rw [hpt.g2_eq j (by omega), Option.some.injEq] at e
      rw [hpt.g2_eq (j + 1) (by omega), Option.some.injEq] at e'
      rw [← a0, ← a1, ← e, ← e', pair_eq_iff hnd]
      ring
  · rintro ⟨hc1, hc2⟩
    obtain ⟨τ, hτ⟩ := exists_smul_generator (g1[1]'(by omega))
    obtain ⟨σ, hσ⟩ := exists_smul_generator2 (g2[1]'(by omega))
    have k1 : g1[1]? = some (τ • generator) := by rw [List.getElem?_eq_getElem (by omega), hτ]
    have k2 : g2[1]? = some (σ • generator2) := by rw [List.getElem?_eq_getElem (by omega), hσ]
    have hστ : τ = σ := by
      have := hc1 _ _ e2 k2 0 _ _ e1 k1
      have h' := (pair_eq_iff hnd τ 1 1 σ).1 (by rw [one_smul, one_smul]; exact this)
      rwa [mul_one, one_mul] at h'
    subst hστ
    have p1 : ∀ i, ∀ hi : i < g1.length, g1[i] = τ ^ i • generator := by
      intro i
      induction i with
      | zero =>
        intro hi
        rw [List.getElem?_eq_getElem hi] at e1
        rw [Option.some.inj e1, pow_zero, one_smul]
      | succ i ih =>
        intro hi
        obtain ⟨c, hcc⟩ := exists_smul_generator g1[i + 1]
        have := hc1 _ _ e2 k2 i _ _ (List.getElem?_eq_getElem (by omega)) (List.getElem?_eq_getElem hi)
        rw [ih (by omega), ← hcc] at this
        have h' := (pair_eq_iff hnd c 1 (τ ^ i) τ).1 (by rw [one_smul]; exact this)
        rw [← hcc, pow_succ, ← h', mul_one]
    have p2 : ∀ i, ∀ hi : i < g2.length, g2[i] = τ ^ i • generator2 := by
      intro i
      induction i with
      | zero =>
        intro hi
        rw [List.getElem?_eq_getElem hi] at e2
        rw [Option.some.inj e2, pow_zero, one_smul]
      | succ i ih =>
        intro hi
        obtain ⟨c, hcc⟩ := exists_smul_generator2 g2[i + 1]
        have := hc2 _ _ e1 k1 i _ _ (List.getElem?_eq_getElem (by omega)) (List.getElem?_eq_getElem hi)
        rw [ih (by omega), ← hcc] at this
        have h' := (pair_eq_iff hnd 1 c τ (τ ^ i)).1 (by rw [one_smul]; exact this)
        rw [← hcc, pow_succ', ← h', one_mul]
    exact ⟨τ, h1, fun i hi => by rw [List.getElem?_eq_getElem (by omega), p1 i (by omega)], h2,
      fun i hi => by rw [List.getElem?_eq_getElem hi, p2 i hi]⟩

/-- C87: the embedded setup, whose numbers the model has: there is a secret exactly if its points pass the checks of a ceremony. -/
theorem C87_embedded (hnd : (pair generator generator2 : GT) ≠ 0) (points : SetupPoints Bls.G1 Bls.G2) (h : Embedded.Points points) :
    (∃ τ, Embedded.Secret points τ) ↔ Spec.CeremonyChecks GT points.g1Monomial points.g2Monomial := by
  obtain ⟨p, -, huniq, l1, l2, e1, e2⟩ := C76_points
  rw [← huniq points h] at l1 l2 e1 e2
  rw [← C87_ceremony hnd _ _ l1 (by omega) e1 e2]
  constructor
  · rintro ⟨τ, hτ⟩
    exact ⟨τ, hτ.powers⟩
  · rintro ⟨τ, hτ⟩
    refine ⟨τ, h, fun i P hP => ?_, fun i P hP => ?_⟩
    · have := (List.getElem?_eq_some_iff.1 hP).1
      rw [hτ.g1_eq i (by omega)] at hP
      exact (Option.some.inj hP).symm
    · have := (List.getElem?_eq_some_iff.1 hP).1
      rw [hτ.g2_eq i (by omega)] at hP
      exact (Option.some.inj hP).symm

/-- C87: on BLS12-381 the setups with which the library accepts what it makes are those in which the last 4032 points of G1 continue the
first 64 with the ratio of the two points of G2 that the verifier uses. The first 64 points are arbitrary. -/
theorem C87_shape (hnd : (pair generator generator2 : GT) ≠ 0) (g1 : List Bls.G1) (g2 : List Bls.G2) (h1 : g1.length = 4096)
    (h2 : 64 < g2.length) (e2 : g2[0]? = some generator2) :
    Spec.SelfConsistent GT g1 g2 ↔ ∃ σ : Fr, g2[64]? = some (σ • generator2) ∧ ∀ j P, j < 4032 → g1[j]? = some P → g1[j + 64]? = some (σ • P) := by
  obtain ⟨σ, hσ⟩ := exists_smul_generator2 (g2[64]'h2)
  have k2 : g2[64]? = some (σ • generator2) := by rw [List.getElem?_eq_getElem h2, hσ]
  have key : ∀ P P' : Bls.G1, (pair P' generator2 : GT) = pair P (σ • generator2) ↔ P' = σ • P := by
    intro P P'
    obtain ⟨a, rfl⟩ := exists_smul_generator P
    obtain ⟨b, rfl⟩ := exists_smul_generator P'
    have h := pair_eq_iff hnd b 1 a σ
    rw [one_smul, mul_one] at h
    rw [h, ← mul_smul]
    constructor
    · rintro rfl
      rw [mul_comm]
    · intro e
      rw [mul_comm]
      exact smul_generator_injective e
  constructor
  · intro h
    refine ⟨σ, k2, fun j P hj hP => ?_⟩
    have hP' : g1[j + 64]? = some (g1[j + 64]'(by omega)) := List.getElem?_eq_getElem (by omega)
    rw [hP', (key P _).1 (h _ _ e2 k2 j P _ hP hP')]
  · rintro ⟨ρ, hρ, h⟩ H H' a0 a1 j P P' hP hP'
    rw [e2, Option.some.injEq] at a0
    rw [k2, Option.some.injEq] at hρ a1
    have hj := (List.getElem?_eq_some_iff.1 hP').1
    rw [h j P (by omega) hP, Option.some.injEq] at hP'
    have hρσ : ρ • P = σ • P := by
      rw [smul_left_injective Fr generator2_ne hρ]
    rw [← a0, ← a1, key, ← hP', hρσ]

end

/-- points in blocks of 64 equal ones: `(τ^64)^(i / 64)` in G1, powers of `τ` in G2 -/
def blocks {G1 G2 : Type} [AddCommGroup G1] [Module Fr G1] [AddCommGroup G2] [Module Fr G2] (τ : Fr) (P : G1) (H : G2) : SetupPoints G1 G2 :=
  ⟨(List.range 4096).map (fun i => τ ^ (64 * (i / 64)) • P), (List.range 65).map (fun i => τ ^ i • H)⟩

section
variable {G1 G2 GT : Type} [AddCommGroup G1] [Module Fr G1] [DecidableEq G1] [PointCodec G1] [AddCommGroup G2] [Module Fr G2]
  [AddCommGroup GT] [DecidableEq GT] [Pairing G1 G2 GT]

theorem blocks_g1 (τ : Fr) (P : G1) (H : G2) {i : Nat} (hi : i < 4096) : (blocks τ P H).g1Monomial[i]? = some (τ ^ (64 * (i / 64)) • P) := by
  unfold blocks
  rw [List.getElem?_map, List.getElem?_range hi, Option.map_some]

theorem blocks_g2 (τ : Fr) (P : G1) (H : G2) {i : Nat} (hi : i < 65) : (blocks τ P H).g2Monomial[i]? = some (τ ^ i • H) := by
  unfold blocks
  rw [List.getElem?_map, List.getElem?_range hi, Option.map_some]

theorem blocks_length (τ : Fr) (P : G1) (H : G2) : (blocks τ P H).g1Monomial.length = 4096 ∧ (blocks τ P H).g2Monomial.length = 65 := by
  constructor
  · unfold blocks; rw [List.length_map, List.length_range]
  · unfold blocks; rw [List.length_map, List.length_range]

theorem blocks_consistent [LawfulPairing G1 G2 GT] (τ : Fr) (P : G1) (H : G2) :
    Spec.SelfConsistent GT (blocks τ P H).g1Monomial (blocks τ P H).g2Monomial := by
  intro Q Q' e0 e64 j A A' e e'
  have hj := (List.getElem?_eq_some_iff.1 e').1
  rw [(blocks_length τ P H).1] at hj
  rw [blocks_g2 τ P H (by omega), Option.some.injEq, pow_zero, one_smul] at e0
  rw [blocks_g2 τ P H (by omega), Option.some.injEq] at e64
  rw [blocks_g1 τ P H (by omega), Option.some.injEq] at e
  rw [blocks_g1 τ P H (by omega), Option.some.injEq] at e'
  rw [← e0, ← e64, ← e, ← e', show 64 * ((j + 64) / 64) = 64 + 64 * (j / 64) by omega, pow_add, mul_smul, LawfulPairing.pair_smul]

theorem blocks_commitment (τ : Fr) (P : G1) (H : G2) {i : Nat} (hi : i < 64) : Spec.commitment (blocks τ P H).g1Monomial (X ^ i) = P := by
  unfold Spec.commitment
  rw [(blocks_length τ P H).1, sum_eq_single i]
  · rw [coeff_X_pow_self, one_smul, List.getD, blocks_g1 τ P H (by omega), Nat.div_eq_of_lt hi, Nat.mul_zero, pow_zero, one_smul, Option.getD_some]
  · intro j _ hij
    rw [coeff_X_pow, if_neg hij, zero_smul]
  · intro hn
    exact absurd (mem_range.2 (by omega)) hn

end

section
open Bls
variable {GT : Type} [AddCommGroup GT] [DecidableEq GT] [Pairing Bls.G1 Bls.G2 GT] [LawfulPairing Bls.G1 Bls.G2 GT]

/-- C87: so that the library accepts its own cells and proofs, of every blob, says little about the setup. On BLS12-381 there is a setup that
begins with the generators, with which every batch of honest cells and proofs is accepted, which is not made of the powers of any number, and with
which 64 different blobs have the same commitment: the cells of each are accepted for it. -/
theorem C87_gap : ∃ setup : SetupPoints Bls.G1 Bls.G2,
    setup.g1Monomial.length = 4096 ∧ setup.g2Monomial.length = 65 ∧ setup.g1Monomial[0]? = some generator ∧
    setup.g2Monomial[0]? = some generator2 ∧ (¬ ∃ τ, Spec.PowersOfTau setup.g1Monomial setup.g2Monomial τ generator generator2) ∧
    ∃ ctx : DASContext Fp Bls.G1 Bls.G2, (DASContext.new setup .no : Outcome Error (DASContext Fp Bls.G1 Bls.G2)) = .ok ctx ∧
      (∀ sha256 (batch : List (List UInt8 × Nat × List UInt8 × List UInt8)), (∀ t ∈ batch, HonestTuple ctx t) →
        ctx.verifyCellKzgProofBatch sha256 (batch.map (·.1)) (batch.map (·.2.1)) (batch.map (·.2.2.1)) (batch.map (·.2.2.2)) = .ok ()) ∧
      ∃ commitment, ∃ blobs : List (List UInt8), blobs.length = 64 ∧ blobs.Nodup ∧
        ∀ blob ∈ blobs, blob.length = 131072 ∧ ctx.blobToKzgCommitment blob = .ok commitment := by
  obtain ⟨l1, l2⟩ := blocks_length (7 : Fr) generator generator2
  obtain ⟨ctx, hctx⟩ := context_exists (ε := Error) (K := Fp) (blocks (7 : Fr) generator generator2) l1 (by omega) (by omega)
  have hdeg : ∀ i < 64, (X ^ i : Fr[X]).degree < 4096 := by
    intro i hi
    rw [degree_X_pow]
    exact_mod_cast (show i < 4096 by omega)
  refine ⟨blocks 7 generator generator2, l1, l2, ?_, ?_, ?_, ctx, hctx, ?_, toCompressed generator,
    (List.range 64).map (fun i => blobOf (X ^ i)), by rw [List.length_map, List.length_range], ?_, ?_⟩
  · rw [blocks_g1 _ _ _ (by omega), Nat.zero_div, Nat.mul_zero, pow_zero, one_smul]
  · rw [blocks_g2 _ _ _ (by omega), pow_zero, one_smul]
  · rintro ⟨τ, hpt⟩
    have a1 := hpt.g1_eq 1 (by omega)
    have a64 := hpt.g1_eq 64 (by omega)
    rw [blocks_g1 _ _ _ (by omega), Option.some.injEq] at a1 a64
    have b1 : ((7 : Fr) ^ (64 * (1 / 64))) = τ ^ 1 := smul_generator_injective a1
    have b64 : ((7 : Fr) ^ (64 * (64 / 64))) = τ ^ 64 := smul_generator_injective a64
    rw [show 64 * (1 / 64) = 0 from rfl, pow_zero, pow_one] at b1
    rw [← b1, one_pow] at b64
    have : ((7 ^ 64 : Nat) : Fr) = ((1 : Nat) : Fr) := by rw [Nat.cast_pow, Nat.cast_one]; exact b64
    rw [ZMod.natCast_eq_natCast_iff] at this
    revert this
    unfold Nat.ModEq
    decide +kernel
  · intro sha256 batch hb
    exact C87_complete (GT := GT) _ l1 (blocks_consistent _ _ _) ctx hctx .no ctx hctx sha256 batch hb
  · rw [List.nodup_map_iff_inj_on List.nodup_range]
    intro i hi j hj e
    have a := isBlobPoly_blobOf (X ^ i) (hdeg i (List.mem_range.1 hi))
    have b := isBlobPoly_blobOf (X ^ j) (hdeg j (List.mem_range.1 hj))
    rw [show blobOf (X ^ i) = blobOf (X ^ j) from e] at a
    have := isBlobPoly_unique a b
    have h := congrArg natDegree this
    rwa [natDegree_X_pow, natDegree_X_pow] at h
  · intro blob hblob
    obtain ⟨i, hi, rfl⟩ := List.mem_map.1 hblob
    have hi := List.mem_range.1 hi
    have a := isBlobPoly_blobOf (X ^ i) (hdeg i hi)
    obtain ⟨M, hp, -⟩ := context_fields _ .no l1 ctx hctx
    exact ⟨a.2.1, by rw [commitment_of_blob l1 hp a, blocks_commitment _ _ _ hi]⟩

end

section
open Toy

/-- a consistent setup: powers of 7; and one that is not, with one point changed -/
example : Spec.SelfConsistent Fr (setup 7).g1Monomial (setup 7).g2Monomial := C87_powers_consistent _ _ 7 1 1 (powersOfTau 7)

example : ¬ Spec.SelfConsistent Fr ((setup 7).g1Monomial.set 64 (0 : Fr)) (setup 7).g2Monomial := by
  intro h
  have e0 : (setup 7).g2Monomial[0]? = some ((7 : Fr) ^ 0) := by simp [setup]
  have e64 : (setup 7).g2Monomial[64]? = some ((7 : Fr) ^ 64) := by simp [setup]
  have f0 : ((setup 7).g1Monomial.set 64 (0 : Fr))[0]? = some ((7 : Fr) ^ 0) := by simp [setup]
  have f64 : ((setup 7).g1Monomial.set 64 (0 : Fr))[0 + 64]? = some (0 : Fr) := by simp [setup]
  have := h _ _ e0 e64 0 _ _ f0 f64
  change (0 : Fr) * 7 ^ 0 = 7 ^ 0 * 7 ^ 64 at this
  rw [zero_mul, pow_zero, one_mul] at this
  have h7 : (7 : Fr) ≠ 0 := by decide +kernel
  exact pow_ne_zero 64 h7 this.symm

/-- if the setup is not consistent the library refuses a proof of its own -/
example (points : SetupPoints Fr Fr) (h1 : points.g1Monomial.length = 4096) (h2 : points.g2Monomial.length = 65)
    (hn : ¬ Spec.SelfConsistent Fr points.g1Monomial points.g2Monomial) :
    ∃ ctx : DASContext Fr Fr Fr, (DASContext.new points .no : Outcome Error (DASContext Fr Fr Fr)) = .ok ctx ∧
    ∃ commitment cell proof, HonestTuple ctx (commitment, 5, cell, proof) ∧
      ∀ sha256, ctx.verifyCellKzgProofBatch sha256 [commitment] [5] [cell] [proof] ≠ .ok () := by
  obtain ⟨ctx, hctx⟩ := context_exists (ε := Error) (K := Fr) points h1 (by omega) (by omega)
  refine ⟨ctx, hctx, ?_⟩
  by_contra hc
  push Not at hc
  exact hn (C87_necessary (GT := Fr) points h1 ctx hctx .no ctx hctx 5 (by omega) hc)

end

end Verif
