import Verif.Props.Embedded
import Verif.Props.Binding
import Verif.Props.Toy

set_option linter.unusedSectionVars false

/-!
C80: the embedded setup gives away nothing by an accident of its secret. If the points of the file are the powers of some `τ`, then
`τ` is none of the 8192 evaluation points (this is read off the file), so the exceptions for such secrets in C08, C56 and C57 do not
arise for contexts made from it, and among commitment, cell element and proof each is determined by the others.
-/
namespace Verif
open Polynomial Finset

section
variable {ε K G1 G2 GT : Type} [Field K] [DecidableEq K] [AddCommGroup G1] [Module Fr G1] [DecidableEq G1]
  [Curve K G1] [PointCodec G1] [AddCommGroup G2] [Module Fr G2] [AddCommGroup GT] [DecidableEq GT]
  [Pairing G1 G2 GT]

/-- an accepted claim decodes -/
theorem single_accepted (ctx : DASContext K G1 G2) (sha256 : List UInt8 → List UInt8) (commitment : List UInt8) (k : Nat)
    (cell proof : List UInt8) (hcm : commitment.length = 48) (hcl : cell.length = 2048) (hpf : proof.length = 48)
    (hok : ctx.verifyCellKzgProofBatch sha256 [commitment] [k] [cell] [proof] = .ok ()) :
    ∃ C p : G1, fromCompressed commitment = some C ∧ k < 128 ∧ Spec.Canonical 64 cell ∧ fromCompressed proof = some p := by
  rcases verify_wellFormed_or_defect (G1 := G1) [commitment] [k] [cell] [proof] (by simpa using hcl) with hw | ⟨e, he⟩
  · obtain ⟨items, h1, h2, h3, h4⟩ := exists_items (by simpa using hcl) hw
    cases h1 with
    | cons a1 h1 =>
      cases h1
      cases h2 with
      | cons a2 h2 =>
        cases h3 with
        | cons a3 h3 =>
          cases h4 with
          | cons a4 h4 => exact ⟨_, _, a1, a2.2, isCell_canonical a3.2, a4⟩
  · rw [verify_defect sha256 ctx (by simpa using hcl) (by simpa using hcm) (by simpa using hpf) he] at hok
    cases hok

/-- the polynomial of a cell -/
theorem cell_interp (k : Nat) (cell : List UInt8) (hcl : cell.length = 2048) (hcan : Spec.Canonical 64 cell) :
    ∃ I : Fr[X], I.degree < 64 ∧ Spec.IsCell I k cell := by
  have hx : ∀ j, ∃ x : Fr, j < 64 → Spec.Encodes (Spec.block 32 j cell) x := by
    intro j
    by_cases hj : j < 64
    · obtain ⟨x, hx⟩ := (exists_encodes_iff (length_block_of (n := 64) hcl hj)).2 (hcan j hj)
      exact ⟨x, fun _ => hx⟩
    · exact ⟨0, fun h => absurd h hj⟩
  choose x hx using hx
  obtain ⟨I, hI1, hI2⟩ := exists_Interp k ((List.range 64).map x)
  refine ⟨I, hI1, hcl, ?_⟩
  intro j hj
  rw [hI2 j hj, (rep_map_range 64 x).getD 0 hj]
  exact hx j hj

/-- the vanishing polynomial of a coset at a point outside of it -/
theorem divisor_ne {τ : Fr} {k : Nat} (hτ : ∀ j < 64, τ ≠ Spec.point 13 (64 * k + j)) :
    τ ^ 64 - Spec.point 13 (64 * k) ^ 64 ≠ 0 := by
  rw [← cellDivisor_eval, ← cellDivisor_eq]
  unfold Spec.vanishing
  rw [eval_prod, prod_ne_zero_iff]
  intro j hj
  rw [eval_sub, eval_X, eval_C]
  exact sub_ne_zero.2 (hτ j (mem_range.1 hj))

theorem point_inj {i j : Nat} (hi : i < 8192) (hj : j < 8192) (h : Spec.point 13 i = Spec.point 13 j) : i = j := by
  have := (omega_primitive 13 (by norm_num)).pow_inj (Spec.brev_lt 13 i) (Spec.brev_lt 13 j) h
  rw [← Spec.brev_brev 13 i hi, this, Spec.brev_brev 13 j hj]

theorem point_root (i : Nat) : Spec.point 13 i ^ 8192 = 1 := by
  unfold Spec.point
  rw [← pow_mul, mul_comm, pow_mul, show 8192 = 2 ^ 13 from rfl, (omega_primitive 13 (by norm_num)).pow_eq_one, one_pow]

/-- a polynomial that is not zero only in one point of a coset, and has a given value outside of the coset -/
theorem bump {τ : Fr} {k : Nat} (hτ : ∀ j < 64, τ ≠ Spec.point 13 (64 * k + j)) (j : Nat) (hj : j < 64) (v : Fr) :
    ∃ D : Fr[X], D.degree < 64 ∧ (∀ i < 64, i ≠ j → D.eval (Spec.point 13 (64 * k + i)) = 0) ∧ D.eval τ = v := by
  have hne : (∏ i ∈ (range 64).erase j, (τ - Spec.point 13 (64 * k + i))) ≠ 0 := by
    rw [prod_ne_zero_iff]
    intro i hi
    exact sub_ne_zero.2 (hτ i (mem_range.1 (mem_of_mem_erase hi)))
  refine ⟨C (v / ∏ i ∈ (range 64).erase j, (τ - Spec.point 13 (64 * k + i))) *
    ∏ i ∈ (range 64).erase j, (X - C (Spec.point 13 (64 * k + i))), ?_, ?_, ?_⟩
  · refine lt_of_le_of_lt (degree_mul_le _ _) (lt_of_le_of_lt (add_le_add_left degree_C_le _) ?_)
    rw [zero_add, degree_prod, sum_congr rfl fun i _ => degree_X_sub_C _, sum_const, card_erase_of_mem (mem_range.2 hj), card_range]
    decide
  · intro i hi hij
    refine (eval_mul ..).trans (mul_eq_zero_of_right _ ?_)
    rw [eval_prod]
    refine prod_eq_zero (mem_erase.2 ⟨hij, mem_range.2 hi⟩) ?_
    rw [eval_sub, eval_X, eval_C, sub_self]
  · rw [eval_mul, eval_C, eval_prod]
    simp only [eval_sub, eval_X, eval_C]
    exact div_mul_cancel₀ _ hne

/-- two polynomials of degree below 64 that agree in 63 points of a coset and in a point outside of it -/
theorem agree {τ : Fr} {k : Nat} (hk : k < 128) (hτ : ∀ j < 64, τ ≠ Spec.point 13 (64 * k + j)) (j : Nat) (hj : j < 64)
    {I I' : Fr[X]} (hI : I.degree < 64) (hI' : I'.degree < 64)
    (h : ∀ i < 64, i ≠ j → I.eval (Spec.point 13 (64 * k + i)) = I'.eval (Spec.point 13 (64 * k + i)))
    (ht : I.eval τ = I'.eval τ) : I = I' := by
  have hc : (insert τ (((range 64).erase j).image fun i => Spec.point 13 (64 * k + i))).card = 64 := by
    rw [card_insert_of_notMem, card_image_of_injOn, card_erase_of_mem (mem_range.2 hj), card_range]
    · intro a ha b hb hab
      have ha' := mem_range.1 (mem_of_mem_erase (mem_coe.1 ha))
      have hb' := mem_range.1 (mem_of_mem_erase (mem_coe.1 hb))
      have := point_inj (by omega) (by omega) hab
      omega
    · intro hm
      obtain ⟨i, hi, he⟩ := mem_image.1 hm
      exact hτ i (mem_range.1 (mem_of_mem_erase hi)) he.symm
  refine eq_of_degrees_lt_of_eval_finset_eq (insert τ (((range 64).erase j).image fun i => Spec.point 13 (64 * k + i))) ?_ ?_ ?_
  · rw [hc]
    exact hI
  · rw [hc]
    exact hI'
  · intro x hx
    rcases mem_insert.1 hx with rfl | hx
    · exact ht
    · obtain ⟨i, hi, rfl⟩ := mem_image.1 hx
      exact h i (mem_range.1 (mem_of_mem_erase hi)) (ne_of_mem_erase hi)

variable [LawfulPointCodec G1 48] [LawfulPairing G1 G2 GT]

/-- C80 for any setup whose secret is not in the coset: for each commitment, index and cell exactly one string of 48 bytes is
accepted as the proof. -/
theorem C80_proof_general (setup : SetupPoints G1 G2) (up : UsePrecomp) (τ : Fr)
    (P : G1) (H : G2) (hpt : Spec.PowersOfTau setup.g1Monomial setup.g2Monomial τ P H)
    (hnd : ∀ a : G1, pair a H = (0 : GT) → a = 0)
    (ctx : DASContext K G1 G2) (hctx : (DASContext.new setup up : Outcome ε (DASContext K G1 G2)) = .ok ctx)
    (commitment : List UInt8) (k : Nat) (cell : List UInt8) (hcm : commitment.length = 48) (hcl : cell.length = 2048) (Cm : G1)
    (hC : fromCompressed commitment = some Cm) (hk : k < 128) (hcan : Spec.Canonical 64 cell)
    (hτ : ∀ j < 64, τ ≠ Spec.point 13 (64 * k + j)) :
    ∃ proof : List UInt8, proof.length = 48 ∧ ∀ (sha256 : List UInt8 → List UInt8) (proof' : List UInt8), proof'.length = 48 →
      (ctx.verifyCellKzgProofBatch sha256 [commitment] [k] [cell] [proof'] = .ok () ↔ proof' = proof) := by
  obtain ⟨I, hI, hcell⟩ := cell_interp k cell hcl hcan
  have hne := divisor_ne hτ
  refine ⟨toCompressed ((τ ^ 64 - Spec.point 13 (64 * k) ^ 64)⁻¹ • (Cm - I.eval τ • P)), LawfulPointCodec.length_toCompressed _, ?_⟩
  intro sha256 proof' hpf
  constructor
  · intro h
    obtain ⟨-, p, -, -, -, hp⟩ := single_accepted ctx sha256 commitment k cell proof' hcm hcl hpf h
    have e := (C06_single setup up τ P H hpt hnd ctx hctx sha256 commitment k cell proof' hcm hpf Cm p I hC hk hI hcell hp).1 h
    rw [← e, inv_smul_smul₀ hne, LawfulPointCodec.toCompressed_fromCompressed proof' p hpf hp]
  · rintro rfl
    exact (C06_single setup up τ P H hpt hnd ctx hctx sha256 commitment k cell _ hcm hpf Cm _ I hC hk hI hcell
      (LawfulPointCodec.fromCompressed_toCompressed _)).2 (smul_inv_smul₀ hne _)

/-- C80: for each index, cell and proof exactly one string of 48 bytes is accepted as the commitment, whatever the secret. -/
theorem C80_commitment_general (setup : SetupPoints G1 G2) (up : UsePrecomp) (τ : Fr)
    (P : G1) (H : G2) (hpt : Spec.PowersOfTau setup.g1Monomial setup.g2Monomial τ P H)
    (hnd : ∀ a : G1, pair a H = (0 : GT) → a = 0)
    (ctx : DASContext K G1 G2) (hctx : (DASContext.new setup up : Outcome ε (DASContext K G1 G2)) = .ok ctx)
    (k : Nat) (cell proof : List UInt8) (hpf : proof.length = 48) (hcl : cell.length = 2048) (π : G1)
    (hπ : fromCompressed proof = some π) (hk : k < 128) (hcan : Spec.Canonical 64 cell) :
    ∃ commitment : List UInt8, commitment.length = 48 ∧ ∀ (sha256 : List UInt8 → List UInt8) (commitment' : List UInt8),
      commitment'.length = 48 →
      (ctx.verifyCellKzgProofBatch sha256 [commitment'] [k] [cell] [proof] = .ok () ↔ commitment' = commitment) := by
  obtain ⟨I, hI, hcell⟩ := cell_interp k cell hcl hcan
  refine ⟨toCompressed ((τ ^ 64 - Spec.point 13 (64 * k) ^ 64) • π + I.eval τ • P), LawfulPointCodec.length_toCompressed _, ?_⟩
  intro sha256 commitment' hcm
  constructor
  · intro h
    obtain ⟨Cm, -, hC, -⟩ := single_accepted ctx sha256 commitment' k cell proof hcm hcl hpf h
    have e := (C06_single setup up τ P H hpt hnd ctx hctx sha256 commitment' k cell proof hcm hpf Cm π I hC hk hI hcell hπ).1 h
    rw [e, sub_add_cancel, LawfulPointCodec.toCompressed_fromCompressed commitment' Cm hcm hC]
  · rintro rfl
    refine (C06_single setup up τ P H hpt hnd ctx hctx sha256 _ k cell proof hcm hpf _ π I
      (LawfulPointCodec.fromCompressed_toCompressed _) hk hI hcell hπ).2 ?_
    rw [add_sub_cancel_right]

/-- C80 for any setup whose secret is not in the coset: for each commitment, index, proof and 63 elements of the cell exactly one
completion of the cell is accepted. In particular an accepted cell with one element changed is refused. -/
theorem C80_element_general (setup : SetupPoints G1 G2) (up : UsePrecomp) (τ : Fr)
    (P : G1) (H : G2) (hpt : Spec.PowersOfTau setup.g1Monomial setup.g2Monomial τ P H) (hP : P ≠ 0)
    (hnd : ∀ a : G1, pair a H = (0 : GT) → a = 0)
    (ctx : DASContext K G1 G2) (hctx : (DASContext.new setup up : Outcome ε (DASContext K G1 G2)) = .ok ctx)
    (commitment : List UInt8) (k : Nat) (cell proof : List UInt8) (hcm : commitment.length = 48) (hpf : proof.length = 48)
    (hcl : cell.length = 2048) (c p : Fr)
    (hC : fromCompressed commitment = some (c • P)) (hπ : fromCompressed proof = some (p • P)) (hk : k < 128)
    (hcan : Spec.Canonical 64 cell) (hτ : ∀ j < 64, τ ≠ Spec.point 13 (64 * k + j)) (j : Nat) (hj : j < 64) :
    ∃ cell' : List UInt8, cell'.length = 2048 ∧ (∀ i < 64, i ≠ j → Spec.block 32 i cell' = Spec.block 32 i cell) ∧
      ∀ (sha256 : List UInt8 → List UInt8) (cell'' : List UInt8), cell''.length = 2048 →
      (∀ i < 64, i ≠ j → Spec.block 32 i cell'' = Spec.block 32 i cell) →
      (ctx.verifyCellKzgProofBatch sha256 [commitment] [k] [cell''] [proof] = .ok () ↔ cell'' = cell') := by
  obtain ⟨I, hI, hcell⟩ := cell_interp k cell hcl hcan
  obtain ⟨D, hD, hD0, hDτ⟩ := bump hτ j hj (c - (τ ^ 64 - Spec.point 13 (64 * k) ^ 64) * p - I.eval τ)
  have hdeg : (I + D).degree < 64 := lt_of_le_of_lt (degree_add_le _ _) (max_lt hI hD)
  have hcell' : Spec.IsCell (I + D) k (cellOf (I + D) k) := (isCell_iff _ _ _).2 rfl
  have hacc : ∀ (sha256 : List UInt8 → List UInt8) (cell'' : List UInt8) (J : Fr[X]), J.degree < 64 → Spec.IsCell J k cell'' →
      (ctx.verifyCellKzgProofBatch sha256 [commitment] [k] [cell''] [proof] = .ok () ↔ J.eval τ = (I + D).eval τ) := by
    intro sha256 cell'' J hJ hc
    rw [C06_single setup up τ P H hpt hnd ctx hctx sha256 commitment k cell'' proof hcm hpf _ _ J hC hk hJ hc hπ, ← mul_smul,
      ← sub_smul, ← sub_eq_zero, ← sub_smul, smul_eq_zero_iff_left hP, eval_add, hDτ]
    constructor
    · intro e
      linear_combination e
    · intro e
      linear_combination e
  refine ⟨cellOf (I + D) k, hcell'.1, ?_, ?_⟩
  · intro i hi hij
    have h1 := hcell'.2 i hi
    rw [eval_add, hD0 i hi hij, add_zero] at h1
    rw [encodes_iff.1 h1, encodes_iff.1 (hcell.2 i hi)]
  · intro sha256 cell'' hl hag
    constructor
    · intro h
      obtain ⟨-, -, -, -, hcan'', -⟩ := single_accepted ctx sha256 commitment k cell'' proof hcm hl hpf h
      obtain ⟨J, hJ, hc⟩ := cell_interp k cell'' hl hcan''
      have e := (hacc sha256 cell'' J hJ hc).1 h
      have : J = I + D := by
        refine agree hk hτ j hj hJ hdeg ?_ e
        intro i hi hij
        have h1 := hc.2 i hi
        rw [hag i hi hij] at h1
        rw [eval_add, hD0 i hi hij, add_zero]
        exact encodes_inj h1 (hcell.2 i hi)
      rw [← this]
      exact (isCell_iff _ _ _).1 hc
    · rintro rfl
      exact (hacc sha256 _ (I + D) hdeg hcell').2 rfl

end

namespace Embedded
open Bls

/-- the points of the file are the powers of `τ` -/
structure Secret (points : SetupPoints Bls.G1 Bls.G2) (τ : Fr) : Prop where
  file : Points points
  g1 : ∀ i P, points.g1Monomial[i]? = some P → P = τ ^ i • generator
  g2 : ∀ i Q, points.g2Monomial[i]? = some Q → Q = τ ^ i • generator2

theorem Secret.powers {points : SetupPoints Bls.G1 Bls.G2} {τ : Fr} (h : Secret points τ) :
    Spec.PowersOfTau points.g1Monomial points.g2Monomial τ generator generator2 :=
  Embedded.powersOfTau points h.file τ h.g1 h.g2

theorem context_eq (lagrange : List (List UInt8)) (points : SetupPoints Bls.G1 Bls.G2) (h : Points points) (up : UsePrecomp) :
    (DASContext.ofTrustedSetup (Embedded.setup lagrange) up : Outcome Error (DASContext Fp Bls.G1 Bls.G2)) =
      DASContext.new points up := by
  obtain ⟨-, -, r1, r2⟩ := C76_read (ε := Error) lagrange .noCheck points h
  exact C38_context _ up _ _ (((C38_g1_points _ _).1 _).1 r1) (((C38_g2_points _ _).1 _).1 r2)

end Embedded

section
open Bls Embedded
variable {GT : Type} [AddCommGroup GT] [DecidableEq GT] [Pairing Bls.G1 Bls.G2 GT]

/-- C80: the secret of the embedded setup is not zero and none of the 8192 points at which cells are evaluated. -/
theorem C80_secret (points : SetupPoints Bls.G1 Bls.G2) (τ : Fr) (h : Secret points τ) :
    τ ≠ 0 ∧ τ ^ 8192 ≠ 1 ∧ ∀ i, τ ≠ Spec.point 13 i := by
  have hpt := h.powers
  have hl : 4032 < g1Numbers.length := by rw [Embedded.length_g1]; decide
  have hp : 4032 < points.g1Monomial.length := by rw [hpt.length_g1]; decide
  have he := (List.forall₂_iff_get.1 h.file.g1).2 4032 hl hp
  have hn : g1Numbers.get ⟨4032, hl⟩ = point4032 := by
    have := g1Numbers_4032
    rw [List.getElem?_eq_getElem hl] at this
    exact Option.some.inj this
  rw [hn, List.get_eq_getElem, h.g1 4032 _ (List.getElem?_eq_getElem hp)] at he
  have hx := encodes_x he.1 (fun e => he.2 (Subtype.ext e))
  have hcoe : ((τ ^ 4032 • generator : Bls.G1) : Curve1) = (τ ^ 4032).val • (generator : Curve1) := by
    have : τ ^ 4032 • generator = (τ ^ 4032).val • generator := by
      conv_lhs => rw [← ZMod.natCast_zmod_val (τ ^ 4032)]
      exact Nat.cast_smul_eq_nsmul Fr _ generator
    rw [this]
    rfl
  rw [hcoe] at hx
  have hr : τ ^ 8192 ≠ 1 := by
    intro e
    refine not_root hx ?_
    rw [← pow_mul, show 4032 * 128 = 8192 * 63 from rfl, pow_mul, e, one_pow]
  refine ⟨?_, hr, ?_⟩
  · rintro rfl
    exact he.2 (by rw [zero_pow (by decide), zero_smul])
  · rintro i rfl
    exact hr (point_root i)

variable [LawfulPairing Bls.G1 Bls.G2 GT]

/-- C80: in every context made from the embedded setup, for each commitment, index and cell exactly one string of 48 bytes is accepted
as the proof. -/
theorem C80_proof (hnd : (pair generator generator2 : GT) ≠ 0) (points : SetupPoints Bls.G1 Bls.G2) (τ : Fr) (h : Secret points τ)
    (lagrange : List (List UInt8)) (up : UsePrecomp) (ctx : DASContext Fp Bls.G1 Bls.G2)
    (hctx : (DASContext.ofTrustedSetup (Embedded.setup lagrange) up : Outcome Error (DASContext Fp Bls.G1 Bls.G2)) = .ok ctx)
    (commitment : List UInt8) (k : Nat) (cell : List UInt8) (Cm : Bls.G1) (hC : Spec.EncodesG1 commitment Cm) (hk : k < 128)
    (hcl : cell.length = 2048) (hcan : Spec.Canonical 64 cell) :
    ∃ proof : List UInt8, proof.length = 48 ∧ ∀ (sha256 : List UInt8 → List UInt8) (proof' : List UInt8), proof'.length = 48 →
      (ctx.verifyCellKzgProofBatch sha256 [commitment] [k] [cell] [proof'] = .ok () ↔ proof' = proof) := by
  rw [context_eq lagrange points h.file] at hctx
  exact C80_proof_general points up τ generator generator2 h.powers
    (fun a ha => ((C74_nondegenerate hnd a generator2).1 ha).resolve_right generator2_ne) ctx hctx commitment k cell hC.1 hcl Cm
    ((C53_decode _ hC.1 _).2 hC) hk hcan fun j _ => (C80_secret points τ h).2.2 _

/-- C80: and for each index, cell and proof exactly one string of 48 bytes is accepted as the commitment. -/
theorem C80_commitment (hnd : (pair generator generator2 : GT) ≠ 0) (points : SetupPoints Bls.G1 Bls.G2) (τ : Fr)
    (h : Secret points τ) (lagrange : List (List UInt8)) (up : UsePrecomp) (ctx : DASContext Fp Bls.G1 Bls.G2)
    (hctx : (DASContext.ofTrustedSetup (Embedded.setup lagrange) up : Outcome Error (DASContext Fp Bls.G1 Bls.G2)) = .ok ctx)
    (k : Nat) (cell proof : List UInt8) (π : Bls.G1) (hπ : Spec.EncodesG1 proof π) (hk : k < 128)
    (hcl : cell.length = 2048) (hcan : Spec.Canonical 64 cell) :
    ∃ commitment : List UInt8, commitment.length = 48 ∧ ∀ (sha256 : List UInt8 → List UInt8) (commitment' : List UInt8),
      commitment'.length = 48 →
      (ctx.verifyCellKzgProofBatch sha256 [commitment'] [k] [cell] [proof] = .ok () ↔ commitment' = commitment) := by
  rw [context_eq lagrange points h.file] at hctx
  exact C80_commitment_general points up τ generator generator2 h.powers
    (fun a ha => ((C74_nondegenerate hnd a generator2).1 ha).resolve_right generator2_ne) ctx hctx k cell proof hπ.1 hcl π
    ((C53_decode _ hπ.1 _).2 hπ) hk hcan

/-- C80: and for each commitment, index, proof and 63 elements of the cell exactly one completion of the cell is accepted. -/
theorem C80_element (hnd : (pair generator generator2 : GT) ≠ 0) (points : SetupPoints Bls.G1 Bls.G2) (τ : Fr) (h : Secret points τ)
    (lagrange : List (List UInt8)) (up : UsePrecomp) (ctx : DASContext Fp Bls.G1 Bls.G2)
    (hctx : (DASContext.ofTrustedSetup (Embedded.setup lagrange) up : Outcome Error (DASContext Fp Bls.G1 Bls.G2)) = .ok ctx)
    (commitment : List UInt8) (k : Nat) (cell proof : List UInt8) (Cm π : Bls.G1) (hC : Spec.EncodesG1 commitment Cm)
    (hπ : Spec.EncodesG1 proof π) (hk : k < 128) (hcl : cell.length = 2048) (hcan : Spec.Canonical 64 cell) (j : Nat) (hj : j < 64) :
    ∃ cell' : List UInt8, cell'.length = 2048 ∧ (∀ i < 64, i ≠ j → Spec.block 32 i cell' = Spec.block 32 i cell) ∧
      ∀ (sha256 : List UInt8 → List UInt8) (cell'' : List UInt8), cell''.length = 2048 →
      (∀ i < 64, i ≠ j → Spec.block 32 i cell'' = Spec.block 32 i cell) →
      (ctx.verifyCellKzgProofBatch sha256 [commitment] [k] [cell''] [proof] = .ok () ↔ cell'' = cell') := by
  rw [context_eq lagrange points h.file] at hctx
  obtain ⟨c, rfl⟩ := exists_smul_generator Cm
  obtain ⟨p, rfl⟩ := exists_smul_generator π
  exact C80_element_general points up τ generator generator2 h.powers generator_ne
    (fun a ha => ((C74_nondegenerate hnd a generator2).1 ha).resolve_right generator2_ne) ctx hctx commitment k cell proof hC.1 hπ.1
    hcl c p ((C53_decode _ hC.1 _).2 hC) ((C53_decode _ hπ.1 _).2 hπ) hk hcan (fun j _ => (C80_secret points τ h).2.2 _) j hj

/-- C80: a cell accepted with a proof is refused with the same proof after a change of one of its elements. -/
theorem C80_corrupted (hnd : (pair generator generator2 : GT) ≠ 0) (points : SetupPoints Bls.G1 Bls.G2) (τ : Fr) (h : Secret points τ)
    (lagrange : List (List UInt8)) (up : UsePrecomp) (ctx : DASContext Fp Bls.G1 Bls.G2)
    (hctx : (DASContext.ofTrustedSetup (Embedded.setup lagrange) up : Outcome Error (DASContext Fp Bls.G1 Bls.G2)) = .ok ctx)
    (sha256 sha256' : List UInt8 → List UInt8) (commitment : List UInt8) (k : Nat) (cell cell' proof : List UInt8)
    (hcm : commitment.length = 48) (hpf : proof.length = 48) (hcl : cell.length = 2048) (hcl' : cell'.length = 2048)
    (hok : ctx.verifyCellKzgProofBatch sha256 [commitment] [k] [cell] [proof] = .ok ()) (j : Nat) (hj : j < 64)
    (hsame : ∀ i < 64, i ≠ j → Spec.block 32 i cell' = Spec.block 32 i cell) (hne : cell' ≠ cell) :
    ctx.verifyCellKzgProofBatch sha256' [commitment] [k] [cell'] [proof] ≠ .ok () := by
  obtain ⟨Cm, π, hC, hk, hcan, hπ⟩ := single_accepted ctx sha256 commitment k cell proof hcm hcl hpf hok
  obtain ⟨x, -, -, hx⟩ := C80_element hnd points τ h lagrange up ctx hctx commitment k cell proof Cm π
    ((C53_decode _ hcm _).1 hC) ((C53_decode _ hpf _).1 hπ) hk hcl hcan j hj
  intro hok'
  rw [(hx sha256' cell' hcl' hsame).1 hok', (hx sha256 cell hcl fun _ _ _ => rfl).1 hok] at hne
  exact hne rfl

/-- C80: C56 without its exception. Two different cells, accepted for the same commitment and index, give the solution of the bilinear
strong Diffie-Hellman problem for the embedded setup. -/
theorem C80_two_cells (hnd : (pair generator generator2 : GT) ≠ 0) (points : SetupPoints Bls.G1 Bls.G2) (τ : Fr) (h : Secret points τ)
    (lagrange : List (List UInt8)) (up : UsePrecomp) (ctx : DASContext Fp Bls.G1 Bls.G2)
    (hctx : (DASContext.ofTrustedSetup (Embedded.setup lagrange) up : Outcome Error (DASContext Fp Bls.G1 Bls.G2)) = .ok ctx)
    (sha256 sha256' : List UInt8 → List UInt8) (commitment : List UInt8) (k : Nat) (cell cell' proof proof' : List UInt8)
    (hcm : commitment.length = 48) (hpf : proof.length = 48) (hpf' : proof'.length = 48) (hcl : cell.length = 2048)
    (hcl' : cell'.length = 2048) (hne : cell ≠ cell')
    (hok : ctx.verifyCellKzgProofBatch sha256 [commitment] [k] [cell] [proof] = .ok ())
    (hok' : ctx.verifyCellKzgProofBatch sha256' [commitment] [k] [cell'] [proof'] = .ok ()) :
    ∃ (j : Nat) (I I' : Fr[X]) (π π' : Bls.G1), j < 64 ∧ Spec.block 32 j cell ≠ Spec.block 32 j cell' ∧
      (I.degree < 64 ∧ Spec.IsCell I k cell) ∧ (I'.degree < 64 ∧ Spec.IsCell I' k cell') ∧
      Spec.EncodesG1 proof π ∧ Spec.EncodesG1 proof' π' ∧
      (Spec.sdhSolution points.g1Monomial points.g2Monomial k j I I' π π' : GT) =
        pair ((τ - Spec.point 13 (64 * k + j))⁻¹ • generator) generator2 := by
  rw [context_eq lagrange points h.file] at hctx
  rcases C56_two_cells points up τ generator generator2 h.powers
    (fun a ha => ((C74_nondegenerate hnd a generator2).1 ha).resolve_right generator2_ne) ctx hctx sha256 sha256' commitment k
    cell cell' proof proof' hcm hpf hpf' hcl hcl' hne hok hok' with ⟨i, -, hi⟩ | ⟨j, I, I', π, π', hj, hb, hI, hI', hp, hp', e⟩
  · exact absurd hi ((C80_secret points τ h).2.2 _)
  · exact ⟨j, I, I', π, π', hj, hb, hI, hI', (C53_decode _ hpf _).1 hp, (C53_decode _ hpf' _).1 hp', e⟩

/-- C80: C57 without the exception for the secret. If a batch of at least 64 cells with different indices for one commitment is
accepted by a context made from the embedded setup, then the hash fell into a set of fewer challenges than cells, or recovery returns
the cells and proofs of a blob with that commitment, or the embedded setup is broken in one of the two ways of C57. -/
theorem C80_available (hnd : (pair generator generator2 : GT) ≠ 0) (points : SetupPoints Bls.G1 Bls.G2) (τ : Fr) (h : Secret points τ)
    (lagrange : List (List UInt8)) (up : UsePrecomp) (verifier ctx : DASContext Fp Bls.G1 Bls.G2)
    (hver : (DASContext.ofTrustedSetup (Embedded.setup lagrange) up : Outcome Error (DASContext Fp Bls.G1 Bls.G2)) = .ok verifier)
    (hctx : (DASContext.ofTrustedSetup (Embedded.setup lagrange) .no : Outcome Error (DASContext Fp Bls.G1 Bls.G2)) = .ok ctx)
    (cm : List UInt8) (inds : List Nat) (cells proofs : List (List UInt8)) (hcm : cm.length = 48)
    (hpf : ∀ c ∈ proofs, c.length = 48) (hcl : ∀ c ∈ cells, c.length = 2048) (hn : 64 ≤ inds.length) (hdist : inds.Nodup)
    (items : List (Spec.Opening Bls.G1)) (hd : Spec.Decodes (List.replicate inds.length cm) inds cells proofs items) :
    ∃ (f : Fr[X]) (bad : Finset Fr), Spec.Consistent (inds.take 64) (cells.take 64) f ∧ bad.card ≤ inds.length - 1 ∧
      ∀ sha256 : List UInt8 → List UInt8,
        verifier.verifyCellKzgProofBatch sha256 (List.replicate inds.length cm) inds cells proofs = .ok () →
        Spec.challenge sha256 (List.replicate inds.length cm) inds cells proofs ∈ bad ∨
        Available ctx cm inds cells ∨
        (∃ (C : Bls.G1) (N : Fr[X]) (W : Bls.G1), fromCompressed cm = some C ∧ N = Spec.allVanishing (items.take 64) ∧ N.Monic ∧
          N.natDegree = 4096 ∧ W = Spec.excess points.g1Monomial f (items.take 64) ∧ W ≠ 0 ∧
          N.eval τ • W = C - Spec.commitment points.g1Monomial f) ∨
        ∃ o ∈ items, ∃ j < 64,
          (Spec.sdhSolution points.g1Monomial points.g2Monomial o.index j o.interp (f %ₘ Spec.vanishing 13 6 o.index) o.proof
            (Spec.openingProof points.g1Monomial 13 6 f o.index) : GT) =
            pair ((τ - Spec.point 13 (64 * o.index + j))⁻¹ • generator) generator2 := by
  rw [context_eq lagrange points h.file] at hver hctx
  obtain ⟨f, bad, hf, hb, hall⟩ := C57_available points up τ generator generator2 h.powers
    (fun a ha => ((C74_nondegenerate hnd a generator2).1 ha).resolve_right generator2_ne) verifier ctx hver hctx cm inds cells proofs
    hcm hpf hcl hn hdist items hd
  refine ⟨f, bad, hf, hb, fun sha256 hok => ?_⟩
  rcases hall sha256 hok with h' | ⟨i, -, hi⟩ | h'
  · exact .inl h'
  · exact absurd hi ((C80_secret points τ h).2.2 _)
  · exact .inr h'

end

/-! Non-vacuity: a setup with the secret 7, which is no evaluation point, and the cell number 3 of `3 X + 5`. The hypotheses on the
file are met by C76_points; that its points are powers is what C76_kzg assumes as well. -/

namespace Toy

set_option exponentiation.threshold 8192 in
theorem seven_outside (k : Nat) : ∀ j < 64, (7 : Fr) ≠ Spec.point 13 (64 * k + j) := by
  intro j _ e
  have h : ((7 ^ 8192 : Nat) : Fr) = (1 : Nat) := by rw [Nat.cast_pow, Nat.cast_ofNat, e, point_root, Nat.cast_one]
  rw [ZMod.natCast_eq_natCast_iff'] at h
  revert h
  decide +kernel

theorem cell_canonical : (cellOf poly 3).length = 2048 ∧ Spec.Canonical 64 (cellOf poly 3) :=
  have h : Spec.IsCell poly 3 (cellOf poly 3) := (isCell_iff _ _ _).2 rfl
  ⟨h.1, isCell_canonical h⟩

end Toy

open Toy in
example : ∃ ctx : DASContext Fr Fr Fr, (DASContext.new (setup 7) .no : Outcome Error _) = .ok ctx ∧
    (∃ proof : List UInt8, proof.length = 48 ∧ ∀ (sha256 : List UInt8 → List UInt8) (proof' : List UInt8), proof'.length = 48 →
      (ctx.verifyCellKzgProofBatch sha256 [toCompressed (26 : Fr)] [3] [cellOf poly 3] [proof'] = .ok () ↔ proof' = proof)) ∧
    (∃ commitment : List UInt8, commitment.length = 48 ∧ ∀ (sha256 : List UInt8 → List UInt8) (commitment' : List UInt8),
      commitment'.length = 48 →
      (ctx.verifyCellKzgProofBatch sha256 [commitment'] [3] [cellOf poly 3] [toCompressed (0 : Fr)] = .ok () ↔
        commitment' = commitment)) ∧
    (∃ cell' : List UInt8, cell'.length = 2048 ∧ (∀ i < 64, i ≠ 5 → Spec.block 32 i cell' = Spec.block 32 i (cellOf poly 3)) ∧
      ∀ (sha256 : List UInt8 → List UInt8) (cell'' : List UInt8), cell''.length = 2048 →
      (∀ i < 64, i ≠ 5 → Spec.block 32 i cell'' = Spec.block 32 i (cellOf poly 3)) →
      (ctx.verifyCellKzgProofBatch sha256 [toCompressed (26 : Fr)] [3] [cell''] [toCompressed (1 : Fr)] = .ok () ↔
        cell'' = cell')) := by
  obtain ⟨ctx, hctx⟩ := context 7
  refine ⟨ctx, hctx, ?_, ?_, ?_⟩
  · exact C80_proof_general (setup 7) .no 7 1 1 (powersOfTau 7) nondegenerate ctx hctx _ 3 _
      (LawfulPointCodec.length_toCompressed _) cell_canonical.1 26 (LawfulPointCodec.fromCompressed_toCompressed _) (by decide)
      cell_canonical.2 (seven_outside 3)
  · exact C80_commitment_general (setup 7) .no 7 1 1 (powersOfTau 7) nondegenerate ctx hctx 3 _ _
      (LawfulPointCodec.length_toCompressed _) cell_canonical.1 0 (LawfulPointCodec.fromCompressed_toCompressed _) (by decide)
      cell_canonical.2
  · exact C80_element_general (setup 7) .no 7 1 1 (powersOfTau 7) one_ne_zero nondegenerate ctx hctx _ 3 _ _
      (LawfulPointCodec.length_toCompressed _) (LawfulPointCodec.length_toCompressed _) cell_canonical.1 26 1
      (by rw [smul_eq_mul, mul_one]; exact LawfulPointCodec.fromCompressed_toCompressed _)
      (by rw [smul_eq_mul, mul_one]; exact LawfulPointCodec.fromCompressed_toCompressed _) (by decide)
      cell_canonical.2 (seven_outside 3) 5 (by decide)

end Verif
