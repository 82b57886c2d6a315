import Verif.Lemmas.Embedded
import Verif.Lemmas.EmbeddedRoots
import Verif.Props.BlsG2
import Verif.Props.Precomp

set_option linter.unusedSectionVars false

/-!
C76: the trusted setup that is embedded in the library. The code reads it without any test (`SubgroupCheck::NoCheck`), so the
guarantees about every context made by `DASContext::default()` rest on the content of the file.
-/
namespace Verif
open Polynomial Bls Embedded

namespace Embedded

/-- the numbers of `g1_monomial` -/
abbrev g1Numbers : List Nat := g1Parts.flatten

/-- the numbers of `g2_monomial` -/
abbrev g2Numbers : List Nat := g2Parts.flatten

/-- `points` are the points with these encodings, all of them in the subgroup of prime order and none at infinity -/
structure Points (points : SetupPoints G1 G2) : Prop where
  g1 : List.Forall₂ (fun n (P : G1) => Spec.EncodesG1 (natToBE 48 n) P ∧ P ≠ 0) g1Numbers points.g1Monomial
  g2 : List.Forall₂ (fun n (P : G2) => Spec.EncodesG2 (natToBE 96 n) P ∧ P ≠ 0) g2Numbers points.g2Monomial

theorem exists_forall₂ {α β : Type} {R : α → β → Prop} : ∀ (l : List α), (∀ a ∈ l, ∃ b, R a b) → ∃ r, List.Forall₂ R l r
  | [], _ => ⟨[], .nil⟩
  | a :: l, h => by
    obtain ⟨b, hb⟩ := h a List.mem_cons_self
    obtain ⟨r, hr⟩ := exists_forall₂ l fun a ha => h a (List.mem_cons_of_mem _ ha)
    exact ⟨b :: r, .cons hb hr⟩

theorem exists_points : ∃ points, Points points := by
  obtain ⟨g1, h1⟩ := exists_forall₂ (R := fun n (P : G1) => Spec.EncodesG1 (natToBE 48 n) P ∧ P ≠ 0) g1Numbers fun n hn => by
    obtain ⟨P, he, ht, h0⟩ := g1_sound n hn
    exact ⟨⟨P, ht⟩, he, fun e => h0 (congrArg Subtype.val e)⟩
  obtain ⟨g2, h2⟩ := exists_forall₂ (R := fun n (P : G2) => Spec.EncodesG2 (natToBE 96 n) P ∧ P ≠ 0) g2Numbers fun n hn => by
    obtain ⟨P, he, ht, h0⟩ := g2_sound n hn
    exact ⟨⟨P, ht⟩, he, fun e => h0 (congrArg Subtype.val e)⟩
  exact ⟨⟨g1, g2⟩, h1, h2⟩

theorem forall₂_head {α β : Type} {R : α → β → Prop} {l : List α} {r : List β} (h : List.Forall₂ R l r) {a : α}
    (ha : l[0]? = some a) : ∃ b, r[0]? = some b ∧ R a b := by
  cases h with
  | nil => simp at ha
  | cons hb _ =>
    rw [List.getElem?_cons_zero, Option.some.injEq] at ha
    exact ⟨_, rfl, ha ▸ hb⟩

theorem g1Numbers_head : g1Numbers[0]? =
    some 0x97f1d3a73197d7942695638c4fa9ac0fc3688c4f9774b905a14e3a3f171bac586c55e83ff97a1aeffb3af00adb22c6bb := rfl

theorem g2Numbers_head : g2Numbers[0]? = some
    0x93e02b6052719f607dacd3a088274f65596bd0d09920b61ab5da61bbdc7f5049334cf11213945d57e5ac7d055d042b7e024aa2b2f08f0a91260805272dc51051c6e47ad4fa403b02b4510b647ae3d1770bac0326a805bbefd48056c8c121bdb8 := rfl

theorem text_spec (size n : Nat) : Spec.HexString (text size n) (natToBE size n) :=
  Toy.hexText_spec (natToBE size n)

end Embedded

/-- C76: the file has 4096 strings for G1 and 65 for G2; they are the encodings of points of the subgroups of prime order, none at
infinity, and there is only one such list of points; the first ones are the two generators. -/
theorem C76_points : ∃ points : SetupPoints G1 G2, Points points ∧ (∀ q, Points q → q = points) ∧
    points.g1Monomial.length = 4096 ∧ points.g2Monomial.length = 65 ∧
    points.g1Monomial[0]? = some generator ∧ points.g2Monomial[0]? = some generator2 := by
  obtain ⟨points, h⟩ := Embedded.exists_points
  refine ⟨points, h, ?_, by rw [← h.g1.length_eq, Embedded.length_g1], by rw [← h.g2.length_eq, Embedded.length_g2], ?_, ?_⟩
  · rintro ⟨q1, q2⟩ hq
    have e1 := List.right_unique_forall₂' (fun _ _ _ h h' => Subtype.ext (C53_injective h.1 h'.1)) hq.g1 h.g1
    have e2 := List.right_unique_forall₂' (fun _ _ _ h h' => Subtype.ext (C73_injective h.1 h'.1)) hq.g2 h.g2
    exact congrArg₂ SetupPoints.mk e1 e2
  · obtain ⟨P, hP, he, -⟩ := forall₂_head h.g1 g1Numbers_head
    rw [hP]
    have hg := C53_encode generator
    rw [toCompressed_generator] at hg
    exact congrArg some (Subtype.ext (C53_injective he hg))
  · obtain ⟨P, hP, he, -⟩ := forall₂_head h.g2 g2Numbers_head
    rw [hP]
    have hg := C73_encode generator2
    rw [toCompressed_generator2] at hg
    exact congrArg some (Subtype.ext (C73_injective he hg))

/-- C76: the embedded setup passes the validation that the library skips for it. -/
theorem C76_valid {ε : Type} (lagrange : List (List UInt8)) :
    ((Embedded.setup lagrange).validate Curve1 Curve2 : Outcome ε Unit) = .ok () := by
  refine ((C75_valid _).1).2 ⟨?_, ?_, ?_, ?_⟩
  · intro s hs
    obtain ⟨n, hn, rfl⟩ := List.mem_map.1 hs
    obtain ⟨P, he, ht, -⟩ := g1_sound n hn
    obtain ⟨a, ha⟩ := exists_smul_generator ⟨P, ht⟩
    exact ⟨_, text_spec 48 n, a, by rw [ha]; exact he⟩
  · intro s hs
    obtain ⟨n, hn, rfl⟩ := List.mem_map.1 hs
    obtain ⟨P, he, ht, -⟩ := g2_sound n hn
    obtain ⟨a, ha⟩ := exists_smul_generator2 ⟨P, ht⟩
    exact ⟨_, text_spec 96 n, a, by rw [ha]; exact he⟩
  · show 64 < (g2Parts.flatten.map (text 96)).length
    rw [List.length_map, Embedded.length_g2]
    decide
  · show (g2Parts.flatten.map (text 96)).length ≤ (g1Parts.flatten.map (text 48)).length
    rw [List.length_map, List.length_map, Embedded.length_g1, Embedded.length_g2]
    decide

/-- C76: the readers give exactly these points, with and without the subgroup test, as points of the curves and as points of the
groups. -/
theorem C76_read {ε : Type} (lagrange : List (List UInt8)) (sub : SubgroupCheck) (points : SetupPoints G1 G2) (h : Points points) :
    (deserializeG1Points (Embedded.setup lagrange).g1Monomial sub : Outcome ε (List Curve1)) =
      .ok (points.g1Monomial.map Subtype.val) ∧
    (deserializeG2Points (Embedded.setup lagrange).g2Monomial sub : Outcome ε (List Curve2)) =
      .ok (points.g2Monomial.map Subtype.val) ∧
    (deserializeG1Points (Embedded.setup lagrange).g1Monomial sub : Outcome ε (List G1)) = .ok points.g1Monomial ∧
    (deserializeG2Points (Embedded.setup lagrange).g2Monomial sub : Outcome ε (List G2)) = .ok points.g2Monomial := by
  refine ⟨((C38_g1_points _ sub).1 _).2 ?_, ((C38_g2_points _ sub).1 _).2 ?_, ((C38_g1_points _ sub).1 _).2 ?_,
    ((C38_g2_points _ sub).1 _).2 ?_⟩
  · refine List.forall₂_map_left_iff.2 (List.forall₂_map_right_iff.2 (h.g1.imp fun n P hP => ?_))
    exact ((C75_text _ sub).1 _).2 ⟨_, text_spec 48 n, hP.1, fun _ => P.2⟩
  · refine List.forall₂_map_left_iff.2 (List.forall₂_map_right_iff.2 (h.g2.imp fun n P hP => ?_))
    exact ((C75_text _ sub).2 _).2 ⟨_, text_spec 96 n, hP.1, fun _ => P.2⟩
  · refine List.forall₂_map_left_iff.2 (h.g1.imp fun n P hP => ?_)
    exact ⟨_, text_spec 48 n, hP.1.1, (C53_decode _ hP.1.1 _).2 hP.1, fun _ => rfl⟩
  · refine List.forall₂_map_left_iff.2 (h.g2.imp fun n P hP => ?_)
    exact ⟨_, text_spec 96 n, hP.1.1, (C73_decode _ hP.1.1 _).2 hP.1, fun _ => rfl⟩

section
variable {GT : Type} [AddCommGroup GT] [DecidableEq GT] [Pairing G1 G2 GT] [LawfulPairing G1 G2 GT]

/-- C76: the default context is made without error, and it is a context in the sense of C54: it never panics, and its cells, proofs,
decisions and recoveries are those of the consensus specification with the points of the file (with the exception of C51). -/
theorem C76_default (lagrange : List (List UInt8)) (points : SetupPoints G1 G2) (h : Points points) :
    ∃ ctx : DASContext Fp G1 G2,
    (DASContext.ofTrustedSetup (Embedded.setup lagrange) .no : Outcome Error (DASContext Fp G1 G2)) = .ok ctx ∧
    (∀ blob : List UInt8, blob.length = 131072 → ctx.blobToKzgCommitment blob ≠ .panic ∧
      Conforms (ctx.computeCellsAndKzgProofs blob) (Consensus.computeCellsAndKzgProofs points.g1Monomial blob)) ∧
    (∀ (sha256 : List UInt8 → List UInt8) (commitments : List (List UInt8)) (inds : List Nat)
      (cells proofs : List (List UInt8)), (∀ c ∈ commitments, c.length = 48) → (∀ c ∈ cells, c.length = 2048) →
      (∀ c ∈ proofs, c.length = 48) →
      let library := ctx.verifyCellKzgProofBatch sha256 commitments inds cells proofs
      let spec := Consensus.verifyCellKzgProofBatch (GT := GT) sha256 points.g1Monomial points.g2Monomial commitments inds
        cells proofs
      (library = .ok () ∧ spec = some true) ∨
      (library = .err (.Verifier (.FK20 .InvalidProof)) ∧ spec = some false) ∨
      (∃ e, library = .err e ∧ e ≠ .Verifier (.FK20 .InvalidProof) ∧ spec = none)) ∧
    (∀ (inds : List Nat) (cells : List (List UInt8)), (∀ c ∈ cells, c.length = 2048) →
      ctx.recoverCellsAndKzgProofs inds cells ≠ .panic ∧
      (¬ Spec.RecoveryWellFormed inds cells ∨ (∃ f, Spec.Consistent inds cells f) →
        Conforms (ctx.recoverCellsAndKzgProofs inds cells)
          (Consensus.recoverCellsAndKzgProofs points.g1Monomial inds cells))) := by
  obtain ⟨-, -, r1, r2⟩ := C76_read (ε := Error) lagrange .noCheck points h
  have hof : (DASContext.ofTrustedSetup (Embedded.setup lagrange) .no : Outcome Error (DASContext Fp G1 G2)) =
      DASContext.new points .no :=
    C38_context _ .no _ _ (((C38_g1_points _ _).1 _).1 r1) (((C38_g2_points _ _).1 _).1 r2)
  have l1 : points.g1Monomial.length = 4096 := by rw [← h.g1.length_eq, Embedded.length_g1]
  have l2 : points.g2Monomial.length = 65 := by rw [← h.g2.length_eq, Embedded.length_g2]
  obtain ⟨ctx, hctx, rest⟩ := C54_library (GT := GT) points l1 (by rw [l2]) (by rw [l2]; decide)
  exact ⟨ctx, hof.trans hctx, rest⟩

/-- C76: if the points of the file are the powers of some `τ` (which nothing in the file shows), then commitments and verdicts of
the default context are those of the KZG scheme for `τ`; there is at most one such `τ`. -/
theorem C76_kzg (hnd : (pair generator generator2 : GT) ≠ 0) (lagrange : List (List UInt8)) (points : SetupPoints G1 G2)
    (h : Points points) (τ : Fr) (h1 : ∀ i P, points.g1Monomial[i]? = some P → P = τ ^ i • generator)
    (h2 : ∀ i Q, points.g2Monomial[i]? = some Q → Q = τ ^ i • generator2) :
    (∀ σ : Fr, (∀ i P, points.g1Monomial[i]? = some P → P = σ ^ i • generator) → σ = τ) ∧
    ∃ ctx : DASContext Fp G1 G2,
    (DASContext.ofTrustedSetup (Embedded.setup lagrange) .no : Outcome Error (DASContext Fp G1 G2)) = .ok ctx ∧
    (∀ (blob : List UInt8) (f : Fr[X]), Spec.IsBlobPoly blob f →
      ∃ c, ctx.blobToKzgCommitment blob = .ok c ∧ Spec.EncodesG1 c (f.eval τ • generator : G1)) ∧
    (∀ (sha256 : List UInt8 → List UInt8) (commitment proof cell : List UInt8) (k : Nat) (c p : Fr) (I : Fr[X]),
      Spec.EncodesG1 commitment (c • generator : G1) → Spec.EncodesG1 proof (p • generator : G1) → k < 128 → I.degree < 64 →
      Spec.IsCell I k cell →
      (ctx.verifyCellKzgProofBatch sha256 [commitment] [k] [cell] [proof] = .ok () ↔
        (τ ^ 64 - Spec.point 13 (64 * k) ^ 64) * p = c - I.eval τ)) := by
  have l1 : points.g1Monomial.length = 4096 := by rw [← h.g1.length_eq, Embedded.length_g1]
  have l2 : points.g2Monomial.length = 65 := by rw [← h.g2.length_eq, Embedded.length_g2]
  have ht : TauText (Embedded.setup lagrange) τ := by
    refine ⟨?_, ?_, ?_, ?_⟩
    · show (g1Parts.flatten.map (text 48)).length = 4096
      rw [List.length_map, Embedded.length_g1]
    · intro i hi
      have hi' : i < g1Parts.flatten.length := by
        have : i < (g1Parts.flatten.map (text 48)).length := hi
        rwa [List.length_map] at this
      have hp : i < points.g1Monomial.length := by rwa [← h.g1.length_eq]
      have he := (List.forall₂_iff_get.1 h.g1).2 i hi' hp
      refine ⟨natToBE 48 (g1Parts.flatten[i]), ?_, ?_⟩
      · have hm : i < (g1Parts.flatten.map (text 48)).length := hi
        show Spec.HexString ((g1Parts.flatten.map (text 48))[i]'hm) _
        rw [List.getElem_map]
        exact text_spec _ _
      · rw [← h1 i _ (List.getElem?_eq_getElem hp)]
        exact he.1
    · show 64 < (g2Parts.flatten.map (text 96)).length ∧ (g2Parts.flatten.map (text 96)).length ≤ 4096
      rw [List.length_map, Embedded.length_g2]
      decide
    · intro i hi
      have hi' : i < g2Parts.flatten.length := by
        have : i < (g2Parts.flatten.map (text 96)).length := hi
        rwa [List.length_map] at this
      have hp : i < points.g2Monomial.length := by rwa [← h.g2.length_eq]
      have he := (List.forall₂_iff_get.1 h.g2).2 i hi' hp
      refine ⟨natToBE 96 (g2Parts.flatten[i]), ?_, ?_⟩
      · have hm : i < (g2Parts.flatten.map (text 96)).length := hi
        show Spec.HexString ((g2Parts.flatten.map (text 96))[i]'hm) _
        rw [List.getElem_map]
        exact text_spec _ _
      · rw [← h2 i _ (List.getElem?_eq_getElem hp)]
        exact he.1
  refine ⟨?_, (C75_library hnd _ τ ht).2⟩
  intro σ hσ
  have hp : 1 < points.g1Monomial.length := by rw [l1]; decide
  have e := (h1 1 _ (List.getElem?_eq_getElem hp)).symm.trans (hσ 1 _ (List.getElem?_eq_getElem hp))
  rw [pow_one, pow_one] at e
  exact (smul_generator_injective e).symm

/-- the points as powers of `τ` -/
theorem Embedded.powersOfTau (points : SetupPoints G1 G2) (h : Points points) (τ : Fr)
    (h1 : ∀ i P, points.g1Monomial[i]? = some P → P = τ ^ i • generator)
    (h2 : ∀ i Q, points.g2Monomial[i]? = some Q → Q = τ ^ i • generator2) :
    Spec.PowersOfTau points.g1Monomial points.g2Monomial τ generator generator2 where
  length_g1 := by rw [← h.g1.length_eq, Embedded.length_g1]
  g1_eq i hi := by
    have hp : i < points.g1Monomial.length := by rwa [← h.g1.length_eq, Embedded.length_g1]
    rw [List.getElem?_eq_getElem hp, h1 i _ (List.getElem?_eq_getElem hp)]
  length_g2 := by
    rw [← h.g2.length_eq, Embedded.length_g2]
    decide
  g2_eq i hi := by
    have hp : i < points.g2Monomial.length := hi
    rw [List.getElem?_eq_getElem hp, h2 i _ (List.getElem?_eq_getElem hp)]

theorem Embedded.g1Numbers_4032 : g1Numbers[4032]? = some point4032 := by decide +kernel

/-- the first coordinate of a point is given by the lower bits of its encoding -/
theorem Embedded.encodes_x {n : Nat} {P : Curve1} (h : Spec.EncodesG1 (natToBE 48 n) P) (h0 : P ≠ 0) :
    (toAff P : Aff Fp).x = (n % 2 ^ 381 : Nat) := by
  have hb := h.2
  rw [← beToNat_eq, beToNat_natToBE] at hb
  cases P with
  | zero => exact absurd rfl h0
  | some x y hn =>
    show x = _
    simp only [Spec.g1Code] at hb
    have hx : x.val < 2 ^ 381 := (ZMod.val_lt x).trans (by decide +kernel)
    have e : n % 2 ^ 381 = x.val := by
      have hd : 2 ^ 381 ∣ 256 ^ 48 := by decide +kernel
      rw [← Nat.mod_mod_of_dvd n hd, hb]
      split
      · rw [show 2 ^ 383 + 2 ^ 381 = 2 ^ 381 * 5 by decide +kernel, Nat.mul_add_mod, Nat.mod_eq_of_lt hx]
      · rw [show 2 ^ 383 + 0 = 2 ^ 381 * 4 by decide +kernel, Nat.mul_add_mod, Nat.mod_eq_of_lt hx]
    rw [e, ZMod.natCast_zmod_val]

/-- C76: if the points of the file are the powers of some `τ`, then no base point of the precomputation is the identity. -/
theorem C76_no_identity (points : SetupPoints G1 G2) (h : Points points) (τ : Fr)
    (h1 : ∀ i P, points.g1Monomial[i]? = some P → P = τ ^ i • generator)
    (h2 : ∀ i Q, points.g2Monomial[i]? = some Q → Q = τ ^ i • generator2) : Spec.NoIdentity points.g1Monomial := by
  have hpt := Embedded.powersOfTau points h τ h1 h2
  have hl : 4032 < g1Numbers.length := by rw [Embedded.length_g1]; decide
  have hp : 4032 < points.g1Monomial.length := by rw [hpt.length_g1]; decide
  have he := (List.forall₂_iff_get.1 h.g1).2 4032 hl hp
  have hn : g1Numbers.get ⟨4032, hl⟩ = point4032 := by
    have := g1Numbers_4032
    rw [List.getElem?_eq_getElem hl] at this
    exact Option.some.inj this
  rw [hn, List.get_eq_getElem, h1 4032 _ (List.getElem?_eq_getElem hp)] at he
  have hx := encodes_x he.1 (fun e => he.2 (Subtype.ext e))
  have hcoe : ((τ ^ 4032 • generator : G1) : Curve1) = (τ ^ 4032).val • (generator : Curve1) := by
    have : τ ^ 4032 • generator = (τ ^ 4032).val • generator := by
      conv_lhs => rw [← ZMod.natCast_zmod_val (τ ^ 4032)]
      exact Nat.cast_smul_eq_nsmul Fr _ generator
    rw [this]
    rfl
  rw [hcoe] at hx
  refine C25_condition points τ generator generator2 hpt generator_ne ?_ ?_
  · rintro rfl
    exact he.2 (by rw [zero_pow (by decide), zero_smul])
  · rw [show 516096 = 4032 * 128 from rfl, pow_mul]
    exact not_root hx

/-- C76: the context that the bindings make by default, with precomputation of width 8, is made without error. Its commitments and
verdicts are those of the context without precomputation; if the points of the file are the powers of some `τ`, so are its cells and
proofs, unless it panics (C25). -/
theorem C76_precomp (lagrange : List (List UInt8)) (points : SetupPoints G1 G2) (h : Points points) (ctx : DASContext Fp G1 G2)
    (hctx : (DASContext.ofTrustedSetup (Embedded.setup lagrange) .no : Outcome Error (DASContext Fp G1 G2)) = .ok ctx) :
    ∃ ctx' : DASContext Fp G1 G2,
    (DASContext.ofTrustedSetup (Embedded.setup lagrange) (.yes 8) : Outcome Error (DASContext Fp G1 G2)) = .ok ctx' ∧
    (∀ blob : List UInt8, blob.length = 131072 → ctx'.blobToKzgCommitment blob = ctx.blobToKzgCommitment blob) ∧
    (∀ (sha256 : List UInt8 → List UInt8) (commitments : List (List UInt8)) (inds : List Nat) (cells proofs : List (List UInt8)),
      ctx'.verifyCellKzgProofBatch sha256 commitments inds cells proofs =
        ctx.verifyCellKzgProofBatch sha256 commitments inds cells proofs) ∧
    (∀ τ : Fr, (∀ i P, points.g1Monomial[i]? = some P → P = τ ^ i • generator) →
      (∀ i Q, points.g2Monomial[i]? = some Q → Q = τ ^ i • generator2) →
      (∀ blob : List UInt8, blob.length = 131072 → ctx'.computeCellsAndKzgProofs blob = .panic ∨
        ctx'.computeCellsAndKzgProofs blob = ctx.computeCellsAndKzgProofs blob) ∧
      (∀ (inds : List Nat) (cells : List (List UInt8)), (∀ c ∈ cells, c.length = 2048) →
        ctx'.recoverCellsAndKzgProofs inds cells = .panic ∨
        ctx'.recoverCellsAndKzgProofs inds cells = ctx.recoverCellsAndKzgProofs inds cells)) := by
  obtain ⟨-, -, r1, r2⟩ := C76_read (ε := Error) lagrange .noCheck points h
  have hof : ∀ up, (DASContext.ofTrustedSetup (Embedded.setup lagrange) up : Outcome Error (DASContext Fp G1 G2)) =
      DASContext.new points up := fun up =>
    C38_context _ up _ _ (((C38_g1_points _ _).1 _).1 r1) (((C38_g2_points _ _).1 _).1 r2)
  have l1 : points.g1Monomial.length = 4096 := by rw [← h.g1.length_eq, Embedded.length_g1]
  have l2 : points.g2Monomial.length = 65 := by rw [← h.g2.length_eq, Embedded.length_g2]
  obtain ⟨ctx', hctx'⟩ := context_exists_of (ε := Error) (K := Fp) points l1 (by rw [l2]) (by rw [l2]; decide)
    (.yes 8) (fun v => .precomp (tableOf 8 v) 8) (fun v => by
      simp only [FixedBaseMSM.new, precompWindowNew_eq 8 (by norm_num), Outcome.ok_bind, Outcome.pure_eq])
  rw [hof] at hctx
  obtain ⟨e1, e2⟩ := C25_commitment_verification (GT := GT) points l1 (.yes 8) .no ctx' ctx hctx' hctx
  refine ⟨ctx', (hof _).trans hctx', e1, e2, fun τ h1 h2 => ?_⟩
  exact C25_same_or_panic points l1 8 (by decide) (by decide) (C76_no_identity points h τ h1 h2) ctx ctx' hctx hctx'

end

/-! Non-vacuity: the hypothesis `Points points` is met by C76_points. The strings of the model are those of the file. -/

/-- the first string of `g1_monomial`: "0x97f1d3..." -/
example : (Embedded.setup []).g1Monomial.head?.map (·.take 8) = some [48, 120, 57, 55, 102, 49, 100, 51] := by decide +kernel

/-- the last string of `g1_monomial`: its end, "dc40786e" -/
example : (Embedded.setup []).g1Monomial.getLast?.map (·.drop 90) = some [100, 99, 52, 48, 55, 56, 54, 101] := by decide +kernel

/-- the last string of `g2_monomial`: its end, "c2fe4f10" -/
example : (Embedded.setup []).g2Monomial.getLast?.map (·.drop 186) = some [99, 50, 102, 101, 52, 102, 49, 48] := by decide +kernel

/-- a point in the place of another would be noticed: the numbers are all that is used, and the check fails for a point of the curve
outside the subgroup -/
example : g1Check (2 ^ 383 + 4) 0xa989badd40d6212b33cffc3f3763e9bc760f988c9926b26da9dd85e928483446346b8ed00e1de5d5ea93e354abe706c = false := by decide +kernel

end Verif
