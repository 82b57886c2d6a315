import Verif.Lemmas.BlsGroup
import Verif.Props.Codec
import Verif.Props.Consensus
import Verif.Props.Toy
import Verif.Props.Verification

set_option linter.unusedSectionVars false
set_option exponentiation.threshold 400

/-!
C52, C53, C54: the group G1 of BLS12-381 itself. The other property theorems hold for every group with a lawful curve and a
lawful encoding; here these assumptions are proved for the group the library computes in, and the main theorems are stated
for it without them. What remains assumed is the pairing: bilinear, and not trivial on the two generators.
-/
namespace Verif
open Polynomial Bls

/-! ## C52 -/

/-- C52: the coordinates form a field, the generator is on the curve, and its order is the modulus of the scalars. -/
theorem C52_generator : fpOrder.Prime ∧ frOrder.Prime ∧
    ((g1GeneratorY : ZMod fpOrder) ^ 2 = (g1GeneratorX : ZMod fpOrder) ^ 3 + 4) ∧
    (toAff generator : Aff Fp) = ⟨g1GeneratorX, g1GeneratorY⟩ ∧ addOrderOf generator = frOrder := by
  refine ⟨fpOrder_prime, frOrder_prime, ?_, rfl, generator_order⟩
  have h1 := congrArg (Nat.cast : Nat → ZMod fpOrder) g1Generator_onCurve
  rw [cast_mod (ZMod.natCast_self _), cast_mod (ZMod.natCast_self _)] at h1
  push_cast at h1
  linear_combination h1

/-- C52: every point killed by `frOrder` is a multiple of the generator, by exactly one scalar. -/
theorem C52_cyclic (P : CurvePoint (4 : ZMod fpOrder)) :
    (frOrder • P = 0 ↔ ∃ s : Nat, s < frOrder ∧ P = s • (generator : CurvePoint (4 : ZMod fpOrder))) ∧
    ∀ s t : Nat, s < frOrder → t < frOrder →
      s • (generator : CurvePoint (4 : ZMod fpOrder)) = t • (generator : CurvePoint (4 : ZMod fpOrder)) → s = t := by
  have hg : frOrder • (generator : CurvePoint (4 : ZMod fpOrder)) = 0 := generator.2
  have hcoe : ∀ s : Fr, ((s • generator : G1) : CurvePoint (4 : ZMod fpOrder)) =
      s.val • (generator : CurvePoint (4 : ZMod fpOrder)) := by
    intro s
    have : s • generator = s.val • generator := by
      conv_lhs => rw [← ZMod.natCast_zmod_val s]
      exact Nat.cast_smul_eq_nsmul Fr s.val generator
    rw [this]
    rfl
  refine ⟨⟨fun h => ?_, ?_⟩, fun s t hs ht h => ?_⟩
  · obtain ⟨s, hs⟩ := exists_smul_generator ⟨P, h⟩
    exact ⟨s.val, ZMod.val_lt s, by rw [← hcoe, hs]⟩
  · rintro ⟨s, -, rfl⟩
    rw [smul_smul, mul_comm, ← smul_smul, hg, smul_zero]
  · have h2 : ((s : Fr) • generator : G1) = (t : Fr) • generator := by
      apply Subtype.ext
      rw [hcoe, hcoe, ZMod.val_natCast_of_lt hs, ZMod.val_natCast_of_lt ht]
      exact h
    have h3 := congrArg ZMod.val (smul_generator_injective h2)
    rwa [ZMod.val_natCast_of_lt hs, ZMod.val_natCast_of_lt ht] at h3

section
variable {G2 GT : Type} [AddCommGroup G2] [Module Fr G2] [AddCommGroup GT] [DecidableEq GT] [Pairing G1 G2 GT]

/-- C52: for a bilinear pairing, being nontrivial on the generators is enough for the assumption of C06 to C08. -/
theorem C52_pairing [LawfulPairing G1 G2 GT] (H : G2) (h : (pair generator H : GT) ≠ 0) (a : G1)
    (ha : pair a H = (0 : GT)) : a = 0 := by
  obtain ⟨s, rfl⟩ := exists_smul_generator a
  by_cases hs : s = 0
  · rw [hs, zero_smul]
  · exfalso
    apply h
    have hzero : ∀ b : G1, (pair b (0 : G2) : GT) = 0 := fun b => by
      have := LawfulPairing.pair_add_right (GT := GT) b (0 : G2) 0
      rw [add_zero] at this
      exact left_eq_add.1 this
    have hz : (pair (0 : G1) H : GT) = 0 := by
      have := LawfulPairing.pair_add_left (GT := GT) (0 : G1) 0 H
      rw [add_zero] at this
      exact left_eq_add.1 this
    have hn : ∀ n : Nat, (pair (n • (s • generator)) H : GT) = n • pair (s • generator) H := by
      intro n
      induction n with
      | zero => rw [zero_smul, zero_smul, hz]
      | succ n ih => rw [succ_nsmul, LawfulPairing.pair_add_left, ih, succ_nsmul]
    have h1 := hn (s⁻¹ : Fr).val
    rw [ha, smul_zero, ← Nat.cast_smul_eq_nsmul Fr, ZMod.natCast_zmod_val, smul_smul, inv_mul_cancel₀ hs, one_smul] at h1
    exact h1

end

/-! ## C53 -/

/-- C53: a 48-byte string is decoded to a point exactly if it is the encoding of that point. -/
theorem C53_decode (b : List UInt8) (hb : b.length = 48) (P : G1) :
    fromCompressed b = some P ↔ Spec.EncodesG1 b P := by
  rw [Bls.encodes_iff]
  constructor
  · exact fun h => (LawfulPointCodec.toCompressed_fromCompressed b P hb h).symm
  · rintro rfl
    exact LawfulPointCodec.fromCompressed_toCompressed P

/-- C53: the library's encoding of a point is its encoding. -/
theorem C53_encode (P : G1) : Spec.EncodesG1 (toCompressed P) P := encodes_compress P.1

/-- C53: a string that is no encoding of a point of the subgroup is refused. -/
theorem C53_refuse (b : List UInt8) (hb : b.length = 48) :
    (fromCompressed b : Option G1) = none ↔ ¬ ∃ P : CurvePoint (4 : ZMod fpOrder), Spec.EncodesG1 b P ∧ frOrder • P = 0 := by
  rw [Option.eq_none_iff_forall_ne_some]
  constructor
  · rintro h ⟨P, hP, ht⟩
    exact h ⟨P, ht⟩ ((C53_decode b hb ⟨P, ht⟩).2 hP)
  · intro h P hP
    exact h ⟨P, (C53_decode b hb P).1 hP, P.2⟩

/-- C53: a string encodes at most one point of the curve. -/
theorem C53_injective {b : List UInt8} {P Q : CurvePoint (4 : ZMod fpOrder)} (hP : Spec.EncodesG1 b P)
    (hQ : Spec.EncodesG1 b Q) : P = Q := by
  have h : Spec.g1Code P = Spec.g1Code Q := hP.2.symm.trans hQ.2
  have e382 : 2 ^ 382 = 2 * 2 ^ 381 := by decide +kernel
  have hp : fpOrder < 2 ^ 381 := by decide +kernel
  cases P with
  | zero =>
    cases Q with
    | zero => rfl
    | some x y hn =>
      exfalso
      have hx := ZMod.val_lt x
      simp only [Spec.g1Code] at h
      rw [e382] at h
      generalize 2 ^ 381 = M at *
      generalize 2 ^ 383 = N at *
      split at h <;> omega
  | some x y hn =>
    have hx := ZMod.val_lt x
    cases Q with
    | zero =>
      exfalso
      simp only [Spec.g1Code] at h
      rw [e382] at h
      generalize 2 ^ 381 = M at *
      generalize 2 ^ 383 = N at *
      split at h <;> omega
    | some x' y' hn' =>
      have hx' := ZMod.val_lt x'
      simp only [Spec.g1Code] at h
      generalize 2 ^ 381 = M at *
      generalize 2 ^ 383 = N at *
      have hxx : x.val = x'.val ∧ ((-y).val < y.val ↔ (-y').val < y'.val) := by
        by_cases h1 : (-y).val < y.val <;> by_cases h2 : (-y').val < y'.val <;>
          simp only [h1, h2, if_true, if_false, iff_true, iff_false, not_true, and_true, and_false] at h ⊢ <;>
          omega
      have ex : x = x' := ZMod.val_injective _ hxx.1
      subst ex
      rcases (WeierstrassCurve.Affine.Point.X_eq_iff (h₁ := hn) (h₂ := hn')).1 rfl with e | e
      · exact e
      · rw [WeierstrassCurve.Affine.Point.neg_some] at e
        have ey : y = -y' := by
          have := (WeierstrassCurve.Affine.Point.some.inj e).2
          rw [this]
          simp [WeierstrassCurve.Affine.negY, shortCurve]
        subst ey
        have : (-y').val = y'.val := by
          have := hxx.2
          rw [neg_neg] at this
          omega
        have e2 : -y' = y' := ZMod.val_injective _ this
        simp only [e2]

/-- C53: in particular, strings without the compression flag, with the infinity flag and any other bit, with a coordinate that is
not below the modulus, or with a coordinate for which the curve has no point, are refused. -/
theorem C53_malformed (b : List UInt8) (hb : b.length = 48)
    (h : Spec.beValue b < 2 ^ 383 ∨ 2 ^ 383 + 2 ^ 382 < Spec.beValue b ∨
      (Spec.beValue b ≠ 2 ^ 383 + 2 ^ 382 ∧ fpOrder ≤ Spec.beValue b % 2 ^ 381) ∨
      (Spec.beValue b ≠ 2 ^ 383 + 2 ^ 382 ∧
        ¬ ∃ y : ZMod fpOrder, y ^ 2 = ((Spec.beValue b % 2 ^ 381 : Nat) : ZMod fpOrder) ^ 3 + 4)) :
    (fromCompressed b : Option G1) = none := by
  rw [C53_refuse b hb]
  rintro ⟨P, ⟨-, hP⟩, -⟩
  rw [hP] at h
  have e382 : 2 ^ 382 = 2 * 2 ^ 381 := by decide +kernel
  have e383 : 2 ^ 383 = 4 * 2 ^ 381 := by decide +kernel
  have hp : fpOrder < 2 ^ 381 := by decide +kernel
  cases P with
  | zero =>
    simp only [Spec.g1Code] at h
    rcases h with h | h | h | h
    · omega
    · exact absurd h (lt_irrefl _)
    · exact h.1 rfl
    · exact h.1 rfl
  | some x y hn =>
    have hx := ZMod.val_lt x
    have hmod : Spec.g1Code (WeierstrassCurve.Affine.Point.some x y hn) % 2 ^ 381 = x.val := by
      simp only [Spec.g1Code]
      rw [e383]
      generalize 2 ^ 381 = M at *
      have : 4 * M + (if (-y).val < y.val then M else 0) + x.val = x.val + M * (if (-y).val < y.val then 5 else 4) := by
        split <;> ring
      rw [this, Nat.add_mul_mod_self_left]
      exact Nat.mod_eq_of_lt (hx.trans hp)
    rw [hmod] at h
    have hlt : Spec.g1Code (WeierstrassCurve.Affine.Point.some x y hn) < 2 ^ 383 + 2 ^ 382 := by
      simp only [Spec.g1Code]
      rw [e383, e382]
      generalize 2 ^ 381 = M at *
      split <;> omega
    have hge : 2 ^ 383 ≤ Spec.g1Code (WeierstrassCurve.Affine.Point.some x y hn) := by
      simp only [Spec.g1Code]
      generalize 2 ^ 383 = M
      omega
    rcases h with h | h | ⟨-, h⟩ | ⟨-, h⟩
    · exact absurd h (not_lt.2 hge)
    · exact absurd (hlt.trans h) (lt_irrefl _)
    · exact absurd hx (not_lt.2 h)
    · apply h
      refine ⟨y, ?_⟩
      rw [ZMod.natCast_zmod_val]
      have := ((WeierstrassCurve.Affine.nonsingular_iff ..).1 hn).1
      rw [WeierstrassCurve.Affine.equation_iff] at this
      simp only [shortCurve] at this
      linear_combination this

/-! ## C54 -/

section
variable {G2 GT : Type} [AddCommGroup G2] [Module Fr G2] [AddCommGroup GT] [DecidableEq GT] [Pairing G1 G2 GT]

/-- C54: over G1 itself, every setup of the right sizes gives a context without precomputation that never panics, whose
cells, proofs and decisions are those of the consensus specification, and which recovers what the specification recovers
wherever the input is malformed or consistent. No assumption about the curve or about encodings is left. -/
theorem C54_library [LawfulPairing G1 G2 GT] (setup : SetupPoints G1 G2) (h1 : setup.g1Monomial.length = 4096)
    (h2 : 65 ≤ setup.g2Monomial.length) (h3 : setup.g2Monomial.length ≤ 4096) :
    ∃ ctx : DASContext Fp G1 G2, (DASContext.new setup .no : Outcome Error (DASContext Fp G1 G2)) = .ok ctx ∧
    (∀ blob : List UInt8, blob.length = 131072 → ctx.blobToKzgCommitment blob ≠ .panic ∧
      Conforms (ctx.computeCellsAndKzgProofs blob) (Consensus.computeCellsAndKzgProofs setup.g1Monomial blob)) ∧
    (∀ (sha256 : List UInt8 → List UInt8) (commitments : List (List UInt8)) (inds : List Nat)
      (cells proofs : List (List UInt8)), (∀ c ∈ commitments, c.length = 48) → (∀ c ∈ cells, c.length = 2048) →
      (∀ c ∈ proofs, c.length = 48) →
      let library := ctx.verifyCellKzgProofBatch sha256 commitments inds cells proofs
      let spec := Consensus.verifyCellKzgProofBatch (GT := GT) sha256 setup.g1Monomial setup.g2Monomial commitments inds
        cells proofs
      (library = .ok () ∧ spec = some true) ∨
      (library = .err (.Verifier (.FK20 .InvalidProof)) ∧ spec = some false) ∨
      (∃ e, library = .err e ∧ e ≠ .Verifier (.FK20 .InvalidProof) ∧ spec = none)) ∧
    (∀ (inds : List Nat) (cells : List (List UInt8)), (∀ c ∈ cells, c.length = 2048) →
      ctx.recoverCellsAndKzgProofs inds cells ≠ .panic ∧
      (¬ Spec.RecoveryWellFormed inds cells ∨ (∃ f, Spec.Consistent inds cells f) →
        Conforms (ctx.recoverCellsAndKzgProofs inds cells)
          (Consensus.recoverCellsAndKzgProofs setup.g1Monomial inds cells))) := by
  obtain ⟨ctx, hctx, hp1, -, hp3⟩ := C18_no_panic (K := Fp) (GT := GT) setup h1 h2 h3
  refine ⟨ctx, hctx, fun blob hb => ⟨(hp1 blob hb).1, ?_⟩, ?_, fun inds cells hc => ⟨hp3 inds cells hc, ?_⟩⟩
  · exact C49_cells_and_proofs setup h1 ctx hctx blob hb
  · intro sha256 commitments inds cells proofs hcm hcl hpf
    exact C50_verify setup .no h1 ctx hctx sha256 commitments inds cells proofs hcm hcl hpf
  · exact C51_recover setup h1 ctx hctx inds cells hc

/-- C54: over G1 itself, with the powers of `τ` in the setup. The commitment of a blob is its polynomial at `τ`, times the
generator; every commitment and proof that decodes is a multiple of the generator; and one cell is accepted exactly if the
multipliers satisfy the KZG equation in the scalar field. -/
theorem C54_kzg [LawfulPairing G1 G2 GT] (setup : SetupPoints G1 G2) (up : UsePrecomp) (τ : Fr) (H : G2)
    (hpt : Spec.PowersOfTau setup.g1Monomial setup.g2Monomial τ generator H) (hnd : (pair generator H : GT) ≠ 0)
    (ctx : DASContext Fp G1 G2) (hctx : (DASContext.new setup up : Outcome Error (DASContext Fp G1 G2)) = .ok ctx) :
    (∀ (blob : List UInt8) (f : Fr[X]), Spec.IsBlobPoly blob f →
      ∃ c, ctx.blobToKzgCommitment blob = .ok c ∧ Spec.EncodesG1 c (f.eval τ • generator : G1)) ∧
    (∀ (sha256 : List UInt8 → List UInt8) (commitment proof cell : List UInt8) (k : Nat) (C π : G1) (I : Fr[X]),
      Spec.EncodesG1 commitment C → Spec.EncodesG1 proof π → k < 128 → I.degree < 64 → Spec.IsCell I k cell →
      ∃ c p : Fr, C = c • generator ∧ π = p • generator ∧
      (ctx.verifyCellKzgProofBatch sha256 [commitment] [k] [cell] [proof] = .ok () ↔
        (τ ^ 64 - Spec.point 13 (64 * k) ^ 64) * p = c - I.eval τ)) := by
  constructor
  · intro blob f hf
    exact ⟨_, C03_commitment setup up τ generator H hpt ctx hctx blob f hf, C53_encode _⟩
  · intro sha256 commitment proof cell k C π I hC hπ hk hI hcell
    obtain ⟨c, rfl⟩ := exists_smul_generator C
    obtain ⟨p, rfl⟩ := exists_smul_generator π
    refine ⟨c, p, rfl, rfl, ?_⟩
    rw [C06_single setup up τ generator H hpt (C52_pairing H hnd) ctx hctx sha256 commitment k cell proof hC.1 hπ.1 _ _ I
      ((C53_decode _ hC.1 _).2 hC) hk hI hcell ((C53_decode _ hπ.1 _).2 hπ), smul_smul, ← sub_smul]
    exact smul_generator_injective.eq_iff

end

/-! Non-vacuity -/

namespace Bls

/-- the encoding of the generator is the first point of eip7594/data/trusted_setup_4096.json -/
theorem toCompressed_generator : toCompressed generator =
    natToBE 48 0x97f1d3a73197d7942695638c4fa9ac0fc3688c4f9774b905a14e3a3f171bac586c55e83ff97a1aeffb3af00adb22c6bb := by
  symm
  refine (Bls.encodes_iff (P := generator.1)).1 ⟨length_natToBE _ _, ?_⟩
  rw [← beToNat_eq, beToNat_natToBE]
  have hx : ((g1GeneratorX : Nat) : Fp).val = g1GeneratorX := ZMod.val_natCast_of_lt (by decide +kernel)
  have hy : ((g1GeneratorY : Nat) : Fp).val = g1GeneratorY := ZMod.val_natCast_of_lt (by decide +kernel)
  have hy0 : ((g1GeneratorY : Nat) : Fp) ≠ 0 := by
    intro e
    rw [e, ZMod.val_zero] at hy
    exact absurd hy (by decide +kernel)
  have hny : (-((g1GeneratorY : Nat) : Fp)).val = fpOrder - g1GeneratorY := by rw [ZMod.neg_val, if_neg hy0, hy]
  show _ = 2 ^ 383 + (if (-((g1GeneratorY : Nat) : Fp)).val < ((g1GeneratorY : Nat) : Fp).val then 2 ^ 381 else 0) +
    ((g1GeneratorX : Nat) : Fp).val
  rw [hx, hy, hny]
  decide +kernel

/-- C53: that string is accepted, the all-zero string is not -/
example : fromCompressed (natToBE 48
    0x97f1d3a73197d7942695638c4fa9ac0fc3688c4f9774b905a14e3a3f171bac586c55e83ff97a1aeffb3af00adb22c6bb) = some generator := by
  rw [← toCompressed_generator]
  exact LawfulPointCodec.fromCompressed_toCompressed generator

example : (fromCompressed (List.replicate 48 0) : Option G1) = none :=
  C53_malformed _ List.length_replicate (.inl (by rw [← beToNat_eq]; decide +kernel))

/-- the string of `x = p`, which is not below the modulus -/
example : (fromCompressed (natToBE 48 (2 ^ 383 + fpOrder)) : Option G1) = none :=
  C53_malformed _ (length_natToBE _ _) (.inr (.inr (.inl (by rw [← beToNat_eq, beToNat_natToBE]; decide +kernel))))

theorem two_nonsingular : (shortCurve (4 : Fp)).Nonsingular 0 2 := curve_nonsingular (by norm_num)

/-- a point of order three -/
noncomputable def point3 : Curve1 := .some 0 2 two_nonsingular

theorem point3_ne : point3 ≠ 0 := by intro h; cases h

theorem two_val : (2 : Fp).val = 2 := by
  have : ((2 : Nat) : Fp).val = 2 := ZMod.val_natCast_of_lt (by decide +kernel)
  exact_mod_cast this

theorem two_ne : (2 : Fp) ≠ 0 := by
  intro h
  have := two_val
  rw [h, ZMod.val_zero] at this
  cases this

theorem point3_double : point3 + point3 = -point3 := by
  have h2 : (2 * (2 : Fp)) ≠ 0 := mul_ne_zero two_ne two_ne
  have t := LawfulCurve.tangent (K := Fp) point3 point3_ne h2 0 0 (by
    show (0 : Fp) = 3 * 0 ^ 2 / (2 * 2)
    simp) (by
    show (0 : Fp) = 0 ^ 2 - 2 * 0
    simp)
  have hn := LawfulCurve.toAff_neg (K := Fp) point3
  rw [← LawfulCurve.ofAff_toAff (K := Fp) (point3 + point3), ← LawfulCurve.ofAff_toAff (K := Fp) (-point3), t, hn]
  have e : (0 : Fp) * ((toAff point3).x - 0) - (toAff point3).y = -(toAff point3).y := by rw [zero_mul, zero_sub]
  rw [e]
  rfl

/-- C53, C52: the curve has points outside G1; their encodings are well formed, and refused -/
theorem point3_refused : Spec.EncodesG1 (0x80 :: List.replicate 47 0) point3 ∧
    (fromCompressed (0x80 :: List.replicate 47 0) : Option G1) = none := by
  have hnl : ¬ (-(2 : Fp)).val < (2 : Fp).val := by
    rw [ZMod.neg_val, if_neg two_ne, two_val]
    decide +kernel
  have henc : Spec.EncodesG1 (0x80 :: List.replicate 47 0) point3 := by
    refine ⟨rfl, ?_⟩
    show _ = 2 ^ 383 + (if (-(2 : Fp)).val < (2 : Fp).val then 2 ^ 381 else 0) + (0 : Fp).val
    rw [← beToNat_eq, if_neg hnl, ZMod.val_zero]
    decide +kernel
  refine ⟨henc, (C53_refuse _ rfl).2 ?_⟩
  rintro ⟨P, hP, ht⟩
  have hPe : P = point3 := C53_injective hP henc
  rw [hPe] at ht
  have hr : frOrder = 3 * (frOrder / 3) + 1 := by decide +kernel
  have h3 : 3 • point3 = 0 := by
    rw [succ_nsmul, two_nsmul, point3_double, neg_add_cancel]
  rw [hr, add_nsmul, one_nsmul, mul_comm, mul_nsmul', h3, nsmul_zero, zero_add] at ht
  exact point3_ne ht

/-- the powers of `τ`, times the generator, with the scalars in the place of G2 -/
noncomputable def setup (τ : Fr) : SetupPoints G1 Fr :=
  ⟨(List.range 4096).map (fun i => τ ^ i • generator), (List.range 65).map (τ ^ ·)⟩

theorem length_g1 (τ : Fr) : (setup τ).g1Monomial.length = 4096 := by simp [setup]
theorem length_g2 (τ : Fr) : (setup τ).g2Monomial.length = 65 := by simp [setup]

theorem powersOfTau (τ : Fr) : Spec.PowersOfTau (setup τ).g1Monomial (setup τ).g2Monomial τ generator (1 : Fr) where
  length_g1 := length_g1 τ
  g1_eq i hi := by
    unfold setup
    simp only [List.getElem?_map]
    rw [List.getElem?_range hi]
    simp
  length_g2 := by rw [length_g2]; norm_num
  g2_eq i hi := by
    rw [length_g2] at hi
    unfold setup
    simp only [List.getElem?_map]
    rw [List.getElem?_range hi]
    simp

/-- C54, C52: all hypotheses hold together for a setup in G1 itself and a pairing; the context commits to a concrete blob -/
example : let := logPairing Fr
    LawfulPairing G1 Fr Fr ∧ (pair generator (1 : Fr) : Fr) ≠ 0 ∧
    Spec.PowersOfTau (setup 7).g1Monomial (setup 7).g2Monomial 7 generator (1 : Fr) ∧
    ∃ ctx : DASContext Fp G1 Fr, (DASContext.new (setup 7) .no : Outcome Error (DASContext Fp G1 Fr)) = .ok ctx ∧
      ctx.blobToKzgCommitment Toy.blob = .ok (toCompressed ((26 : Fr) • generator)) := by
  intro inst
  have hl := lawful_logPairing Fr
  refine ⟨hl, ?_, powersOfTau 7, ?_⟩
  · show log generator • (1 : Fr) ≠ 0
    rw [log_generator, one_smul]
    exact one_ne_zero
  · obtain ⟨ctx, hctx⟩ := context_exists (ε := Error) (K := Fp) (setup 7) (length_g1 7) (by rw [length_g2])
      (by rw [length_g2]; norm_num)
    refine ⟨ctx, hctx, ?_⟩
    rw [C03_commitment (setup 7) .no 7 generator 1 (powersOfTau 7) ctx hctx Toy.blob Toy.poly Toy.blob_poly]
    have : Toy.poly.eval 7 = (26 : Fr) := by
      unfold Toy.poly
      simp
      norm_num
    rw [this]

end Bls
end Verif
