import Verif.Lemmas.BlsUnchecked
import Verif.Props.Bls
import Verif.Props.TrustedSetup

set_option linter.unusedSectionVars false
set_option exponentiation.threshold 800

/-!
C73, C74, C75: the group G2 of BLS12-381 itself, the part that the choice of the pairing plays, and the way from the text of a
setup to the decisions of the library over the two groups themselves.
-/
namespace Verif
open Polynomial Bls

/-! ## C73 -/

/-- C73: the coordinates form a field of `p ^ 2` elements, the generator is on the curve, and its order is the modulus of the
scalars. -/
theorem C73_generator : (∃ u : Fp2, u ^ 2 = -1) ∧ Fintype.card Fp2 = fpOrder ^ 2 ∧
    ((⟨g2GeneratorY.re, g2GeneratorY.im⟩ : Fp2) ^ 2 = (⟨g2GeneratorX.re, g2GeneratorX.im⟩ : Fp2) ^ 3 + ⟨4, 4⟩) ∧
    (toAff generator2 : Aff Fp2) = ⟨⟨g2GeneratorX.re, g2GeneratorX.im⟩, ⟨g2GeneratorY.re, g2GeneratorY.im⟩⟩ ∧
    addOrderOf generator2 = frOrder :=
  ⟨⟨imag, by rw [pow_two, imag_sq]⟩, card_fp2, onCurve2_sound (by decide +kernel), rfl, generator2_order⟩

/-- C73: every point of the curve killed by `frOrder` is a multiple of the generator, by exactly one scalar. So the subgroup
test accepts the points of the group of prime order and no others. -/
theorem C73_cyclic (P : CurvePoint (⟨4, 4⟩ : Fp2)) :
    (frOrder • P = 0 ↔ ∃ s : Nat, s < frOrder ∧ P = s • (generator2 : CurvePoint (⟨4, 4⟩ : Fp2))) ∧
    ∀ s t : Nat, s < frOrder → t < frOrder →
      s • (generator2 : CurvePoint (⟨4, 4⟩ : Fp2)) = t • (generator2 : CurvePoint (⟨4, 4⟩ : Fp2)) → s = t := by
  have hg : frOrder • (generator2 : CurvePoint (⟨4, 4⟩ : Fp2)) = 0 := generator2.2
  have hcoe : ∀ s : Fr, ((s • generator2 : G2) : CurvePoint (⟨4, 4⟩ : Fp2)) =
      s.val • (generator2 : CurvePoint (⟨4, 4⟩ : Fp2)) := by
    intro s
    have : s • generator2 = s.val • generator2 := by
      conv_lhs => rw [← ZMod.natCast_zmod_val s]
      exact Nat.cast_smul_eq_nsmul Fr s.val generator2
    rw [this]
    rfl
  refine ⟨⟨fun h => ?_, ?_⟩, fun s t hs ht h => ?_⟩
  · obtain ⟨s, hs⟩ := exists_smul_generator2 ⟨P, h⟩
    exact ⟨s.val, ZMod.val_lt s, by rw [← hcoe, hs]⟩
  · rintro ⟨s, -, rfl⟩
    rw [smul_smul, mul_comm, ← smul_smul, hg, smul_zero]
  · have h2 : ((s : Fr) • generator2 : G2) = (t : Fr) • generator2 := by
      apply Subtype.ext
      rw [hcoe, hcoe, ZMod.val_natCast_of_lt hs, ZMod.val_natCast_of_lt ht]
      exact h
    have h3 := congrArg ZMod.val (smul_generator2_injective h2)
    rwa [ZMod.val_natCast_of_lt hs, ZMod.val_natCast_of_lt ht] at h3

/-- C73: without the subgroup test, a string of 96 bytes is decoded to a point of the curve exactly if it is the encoding of that
point; the same holds for 48 bytes and the curve of G1. -/
theorem C73_unchecked :
    (∀ (b : List UInt8) (P : Curve2), b.length = 96 → (fromCompressedUnchecked b = some P ↔ Spec.EncodesG2 b P)) ∧
    (∀ (b : List UInt8) (P : Curve1), b.length = 48 → (fromCompressedUnchecked b = some P ↔ Spec.EncodesG1 b P)) :=
  ⟨fun _ P hb => (uncompress2_iff hb P).trans encodes2_iff.symm, fun _ P hb => (uncompress_iff hb P).trans Bls.encodes_iff.symm⟩

/-- C73: a 96-byte string is decoded to a point of G2 exactly if it is the encoding of that point. -/
theorem C73_decode (b : List UInt8) (hb : b.length = 96) (P : G2) :
    fromCompressed b = some P ↔ Spec.EncodesG2 b P := by
  rw [encodes2_iff]
  constructor
  · exact fun h => (LawfulPointCodec.toCompressed_fromCompressed b P hb h).symm
  · rintro rfl
    exact LawfulPointCodec.fromCompressed_toCompressed P

/-- C73: the library's encoding of a point is its encoding. -/
theorem C73_encode (P : G2) : Spec.EncodesG2 (toCompressed P) P := encodes_compress2 P.1

/-- C73: a string that is no encoding of a point of the subgroup is refused. -/
theorem C73_refuse (b : List UInt8) (hb : b.length = 96) :
    (fromCompressed b : Option G2) = none ↔ ¬ ∃ P : CurvePoint (⟨4, 4⟩ : Fp2), Spec.EncodesG2 b P ∧ frOrder • P = 0 := by
  rw [Option.eq_none_iff_forall_ne_some]
  constructor
  · rintro h ⟨P, hP, ht⟩
    exact h ⟨P, ht⟩ ((C73_decode b hb ⟨P, ht⟩).2 hP)
  · intro h P hP
    exact h ⟨P, (C73_decode b hb P).1 hP, P.2⟩

/-- C73: a string encodes at most one point of the curve. -/
theorem C73_injective {b : List UInt8} {P Q : CurvePoint (⟨4, 4⟩ : Fp2)} (hP : Spec.EncodesG2 b P)
    (hQ : Spec.EncodesG2 b Q) : P = Q := by
  have h1 := (C73_unchecked.1 b P hP.1).2 hP
  have h2 := (C73_unchecked.1 b Q hP.1).2 hQ
  exact Option.some.inj (h1.symm.trans h2)

/-- the integer of an affine point, taken apart -/
theorem g2Code_parts (x y : Fp2) (hn) :
    let n := Spec.g2Code (WeierstrassCurve.Affine.Point.some x y hn)
    n % 2 ^ 384 = x.re.val ∧ n / 2 ^ 384 % 2 ^ 381 = x.im.val ∧ 2 ^ 767 ≤ n ∧ n < 2 ^ 767 + 2 ^ 766 := by
  intro n
  have hr := ZMod.val_lt x.re
  have hi := ZMod.val_lt x.im
  have hp : fpOrder < 2 ^ 381 := by decide +kernel
  have e384 : 2 ^ 384 = 8 * 2 ^ 381 := by decide +kernel
  have e767 : 2 ^ 767 = 4 * 2 ^ 381 * 2 ^ 384 := by decide +kernel
  have e766 : 2 ^ 766 = 2 * 2 ^ 381 * 2 ^ 384 := by decide +kernel
  have e765 : 2 ^ 765 = 2 ^ 381 * 2 ^ 384 := by decide +kernel
  have hre : x.re.val < 2 ^ 384 := by omega
  have him : x.im.val < 2 ^ 381 := hi.trans hp
  obtain ⟨c, hc, hn⟩ : ∃ c, (c = 4 ∨ c = 5) ∧ n = x.re.val + 2 ^ 384 * (x.im.val + 2 ^ 381 * c) := by
    by_cases hs : Spec.Precedes (-y) y
    · refine ⟨5, .inr rfl, ?_⟩
      show Spec.g2Code _ = _
      simp only [Spec.g2Code]
      rw [if_pos hs, e767, e765]
      ring
    · refine ⟨4, .inl rfl, ?_⟩
      show Spec.g2Code _ = _
      simp only [Spec.g2Code]
      rw [if_neg hs, e767]
      ring
  have d384 : 0 < 2 ^ 384 := by decide +kernel
  have hdiv : n / 2 ^ 384 = x.im.val + 2 ^ 381 * c := by
    rw [hn, Nat.add_mul_div_left _ _ d384, Nat.div_eq_of_lt hre, zero_add]
  refine ⟨?_, ?_, ?_, ?_⟩
  · rw [hn, Nat.add_mul_mod_self_left, Nat.mod_eq_of_lt hre]
  · rw [hdiv, Nat.add_mul_mod_self_left, Nat.mod_eq_of_lt him]
  · rw [e767, Nat.mul_comm, hn]
    refine le_trans ?_ (Nat.le_add_left _ _)
    refine Nat.mul_le_mul_left _ ?_
    generalize 2 ^ 381 = A at *
    rcases hc with rfl | rfl <;> omega
  · have : n / 2 ^ 384 < 6 * 2 ^ 381 := by
      rw [hdiv]
      generalize 2 ^ 381 = A at *
      rcases hc with rfl | rfl <;> omega
    rw [Nat.div_lt_iff_lt_mul d384] at this
    refine this.trans_le (le_of_eq ?_)
    rw [e767, e766]
    ring

/-- C73: in particular, strings without the compression flag, with the infinity flag and any other bit, with a part of the
coordinate that is not below the modulus, or with a coordinate for which the curve has no point, are refused, with and without
the subgroup test. -/
theorem C73_malformed (b : List UInt8) (hb : b.length = 96)
    (h : Spec.beValue b < 2 ^ 767 ∨ 2 ^ 767 + 2 ^ 766 < Spec.beValue b ∨
      (Spec.beValue b ≠ 2 ^ 767 + 2 ^ 766 ∧ fpOrder ≤ Spec.beValue b / 2 ^ 384 % 2 ^ 381) ∨
      (Spec.beValue b ≠ 2 ^ 767 + 2 ^ 766 ∧ fpOrder ≤ Spec.beValue b % 2 ^ 384) ∨
      (Spec.beValue b ≠ 2 ^ 767 + 2 ^ 766 ∧
        ¬ ∃ y : Fp2, y ^ 2 = (⟨(Spec.beValue b % 2 ^ 384 : Nat), (Spec.beValue b / 2 ^ 384 % 2 ^ 381 : Nat)⟩ : Fp2) ^ 3 + ⟨4, 4⟩)) :
    (fromCompressed b : Option G2) = none ∧ (fromCompressedUnchecked b : Option Curve2) = none := by
  have key : ¬ ∃ P : CurvePoint (⟨4, 4⟩ : Fp2), Spec.EncodesG2 b P := by
    rintro ⟨P, -, hP⟩
    rw [hP] at h
    cases P with
    | zero =>
      simp only [Spec.g2Code] at h
      rcases h with h | h | h | h | h
      · exact absurd h (by decide +kernel)
      · exact absurd h (lt_irrefl _)
      · exact h.1 rfl
      · exact h.1 rfl
      · exact h.1 rfl
    | some x y hn =>
      obtain ⟨h1, h2, h3, h4⟩ := g2Code_parts x y hn
      rw [h1, h2] at h
      rcases h with h | h | ⟨-, h⟩ | ⟨-, h⟩ | ⟨-, h⟩
      · exact absurd h (not_lt.2 h3)
      · exact absurd (h4.trans h) (lt_irrefl _)
      · exact absurd (ZMod.val_lt x.im) (not_lt.2 h)
      · exact absurd (ZMod.val_lt x.re) (not_lt.2 h)
      · apply h
        refine ⟨y, ?_⟩
        rw [ZMod.natCast_zmod_val, ZMod.natCast_zmod_val]
        exact equation2 hn
  constructor
  · exact (C73_refuse b hb).2 fun ⟨P, hP, _⟩ => key ⟨P, hP⟩
  · rw [Option.eq_none_iff_forall_ne_some]
    exact fun P hP => key ⟨P, (C73_unchecked.1 b P hb).1 hP⟩

/-! ## C74 -/

section
variable {GT : Type} [AddCommGroup GT] [DecidableEq GT] [Pairing G1 G2 GT]

theorem pair_multiples [LawfulPairing G1 G2 GT] (a b : Fr) :
    (pair (a • generator) (b • generator2) : GT) = (a * b).val • pair generator generator2 := by
  have hz : (pair (0 : G1) generator2 : GT) = 0 := by
    have := LawfulPairing.pair_add_left (GT := GT) (0 : G1) 0 generator2
    rw [add_zero] at this
    exact left_eq_add.1 this
  have hn : ∀ n : Nat, (pair (n • generator) generator2 : GT) = n • pair generator generator2 := by
    intro n
    induction n with
    | zero => rw [zero_smul, zero_smul, hz]
    | succ n ih => rw [succ_nsmul, LawfulPairing.pair_add_left, ih, succ_nsmul]
  rw [← LawfulPairing.pair_smul, smul_smul, ← hn, ← Nat.cast_smul_eq_nsmul Fr, ZMod.natCast_zmod_val, mul_comm]

theorem pair_killed [LawfulPairing G1 G2 GT] : frOrder • (pair generator generator2 : GT) = 0 := by
  have h := pair_multiples (GT := GT) 1 1
  have hz : (pair (0 : G1) generator2 : GT) = 0 := by
    have := pair_multiples (GT := GT) 0 1
    rwa [zero_smul, one_smul, zero_mul, ZMod.val_zero, zero_smul] at this
  have hn : ∀ n : Nat, (pair (n • generator) generator2 : GT) = n • pair generator generator2 := by
    intro n
    induction n with
    | zero => rw [zero_smul, zero_smul, hz]
    | succ n ih => rw [succ_nsmul, LawfulPairing.pair_add_left, ih, succ_nsmul]
  have hk : frOrder • generator = 0 := Subtype.ext generator.2
  rw [← hn, hk, hz]

/-- C74: what the equation checked by the verifier says about the multipliers of the four points, for every bilinear pairing
that is not trivial on the two generators. -/
theorem C74_equation [LawfulPairing G1 G2 GT] (h : (pair generator generator2 : GT) ≠ 0) (a b c d : Fr) :
    (pair (a • generator) (b • generator2) + pair (c • generator) (d • generator2) : GT) = 0 ↔ a * b + c * d = 0 := by
  have hord : addOrderOf (pair generator generator2 : GT) = frOrder := addOrderOf_eq_prime pair_killed h
  rw [pair_multiples, pair_multiples, ← add_nsmul, ← addOrderOf_dvd_iff_nsmul_eq_zero, hord, ← ZMod.natCast_eq_zero_iff]
  push_cast
  rw [ZMod.natCast_zmod_val, ZMod.natCast_zmod_val]

/-- C74: such a pairing is not trivial on any two points other than zero. -/
theorem C74_nondegenerate [LawfulPairing G1 G2 GT] (h : (pair generator generator2 : GT) ≠ 0) (P : G1) (Q : G2) :
    (pair P Q : GT) = 0 ↔ P = 0 ∨ Q = 0 := by
  obtain ⟨a, rfl⟩ := exists_smul_generator P
  obtain ⟨b, rfl⟩ := exists_smul_generator2 Q
  have := C74_equation h a b 0 0
  rw [pair_multiples 0 0, zero_mul, ZMod.val_zero, zero_smul, add_zero, add_zero] at this
  rw [this, mul_eq_zero, smul_eq_zero, smul_eq_zero, or_iff_left generator_ne, or_iff_left generator2_ne]

end

/-- C74: the verifier's answer does not depend on the pairing: any two bilinear pairings of the two groups, with any target
groups, that are not trivial on the generators give the same outcome for every context and every input. -/
theorem C74_same_verdict {GT GT' : Type} [AddCommGroup GT] [DecidableEq GT] [AddCommGroup GT'] [DecidableEq GT']
    (e : Pairing G1 G2 GT) (e' : Pairing G1 G2 GT') (he : @LawfulPairing G1 G2 GT _ _ _ _ _ e)
    (he' : @LawfulPairing G1 G2 GT' _ _ _ _ _ e') (hn : e.pair generator generator2 ≠ 0) (hn' : e'.pair generator generator2 ≠ 0)
    (sha256 : List UInt8 → List UInt8) (ctx : DASContext Fp G1 G2) (commitments : List (List UInt8)) (inds : List Nat)
    (cells proofs : List (List UInt8)) :
    @DASContext.verifyCellKzgProofBatch Fp G1 G2 GT _ _ _ _ _ _ e sha256 ctx commitments inds cells proofs =
    @DASContext.verifyCellKzgProofBatch Fp G1 G2 GT' _ _ _ _ _ _ e' sha256 ctx commitments inds cells proofs := by
  have key : @multiPairings2 G1 G2 GT _ _ e = @multiPairings2 G1 G2 GT' _ _ e' := by
    funext P Q P' Q'
    obtain ⟨a, rfl⟩ := exists_smul_generator P
    obtain ⟨b, rfl⟩ := exists_smul_generator2 Q
    obtain ⟨c, rfl⟩ := exists_smul_generator P'
    obtain ⟨d, rfl⟩ := exists_smul_generator2 Q'
    unfold multiPairings2
    rw [Bool.eq_iff_iff, decide_eq_true_iff, decide_eq_true_iff]
    exact (@C74_equation GT _ _ e he hn a b c d).trans (@C74_equation GT' _ _ e' he' hn' a b c d).symm
  unfold DASContext.verifyCellKzgProofBatch FK20Verifier.verifyMultiOpening
  rw [key]

/-! ## C75 -/

/-- The text of a setup: 4096 strings in hexadecimal digits of the encodings of the powers of `τ` times the generator of G1, and
more than 64 such strings, at most 4096, for G2. -/
structure TauText (setup : TrustedSetup) (τ : Fr) : Prop where
  length_g1 : setup.g1Monomial.length = 4096
  g1 : ∀ i (h : i < setup.g1Monomial.length), ∃ b, Spec.HexString setup.g1Monomial[i] b ∧
    Spec.EncodesG1 b (τ ^ i • generator : G1)
  length_g2 : 64 < setup.g2Monomial.length ∧ setup.g2Monomial.length ≤ 4096
  g2 : ∀ i (h : i < setup.g2Monomial.length), ∃ b, Spec.HexString setup.g2Monomial[i] b ∧
    Spec.EncodesG2 b (τ ^ i • generator2 : G2)

/-- C75: the texts of points, in terms of the integers that they spell out. -/
theorem C75_text (s : List UInt8) (sub : SubgroupCheck) :
    (∀ P : Curve1, TextOf 48 sub s P ↔ ∃ b, Spec.HexString s b ∧ Spec.EncodesG1 b P ∧ (sub = .check → frOrder • P = 0)) ∧
    (∀ P : Curve2, TextOf 96 sub s P ↔ ∃ b, Spec.HexString s b ∧ Spec.EncodesG2 b P ∧ (sub = .check → frOrder • P = 0)) := by
  constructor
  · intro P
    constructor
    · rintro ⟨b, h1, h2, h3, h4⟩
      exact ⟨b, h1, (C73_unchecked.2 b P h2).1 h3, fun h => decide_eq_true_iff.1 (h4 h)⟩
    · rintro ⟨b, h1, h2, h3⟩
      exact ⟨b, h1, h2.1, (C73_unchecked.2 b P h2.1).2 h2, fun h => decide_eq_true_iff.2 (h3 h)⟩
  · intro P
    constructor
    · rintro ⟨b, h1, h2, h3, h4⟩
      exact ⟨b, h1, (C73_unchecked.1 b P h2).1 h3, fun h => decide_eq_true_iff.1 (h4 h)⟩
    · rintro ⟨b, h1, h2, h3⟩
      exact ⟨b, h1, h2.1, (C73_unchecked.1 b P h2.1).2 h2, fun h => decide_eq_true_iff.2 (h3 h)⟩

/-- C75: the validation accepts a setup exactly if its strings spell out multiples of the two generators and there are enough of
them; it panics on any other. -/
theorem C75_valid {ε : Type} (setup : TrustedSetup) :
    ((setup.validate Curve1 Curve2 : Outcome ε Unit) = .ok () ↔
      (∀ s ∈ setup.g1Monomial, ∃ b, Spec.HexString s b ∧ ∃ a : Fr, Spec.EncodesG1 b (a • generator : G1)) ∧
      (∀ s ∈ setup.g2Monomial, ∃ b, Spec.HexString s b ∧ ∃ a : Fr, Spec.EncodesG2 b (a • generator2 : G2)) ∧
      64 < setup.g2Monomial.length ∧ setup.g2Monomial.length ≤ setup.g1Monomial.length) ∧
    ((setup.validate Curve1 Curve2 : Outcome ε Unit) = .ok () ∨ (setup.validate Curve1 Curve2 : Outcome ε Unit) = .panic) := by
  have h1 : ∀ s, (∃ p : Curve1, TextOf 48 .check s p) ↔
      ∃ b, Spec.HexString s b ∧ ∃ a : Fr, Spec.EncodesG1 b (a • generator : G1) := by
    intro s
    constructor
    · rintro ⟨P, hP⟩
      obtain ⟨b, hb, he, ht⟩ := ((C75_text s .check).1 P).1 hP
      obtain ⟨a, ha⟩ := exists_smul_generator ⟨P, ht rfl⟩
      exact ⟨b, hb, a, by rw [ha]; exact he⟩
    · rintro ⟨b, hb, a, he⟩
      exact ⟨_, ((C75_text s .check).1 _).2 ⟨b, hb, he, fun _ => (a • generator).2⟩⟩
  have h2 : ∀ s, (∃ p : Curve2, TextOf 96 .check s p) ↔
      ∃ b, Spec.HexString s b ∧ ∃ a : Fr, Spec.EncodesG2 b (a • generator2 : G2) := by
    intro s
    constructor
    · rintro ⟨P, hP⟩
      obtain ⟨b, hb, he, ht⟩ := ((C75_text s .check).2 P).1 hP
      obtain ⟨a, ha⟩ := exists_smul_generator2 ⟨P, ht rfl⟩
      exact ⟨b, hb, a, by rw [ha]; exact he⟩
    · rintro ⟨b, hb, a, he⟩
      exact ⟨_, ((C75_text s .check).2 _).2 ⟨b, hb, he, fun _ => (a • generator2).2⟩⟩
  have hv : ValidSetup Curve1 Curve2 setup ↔
      (∀ s ∈ setup.g1Monomial, ∃ b, Spec.HexString s b ∧ ∃ a : Fr, Spec.EncodesG1 b (a • generator : G1)) ∧
      (∀ s ∈ setup.g2Monomial, ∃ b, Spec.HexString s b ∧ ∃ a : Fr, Spec.EncodesG2 b (a • generator2 : G2)) ∧
      64 < setup.g2Monomial.length ∧ setup.g2Monomial.length ≤ setup.g1Monomial.length := by
    unfold ValidSetup
    simp only [h1, h2]
  rw [← hv]
  rcases validate_cases (ε := ε) (E1 := Curve1) (E2 := Curve2) setup with ⟨h, h'⟩ | ⟨h, h'⟩
  · exact ⟨⟨fun _ => h', fun _ => h⟩, .inl h⟩
  · refine ⟨⟨fun e => ?_, fun e => absurd e h'⟩, .inr h⟩
    rw [h] at e
    cases e

/-- C75: the readers, with and without the subgroup test, give the points whose encodings the strings spell out. -/
theorem C75_points {ε : Type} (setup : TrustedSetup) (τ : Fr) (h : TauText setup τ) (sub : SubgroupCheck) :
    (deserializeG1Points setup.g1Monomial sub : Outcome ε (List Curve1)) =
      .ok ((List.range 4096).map fun i => ((τ ^ i • generator : G1) : Curve1)) ∧
    (deserializeG2Points setup.g2Monomial sub : Outcome ε (List Curve2)) =
      .ok ((List.range setup.g2Monomial.length).map fun i => ((τ ^ i • generator2 : G2) : Curve2)) ∧
    (deserializeG1Points setup.g1Monomial sub : Outcome ε (List G1)) = .ok ((List.range 4096).map fun i => τ ^ i • generator) ∧
    (deserializeG2Points setup.g2Monomial sub : Outcome ε (List G2)) =
      .ok ((List.range setup.g2Monomial.length).map fun i => τ ^ i • generator2) := by
  refine ⟨((C38_g1_points _ sub).1 _).2 ?_, ((C38_g2_points _ sub).1 _).2 ?_, ((C38_g1_points _ sub).1 _).2 ?_,
    ((C38_g2_points _ sub).1 _).2 ?_⟩
  all_goals rw [List.forall₂_iff_get]
  · refine ⟨by simp [h.length_g1], fun i h1 h2 => ?_⟩
    obtain ⟨b, hb, he⟩ := h.g1 i h1
    rw [List.get_eq_getElem, List.get_eq_getElem, List.getElem_map, List.getElem_range]
    exact ((C75_text _ sub).1 _).2 ⟨b, hb, he, fun _ => (τ ^ i • generator).2⟩
  · refine ⟨by simp, fun i h1 h2 => ?_⟩
    obtain ⟨b, hb, he⟩ := h.g2 i h1
    rw [List.get_eq_getElem, List.get_eq_getElem, List.getElem_map, List.getElem_range]
    exact ((C75_text _ sub).2 _).2 ⟨b, hb, he, fun _ => (τ ^ i • generator2).2⟩
  · refine ⟨by simp [h.length_g1], fun i h1 h2 => ?_⟩
    obtain ⟨b, hb, he⟩ := h.g1 i h1
    rw [List.get_eq_getElem, List.get_eq_getElem, List.getElem_map, List.getElem_range]
    exact ⟨b, hb, he.1, (C53_decode b he.1 _).2 he, fun _ => rfl⟩
  · refine ⟨by simp, fun i h1 h2 => ?_⟩
    obtain ⟨b, hb, he⟩ := h.g2 i h1
    rw [List.get_eq_getElem, List.get_eq_getElem, List.getElem_map, List.getElem_range]
    exact ⟨b, hb, he.1, (C73_decode b he.1 _).2 he, fun _ => rfl⟩

/-- the points of a setup of powers -/
noncomputable def tauPoints (setup : TrustedSetup) (τ : Fr) : SetupPoints G1 G2 :=
  ⟨(List.range 4096).map fun i => τ ^ i • generator, (List.range setup.g2Monomial.length).map fun i => τ ^ i • generator2⟩

theorem tauPoints_powers (setup : TrustedSetup) (τ : Fr) (h : TauText setup τ) :
    Spec.PowersOfTau (tauPoints setup τ).g1Monomial (tauPoints setup τ).g2Monomial τ generator generator2 where
  length_g1 := by simp [tauPoints]
  g1_eq i hi := by
    simp only [tauPoints, List.getElem?_map]
    rw [List.getElem?_range hi]
    rfl
  length_g2 := by simpa [tauPoints] using h.length_g2
  g2_eq i hi := by
    have hi' : i < setup.g2Monomial.length := by simpa [tauPoints] using hi
    simp only [tauPoints, List.getElem?_map]
    rw [List.getElem?_range hi']
    rfl

/-- C75: from the text of the setup to the answers. The setup is accepted by the validation and gives a context; the commitment
of a blob spells out its polynomial at `τ` times the generator; and a cell is accepted exactly if the multipliers of commitment and
proof satisfy the KZG equation in the scalar field. What is assumed about the two groups, their encodings and the equation that is
checked is only that the pairing is bilinear and not trivial on the generators. -/
theorem C75_library {GT : Type} [AddCommGroup GT] [DecidableEq GT] [Pairing G1 G2 GT] [LawfulPairing G1 G2 GT]
    (hnd : (pair generator generator2 : GT) ≠ 0) (setup : TrustedSetup) (τ : Fr) (h : TauText setup τ) :
    (setup.validate Curve1 Curve2 : Outcome Error Unit) = .ok () ∧
    ∃ ctx : DASContext Fp G1 G2, (DASContext.ofTrustedSetup setup .no : Outcome Error (DASContext Fp G1 G2)) = .ok ctx ∧
    (∀ (blob : List UInt8) (f : Fr[X]), Spec.IsBlobPoly blob f →
      ∃ c, ctx.blobToKzgCommitment blob = .ok c ∧ Spec.EncodesG1 c (f.eval τ • generator : G1)) ∧
    (∀ (sha256 : List UInt8 → List UInt8) (commitment proof cell : List UInt8) (k : Nat) (c p : Fr) (I : Fr[X]),
      Spec.EncodesG1 commitment (c • generator : G1) → Spec.EncodesG1 proof (p • generator : G1) → k < 128 → I.degree < 64 →
      Spec.IsCell I k cell →
      (ctx.verifyCellKzgProofBatch sha256 [commitment] [k] [cell] [proof] = .ok () ↔
        (τ ^ 64 - Spec.point 13 (64 * k) ^ 64) * p = c - I.eval τ)) := by
  have hpt := tauPoints_powers setup τ h
  obtain ⟨-, -, r1, r2⟩ := C75_points (ε := Error) setup τ h .noCheck
  have hof : (DASContext.ofTrustedSetup setup .no : Outcome Error (DASContext Fp G1 G2)) = DASContext.new (tauPoints setup τ) .no :=
    C38_context setup .no _ _ (((C38_g1_points _ _).1 _).1 r1) (((C38_g2_points _ _).1 _).1 r2)
  obtain ⟨ctx, hctx⟩ := context_exists (ε := Error) (K := Fp) (tauPoints setup τ) hpt.length_g1 hpt.length_g2.1 hpt.length_g2.2
  obtain ⟨k1, k2⟩ := C54_kzg (tauPoints setup τ) .no τ generator2 hpt hnd ctx hctx
  refine ⟨((C75_valid setup).1).2 ⟨?_, ?_, h.length_g2.1, by rw [h.length_g1]; exact h.length_g2.2⟩, ctx, hof.trans hctx, k1, ?_⟩
  · intro s hs
    obtain ⟨i, hi, rfl⟩ := List.getElem_of_mem hs
    obtain ⟨b, hb, he⟩ := h.g1 i hi
    exact ⟨b, hb, _, he⟩
  · intro s hs
    obtain ⟨i, hi, rfl⟩ := List.getElem_of_mem hs
    obtain ⟨b, hb, he⟩ := h.g2 i hi
    exact ⟨b, hb, _, he⟩
  · intro sha256 commitment proof cell k c p I hc hp hk hI hcell
    obtain ⟨c', p', e1, e2, hiff⟩ := k2 sha256 commitment proof cell k _ _ I hc hp hk hI hcell
    rw [smul_generator_injective e1, smul_generator_injective e2]
    exact hiff

/-! Non-vacuity -/

namespace Bls

theorem g2Code_some (x y : Fp2) (hp : ¬ Spec.Precedes (-y) y) (h) :
    Spec.g2Code (WeierstrassCurve.Affine.Point.some x y h) = 2 ^ 767 + 0 + x.im.val * 2 ^ 384 + x.re.val := by
  simp only [Spec.g2Code]
  rw [if_neg hp]

/-- the encoding of the generator is the first G2 point of eip7594/data/trusted_setup_4096.json -/
theorem toCompressed_generator2 : toCompressed generator2 = natToBE 96
    0x93e02b6052719f607dacd3a088274f65596bd0d09920b61ab5da61bbdc7f5049334cf11213945d57e5ac7d055d042b7e024aa2b2f08f0a91260805272dc51051c6e47ad4fa403b02b4510b647ae3d1770bac0326a805bbefd48056c8c121bdb8 := by
  symm
  refine (encodes2_iff (P := generator2.1)).1 ⟨length_natToBE _ _, ?_⟩
  rw [← beToNat_eq, beToNat_natToBE]
  have hxr : ((g2GeneratorX.re : Nat) : Fp).val = g2GeneratorX.re := ZMod.val_natCast_of_lt (by decide +kernel)
  have hxi : ((g2GeneratorX.im : Nat) : Fp).val = g2GeneratorX.im := ZMod.val_natCast_of_lt (by decide +kernel)
  have hyi : ((g2GeneratorY.im : Nat) : Fp).val = g2GeneratorY.im := ZMod.val_natCast_of_lt (by decide +kernel)
  have hy0 : ((g2GeneratorY.im : Nat) : Fp) ≠ 0 := by
    intro e
    rw [e, ZMod.val_zero] at hyi
    exact absurd hyi (by decide +kernel)
  have hny : (-((g2GeneratorY.im : Nat) : Fp)).val = fpOrder - g2GeneratorY.im := by rw [ZMod.neg_val, if_neg hy0, hyi]
  have hp : ¬ Spec.Precedes (-(⟨g2GeneratorY.re, g2GeneratorY.im⟩ : Fp2)) ⟨g2GeneratorY.re, g2GeneratorY.im⟩ := by
    rintro (hc | ⟨hc, -⟩)
    · rw [QuadraticAlgebra.im_neg] at hc
      simp only at hc
      rw [hny, hyi] at hc
      exact absurd hc (by decide +kernel)
    · rw [QuadraticAlgebra.im_neg] at hc
      have hc' := congrArg ZMod.val hc
      simp only at hc'
      rw [hny, hyi] at hc'
      exact absurd hc' (by decide +kernel)
  have key := g2Code_some (⟨g2GeneratorX.re, g2GeneratorX.im⟩ : Fp2) _ hp (curve2_nonsingular (onCurve2_sound (x := g2GeneratorX) (by decide +kernel)))
  rw [hxr, hxi] at key
  refine Eq.trans ?_ key.symm
  decide +kernel

/-- C73: the all-zero string is refused -/
example : (fromCompressed (List.replicate 96 0) : Option G2) = none :=
  (C73_malformed _ List.length_replicate (.inl (by rw [← beToNat_eq]; decide +kernel))).1

/-- C73: a real part that is not below the modulus is refused -/
example : (fromCompressed (natToBE 96 (2 ^ 767 + fpOrder)) : Option G2) = none :=
  (C73_malformed _ (length_natToBE _ _) (.inr (.inr (.inr (.inl (by rw [← beToNat_eq, beToNat_natToBE]; decide +kernel)))))).1

/-- C73: the curve has points outside G2; their encodings are read without the subgroup test, and refused with it -/
theorem cofactorPoint_refused : (fromCompressedUnchecked (compress2 cofactorPoint) : Option Curve2) = some cofactorPoint ∧
    (fromCompressed (compress2 cofactorPoint) : Option G2) = none := by
  have henc := encodes_compress2 cofactorPoint
  refine ⟨(C73_unchecked.1 _ _ henc.1).2 henc, (C73_refuse _ henc.1).2 ?_⟩
  rintro ⟨P, hP, ht⟩
  rw [C73_injective hP henc] at ht
  have h1 := addOrderOf_dvd_of_nsmul_eq_zero ht
  have h2 : addOrderOf cofactorPoint = cofactorPrime := cofactorPoint_order
  rw [h2] at h1
  exact absurd (Nat.le_of_dvd (by decide +kernel) h1) (by decide +kernel)

/-- the text of the powers of `τ` -/
noncomputable def tauSetup (τ : Fr) : TrustedSetup :=
  ⟨(List.range 4096).map (fun i => Toy.hexText (toCompressed (τ ^ i • generator : G1))), [],
    (List.range 65).map (fun i => Toy.hexText (toCompressed (τ ^ i • generator2 : G2)))⟩

theorem tauSetup_text (τ : Fr) : TauText (tauSetup τ) τ where
  length_g1 := by simp [tauSetup]
  g1 i h := by
    refine ⟨_, ?_, C53_encode _⟩
    simp only [tauSetup, List.getElem_map, List.getElem_range]
    exact Toy.hexText_spec _
  length_g2 := by simp [tauSetup]
  g2 i h := by
    refine ⟨_, ?_, C73_encode _⟩
    simp only [tauSetup, List.getElem_map, List.getElem_range]
    exact Toy.hexText_spec _

/-- C74, C75: all hypotheses hold together, for the text of a setup in the two groups themselves -/
example : let := logPairing2
    LawfulPairing G1 G2 Fr ∧ (pair generator generator2 : Fr) ≠ 0 ∧ TauText (tauSetup 7) 7 := by
  intro inst
  refine ⟨lawful_logPairing2, ?_, tauSetup_text 7⟩
  show log generator * log2 generator2 ≠ 0
  rw [log_generator, log2_generator2, one_mul]
  exact one_ne_zero

/-- another pairing, with values in G2 -/
noncomputable abbrev pairingIntoG2 : Pairing G1 G2 G2 where
  pair P Q := log P • Q

theorem lawful_pairingIntoG2 :
    letI := pairingIntoG2
    LawfulPairing G1 G2 G2 := by
  let := pairingIntoG2
  exact {
    pair_add_left := fun a b c => by
      show log (a + b) • c = log a • c + log b • c
      rw [map_add, add_smul]
    pair_add_right := fun a b c => smul_add _ _ _
    pair_smul := fun s a b => by
      show log (s • a) • b = log a • s • b
      rw [map_smul, smul_eq_mul, mul_comm, mul_smul] }

/-- C74: the two pairings, one with values in the scalars and one with values in G2, give the same answers -/
example (sha256 : List UInt8 → List UInt8) (ctx : DASContext Fp G1 G2) (commitments : List (List UInt8)) (inds : List Nat)
    (cells proofs : List (List UInt8)) :
    @DASContext.verifyCellKzgProofBatch Fp G1 G2 Fr _ _ _ _ _ _ logPairing2 sha256 ctx commitments inds cells proofs =
    @DASContext.verifyCellKzgProofBatch Fp G1 G2 G2 _ _ _ _ _ (Classical.decEq _) pairingIntoG2 sha256 ctx commitments inds cells
      proofs := by
  let := Classical.decEq G2
  refine C74_same_verdict logPairing2 pairingIntoG2 lawful_logPairing2 lawful_pairingIntoG2 ?_ ?_ sha256 ctx commitments inds cells
    proofs
  · show log generator * log2 generator2 ≠ 0
    rw [log_generator, log2_generator2, one_mul]
    exact one_ne_zero
  · show log generator • generator2 ≠ 0
    rw [log_generator, one_smul]
    exact generator2_ne

end Bls

end Verif
