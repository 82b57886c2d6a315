import Mathlib.Algebra.QuadraticAlgebra.Basic
import Mathlib.NumberTheory.LegendreSymbol.Basic
import Verif.Lemmas.BlsChain2
import Verif.Model.Bls12381G1

/-!
G2 of BLS12-381 itself: the points of order dividing `frOrder` of `y^2 = x^3 + 4 (1 + u)` over the quadratic extension of the base
field with `u^2 = -1`, with Mathlib's group law, and its compressed encoding.

The encoding is the one implemented by the external crates blst (`blst_p2_uncompress`, `blst_p2_affine_compress`) and blstrs
(`from_compressed`, `from_compressed_unchecked`), which the code calls at trusted_setup.rs:164-187. Those crates are not in the
repository; what is modelled here is the published format: 48 big-endian bytes of the imaginary part of `x` and 48 of the real
part, with three flags in the top bits of the first byte (compressed; infinity; `y` is the larger of the two square roots, where
the imaginary part decides before the real part). The square root itself is any square root: the sign flag then selects the
same point whatever root was found.
-/
namespace Verif.Bls
open WeierstrassCurve

theorem neg_one_not_square : ∀ r : Fp, r ^ 2 ≠ -1 + 0 * r := by
  intro r h
  rw [zero_mul, add_zero] at h
  exact (ZMod.exists_sq_eq_neg_one_iff (p := fpOrder)).1 ⟨r, by rw [← h, pow_two]⟩ (by decide +kernel)

instance : Fact (∀ r : Fp, r ^ 2 ≠ -1 + 0 * r) := ⟨neg_one_not_square⟩

/-- the quadratic extension of the base field -/
abbrev Fp2 : Type := QuadraticAlgebra Fp (-1) 0

/-- the constant of the curve, `4 (1 + u)` -/
abbrev b2 : Fp2 := ⟨4, 4⟩

/-- the curve `y^2 = x^3 + 4 (1 + u)` -/
abbrev Curve2 : Type := CurvePoint b2

/-- G2 -/
abbrev G2 : Type := Torsion b2

/-- a square root, if there is one (`sqrt_fp2` of blst finds one) -/
noncomputable def sqrtFp2 (v : Fp2) : Option Fp2 :=
  open Classical in if h : ∃ y, y ^ 2 = v then some h.choose else none

/-- the sign flag: `y` is the larger of `y` and `-y`; the imaginary part decides unless it is zero -/
def isLarger2 (y : Fp2) : Bool := if y.im = 0 then isLarger y.re else isLarger y.im

theorem fp2_natCast_ne (k : Nat) (h : ¬ fpOrder ∣ k) : (k : Fp2) ≠ 0 := by
  intro e
  have := congrArg QuadraticAlgebra.re e
  rw [QuadraticAlgebra.re_natCast, QuadraticAlgebra.re_zero, ZMod.natCast_eq_zero_iff] at this
  exact h this

theorem fp2_two_ne : (2 : Fp2) ≠ 0 := by exact_mod_cast fp2_natCast_ne 2 (by decide +kernel)

theorem fp2_three_ne : (3 : Fp2) ≠ 0 := by exact_mod_cast fp2_natCast_ne 3 (by decide +kernel)

theorem b2_ne : b2 ≠ 0 := by
  intro e
  have h := congrArg QuadraticAlgebra.re e
  have h4 : ((4 : Nat) : Fp) ≠ 0 := by rw [Ne, ZMod.natCast_eq_zero_iff]; decide +kernel
  exact h4 (by exact_mod_cast h)

theorem curve2_nonsingular {x y : Fp2} (h : y ^ 2 = x ^ 3 + b2) : (shortCurve b2).Nonsingular x y := by
  rw [WeierstrassCurve.Affine.nonsingular_iff, WeierstrassCurve.Affine.equation_iff]
  simp only [shortCurve]
  refine ⟨by linear_combination h, ?_⟩
  by_cases hy : y = 0
  · left
    intro e
    have hx : x = 0 := by
      have : 3 * x ^ 2 = 0 := by linear_combination -e
      simpa [fp2_three_ne] using this
    rw [hx, hy] at h
    exact b2_ne (by linear_combination -h)
  · right
    intro e
    have : 2 * y = 0 := by linear_combination e
    simp [fp2_two_ne, hy] at this

/-- `blst_p2_affine_compress` -/
def compress2 (P : Curve2) : List UInt8 :=
  match P with
  | .zero => 0xC0 :: List.replicate 95 0
  | .some x y _ =>
    match natToBE 48 x.im.val with
    | [] => []
    | b0 :: rest => (b0 ||| 0x80 ||| (if isLarger2 y then 0x20 else 0)) :: (rest ++ natToBE 48 x.re.val)

/-- the affine point with these coordinates -/
noncomputable def mkPoint2 (x y : Fp2) : Option Curve2 :=
  open Classical in if h : y ^ 2 = x ^ 3 + b2 then some (.some x y (curve2_nonsingular h)) else none

/-- the point with the given `x` and sign flag, if there is one: the second half of `blst_p2_uncompress` (the test in
`mkPoint2` never fails here) -/
noncomputable def liftX2 (x : Fp2) (larger : Bool) : Option Curve2 :=
  (sqrtFp2 (x ^ 3 + b2)).bind (fun y => mkPoint2 x (if isLarger2 y = larger then y else -y))

/-- `blst_p2_uncompress` on 96 bytes -/
noncomputable def uncompress2 (b : List UInt8) : Option Curve2 :=
  match b with
  | [] => none
  | b0 :: rest =>
    if b0 &&& 0x80 = 0 then none
    else if b0 &&& 0x40 ≠ 0 then
      if b0 &&& 0x3f = 0 ∧ rest.all (· == 0) then some .zero else none
    else
      let x1 := beToNat ((b0 &&& 0x1f) :: rest.take 47)
      let x0 := beToNat (rest.drop 47)
      if x1 < fpOrder ∧ x0 < fpOrder then liftX2 ⟨x0, x1⟩ (decide (b0 &&& 0x20 ≠ 0)) else none

/-- blstrs `from_compressed_unchecked` and `is_torsion_free` -/
noncomputable instance : UncheckedCodec Curve2 where
  fromCompressedUnchecked := uncompress2
  isTorsionFree P := decide (frOrder • P = 0)

/-- blstrs `to_compressed` and `from_compressed`: unchecked decoding followed by the subgroup test -/
noncomputable instance : PointCodec G2 where
  toCompressed P := compress2 P.1
  fromCompressed b := (uncompress2 b).bind (fun P => if h : frOrder • P = 0 then some ⟨P, h⟩ else none)

/-- The readers of the setup restricted to the subgroups, for `DASContext.ofTrustedSetup`, whose points must be elements of a
vector space over the scalars. On texts of subgroup points this is what the readers without the test do (`C75_points`). -/
noncomputable instance : UncheckedCodec G1 where
  fromCompressedUnchecked := fromCompressed
  isTorsionFree _ := true

/-- the same for G2 -/
noncomputable instance : UncheckedCodec G2 where
  fromCompressedUnchecked := fromCompressed
  isTorsionFree _ := true

/-- `x` of the generator, `BLS12_381_G2` of blst (the first G2 point of the embedded trusted setup) -/
def g2GeneratorX : Pair :=
  ⟨0x024aa2b2f08f0a91260805272dc51051c6e47ad4fa403b02b4510b647ae3d1770bac0326a805bbefd48056c8c121bdb8,
   0x13e02b6052719f607dacd3a088274f65596bd0d09920b61ab5da61bbdc7f5049334cf11213945d57e5ac7d055d042b7e⟩

/-- `y` of the generator -/
def g2GeneratorY : Pair :=
  ⟨0x0ce5d527727d6e118cc9cdc6da2e351aadfd9baa8cbdd3a76d429a695160d12c923ac9cc3baca289e193548608b82801,
   0x0606c4a02ea734cc32acd2b02bc28b99cb3e287e85a763af267492ab572e99ab3f370d275cec1da1aaa9075ff05f79be⟩

/-- the square root of `-1` -/
def imag : Fp2 := ⟨0, 1⟩

theorem imag_sq : imag * imag = -1 := by ext <;> simp [imag, QuadraticAlgebra.re_one, QuadraticAlgebra.im_one]

theorem fp2_char : ((fpOrder : Nat) : Fp2) = 0 := by
  ext
  · rw [QuadraticAlgebra.re_natCast, QuadraticAlgebra.re_zero]; exact ZMod.natCast_self _
  · rw [QuadraticAlgebra.im_natCast, QuadraticAlgebra.im_zero]

theorem fpOrder_pos : 0 < fpOrder := by decide +kernel

theorem val_pair (a : Pair) : a.val imag = (⟨a.re, a.im⟩ : Fp2) := by
  ext <;> simp [Pair.val, imag]

/-- a pair of pairs on the curve, by computation -/
def onCurve2 (x y : Pair) : Bool :=
  decide (Pair.mul fpOrder y y = Pair.add fpOrder (Pair.mul fpOrder x (Pair.mul fpOrder x x)) ⟨4, 4⟩)

theorem onCurve2_sound {x y : Pair} (h : onCurve2 x y = true) :
    (⟨y.re, y.im⟩ : Fp2) ^ 2 = (⟨x.re, x.im⟩ : Fp2) ^ 3 + b2 := by
  have h := congrArg (Pair.val imag) (decide_eq_true_iff.1 h)
  have hb : Pair.val imag ⟨4, 4⟩ = b2 := by rw [val_pair]; rfl
  rw [val_add fpOrder_pos fp2_char, val_mul fpOrder_pos fp2_char imag_sq, val_mul fpOrder_pos fp2_char imag_sq,
    val_mul fpOrder_pos fp2_char imag_sq, hb, val_pair, val_pair] at h
  linear_combination h

/-- the generator as a point of the curve -/
noncomputable def g2GeneratorPoint : Curve2 :=
  .some ⟨g2GeneratorX.re, g2GeneratorX.im⟩ ⟨g2GeneratorY.re, g2GeneratorY.im⟩
    (curve2_nonsingular (onCurve2_sound (by decide +kernel)))

set_option maxRecDepth 100000 in
theorem g2OrderChain_run : run2 fpOrder g2GeneratorX g2GeneratorY g2OrderChain 1 g2GeneratorX g2GeneratorY =
    some (frOrder - 1, g2GeneratorX, Pair.sub fpOrder ⟨0, 0⟩ g2GeneratorY) := by
  decide +kernel

theorem g2GeneratorPoint_ne : g2GeneratorPoint ≠ 0 := by intro e; cases e

theorem g2GeneratorPoint_order : frOrder • g2GeneratorPoint = 0 := by
  have h := run2_order fpOrder_pos fp2_char imag_sq g2GeneratorPoint g2GeneratorPoint_ne
    (by rw [val_pair, val_pair]; rfl) g2OrderChain g2OrderChain_run
  rwa [show frOrder - 1 + 1 = frOrder by decide +kernel] at h

/-- the generator -/
noncomputable def generator2 : G2 := ⟨g2GeneratorPoint, g2GeneratorPoint_order⟩

end Verif.Bls
