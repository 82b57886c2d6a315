import Verif.Lemmas.BlsPrime
import Verif.Model.Bytes
import Verif.Model.TrustedSetup

/-!
G1 of BLS12-381 itself: the points of order dividing `frOrder` of `y^2 = x^3 + 4` over the base field, with Mathlib's group
law, and its compressed encoding.

The encoding is the one implemented by the external crates blst (`blst_p1_uncompress`, `blst_p1_affine_compress`) and blstrs
(`from_compressed`, `from_compressed_unchecked`, `to_compressed`), which the code calls at serialization.rs:39-46, 87-93 and
trusted_setup.rs:131-160. Those crates are not in the repository; what is modelled here is the published format: 48
big-endian bytes of `x`, with three flags in the top bits of the first byte (compressed; infinity; `y` is the larger of the two
square roots).
-/
namespace Verif.Bls

instance : Fact fpOrder.Prime := ⟨fpOrder_prime⟩

/-- the base field -/
abbrev Fp : Type := ZMod fpOrder

/-- the curve `y^2 = x^3 + 4` -/
abbrev Curve1 : Type := CurvePoint (4 : Fp)

/-- G1 -/
abbrev G1 : Type := Torsion (4 : Fp)

/-- square root as computed by blst (`sqrt_fp`; the modulus is 3 modulo 4): a power, and a check. The
test of the square is classical, to keep the kernel from unfolding the power. -/
noncomputable def sqrtFp (v : Fp) : Option Fp :=
  let y := v ^ ((fpOrder + 1) / 4)
  open Classical in if y ^ 2 = v then some y else none

/-- the sign flag: `y` is the larger of `y` and `-y` as an integer -/
def isLarger (y : Fp) : Bool := decide ((fpOrder - 1) / 2 < y.val)

theorem curve_nonsingular {x y : Fp} (h : y ^ 2 = x ^ 3 + 4) : (shortCurve (4 : Fp)).Nonsingular x y := by
  rw [WeierstrassCurve.Affine.nonsingular_iff, WeierstrassCurve.Affine.equation_iff]
  simp only [shortCurve]
  refine ⟨by linear_combination h, ?_⟩
  have h2 : (2 : Fp) ≠ 0 := by
    have : ((2 : Nat) : Fp) ≠ 0 := by
      rw [Ne, ZMod.natCast_eq_zero_iff]; decide +kernel
    exact_mod_cast this
  have h3 : (3 : Fp) ≠ 0 := by
    have : ((3 : Nat) : Fp) ≠ 0 := by
      rw [Ne, ZMod.natCast_eq_zero_iff]; decide +kernel
    exact_mod_cast this
  by_cases hy : y = 0
  · left
    intro e
    have hx : x = 0 := by
      have : 3 * x ^ 2 = 0 := by linear_combination -e
      simpa [h3] using this
    rw [hx, hy] at h
    have : (2 : Fp) ^ 2 = 0 := by linear_combination -h
    exact h2 (by simpa using this)
  · right
    intro e
    have : 2 * y = 0 := by linear_combination e
    simp [h2, hy] at this

/-- `blst_p1_affine_compress` -/
def compress (P : Curve1) : List UInt8 :=
  match P with
  | .zero => 0xC0 :: List.replicate 47 0
  | .some x y _ =>
    match natToBE 48 x.val with
    | [] => []
    | b0 :: rest => (b0 ||| 0x80 ||| (if isLarger y then 0x20 else 0)) :: rest

theorem sqrtFp_sound {v y : Fp} (h : sqrtFp v = some y) : y ^ 2 = v := by
  simp only [sqrtFp] at h
  split at h
  · rename_i e
    rw [← Option.some.inj h]; exact e
  · exact absurd h (by simp)

/-- the affine point with these coordinates -/
noncomputable def mkPoint (x y : Fp) : Option Curve1 :=
  open Classical in if h : y ^ 2 = x ^ 3 + 4 then some (.some x y (curve_nonsingular h)) else none

/-- the point with the given `x` and sign flag, if there is one: the second half of `blst_p1_uncompress` (the test in
`mkPoint` never fails here) -/
noncomputable def liftX (x : Fp) (larger : Bool) : Option Curve1 :=
  (sqrtFp (x ^ 3 + 4)).bind (fun y => mkPoint x (if isLarger y = larger then y else -y))

/-- `blst_p1_uncompress` on 48 bytes -/
noncomputable def uncompress (b : List UInt8) : Option Curve1 :=
  match b with
  | [] => none
  | b0 :: rest =>
    if b0 &&& 0x80 = 0 then none
    else if b0 &&& 0x40 ≠ 0 then
      if b0 &&& 0x3f = 0 ∧ rest.all (· == 0) then some .zero else none
    else
      let x := beToNat ((b0 &&& 0x1f) :: rest)
      if x < fpOrder then liftX x (decide (b0 &&& 0x20 ≠ 0)) else none

/-- blstrs `from_compressed_unchecked` and `is_torsion_free` -/
noncomputable instance : UncheckedCodec Curve1 where
  fromCompressedUnchecked := uncompress
  isTorsionFree P := decide (frOrder • P = 0)

/-- blstrs `to_compressed` and `from_compressed`: unchecked decoding followed by the subgroup test -/
noncomputable instance : PointCodec G1 where
  toCompressed P := compress P.1
  fromCompressed b := (uncompress b).bind (fun P => if h : frOrder • P = 0 then some ⟨P, h⟩ else none)

/-- the generator -/
noncomputable def generator : G1 := ⟨generatorPoint (ZMod.natCast_self _), generatorPoint_order _⟩

end Verif.Bls
