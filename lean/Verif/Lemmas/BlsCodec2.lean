import Verif.Lemmas.BlsCodec
import Verif.Lemmas.BlsGroup
import Verif.Model.Bls12381G2
import Verif.Spec.G2

/-! The compressed encoding of G2 satisfies the laws assumed of it. -/
namespace Verif.Bls

theorem sqrtFp2_sq (y : Fp2) : ∃ z, sqrtFp2 (y ^ 2) = some z ∧ (z = y ∨ z = -y) := by
  have h : ∃ z, z ^ 2 = y ^ 2 := ⟨y, rfl⟩
  exact ⟨h.choose, dif_pos h, sq_eq_sq_iff_eq_or_eq_neg.1 h.choose_spec⟩

theorem isLarger2_neg {y : Fp2} (h : y ≠ 0) : isLarger2 (-y) = !isLarger2 y := by
  unfold isLarger2
  rw [QuadraticAlgebra.im_neg, QuadraticAlgebra.re_neg]
  by_cases hi : y.im = 0
  · have hr : y.re ≠ 0 := fun hr => h (QuadraticAlgebra.ext hr hi)
    rw [if_pos (neg_eq_zero.2 hi), if_pos hi, isLarger_neg hr]
  · rw [if_neg (fun e => hi (neg_eq_zero.1 e)), if_neg hi, isLarger_neg hi]

theorem isLarger2_iff (y : Fp2) : isLarger2 y = true ↔ Spec.Precedes (-y) y := by
  unfold isLarger2 Spec.Precedes
  rw [QuadraticAlgebra.im_neg, QuadraticAlgebra.re_neg]
  by_cases hi : y.im = 0
  · rw [if_pos hi, hi, isLarger_iff]
    simp
  · rw [if_neg hi, isLarger_iff]
    have hne : -y.im ≠ y.im := by
      intro e
      have := isLarger_neg hi
      rw [e] at this
      revert this
      cases isLarger y.im <;> simp
    simp [hne]

theorem liftX2_of {x y : Fp2} (h : y ^ 2 = x ^ 3 + b2) (h0 : y ≠ 0) (hn) : liftX2 x (isLarger2 y) = some (.some x y hn) := by
  obtain ⟨z, hz, hzy⟩ := sqrtFp2_sq y
  rw [h] at hz
  rw [liftX2, hz, Option.bind_some]
  have e : (if isLarger2 z = isLarger2 y then z else -z) = y := by
    rcases hzy with e | e
    · rw [e, if_pos rfl]
    · rw [e, isLarger2_neg h0, if_neg (by cases isLarger2 y <;> simp), neg_neg]
  rw [e]
  exact dif_pos h

theorem liftX2_some {x : Fp2} {s : Bool} {P : Curve2} (h : liftX2 x s = some P) :
    ∃ y hn, P = .some x y hn ∧ (y ≠ 0 → isLarger2 y = s) := by
  rw [liftX2, Option.bind_eq_some_iff] at h
  obtain ⟨y, -, h⟩ := h
  have hs : (if isLarger2 y = s then y else -y) ≠ 0 → isLarger2 (if isLarger2 y = s then y else -y) = s := by
    split
    · rename_i hs
      exact fun _ => hs
    · rename_i hs
      intro h0
      have hy0 : y ≠ 0 := fun e => h0 (by rw [e, neg_zero])
      rw [isLarger2_neg hy0]
      revert hs
      cases isLarger2 y <;> cases s <;> simp
  generalize (if isLarger2 y = s then y else -y) = z at h hs
  unfold mkPoint2 at h
  split at h
  · exact ⟨_, _, (Option.some.inj h).symm, hs⟩
  · exact absurd h (by simp)

theorem y2_ne_zero {x y : Fp2} (h : (shortCurve b2).Nonsingular x y)
    (ht : frOrder • (WeierstrassCurve.Affine.Point.some x y h : Curve2) = 0) : y ≠ 0 := by
  intro e
  have h0 : (WeierstrassCurve.Affine.Point.some x y h : Curve2) ≠ 0 := by intro c; cases c
  have h2 := LawfulCurve.two_torsion (K := Fp2) (WeierstrassCurve.Affine.Point.some x y h : Curve2) h0
    (by show 2 * y = 0; rw [e, mul_zero])
  have hodd : frOrder = 2 * (frOrder / 2) + 1 := by decide +kernel
  rw [hodd, add_nsmul, one_nsmul, mul_comm, mul_nsmul', two_nsmul, h2, nsmul_zero, zero_add] at ht
  exact h0 ht

theorem equation2 {x y : Fp2} (h : (shortCurve b2).Nonsingular x y) : y ^ 2 = x ^ 3 + b2 := by
  have := ((WeierstrassCurve.Affine.nonsingular_iff ..).1 h).1
  rw [WeierstrassCurve.Affine.equation_iff] at this
  simp only [shortCurve] at this
  linear_combination this

theorem length_compress2 (P : Curve2) : (compress2 P).length = 96 := by
  cases P with
  | zero => rfl
  | some x y h =>
    obtain ⟨b0, rest, e, -, hr⟩ := coordinate_bytes x.im
    simp only [compress2, e, List.length_cons, List.length_append, hr, length_natToBE]

theorem beToNat_coordinate (a : Fp) : beToNat (natToBE 48 a.val) = a.val := by
  rw [beToNat_natToBE]
  exact Nat.mod_eq_of_lt ((ZMod.val_lt a).trans (fpOrder_lt.trans (by decide +kernel)))

theorem uncompress_compress2 (P : Curve2) (ht : ∀ x y h, P = .some x y h → y ≠ 0) :
    uncompress2 (compress2 P) = some P := by
  cases P with
  | zero => rfl
  | some x y h =>
    have hy := ht x y h rfl
    obtain ⟨b0, rest, e, hb, hr⟩ := coordinate_bytes x.im
    obtain ⟨f1, f2, f3, f4⟩ := flags_compose b0 hb (isLarger2 y)
    have hx : beToNat (b0 :: rest) = x.im.val := by rw [← e, beToNat_coordinate]
    have e1 : (rest ++ natToBE 48 x.re.val).take 47 = rest := by rw [← hr, List.take_left]
    have e2 : (rest ++ natToBE 48 x.re.val).drop 47 = natToBE 48 x.re.val := by rw [← hr, List.drop_left]
    simp only [compress2, e, uncompress2]
    rw [if_neg f1, if_neg (not_not.2 f2), f3, e1, e2, hx, beToNat_coordinate, if_pos ⟨ZMod.val_lt x.im, ZMod.val_lt x.re⟩, f4,
      ZMod.natCast_zmod_val, ZMod.natCast_zmod_val]
    exact liftX2_of (equation2 h) hy h

theorem compress_uncompress2 (b : List UInt8) (P : Curve2) (hl : b.length = 96) (h : uncompress2 b = some P)
    (ht : ∀ x y h, P = .some x y h → y ≠ 0) : compress2 P = b := by
  cases b with
  | nil => simp at hl
  | cons b0 rest =>
    have hr : rest.length = 95 := by simpa using hl
    simp only [uncompress2] at h
    split at h
    · exact absurd h (by simp)
    rename_i f1
    split at h
    · rename_i f2
      split at h
      · rename_i hc
        obtain rfl := Option.some.inj h
        rw [flags_infinity b0 f1 f2 hc.1]
        simp only [compress2]
        congr 1
        symm
        rw [List.eq_replicate_iff]
        exact ⟨hr, by simpa using hc.2⟩
      · exact absurd h (by simp)
    rename_i f2
    rw [not_not] at f2
    split at h
    case isFalse => exact absurd h (by simp)
    rename_i hlt
    have key : ∀ (y' : Fp2) (hns), isLarger2 y' = decide (b0 &&& 0x20 ≠ 0) →
        compress2 (.some (⟨((beToNat (rest.drop 47) : Nat) : Fp), ((beToNat ((b0 &&& 0x1f) :: rest.take 47) : Nat) : Fp)⟩ : Fp2)
          y' hns) = b0 :: rest := by
      intro y' hns hs
      have hv := ZMod.val_natCast_of_lt hlt.1
      have hv0 := ZMod.val_natCast_of_lt hlt.2
      have hbytes : natToBE 48 (beToNat ((b0 &&& 0x1f) :: rest.take 47)) = (b0 &&& 0x1f) :: rest.take 47 := by
        have := natToBE_beToNat ((b0 &&& 0x1f) :: rest.take 47)
        rwa [List.length_cons, List.length_take, hr] at this
      have hbytes0 : natToBE 48 (beToNat (rest.drop 47)) = rest.drop 47 := by
        have := natToBE_beToNat (rest.drop 47)
        rwa [List.length_drop, hr] at this
      simp only [compress2, hv, hv0, hbytes, hbytes0]
      rw [flags_split b0 f1 f2 _ hs, List.take_append_drop]
    obtain ⟨y, hn, rfl, hs⟩ := liftX2_some h
    exact key _ _ (hs (ht _ _ _ rfl))

instance : LawfulPointCodec G2 96 where
  length_toCompressed P := length_compress2 P.1
  fromCompressed_toCompressed P := by
    show (uncompress2 (compress2 P.1)).bind _ = _
    rw [uncompress_compress2 P.1 fun x y h e => y2_ne_zero h (e ▸ P.2)]
    exact dif_pos P.2
  toCompressed_fromCompressed b P hl h := by
    have h' : (uncompress2 b).bind (fun P => if h : frOrder • P = 0 then some (⟨P, h⟩ : G2) else none) = some P := h
    rw [Option.bind_eq_some_iff] at h'
    obtain ⟨Q, hQ, h2⟩ := h'
    split at h2
    · rename_i ht
      obtain rfl := Option.some.inj h2
      exact compress_uncompress2 b Q hl hQ fun x y h e => y2_ne_zero h (e ▸ ht)
    · exact absurd h2 (by simp)

/-! ### the encoding as an integer -/

theorem beToNat_append (a b : List UInt8) : beToNat (a ++ b) = beToNat a * 256 ^ b.length + beToNat b := by
  induction a with
  | nil => simp [beToNat]
  | cons x a ih =>
    rw [List.cons_append, beToNat_cons, beToNat_cons, ih, List.length_append, pow_add]
    ring

theorem encodes_compress2 (P : Curve2) : Spec.EncodesG2 (compress2 P) P := by
  refine ⟨length_compress2 P, ?_⟩
  rw [← beToNat_eq]
  cases P with
  | zero => decide +kernel
  | some x y h =>
    obtain ⟨b0, rest, e, hb, hr⟩ := coordinate_bytes x.im
    have hx : beToNat (b0 :: rest) = x.im.val := by rw [← e, beToNat_coordinate]
    rw [beToNat_cons, hr] at hx
    simp only [compress2, e, Spec.g2Code]
    rw [← List.cons_append, beToNat_append, beToNat_coordinate, length_natToBE, beToNat_cons, flags_value b0 hb, hr]
    have h384 : 256 ^ 48 = 2 ^ 384 := by decide +kernel
    have h767 : 128 * 256 ^ 47 * 2 ^ 384 = 2 ^ 767 := by decide +kernel
    have h765 : 32 * 256 ^ 47 * 2 ^ 384 = 2 ^ 765 := by decide +kernel
    rw [h384, ← h767, ← h765, ← hx]
    generalize 256 ^ 47 = M at *
    generalize 2 ^ 384 = A at *
    by_cases hs : isLarger2 y = true
    · rw [if_pos hs, if_pos ((isLarger2_iff y).1 hs)]
      ring
    · rw [if_neg hs, if_neg (fun hc => hs ((isLarger2_iff y).2 hc))]
      ring

theorem encodes2_iff {b : List UInt8} {P : Curve2} : Spec.EncodesG2 b P ↔ b = compress2 P := by
  constructor
  · rintro ⟨hl, hv⟩
    obtain ⟨hl', hv'⟩ := encodes_compress2 P
    apply beToNat_inj (hl.trans hl'.symm)
    rw [beToNat_eq, beToNat_eq, hv, hv']
  · rintro rfl
    exact encodes_compress2 P

end Verif.Bls
