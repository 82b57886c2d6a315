import Verif.Lemmas.Bytes
import Verif.Model.Bls12381G1

/-! The compressed encoding of G1 satisfies the laws assumed of it. -/
namespace Verif.Bls

theorem uint8_all {P : UInt8 → Prop} (h : ∀ n : Fin 256, P (UInt8.ofFin n)) (b : UInt8) : P b := h b.toFin

/-! ### square roots and signs -/

theorem fpOrder_mod : fpOrder % 4 = 3 := by decide +kernel

theorem sqrtFp_sq (y : Fp) : ∃ z, sqrtFp (y ^ 2) = some z ∧ (z = y ∨ z = -y) := by
  have h : ((y ^ 2) ^ ((fpOrder + 1) / 4)) ^ 2 = y ^ 2 := by
    rw [← pow_mul, ← pow_mul]
    have e : 2 * ((fpOrder + 1) / 4 * 2) = fpOrder + 1 := by
      have := fpOrder_mod
      omega
    rw [e]
    have := ZMod.pow_card y
    rw [pow_add, this, pow_one, sq]
  refine ⟨(y ^ 2) ^ ((fpOrder + 1) / 4), ?_, sq_eq_sq_iff_eq_or_eq_neg.1 h⟩
  unfold sqrtFp
  exact if_pos h

theorem isLarger_neg {y : Fp} (h : y ≠ 0) : isLarger (-y) = !isLarger y := by
  have hlt := ZMod.val_lt y
  have hv : y.val ≠ 0 := by rwa [Ne, ZMod.val_eq_zero]
  have hn : (-y).val = fpOrder - y.val := by rw [ZMod.neg_val, if_neg h]
  have hp := fpOrder_mod
  unfold isLarger
  rw [hn]
  by_cases hc : (fpOrder - 1) / 2 < y.val
  · have : ¬ (fpOrder - 1) / 2 < fpOrder - y.val := by omega
    simp [hc, this]
  · have : (fpOrder - 1) / 2 < fpOrder - y.val := by omega
    simp [hc, this]

theorem mkPoint_of {x y : Fp} (h : y ^ 2 = x ^ 3 + 4) (hn) : mkPoint x y = some (.some x y hn) := dif_pos h

theorem liftX_of {x y : Fp} (h : y ^ 2 = x ^ 3 + 4) (h0 : y ≠ 0) (hn) : liftX x (isLarger y) = some (.some x y hn) := by
  obtain ⟨z, hz, hzy⟩ := sqrtFp_sq y
  rw [h] at hz
  rw [liftX, hz, Option.bind_some]
  have e : (if isLarger z = isLarger y then z else -z) = y := by
    rcases hzy with e | e
    · rw [e, if_pos rfl]
    · rw [e, isLarger_neg h0, if_neg (by cases isLarger y <;> simp), neg_neg]
  rw [e]
  exact mkPoint_of h hn

theorem liftX_some {x : Fp} {s : Bool} {P : Curve1} (h : liftX x s = some P) :
    ∃ y hn, P = .some x y hn ∧ (y ≠ 0 → isLarger y = s) := by
  rw [liftX, Option.bind_eq_some_iff] at h
  obtain ⟨y, -, h⟩ := h
  have hs : (if isLarger y = s then y else -y) ≠ 0 → isLarger (if isLarger y = s then y else -y) = s := by
    split
    · rename_i hs
      exact fun _ => hs
    · rename_i hs
      intro h0
      have hy0 : y ≠ 0 := fun e => h0 (by rw [e, neg_zero])
      rw [isLarger_neg hy0]
      revert hs
      cases isLarger y <;> cases s <;> simp
  generalize (if isLarger y = s then y else -y) = z at h hs
  unfold mkPoint at h
  split at h
  · exact ⟨_, _, (Option.some.inj h).symm, hs⟩
  · exact absurd h (by simp)

/-! ### points of odd order have `y ≠ 0` -/

theorem y_ne_zero {x y : Fp} (h : (shortCurve (4 : Fp)).Nonsingular x y)
    (ht : frOrder • (WeierstrassCurve.Affine.Point.some x y h : Curve1) = 0) : y ≠ 0 := by
  intro e
  have h0 : (WeierstrassCurve.Affine.Point.some x y h : Curve1) ≠ 0 := by intro c; cases c
  have h2 := LawfulCurve.two_torsion (K := Fp) (WeierstrassCurve.Affine.Point.some x y h : Curve1) h0
    (by show 2 * y = 0; rw [e, mul_zero])
  have hodd : frOrder = 2 * (frOrder / 2) + 1 := by decide +kernel
  rw [hodd, add_nsmul, one_nsmul, mul_comm, mul_nsmul', two_nsmul, h2, nsmul_zero, zero_add] at ht
  exact h0 ht

/-! ### the flags -/

theorem flags_compose : ∀ b : UInt8, b &&& 0xE0 = 0 → ∀ s : Bool,
    (b ||| 0x80 ||| (if s then 0x20 else 0)) &&& 0x80 ≠ 0 ∧ (b ||| 0x80 ||| (if s then 0x20 else 0)) &&& 0x40 = 0 ∧
    (b ||| 0x80 ||| (if s then 0x20 else 0)) &&& 0x1f = b ∧
    decide ((b ||| 0x80 ||| (if s then 0x20 else 0)) &&& 0x20 ≠ 0) = s :=
  uint8_all (by decide +kernel)

theorem flags_split : ∀ b : UInt8, b &&& 0x80 ≠ 0 → b &&& 0x40 = 0 → ∀ s : Bool, s = decide (b &&& 0x20 ≠ 0) →
    ((b &&& 0x1f) ||| 0x80 ||| (if s then 0x20 else 0)) = b :=
  uint8_all (by decide +kernel)

theorem flags_infinity : ∀ b : UInt8, b &&& 0x80 ≠ 0 → b &&& 0x40 ≠ 0 → b &&& 0x3f = 0 → b = 0xC0 :=
  uint8_all (by decide +kernel)

theorem flags_free : ∀ b : UInt8, b.toNat < 32 → b &&& 0xE0 = 0 := uint8_all (by decide +kernel)

theorem beToNat_cons (a : UInt8) (l : List UInt8) : beToNat (a :: l) = a.toNat * 256 ^ l.length + beToNat l := by
  have : ∀ (l : List UInt8) (acc : Nat), l.foldl (fun acc x => acc * 256 + x.toNat) acc =
      acc * 256 ^ l.length + l.foldl (fun acc x => acc * 256 + x.toNat) 0 := by
    intro l
    induction l with
    | nil => intro acc; simp
    | cons b l ih =>
      intro acc
      rw [List.foldl_cons, ih, List.foldl_cons, ih (0 * 256 + b.toNat), List.length_cons, pow_succ]
      ring
  simp only [beToNat, List.foldl_cons]
  rw [this]
  ring

theorem fpOrder_lt : fpOrder < 32 * 256 ^ 47 := by decide +kernel

/-- the bytes of a coordinate leave the flag bits free -/
theorem coordinate_bytes (x : Fp) : ∃ b0 rest, natToBE 48 x.val = b0 :: rest ∧ b0 &&& 0xE0 = 0 ∧ rest.length = 47 := by
  have hl := length_natToBE 48 x.val
  cases h : natToBE 48 x.val with
  | nil => rw [h] at hl; simp at hl
  | cons b0 rest =>
    rw [h] at hl
    have hr : rest.length = 47 := by simpa using hl
    refine ⟨b0, rest, rfl, flags_free b0 ?_, hr⟩
    have hb := beToNat_natToBE 48 x.val
    have hx := (ZMod.val_lt x).trans fpOrder_lt
    rw [h, beToNat_cons, hr, Nat.mod_eq_of_lt (hx.trans (by decide +kernel))] at hb
    by_contra hc
    have : 32 * 256 ^ 47 ≤ b0.toNat * 256 ^ 47 := Nat.mul_le_mul_right _ (by omega)
    omega

theorem length_compress (P : Curve1) : (compress P).length = 48 := by
  cases P with
  | zero => rfl
  | some x y h =>
    obtain ⟨b0, rest, e, -, hr⟩ := coordinate_bytes x
    simp only [compress, e, List.length_cons, hr]

theorem uncompress_compress (P : Curve1) (ht : ∀ x y h, P = .some x y h → y ≠ 0) :
    uncompress (compress P) = some P := by
  cases P with
  | zero => rfl
  | some x y h =>
    have hy := ht x y h rfl
    have heq : y ^ 2 = x ^ 3 + 4 := by
      have := (WeierstrassCurve.Affine.nonsingular_iff ..).1 h |>.1
      rw [WeierstrassCurve.Affine.equation_iff] at this
      simp only [shortCurve] at this
      linear_combination this
    obtain ⟨b0, rest, e, hb, hr⟩ := coordinate_bytes x
    obtain ⟨f1, f2, f3, f4⟩ := flags_compose b0 hb (isLarger y)
    have hx : beToNat (b0 :: rest) = x.val := by
      rw [← e, beToNat_natToBE]
      exact Nat.mod_eq_of_lt ((ZMod.val_lt x).trans (fpOrder_lt.trans (by decide +kernel)))
    simp only [compress, e, uncompress]
    rw [if_neg f1, if_neg (not_not.2 f2), f3, hx, if_pos (ZMod.val_lt x), f4, ZMod.natCast_zmod_val]
    exact liftX_of heq hy h

theorem compress_uncompress (b : List UInt8) (P : Curve1) (hl : b.length = 48) (h : uncompress b = some P)
    (ht : ∀ x y h, P = .some x y h → y ≠ 0) : compress P = b := by
  cases b with
  | nil => simp at hl
  | cons b0 rest =>
    have hr : rest.length = 47 := by simpa using hl
    simp only [uncompress] at h
    split at h
    · exact absurd h (by simp)
    rename_i f1
    split at h
    · rename_i f2
      split at h
      · rename_i hc
        obtain rfl := Option.some.inj h
        rw [flags_infinity b0 f1 f2 hc.1]
        simp only [compress]
        congr 1
        symm
        rw [List.eq_replicate_iff]
        exact ⟨hr, by simpa using hc.2⟩
      · exact absurd h (by simp)
    rename_i f2
    rw [not_not] at f2
    split at h
    case isFalse => exact absurd h (by simp)
    rename_i hlt
    have key : ∀ (y' : Fp) (hns), isLarger y' = decide (b0 &&& 0x20 ≠ 0) →
        compress (.some ((beToNat ((b0 &&& 0x1f) :: rest) : Nat) : Fp) y' hns) = b0 :: rest := by
      intro y' hns hs
      have hv : (((beToNat ((b0 &&& 0x1f) :: rest) : Nat) : Fp)).val = beToNat ((b0 &&& 0x1f) :: rest) :=
        ZMod.val_natCast_of_lt hlt
      have hbytes : natToBE 48 (beToNat ((b0 &&& 0x1f) :: rest)) = (b0 &&& 0x1f) :: rest := by
        have := natToBE_beToNat ((b0 &&& 0x1f) :: rest)
        rwa [List.length_cons, hr] at this
      simp only [compress, hv, hbytes]
      rw [flags_split b0 f1 f2 _ hs]
    obtain ⟨y, hn, rfl, hs⟩ := liftX_some h
    exact key _ _ (hs (ht _ _ _ rfl))

instance : LawfulPointCodec G1 48 where
  length_toCompressed P := length_compress P.1
  fromCompressed_toCompressed P := by
    show (uncompress (compress P.1)).bind _ = _
    rw [uncompress_compress P.1 fun x y h e => y_ne_zero h (e ▸ P.2)]
    exact dif_pos P.2
  toCompressed_fromCompressed b P hl h := by
    have h' : (uncompress b).bind (fun P => if h : frOrder • P = 0 then some (⟨P, h⟩ : G1) else none) = some P := h
    rw [Option.bind_eq_some_iff] at h'
    obtain ⟨Q, hQ, h2⟩ := h'
    split at h2
    · rename_i ht
      obtain rfl := Option.some.inj h2
      exact compress_uncompress b Q hl hQ fun x y h e => y_ne_zero h (e ▸ ht)
    · exact absurd h2 (by simp)

end Verif.Bls
