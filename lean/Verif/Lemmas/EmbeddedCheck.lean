import Verif.Lemmas.Jacobian
import Verif.Lemmas.BlsUnchecked

set_option exponentiation.threshold 800

/-! Checks on integers that imply that a string of bytes is the encoding of a point of G1 or G2 of BLS12-381. -/
namespace Verif.Bls

/-- a third root of unity in the base field -/
def beta : Nat := 0x5f19672fdf76ce51ba69c6076a0f77eaddb3a93be6f89688de17d813620a00022e01fffffffefffe

/-- the bits of the square of the parameter of the curve, without the highest -/
def g1Bits : List Bool :=
  [false, true, false, true, true, false, false, false, true, false, false, false, true, false, true, true, false, true, false,
  false, true, false, false, false, false, false, false, false, false, false, true, false, false, false, false, false, false,
  false, false, false, false, false, false, false, false, false, true, true, false, true, false, false, true, false, false,
  false, false, false, false, false, false, true, false, false, false, false, false, false, false, false, false, false, false,
  false, false, false, false, false, false, false, false, false, false, false, false, false, false, false, false, false, false,
  false, false, false, true, false, false, false, false, false, false, false, false, false, false, false, false, false, false,
  false, false, false, false, false, false, false, false, false, false, false, false, false, false, false, false, false, false]

/-- the bits of `frOrder - 1`, without the highest -/
def g2Bits : List Bool :=
  [true, true, false, false, true, true, true, true, true, false, true, true, false, true, true, false, true, false, false, true,
  true, true, false, true, false, true, false, false, true, true, false, false, true, false, true, false, false, true, true,
  false, false, true, true, true, false, true, false, true, true, true, true, true, false, true, false, true, false, false,
  true, false, false, false, false, false, true, true, false, false, true, true, false, false, true, true, true, false, false,
  true, true, true, false, true, true, false, false, false, false, false, false, false, true, false, false, false, false, false,
  false, false, true, false, false, true, true, false, true, false, false, false, false, true, true, true, false, true, true,
  false, false, false, false, false, false, false, false, true, false, true, false, true, false, true, false, false, true, true,
  true, false, true, true, true, true, false, true, true, false, true, false, false, true, false, false, false, false, false,
  false, false, false, true, false, true, true, true, true, true, true, true, true, true, true, true, true, true, true, true,
  false, false, true, false, true, true, false, true, true, true, true, true, true, true, true, true, false, true, true, true,
  true, true, true, true, true, true, true, true, true, true, true, true, true, true, true, true, true, true, true, true, true,
  true, true, true, true, true, true, true, true, false, false, false, false, false, false, false, false, false, false, false,
  false, false, false, false, false, false, false, false, false, false, false, false, false, false, false, false, false, false,
  false, false, false]

/-- `n` is the encoding of the point `(x, y)` of `y^2 = x^3 + 4`, where `x` is given by the lower bits of `n`, and the square of
the parameter of the curve times the point is `(beta x, -y)` -/
def g1Check (n y : Nat) : Bool :=
  let x := n % 2 ^ 381
  Nat.beq n (2 ^ 383 + (cond (Nat.blt (fpOrder - y) y) (2 ^ 381) 0) + x) && Nat.blt x fpOrder && Nat.blt 0 x && Nat.blt y fpOrder &&
    Nat.blt 0 y && Nat.beq (y * y % fpOrder) ((x * x * x + 4) % fpOrder) &&
    match ladder fpOrder x y g1Bits x y 1 with
    | (X, Y, Z) =>
      Nat.beq (X % fpOrder) (beta * x * (Z * Z) % fpOrder) && Nat.beq ((Y + y * (Z * Z * Z)) % fpOrder) 0 && Nat.blt 0 (Z % fpOrder)

/-- `n` is the encoding of the point `(x, y)` of `y^2 = x^3 + 4 (1 + u)`, where `x` is given by the lower bits of `n`, and
`frOrder - 1` times the point is `(x, -y)` -/
def g2Check (n yr yi : Nat) : Bool :=
  let xr := n % 2 ^ 384
  let xi := n / 2 ^ 384 % 2 ^ 381
  let x : Pair := ⟨xr, xi⟩
  let y : Pair := ⟨yr, yi⟩
  Nat.beq n (2 ^ 767 + (cond (Nat.blt (fpOrder - yi) yi) (2 ^ 765) 0) + xi * 2 ^ 384 + xr) && Nat.blt xr fpOrder &&
    Nat.blt xi fpOrder && Nat.blt yr fpOrder && Nat.blt yi fpOrder && Nat.blt 0 yi && onCurve2 x y &&
    match ladder2 fpOrder x y g2Bits x y ⟨1, 0⟩ with
    | (X, Y, Z) =>
      let ZZ := Pair.mul fpOrder Z Z
      decide (Pair.add fpOrder X ⟨0, 0⟩ = Pair.mul fpOrder x ZZ) &&
        decide (Pair.add fpOrder Y (Pair.mul fpOrder y (Pair.mul fpOrder ZZ Z)) = ⟨0, 0⟩) &&
        Nat.blt 0 (Z.re % fpOrder)

/-- the check for a list, with a list of witnesses of the same length -/
def g1Checks : List Nat → List Nat → Bool
  | [], [] => true
  | n :: ns, y :: ys => g1Check n y && g1Checks ns ys
  | _, _ => false

/-- the same for G2 -/
def g2Checks : List Nat → List (Nat × Nat) → Bool
  | [], [] => true
  | n :: ns, y :: ys => g2Check n y.1 y.2 && g2Checks ns ys
  | _, _ => false

theorem beta_one : ((beta : Nat) : Fp) ^ 2 + (beta : Nat) + 1 = 0 := by
  have h : ((beta ^ 2 + beta + 1 : Nat) : Fp) = 0 := by
    rw [ZMod.natCast_eq_zero_iff]
    decide +kernel
  exact_mod_cast h

theorem beta_cube : ((beta : Nat) : Fp) ^ 3 = 1 := by
  linear_combination (((beta : Nat) : Fp) - 1) * beta_one

theorem natCast_fp_ne {k : Nat} (h : ¬ fpOrder ∣ k) : (k : Fp) ≠ 0 := by
  rw [Ne, ZMod.natCast_eq_zero_iff]
  exact h

theorem natCast_ne_of_pos {k : Nat} (h0 : 0 < k) (h1 : k < fpOrder) : (k : Fp) ≠ 0 :=
  natCast_fp_ne fun h => absurd (Nat.le_of_dvd h0 h) (by omega)

theorem beta_ne : ((beta : Nat) : Fp) ≠ 1 := by
  intro e
  have h := beta_one
  rw [e] at h
  refine natCast_ne_of_pos (k := 3) (by omega) (by decide +kernel) ?_
  push_cast
  linear_combination h

theorem natCast_eq_of_mod {a b : Nat} (h : a % fpOrder = b % fpOrder) : (a : Fp) = b :=
  (ZMod.natCast_eq_natCast_iff' _ _ _).2 h

theorem g1Check_affine {n y : Nat} (h : g1Check n y = true) :
    ∃ P : Curve1, Spec.EncodesG1 (natToBE 48 n) P ∧ frOrder • P = 0 ∧ P ≠ 0 ∧
      (toAff P : Aff Fp) = ⟨((n % 2 ^ 381 : Nat) : Fp), (y : Fp)⟩ := by
  unfold g1Check at h
  generalize hx : n % 2 ^ 381 = x at h
  obtain ⟨⟨X, Y, Z⟩, hl⟩ : ∃ t, ladder fpOrder x y g1Bits x y 1 = t := ⟨_, rfl⟩
  simp only [hl, Bool.and_eq_true, Nat.beq_eq, Nat.blt_eq] at h
  obtain ⟨⟨⟨⟨⟨⟨hn, hxp⟩, hx0⟩, hyp⟩, hy0⟩, hc⟩, ⟨hX, hY⟩, hZ⟩ := h
  have hy0' : (y : Fp) ≠ 0 := natCast_ne_of_pos hy0 hyp
  have hx0' : (x : Fp) ≠ 0 := natCast_ne_of_pos hx0 hxp
  have hcurve : (y : Fp) ^ 2 = (x : Fp) ^ 3 + 4 := by
    have := natCast_eq_of_mod hc
    push_cast at this
    linear_combination this
  refine ⟨.some x y (curve_nonsingular hcurve), ⟨length_natToBE _ _, ?_⟩, ?_, (fun e => by cases e), rfl⟩
  · have h1 : fpOrder < 2 ^ 381 := by decide +kernel
    have hxv : ((x : Nat) : Fp).val = x := ZMod.val_natCast_of_lt hxp
    have hyv : ((y : Nat) : Fp).val = y := ZMod.val_natCast_of_lt hyp
    have hnv : (-((y : Nat) : Fp)).val = fpOrder - y := by rw [ZMod.neg_val, if_neg hy0', hyv]
    have hcode : n = 2 ^ 383 + (if (-(y : Fp)).val < (y : Fp).val then 2 ^ 381 else 0) + (x : Fp).val := by
      rw [hnv, hyv, hxv]
      refine hn.trans ?_
      cases hb : Nat.blt (fpOrder - y) y
      · rw [if_neg (by rw [← Nat.blt_eq, hb]; exact Bool.false_ne_true)]
        rfl
      · rw [if_pos (by rw [← Nat.blt_eq, hb])]
        rfl
    have hlt : n < 256 ^ 48 := by
      rw [hxv] at hcode
      have h2 : (256 : Nat) ^ 48 = 8 * 2 ^ 381 := by decide +kernel
      have h3 : (2 : Nat) ^ 383 = 4 * 2 ^ 381 := by decide +kernel
      have h4 : (if (-(y : Fp)).val < (y : Fp).val then 2 ^ 381 else 0) ≤ 2 ^ 381 := by
        split
        · exact le_refl _
        · exact Nat.zero_le _
      have h5 : x < 2 ^ 381 := hxp.trans h1
      calc n = _ := hcode
        _ ≤ 4 * 2 ^ 381 + 2 ^ 381 + 2 ^ 381 := by
          rw [h3]
          exact Nat.add_le_add (Nat.add_le_add_left h4 _) h5.le
        _ < 256 ^ 48 := by decide +kernel
    rw [← beToNat_eq, beToNat_natToBE, Nat.mod_eq_of_lt hlt]
    exact hcode
  · set P : Curve1 := .some x y (curve_nonsingular hcurve) with hP
    have hP0 : P ≠ 0 := by rw [hP]; intro e; cases e
    have hPa : (toAff P : Aff Fp) = ⟨x, y⟩ := rfl
    have hJ : Jac (1 • P) (x : Fp) y (1 : Nat) := by
      right
      rw [one_nsmul, Nat.cast_one, one_pow, one_pow, div_one, div_one]
      exact ⟨hP0, hPa⟩
    have hZ' : (Z : Fp) ≠ 0 := by
      intro e
      rw [ZMod.natCast_eq_zero_iff] at e
      rw [Nat.mod_eq_zero_of_dvd e] at hZ
      exact absurd hZ (lt_irrefl _)
    obtain hz | ⟨hk0, hk⟩ := ladder_sound (by decide +kernel) (ZMod.natCast_self _) hP0 hPa g1Bits hJ hl
    · exact absurd hz hZ'
    have hXf : (X : Fp) = beta * x * (Z * Z) := by
      have := natCast_eq_of_mod hX
      push_cast at this
      exact this
    have hYf : (Y : Fp) = -(y * (Z * Z * Z)) := by
      have := natCast_eq_of_mod (b := 0) hY
      push_cast at this
      linear_combination this
    have hend : bitsValue 1 g1Bits • P = -endo beta_cube P := by
      apply eq_of_toAff
      rw [hk, LawfulCurve.toAff_neg, toAff_endo, hPa, hXf, hYf, Aff.mk.injEq]
      constructor <;> field_simp
    exact endo_order beta_cube beta_one beta_ne hP0 (by rw [hPa]; exact hx0') hend (by decide +kernel)

theorem g1Check_sound {n y : Nat} (h : g1Check n y = true) :
    ∃ P : Curve1, Spec.EncodesG1 (natToBE 48 n) P ∧ frOrder • P = 0 ∧ P ≠ 0 := by
  obtain ⟨P, he, ht, h0, -⟩ := g1Check_affine h
  exact ⟨P, he, ht, h0⟩

theorem g2Check_sound {n yr yi : Nat} (h : g2Check n yr yi = true) :
    ∃ P : Curve2, Spec.EncodesG2 (natToBE 96 n) P ∧ frOrder • P = 0 ∧ P ≠ 0 := by
  unfold g2Check at h
  generalize hxr : n % 2 ^ 384 = xr at h
  generalize hxi : n / 2 ^ 384 % 2 ^ 381 = xi at h
  obtain ⟨⟨X, Y, Z⟩, hl⟩ : ∃ t, ladder2 fpOrder ⟨xr, xi⟩ ⟨yr, yi⟩ g2Bits ⟨xr, xi⟩ ⟨yr, yi⟩ ⟨1, 0⟩ = t := ⟨_, rfl⟩
  simp only [hl, Bool.and_eq_true, Nat.beq_eq, Nat.blt_eq, decide_eq_true_iff] at h
  obtain ⟨⟨⟨⟨⟨⟨⟨hn, hxrp⟩, hxip⟩, hyrp⟩, hyip⟩, hyi0⟩, hc⟩, ⟨hX, hY⟩, hZ⟩ := h
  have hyi0' : (yi : Fp) ≠ 0 := natCast_ne_of_pos hyi0 hyip
  have hcurve := onCurve2_sound hc
  refine ⟨.some ⟨xr, xi⟩ ⟨yr, yi⟩ (curve2_nonsingular hcurve), ⟨length_natToBE _ _, ?_⟩, ?_, fun e => by cases e⟩
  · have h1 : fpOrder < 2 ^ 381 := by decide +kernel
    have hxrv : ((xr : Nat) : Fp).val = xr := ZMod.val_natCast_of_lt hxrp
    have hxiv : ((xi : Nat) : Fp).val = xi := ZMod.val_natCast_of_lt hxip
    have hyv : ((yi : Nat) : Fp).val = yi := ZMod.val_natCast_of_lt hyip
    have hnv : (-((yi : Nat) : Fp)).val = fpOrder - yi := by rw [ZMod.neg_val, if_neg hyi0', hyv]
    have hprec : Spec.Precedes (-(⟨yr, yi⟩ : Fp2)) ⟨yr, yi⟩ ↔ fpOrder - yi < yi := by
      unfold Spec.Precedes
      rw [QuadraticAlgebra.im_neg]
      simp only
      rw [hnv, hyv]
      constructor
      · rintro (e | ⟨e, -⟩)
        · exact e
        · have e' := congrArg ZMod.val e
          rw [hnv, hyv] at e'
          have hodd : fpOrder % 2 = 1 := by decide +kernel
          omega
      · exact .inl
    have hcode : n = Spec.g2Code (WeierstrassCurve.Affine.Point.some (⟨xr, xi⟩ : Fp2) ⟨yr, yi⟩ (curve2_nonsingular hcurve)) := by
      simp only [Spec.g2Code]
      rw [hxrv, hxiv]
      refine hn.trans ?_
      cases hb : Nat.blt (fpOrder - yi) yi
      · rw [if_neg (by rw [hprec, ← Nat.blt_eq, hb]; exact Bool.false_ne_true)]
        rfl
      · rw [if_pos (by rw [hprec, ← Nat.blt_eq, hb])]
        rfl
    have hlt : n < 256 ^ 96 := by
      have h4 : (cond (Nat.blt (fpOrder - yi) yi) (2 ^ 765) 0) ≤ 2 ^ 765 := by
        cases Nat.blt (fpOrder - yi) yi
        · exact Nat.zero_le _
        · exact le_refl _
      calc n = _ := hn
        _ ≤ 2 ^ 767 + 2 ^ 765 + 2 ^ 381 * 2 ^ 384 + 2 ^ 384 := by
          refine Nat.add_le_add (Nat.add_le_add (Nat.add_le_add_left h4 _) (Nat.mul_le_mul_right _ (hxip.trans h1).le)) ?_
          exact (hxrp.trans (h1.trans (by decide +kernel))).le
        _ < 256 ^ 96 := by decide +kernel
    rw [← beToNat_eq, beToNat_natToBE, Nat.mod_eq_of_lt hlt]
    exact hcode
  · set P : Curve2 := .some ⟨xr, xi⟩ ⟨yr, yi⟩ (curve2_nonsingular hcurve) with hP
    have hP0 : P ≠ 0 := by rw [hP]; intro e; cases e
    have hPa : (toAff P : Aff Fp2) = ⟨Pair.val imag ⟨xr, xi⟩, Pair.val imag ⟨yr, yi⟩⟩ := by rw [val_pair, val_pair]; rfl
    have h1 : Pair.val imag ⟨1, 0⟩ = 1 := by simp [Pair.val]
    have h0 : Pair.val imag ⟨0, 0⟩ = 0 := by simp [Pair.val]
    have hJ : Jac (1 • P) (Pair.val imag ⟨xr, xi⟩) (Pair.val imag ⟨yr, yi⟩) (Pair.val imag ⟨1, 0⟩) := by
      right
      rw [one_nsmul, h1, one_pow, one_pow, div_one, div_one]
      exact ⟨hP0, hPa⟩
    have hZ' : Pair.val imag Z ≠ 0 := by
      intro e
      have e' := congrArg QuadraticAlgebra.re e
      rw [val_pair, QuadraticAlgebra.re_zero] at e'
      simp only at e'
      rw [ZMod.natCast_eq_zero_iff] at e'
      rw [Nat.mod_eq_zero_of_dvd e'] at hZ
      exact absurd hZ (lt_irrefl _)
    obtain hz | ⟨hk0, hk⟩ := ladder2_sound fpOrder_pos fp2_char imag_sq hP0 hPa g2Bits hJ hl
    · exact absurd hz hZ'
    have vm := val_mul fpOrder_pos fp2_char imag_sq
    have va := val_add (u := imag) fpOrder_pos fp2_char
    have hXf : Pair.val imag X = Pair.val imag ⟨xr, xi⟩ * (Pair.val imag Z * Pair.val imag Z) := by
      have := congrArg (Pair.val imag) hX
      rwa [va, vm, vm, h0, add_zero] at this
    have hYf : Pair.val imag Y = -(Pair.val imag ⟨yr, yi⟩ * (Pair.val imag Z * Pair.val imag Z * Pair.val imag Z)) := by
      have := congrArg (Pair.val imag) hY
      rw [va, vm, vm, vm, h0] at this
      exact eq_neg_of_add_eq_zero_left this
    have hneg : bitsValue 1 g2Bits • P = -P := by
      apply eq_of_toAff
      rw [hk, LawfulCurve.toAff_neg, hPa, hXf, hYf, Aff.mk.injEq]
      constructor <;> field_simp
    have hr : frOrder = bitsValue 1 g2Bits + 1 := by decide +kernel
    rw [hr, succ_nsmul, hneg, neg_add_cancel]

theorem g1Checks_sound : ∀ {ns ys : List Nat}, g1Checks ns ys = true →
    ∀ n ∈ ns, ∃ P : Curve1, Spec.EncodesG1 (natToBE 48 n) P ∧ frOrder • P = 0 ∧ P ≠ 0
  | [], [], _ => by simp
  | n :: ns, y :: ys, h => by
    rw [g1Checks, Bool.and_eq_true] at h
    intro m hm
    rcases List.mem_cons.1 hm with rfl | hm
    · exact g1Check_sound h.1
    · exact g1Checks_sound h.2 m hm
  | [], _ :: _, h => by cases h
  | _ :: _, [], h => by cases h

theorem g2Checks_sound : ∀ {ns : List Nat} {ys : List (Nat × Nat)}, g2Checks ns ys = true →
    ∀ n ∈ ns, ∃ P : Curve2, Spec.EncodesG2 (natToBE 96 n) P ∧ frOrder • P = 0 ∧ P ≠ 0
  | [], [], _ => by simp
  | n :: ns, y :: ys, h => by
    rw [g2Checks, Bool.and_eq_true] at h
    intro m hm
    rcases List.mem_cons.1 hm with rfl | hm
    · exact g2Check_sound h.1
    · exact g2Checks_sound h.2 m hm
  | [], _ :: _, h => by cases h
  | _ :: _, [], h => by cases h

end Verif.Bls
