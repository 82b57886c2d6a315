import Verif.Lemmas.BlsChain2

set_option linter.unusedSectionVars false

/-!
Multiples of points on `y^2 = x^3 + b` in Jacobian coordinates `(X / Z^2, Y / Z^3)`, computed on natural numbers modulo `n` or on
pairs of them. No divisions are needed, and a point that would need special treatment leads to `Z = 0`, which stays zero.
-/
namespace Verif

section
variable {F : Type} [Field F] [DecidableEq F] {b : F}

/-- `(X, Y, Z)` stands for the point `P`, unless `Z` is zero -/
def Jac (P : CurvePoint b) (X Y Z : F) : Prop := Z = 0 ∨ (P ≠ 0 ∧ toAff P = ⟨X / Z ^ 2, Y / Z ^ 3⟩)

theorem jac_double {P : CurvePoint b} {X Y Z : F} (h : Jac P X Y Z) {B D E X' : F} (hB : B = Y * Y) (hD : D = 4 * (X * B))
    (hE : E = 3 * (X * X)) (hX : X' = E * E - 2 * D) : Jac (P + P) X' (E * (D - X') - 8 * (B * B)) (2 * (Y * Z)) := by
  rcases h with h | ⟨h0, hP⟩
  · exact .inl (by rw [h]; ring)
  · by_cases hz : 2 * (Y * Z) = 0
    · exact .inl hz
    · right
      have hZ : Z ≠ 0 := by rintro rfl; exact hz (by ring)
      have hY : Y ≠ 0 := by rintro rfl; exact hz (by ring)
      have h2 : (2 : F) ≠ 0 := by intro e; exact hz (by rw [e]; ring)
      have hy : 2 * (toAff P).y ≠ 0 := by
        rw [hP]
        exact mul_ne_zero h2 (div_ne_zero hY (pow_ne_zero _ hZ))
      refine ⟨?_, ?_⟩
      · intro e
        have e' : P = -P := eq_neg_of_add_eq_zero_left e
        have e'' := LawfulCurve.toAff_neg (K := F) P
        rw [← e'] at e''
        have := congrArg Aff.y e''
        simp only at this
        exact hy (by linear_combination this)
      · have t := LawfulCurve.tangent (K := F) P h0 hy (3 * (X / Z ^ 2) ^ 2 / (2 * (Y / Z ^ 3)))
          ((3 * (X / Z ^ 2) ^ 2 / (2 * (Y / Z ^ 3))) ^ 2 - 2 * (X / Z ^ 2)) (by rw [hP]) (by rw [hP])
        rw [t, hP, Aff.mk.injEq]
        subst hX hE hD hB
        constructor <;> field_simp <;> ring

theorem jac_add {P Q : CurvePoint b} {X Y Z x y : F} (h : Jac P X Y Z) (hQ0 : Q ≠ 0) (hQ : toAff Q = ⟨x, y⟩) {H R X' : F}
    (hH : H = x * (Z * Z) - X) (hR : R = y * (Z * Z * Z) - Y) (hX : X' = R * R - (H * (H * H) + 2 * (X * (H * H)))) :
    Jac (P + Q) X' (R * (X * (H * H) - X') - Y * (H * (H * H))) (Z * H) := by
  rcases h with h | ⟨h0, hP⟩
  · exact .inl (by rw [h]; ring)
  · by_cases hz : Z * H = 0
    · exact .inl hz
    · right
      have hZ : Z ≠ 0 := left_ne_zero_of_mul hz
      have hH0 : H ≠ 0 := right_ne_zero_of_mul hz
      have hne : (toAff P).x ≠ (toAff Q).x := by
        rw [hP, hQ]
        intro e
        simp only at e
        rw [div_eq_iff (pow_ne_zero _ hZ)] at e
        exact hH0 (by rw [hH, e]; ring)
      refine ⟨?_, ?_⟩
      · intro e
        apply hne
        rw [eq_neg_of_add_eq_zero_left e, LawfulCurve.toAff_neg (K := F) Q]
      · have t := LawfulCurve.chord (K := F) P Q h0 hQ0 hne ((y - Y / Z ^ 3) / (x - X / Z ^ 2))
          (((y - Y / Z ^ 3) / (x - X / Z ^ 2)) ^ 2 - X / Z ^ 2 - x) (by rw [hP, hQ]) (by rw [hP, hQ])
        rw [t, hP, Aff.mk.injEq]
        have hd : x - X / Z ^ 2 = H / Z ^ 2 := by rw [hH]; field_simp
        have hn : y - Y / Z ^ 3 = R / Z ^ 3 := by rw [hR]; field_simp
        rw [hd, hn]
        have hx : x = (H + X) / Z ^ 2 := by rw [hH]; field_simp; ring
        have hy : y = (R + Y) / Z ^ 3 := by rw [hR]; field_simp; ring
        rw [hx]
        clear hx hy hn hd hH hR
        subst hX
        constructor <;> field_simp <;> ring

/-! ### the endomorphism `(x, y) ↦ (β x, y)` -/

variable {β : F}

theorem endo_nonsingular (hβ : β ^ 3 = 1) {x y : F} (h : (shortCurve b).Nonsingular x y) :
    (shortCurve b).Nonsingular (β * x) y := by
  rw [WeierstrassCurve.Affine.nonsingular_iff, WeierstrassCurve.Affine.equation_iff] at *
  simp only [shortCurve] at *
  obtain ⟨h1, h2⟩ := h
  refine ⟨by linear_combination h1 - x ^ 3 * hβ, ?_⟩
  rcases h2 with h2 | h2
  · left
    intro e
    apply h2
    have h3 : β ^ 2 * (3 * x ^ 2) = 0 := by linear_combination -e
    have hβ0 : β ≠ 0 := by rintro rfl; simp at hβ
    have h4 : 3 * x ^ 2 = 0 := (mul_eq_zero.1 h3).resolve_left (pow_ne_zero _ hβ0)
    linear_combination -h4
  · right
    intro e
    exact h2 (by linear_combination e)

/-- `(x, y) ↦ (β x, y)` -/
def endo (hβ : β ^ 3 = 1) : CurvePoint b → CurvePoint b
  | .zero => .zero
  | .some x y h => .some (β * x) y (endo_nonsingular hβ h)

theorem toAff_endo (hβ : β ^ 3 = 1) (P : CurvePoint b) : toAff (endo hβ P) = (⟨β * (toAff P).x, (toAff P).y⟩ : Aff F) := by
  cases P with
  | zero =>
    show (⟨0, 0⟩ : Aff F) = ⟨β * 0, 0⟩
    rw [mul_zero]
  | some x y h => rfl

theorem eq_of_toAff {P Q : CurvePoint b} (h : (toAff P : Aff F) = toAff Q) : P = Q := by
  rw [← LawfulCurve.ofAff_toAff (K := F) P, h, LawfulCurve.ofAff_toAff]

theorem endo_ne (hβ : β ^ 3 = 1) {P : CurvePoint b} (h : P ≠ 0) : endo hβ P ≠ 0 := by
  cases P with
  | zero => exact absurd rfl h
  | some x y h => intro e; cases e

theorem endo_neg (hβ : β ^ 3 = 1) (P : CurvePoint b) : endo hβ (-P) = -endo hβ P := by
  apply eq_of_toAff
  rw [toAff_endo, LawfulCurve.toAff_neg, LawfulCurve.toAff_neg, toAff_endo]

theorem endo_zero (hβ : β ^ 3 = 1) : endo hβ (0 : CurvePoint b) = 0 := rfl

theorem endo_add (hβ : β ^ 3 = 1) (P Q : CurvePoint b) : endo hβ (P + Q) = endo hβ P + endo hβ Q := by
  have hβ0 : β ≠ 0 := by rintro rfl; simp at hβ
  by_cases hP : P = 0
  · subst hP; rw [zero_add, endo_zero, zero_add]
  by_cases hQ : Q = 0
  · subst hQ; rw [add_zero, endo_zero, add_zero]
  by_cases hx : (toAff P : Aff F).x = (toAff Q : Aff F).x
  · rcases LawfulCurve.opposite (K := F) P Q hP hQ hx with e | e
    · subst e
      by_cases hy : 2 * (toAff P : Aff F).y = 0
      · have hy' : 2 * (toAff (endo hβ P) : Aff F).y = 0 := by rw [toAff_endo]; exact hy
        rw [LawfulCurve.two_torsion (K := F) P hP hy, LawfulCurve.two_torsion (K := F) (endo hβ P) (endo_ne hβ hP) hy']
        rfl
      · have hy' : 2 * (toAff (endo hβ P) : Aff F).y ≠ 0 := by rw [toAff_endo]; exact hy
        apply eq_of_toAff
        rw [toAff_endo, LawfulCurve.tangent (K := F) P hP hy _ _ rfl rfl,
          LawfulCurve.tangent (K := F) (endo hβ P) (endo_ne hβ hP) hy' _ _ rfl rfl, toAff_endo]
        simp only
        generalize (toAff P : Aff F).x = x
        generalize (toAff P : Aff F).y = y at hy
        rw [Aff.mk.injEq]
        have h2 : (2 : F) ≠ 0 := left_ne_zero_of_mul hy
        have h3 : y ≠ 0 := right_ne_zero_of_mul hy
        constructor
        · field_simp
          linear_combination (-9 * x ^ 4) * hβ
        · field_simp
          linear_combination (27 * x ^ 6 * β ^ 3 + 27 * x ^ 6 - 36 * x ^ 3 * y ^ 2) * hβ
    · have e' : P = -Q := eq_neg_of_add_eq_zero_left e
      rw [e, e', endo_neg, neg_add_cancel]
      rfl
  · have hx' : (toAff (endo hβ P) : Aff F).x ≠ (toAff (endo hβ Q) : Aff F).x := by
      rw [toAff_endo, toAff_endo]
      exact fun e => hx (mul_left_cancel₀ hβ0 e)
    apply eq_of_toAff
    rw [toAff_endo, LawfulCurve.chord (K := F) P Q hP hQ hx _ _ rfl rfl,
      LawfulCurve.chord (K := F) (endo hβ P) (endo hβ Q) (endo_ne hβ hP) (endo_ne hβ hQ) hx' _ _ rfl rfl, toAff_endo, toAff_endo]
    simp only
    generalize (toAff P : Aff F).x = x at *
    generalize (toAff P : Aff F).y = y at *
    generalize (toAff Q : Aff F).x = x' at *
    generalize (toAff Q : Aff F).y = y' at *
    have hd : x' - x ≠ 0 := fun e => hx (sub_eq_zero.1 e).symm
    have hm : β * x' - β * x = β * (x' - x) := by ring
    rw [Aff.mk.injEq, hm]
    have hi : (y' - y) / (β * (x' - x)) = β ^ 2 * ((y' - y) / (x' - x)) := by
      field_simp
      linear_combination (y - y') * hβ
    rw [hi]
    generalize (y' - y) / (x' - x) = l
    constructor
    · linear_combination (-β * l ^ 2) * hβ
    · linear_combination (l ^ 3 * β ^ 3 - l * (x - (l ^ 2 - x - x'))) * hβ

/-- the endomorphism as a homomorphism -/
def endoHom (hβ : β ^ 3 = 1) : CurvePoint b →+ CurvePoint b := ⟨⟨endo hβ, rfl⟩, endo_add hβ⟩

theorem endo_sum (hβ : β ^ 3 = 1) (h1 : β ^ 2 + β + 1 = 0) (hne : β ≠ 1) {P : CurvePoint b} (hP : P ≠ 0)
    (hx : (toAff P : Aff F).x ≠ 0) : P + endo hβ P + endo hβ (endo hβ P) = 0 := by
  have hxx : (toAff P : Aff F).x ≠ (toAff (endo hβ P) : Aff F).x := by
    rw [toAff_endo]
    intro e
    apply hne
    have : (β - 1) * (toAff P : Aff F).x = 0 := by
      simp only at e
      linear_combination -e
    exact sub_eq_zero.1 ((mul_eq_zero.1 this).resolve_right hx)
  have key : P + endo hβ P = -endo hβ (endo hβ P) := by
    apply eq_of_toAff
    rw [LawfulCurve.toAff_neg, LawfulCurve.chord (K := F) P (endo hβ P) hP (endo_ne hβ hP) hxx _ _ rfl rfl, toAff_endo, toAff_endo, toAff_endo]
    simp only
    generalize (toAff P : Aff F).x = x
    generalize (toAff P : Aff F).y = y
    rw [sub_self, zero_div, Aff.mk.injEq]
    constructor
    · linear_combination -x * h1
    · ring
  rw [key, neg_add_cancel]

/-- A point on which the endomorphism acts as multiplication by `-k` is killed by `k ^ 2 - k + 1`. -/
theorem endo_order (hβ : β ^ 3 = 1) (h1 : β ^ 2 + β + 1 = 0) (hne : β ≠ 1) {P : CurvePoint b} (hP : P ≠ 0)
    (hx : (toAff P : Aff F).x ≠ 0) {k r : Nat} (hk : k • P = -endo hβ P) (hr : k * k + 1 = r + k) : r • P = 0 := by
  have hs := endo_sum hβ h1 hne hP hx
  have e1 : endo hβ P = -(k • P) := by rw [hk, neg_neg]
  have e2 : endo hβ (endo hβ P) = (k * k) • P := by
    have : endo hβ (endo hβ P) = -(k • endo hβ P) := by
      conv_lhs => rw [e1]
      rw [endo_neg]
      exact congrArg Neg.neg (map_nsmul (endoHom hβ) k P)
    rw [this, e1, smul_neg, neg_neg, mul_smul]
  rw [e2, e1] at hs
  have : (k * k + 1) • P = k • P + r • P := by
    rw [hr, add_nsmul, add_comm]
  rw [add_nsmul, one_nsmul] at this
  have h3 : P + -(k • P) + (k * k) • P = (k * k) • P + P - k • P := by abel
  rw [h3, this, add_sub_cancel_left] at hs
  exact hs

end

/-! ### computation on natural numbers modulo `n` -/

/-- the number with the given bits, the highest first, after the bits of `m` -/
def bitsValue (m : Nat) (bits : List Bool) : Nat := bits.foldl (fun m b => 2 * m + b.toNat) m

/-- from Jacobian coordinates of `m • (x, y)` to those of the multiple by `bitsValue m bits`: doubling, and addition of `(x, y)` if the
bit is set -/
def ladder (n x y : Nat) : List Bool → Nat → Nat → Nat → Nat × Nat × Nat
  | [], X, Y, Z => (X, Y, Z)
  | bit :: bits, X, Y, Z =>
    let B := Y * Y % n
    let D := 4 * (X * B) % n
    let E := 3 * (X * X) % n
    let X2 := (E * E + (n - 2) * D) % n
    let Y2 := (E * (D + (n - 1) * X2) + (n - 8) * (B * B)) % n
    let Z2 := 2 * (Y * Z) % n
    match bit with
    | false => ladder n x y bits X2 Y2 Z2
    | true =>
      let ZZ := Z2 * Z2 % n
      let H := (x * ZZ + (n - 1) * X2) % n
      let R := (y * (ZZ * Z2 % n) + (n - 1) * Y2) % n
      let HH := H * H % n
      let HHH := H * HH % n
      let V := X2 * HH % n
      let X3 := (R * R + (n - 1) * (HHH + 2 * V)) % n
      ladder n x y bits X3 ((R * (V + (n - 1) * X3) + (n - 1) * (Y2 * HHH)) % n) (Z2 * H % n)

/-- the same on pairs -/
def ladder2 (n : Nat) (x y : Pair) : List Bool → Pair → Pair → Pair → Pair × Pair × Pair
  | [], X, Y, Z => (X, Y, Z)
  | bit :: bits, X, Y, Z =>
    let B := Pair.mul n Y Y
    let XB := Pair.mul n X B
    let XB2 := Pair.add n XB XB
    let D := Pair.add n XB2 XB2
    let XX := Pair.mul n X X
    let E := Pair.add n (Pair.add n XX XX) XX
    let X2 := Pair.sub n (Pair.mul n E E) (Pair.add n D D)
    let BB := Pair.mul n B B
    let BB2 := Pair.add n BB BB
    let BB4 := Pair.add n BB2 BB2
    let Y2 := Pair.sub n (Pair.mul n E (Pair.sub n D X2)) (Pair.add n BB4 BB4)
    let YZ := Pair.mul n Y Z
    let Z2 := Pair.add n YZ YZ
    match bit with
    | false => ladder2 n x y bits X2 Y2 Z2
    | true =>
      let ZZ := Pair.mul n Z2 Z2
      let H := Pair.sub n (Pair.mul n x ZZ) X2
      let R := Pair.sub n (Pair.mul n y (Pair.mul n ZZ Z2)) Y2
      let HH := Pair.mul n H H
      let HHH := Pair.mul n H HH
      let V := Pair.mul n X2 HH
      let X3 := Pair.sub n (Pair.mul n R R) (Pair.add n HHH (Pair.add n V V))
      ladder2 n x y bits X3 (Pair.sub n (Pair.mul n R (Pair.sub n V X3)) (Pair.mul n Y2 HHH)) (Pair.mul n Z2 H)

section
variable {F : Type} [Field F] [DecidableEq F] {b : F} {n : Nat}

theorem cast_mul_neg (hn : (n : F) = 0) {k : Nat} (hk : k ≤ n) : ((n - k : Nat) : F) = -(k : F) := by
  rw [Nat.cast_sub hk, hn, zero_sub]

section
variable (hpos : 8 ≤ n) (hn : (n : F) = 0)
include hpos hn

theorem ladder_double {P : CurvePoint b} {X Y Z : Nat} (h : Jac P (X : F) Y Z) :
    let B := Y * Y % n
    let D := 4 * (X * B) % n
    let E := 3 * (X * X) % n
    let X2 := (E * E + (n - 2) * D) % n
    let Y2 := (E * (D + (n - 1) * X2) + (n - 8) * (B * B)) % n
    let Z2 := 2 * (Y * Z) % n
    Jac (P + P) (X2 : F) Y2 Z2 := by
  intro B D E X2 Y2 Z2
  have cm := cast_mod2 (F := F) (n := n) (by omega) hn
  have c1 := cast_mul_neg hn (k := 1) (by omega)
  have c2 := cast_mul_neg hn (k := 2) (by omega)
  have c8 := cast_mul_neg hn (k := 8) (by omega)
  have hX2 : (X2 : F) = (E : F) * E - 2 * D := by
    show (((E * E + (n - 2) * D) % n : Nat) : F) = _
    rw [cm, Nat.cast_add, Nat.cast_mul, Nat.cast_mul, c2]
    push_cast
    ring
  have hY2 : (Y2 : F) = (E : F) * (D - X2) - 8 * (B * B) := by
    show (((E * (D + (n - 1) * X2) + (n - 8) * (B * B)) % n : Nat) : F) = _
    rw [cm, Nat.cast_add, Nat.cast_mul, Nat.cast_add, Nat.cast_mul, Nat.cast_mul (n - 8), c1, c8]
    push_cast
    ring
  have hZ2 : (Z2 : F) = 2 * ((Y : F) * Z) := by
    show ((2 * (Y * Z) % n : Nat) : F) = _
    rw [cm]
    push_cast
    rfl
  rw [hY2, hZ2]
  refine jac_double h ?_ ?_ ?_ hX2
  · show ((Y * Y % n : Nat) : F) = _
    rw [cm]
    push_cast
    rfl
  · show ((4 * (X * B) % n : Nat) : F) = _
    rw [cm]
    push_cast
    rfl
  · show ((3 * (X * X) % n : Nat) : F) = _
    rw [cm]
    push_cast
    rfl

theorem ladder_add {P Q : CurvePoint b} {x y X2 Y2 Z2 : Nat} (h : Jac P (X2 : F) Y2 Z2) (hQ0 : Q ≠ 0)
    (hQ : toAff Q = (⟨x, y⟩ : Aff F)) :
    let ZZ := Z2 * Z2 % n
    let H := (x * ZZ + (n - 1) * X2) % n
    let R := (y * (ZZ * Z2 % n) + (n - 1) * Y2) % n
    let HH := H * H % n
    let HHH := H * HH % n
    let V := X2 * HH % n
    let X3 := (R * R + (n - 1) * (HHH + 2 * V)) % n
    Jac (P + Q) (X3 : F) ((R * (V + (n - 1) * X3) + (n - 1) * (Y2 * HHH)) % n : Nat) (Z2 * H % n : Nat) := by
  intro ZZ H R HH HHH V X3
  have cm := cast_mod2 (F := F) (n := n) (by omega) hn
  have c1 := cast_mul_neg hn (k := 1) (by omega)
  have hZZ : (ZZ : F) = Z2 * Z2 := by
    show ((Z2 * Z2 % n : Nat) : F) = _
    rw [cm]
    push_cast
    rfl
  have hH : (H : F) = x * ((Z2 : F) * Z2) - X2 := by
    show (((x * ZZ + (n - 1) * X2) % n : Nat) : F) = _
    rw [cm, Nat.cast_add, Nat.cast_mul, Nat.cast_mul, c1, hZZ]
    push_cast
    ring
  have hR : (R : F) = y * ((Z2 : F) * Z2 * Z2) - Y2 := by
    show (((y * (ZZ * Z2 % n) + (n - 1) * Y2) % n : Nat) : F) = _
    rw [cm, Nat.cast_add, Nat.cast_mul, Nat.cast_mul, c1, cm, Nat.cast_mul, hZZ]
    push_cast
    ring
  have hHH : (HH : F) = H * H := by
    show ((H * H % n : Nat) : F) = _
    rw [cm]
    push_cast
    rfl
  have hHHH : (HHH : F) = H * (H * H) := by
    show ((H * HH % n : Nat) : F) = _
    rw [cm, Nat.cast_mul, hHH]
  have hV : (V : F) = X2 * (H * H) := by
    show ((X2 * HH % n : Nat) : F) = _
    rw [cm, Nat.cast_mul, hHH]
  have hX3 : (X3 : F) = R * R - (H * (H * H) + 2 * (X2 * (H * H))) := by
    show (((R * R + (n - 1) * (HHH + 2 * V)) % n : Nat) : F) = _
    rw [cm, Nat.cast_add, Nat.cast_mul, Nat.cast_mul, c1, Nat.cast_add, Nat.cast_mul, hHHH, hV]
    push_cast
    ring
  have hY3 : (((R * (V + (n - 1) * X3) + (n - 1) * (Y2 * HHH)) % n : Nat) : F) =
      R * (X2 * (H * H) - X3) - Y2 * (H * (H * H)) := by
    rw [cm, Nat.cast_add, Nat.cast_mul, Nat.cast_add, Nat.cast_mul, Nat.cast_mul (n - 1), Nat.cast_mul Y2, c1, hHHH, hV]
    push_cast
    ring
  have hZ3 : ((Z2 * H % n : Nat) : F) = Z2 * H := by
    rw [cm]
    push_cast
    rfl
  rw [hY3, hZ3]
  exact jac_add h hQ0 hQ hH hR hX3

theorem ladder_sound {x y : Nat} {Q : CurvePoint b} (hQ0 : Q ≠ 0) (hQ : toAff Q = (⟨x, y⟩ : Aff F))
    (bits : List Bool) : ∀ {m X Y Z X' Y' Z' : Nat}, Jac (m • Q) (X : F) Y Z → ladder n x y bits X Y Z = (X', Y', Z') →
      Jac (bitsValue m bits • Q) (X' : F) Y' Z' := by
  induction bits with
  | nil =>
    intro m X Y Z X' Y' Z' h e
    simp only [ladder, Prod.mk.injEq] at e
    obtain ⟨rfl, rfl, rfl⟩ := e
    exact h
  | cons bit bits ih =>
    intro m X Y Z X' Y' Z' h e
    have hd := ladder_double hpos hn h
    rw [← two_nsmul, smul_smul] at hd
    cases bit with
    | false => exact ih (m := 2 * m) hd e
    | true =>
      have ha := ladder_add hpos hn hd hQ0 hQ
      rw [← succ_nsmul] at ha
      exact ih (m := 2 * m + 1) ha e

end

section
variable {u : F} (hpos : 0 < n) (hn : (n : F) = 0) (hu : u * u = -1)
include hpos hn hu

theorem ladder2_double {P : CurvePoint b} {X Y Z : Pair} (h : Jac P (X.val u) (Y.val u) (Z.val u)) :
    let B := Pair.mul n Y Y
    let XB := Pair.mul n X B
    let XB2 := Pair.add n XB XB
    let D := Pair.add n XB2 XB2
    let XX := Pair.mul n X X
    let E := Pair.add n (Pair.add n XX XX) XX
    let X2 := Pair.sub n (Pair.mul n E E) (Pair.add n D D)
    let BB := Pair.mul n B B
    let BB2 := Pair.add n BB BB
    let BB4 := Pair.add n BB2 BB2
    let Y2 := Pair.sub n (Pair.mul n E (Pair.sub n D X2)) (Pair.add n BB4 BB4)
    let YZ := Pair.mul n Y Z
    let Z2 := Pair.add n YZ YZ
    Jac (P + P) (X2.val u) (Y2.val u) (Z2.val u) := by
  intro B XB XB2 D XX E X2 BB BB2 BB4 Y2 YZ Z2
  have vm := val_mul (F := F) hpos hn hu
  have va := val_add (F := F) (u := u) hpos hn
  have vs := val_sub (F := F) (u := u) hpos hn
  have hB : B.val u = Y.val u * Y.val u := vm _ _
  have hD : D.val u = 4 * (X.val u * B.val u) := by
    show (Pair.add n (Pair.add n (Pair.mul n X B) (Pair.mul n X B)) (Pair.add n (Pair.mul n X B) (Pair.mul n X B))).val u = _
    simp only [va, vm]
    ring
  have hE : E.val u = 3 * (X.val u * X.val u) := by
    show (Pair.add n (Pair.add n (Pair.mul n X X) (Pair.mul n X X)) (Pair.mul n X X)).val u = _
    simp only [va, vm]
    ring
  have hX2 : X2.val u = E.val u * E.val u - 2 * D.val u := by
    show (Pair.sub n (Pair.mul n E E) (Pair.add n D D)).val u = _
    rw [vs (Pair.mul n E E), vm E E, va D D]
    ring
  have hBB4 : BB4.val u = 4 * (B.val u * B.val u) := by
    show (Pair.add n (Pair.add n (Pair.mul n B B) (Pair.mul n B B)) (Pair.add n (Pair.mul n B B) (Pair.mul n B B))).val u = _
    simp only [va, vm]
    ring
  have hY2 : Y2.val u = E.val u * (D.val u - X2.val u) - 8 * (B.val u * B.val u) := by
    show (Pair.sub n (Pair.mul n E (Pair.sub n D X2)) (Pair.add n BB4 BB4)).val u = _
    rw [vs (Pair.mul n E _), vm E, va BB4 BB4, vs D X2, hBB4]
    ring
  have hZ2 : Z2.val u = 2 * (Y.val u * Z.val u) := by
    show (Pair.add n (Pair.mul n Y Z) (Pair.mul n Y Z)).val u = _
    rw [va, vm]
    ring
  rw [hY2, hZ2]
  exact jac_double h hB hD hE hX2

theorem ladder2_add {P Q : CurvePoint b} {x y X2 Y2 Z2 : Pair} (h : Jac P (X2.val u) (Y2.val u) (Z2.val u)) (hQ0 : Q ≠ 0)
    (hQ : toAff Q = (⟨x.val u, y.val u⟩ : Aff F)) :
    let ZZ := Pair.mul n Z2 Z2
    let H := Pair.sub n (Pair.mul n x ZZ) X2
    let R := Pair.sub n (Pair.mul n y (Pair.mul n ZZ Z2)) Y2
    let HH := Pair.mul n H H
    let HHH := Pair.mul n H HH
    let V := Pair.mul n X2 HH
    let X3 := Pair.sub n (Pair.mul n R R) (Pair.add n HHH (Pair.add n V V))
    Jac (P + Q) (X3.val u) ((Pair.sub n (Pair.mul n R (Pair.sub n V X3)) (Pair.mul n Y2 HHH)).val u) ((Pair.mul n Z2 H).val u) := by
  intro ZZ H R HH HHH V X3
  have vm := val_mul (F := F) hpos hn hu
  have va := val_add (F := F) (u := u) hpos hn
  have vs := val_sub (F := F) (u := u) hpos hn
  have hH : H.val u = x.val u * (Z2.val u * Z2.val u) - X2.val u := by
    show (Pair.sub n (Pair.mul n x (Pair.mul n Z2 Z2)) X2).val u = _
    rw [vs, vm, vm]
  have hR : R.val u = y.val u * (Z2.val u * Z2.val u * Z2.val u) - Y2.val u := by
    show (Pair.sub n (Pair.mul n y (Pair.mul n (Pair.mul n Z2 Z2) Z2)) Y2).val u = _
    rw [vs, vm, vm, vm]
  have hHHH : HHH.val u = H.val u * (H.val u * H.val u) := by
    show (Pair.mul n H (Pair.mul n H H)).val u = _
    rw [vm, vm]
  have hV : V.val u = X2.val u * (H.val u * H.val u) := by
    show (Pair.mul n X2 (Pair.mul n H H)).val u = _
    rw [vm, vm]
  have hX3 : X3.val u = R.val u * R.val u - (H.val u * (H.val u * H.val u) + 2 * (X2.val u * (H.val u * H.val u))) := by
    show (Pair.sub n (Pair.mul n R R) (Pair.add n HHH (Pair.add n V V))).val u = _
    rw [vs (Pair.mul n R R), vm R R, va HHH, va V V, hHHH, hV]
    ring
  have hY3 : (Pair.sub n (Pair.mul n R (Pair.sub n V X3)) (Pair.mul n Y2 HHH)).val u =
      R.val u * (X2.val u * (H.val u * H.val u) - X3.val u) - Y2.val u * (H.val u * (H.val u * H.val u)) := by
    rw [vs (Pair.mul n R _), vm R, vs V X3, vm Y2, hHHH, hV]
  rw [hY3, vm Z2 H]
  exact jac_add h hQ0 hQ hH hR hX3

theorem ladder2_sound {x y : Pair} {Q : CurvePoint b} (hQ0 : Q ≠ 0) (hQ : toAff Q = (⟨x.val u, y.val u⟩ : Aff F))
    (bits : List Bool) : ∀ {m : Nat} {X Y Z X' Y' Z' : Pair}, Jac (m • Q) (X.val u) (Y.val u) (Z.val u) →
      ladder2 n x y bits X Y Z = (X', Y', Z') → Jac (bitsValue m bits • Q) (X'.val u) (Y'.val u) (Z'.val u) := by
  induction bits with
  | nil =>
    intro m X Y Z X' Y' Z' h e
    simp only [ladder2, Prod.mk.injEq] at e
    obtain ⟨rfl, rfl, rfl⟩ := e
    exact h
  | cons bit bits ih =>
    intro m X Y Z X' Y' Z' h e
    have hd := ladder2_double hpos hn hu h
    rw [← two_nsmul, smul_smul] at hd
    cases bit with
    | false => exact ih (m := 2 * m) hd e
    | true =>
      have ha := ladder2_add hpos hn hu hd hQ0 hQ
      rw [← succ_nsmul] at ha
      exact ih (m := 2 * m + 1) ha e

end
end
end Verif
