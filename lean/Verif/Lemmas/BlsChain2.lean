import Verif.Lemmas.BlsCertificate2
import Verif.Lemmas.CurveInstance

set_option linter.unusedSectionVars false

/-!
Chains of doublings and additions on a curve `y^2 = x^3 + b` over a field with a square root `u` of `-1`, computed on pairs of
natural numbers modulo `n`.
-/
namespace Verif

/-- `re + im * u` -/
structure Pair where
  re : Nat
  im : Nat
  deriving DecidableEq

namespace Pair

def add (n : Nat) (a b : Pair) : Pair := ⟨(a.re + b.re) % n, (a.im + b.im) % n⟩

def sub (n : Nat) (a b : Pair) : Pair := ⟨(a.re + (n - b.re % n)) % n, (a.im + (n - b.im % n)) % n⟩

def mul (n : Nat) (a b : Pair) : Pair :=
  ⟨(a.re * b.re + (n - a.im * b.im % n)) % n, (a.re * b.im + a.im * b.re) % n⟩

end Pair

/-- one doubling, with the inverse `i` of `2 y` supplied and checked -/
def double2 (n : Nat) (x y i : Pair) : Option (Pair × Pair) :=
  if Pair.mul n (Pair.add n y y) i = ⟨1, 0⟩ then
    let xx := Pair.mul n x x
    let l := Pair.mul n (Pair.add n (Pair.add n xx xx) xx) i
    let x' := Pair.sub n (Pair.sub n (Pair.mul n l l) x) x
    some (x', Pair.sub n (Pair.mul n l (Pair.sub n x x')) y)
  else none

/-- one addition of `(gx, gy)`, with the inverse `i` of `gx - x` supplied and checked -/
def add2 (n : Nat) (gx gy x y i : Pair) : Option (Pair × Pair) :=
  if Pair.mul n (Pair.sub n gx x) i = ⟨1, 0⟩ then
    let l := Pair.mul n (Pair.sub n gy y) i
    let x' := Pair.sub n (Pair.sub n (Pair.mul n l l) x) gx
    some (x', Pair.sub n (Pair.mul n l (Pair.sub n x x')) y)
  else none

/-- run the chain from `(x, y) = m • (gx, gy)`, keeping track of `m` -/
def run2 (n : Nat) (gx gy : Pair) : List ChainStep2 → Nat → Pair → Pair → Option (Nat × Pair × Pair)
  | [], m, x, y => some (m, x, y)
  | .double r i :: l, m, x, y =>
    match double2 n x y ⟨r, i⟩ with
    | some (x', y') => run2 n gx gy l (2 * m) x' y'
    | none => none
  | .add r i :: l, m, x, y =>
    match add2 n gx gy x y ⟨r, i⟩ with
    | some (x', y') => run2 n gx gy l (m + 1) x' y'
    | none => none

section
variable {F : Type} [Field F] [DecidableEq F] {n : Nat} {u : F}

/-- the element of the field -/
def Pair.val (u : F) (a : Pair) : F := a.re + a.im * u

variable (hpos : 0 < n) (hn : (n : F) = 0) (hu : u * u = -1)
include hpos hn

theorem cast_mod2 (a : Nat) : ((a % n : Nat) : F) = a := by
  conv_rhs => rw [← Nat.mod_add_div a n]
  push_cast
  rw [hn]; ring

theorem cast_sub2 (a : Nat) : ((n - a % n : Nat) : F) = -a := by
  rw [Nat.cast_sub (Nat.mod_lt _ hpos).le, hn, cast_mod2 hpos hn, zero_sub]

theorem val_add (a b : Pair) : (Pair.add n a b).val u = a.val u + b.val u := by
  unfold Pair.add Pair.val
  rw [cast_mod2 hpos hn, cast_mod2 hpos hn]
  push_cast
  ring

theorem val_sub (a b : Pair) : (Pair.sub n a b).val u = a.val u - b.val u := by
  unfold Pair.sub Pair.val
  rw [cast_mod2 hpos hn, cast_mod2 hpos hn, Nat.cast_add, Nat.cast_add, cast_sub2 hpos hn, cast_sub2 hpos hn]
  ring

include hu in
theorem val_mul (a b : Pair) : (Pair.mul n a b).val u = a.val u * b.val u := by
  unfold Pair.mul Pair.val
  rw [cast_mod2 hpos hn, cast_mod2 hpos hn, Nat.cast_add, cast_sub2 hpos hn]
  push_cast
  linear_combination -(a.im * b.im : F) * hu

variable {b : F}

include hu in
theorem double2_sound {x y i x' y' : Pair} (h : double2 n x y i = some (x', y')) (P : CurvePoint b) (h0 : P ≠ 0)
    (hP : toAff P = ⟨x.val u, y.val u⟩) : P + P ≠ 0 ∧ toAff (P + P) = ⟨x'.val u, y'.val u⟩ := by
  unfold double2 at h
  split at h
  case isFalse => exact absurd h (by simp)
  rename_i hi
  have hi' := congrArg (Pair.val u) hi
  rw [val_mul hpos hn hu, val_add hpos hn] at hi'
  simp only [Pair.val, Nat.cast_one, Nat.cast_zero, zero_mul, add_zero] at hi'
  simp only [Option.some.injEq, Prod.mk.injEq] at h
  obtain ⟨rfl, rfl⟩ := h
  have fold : ∀ a : Pair, (a.re + a.im * u : F) = a.val u := fun _ => rfl
  simp only [fold] at hi'
  simp only [val_mul hpos hn hu, val_add hpos hn, val_sub hpos hn]
  generalize x.val u = X at *
  generalize y.val u = Y at *
  generalize i.val u = I at *
  have hi2 : 2 * Y * I = 1 := by linear_combination hi'
  have h2 : 2 * Y ≠ 0 := by
    intro e
    rw [e, zero_mul] at hi2
    exact zero_ne_one hi2
  have hinv : I = (2 * Y)⁻¹ := eq_inv_of_mul_eq_one_right hi2
  refine ⟨?_, ?_⟩
  · intro e
    have e' : P = -P := eq_neg_of_add_eq_zero_left e
    have e'' := LawfulCurve.toAff_neg (K := F) P
    rw [← e', hP] at e''
    have := congrArg Aff.y e''
    simp only at this
    exact h2 (by linear_combination this)
  · have t := LawfulCurve.tangent (K := F) P h0 (by rw [hP]; exact h2) (3 * X ^ 2 / (2 * Y))
      ((3 * X ^ 2 / (2 * Y)) ^ 2 - 2 * X) (by rw [hP]) (by rw [hP])
    rw [t, hP, Aff.mk.injEq]
    have hl : (X * X + X * X + X * X) * I = 3 * X ^ 2 / (2 * Y) := by
      rw [hinv]
      ring
    rw [hl]
    constructor <;> ring

include hu in
theorem add2_sound {gx gy x y i x' y' : Pair} (h : add2 n gx gy x y i = some (x', y')) (P Q : CurvePoint b) (h0 : P ≠ 0)
    (hQ0 : Q ≠ 0) (hP : toAff P = ⟨x.val u, y.val u⟩) (hQ : toAff Q = ⟨gx.val u, gy.val u⟩) :
    P + Q ≠ 0 ∧ toAff (P + Q) = ⟨x'.val u, y'.val u⟩ := by
  unfold add2 at h
  split at h
  case isFalse => exact absurd h (by simp)
  rename_i hi
  have hi' := congrArg (Pair.val u) hi
  rw [val_mul hpos hn hu, val_sub hpos hn] at hi'
  have fold : ∀ a : Pair, (a.re + a.im * u : F) = a.val u := fun _ => rfl
  have h1 : (Pair.val u ⟨1, 0⟩ : F) = 1 := by simp [Pair.val]
  rw [h1] at hi'
  simp only [Option.some.injEq, Prod.mk.injEq] at h
  obtain ⟨rfl, rfl⟩ := h
  simp only [val_mul hpos hn hu, val_sub hpos hn]
  generalize x.val u = X at *
  generalize y.val u = Y at *
  generalize gx.val u = GX at *
  generalize gy.val u = GY at *
  generalize i.val u = I at *
  have h2 : GX - X ≠ 0 := by
    intro e
    rw [e, zero_mul] at hi'
    exact zero_ne_one hi'
  have hne : (toAff P).x ≠ (toAff Q).x := by
    rw [hP, hQ]
    exact fun e => h2 (sub_eq_zero.2 e.symm)
  have hinv : I = (GX - X)⁻¹ := eq_inv_of_mul_eq_one_right hi'
  refine ⟨?_, ?_⟩
  · intro e
    have e' : P = -Q := eq_neg_of_add_eq_zero_left e
    apply hne
    rw [e', LawfulCurve.toAff_neg (K := F) Q]
  · have t := LawfulCurve.chord (K := F) P Q h0 hQ0 hne ((GY - Y) / (GX - X)) (((GY - Y) / (GX - X)) ^ 2 - X - GX)
      (by rw [hP, hQ]) (by rw [hP, hQ])
    rw [t, hP, Aff.mk.injEq]
    have hl : (GY - Y) * I = (GY - Y) / (GX - X) := by
      rw [hinv]
      ring
    rw [hl]
    constructor <;> ring

include hu in
theorem run2_sound {gx gy : Pair} (Q : CurvePoint b) (hQ0 : Q ≠ 0) (hQ : toAff Q = ⟨gx.val u, gy.val u⟩)
    (l : List ChainStep2) : ∀ {m : Nat} {x y : Pair} {m' : Nat} {x' y' : Pair}, run2 n gx gy l m x y = some (m', x', y') →
      m • Q ≠ 0 → toAff (m • Q) = ⟨x.val u, y.val u⟩ → m' • Q ≠ 0 ∧ toAff (m' • Q) = ⟨x'.val u, y'.val u⟩ := by
  induction l with
  | nil =>
    intro m x y m' x' y' h h0 hP
    simp only [run2, Option.some.injEq, Prod.mk.injEq] at h
    obtain ⟨rfl, rfl, rfl⟩ := h
    exact ⟨h0, hP⟩
  | cons st l ih =>
    intro m x y m' x' y' h h0 hP
    cases st with
    | double r i =>
      rw [run2] at h
      split at h
      case h_2 => exact absurd h (by simp)
      rename_i x2 y2 e
      obtain ⟨a, c⟩ := double2_sound hpos hn hu e _ h0 hP
      rw [← two_nsmul, smul_smul] at a c
      exact ih h a c
    | add r i =>
      rw [run2] at h
      split at h
      case h_2 => exact absurd h (by simp)
      rename_i x2 y2 e
      obtain ⟨a, c⟩ := add2_sound hpos hn hu e _ _ h0 hQ0 hP hQ
      rw [← succ_nsmul] at a c
      exact ih h a c

include hu in
/-- a point whose multiple by `m` is its opposite is killed by `m + 1` -/
theorem run2_order {gx gy : Pair} (Q : CurvePoint b) (hQ0 : Q ≠ 0) (hQ : toAff Q = ⟨gx.val u, gy.val u⟩) (l : List ChainStep2)
    {m : Nat} (h : run2 n gx gy l 1 gx gy = some (m, gx, Pair.sub n ⟨0, 0⟩ gy)) : (m + 1) • Q = 0 := by
  obtain ⟨-, h'⟩ := run2_sound hpos hn hu Q hQ0 hQ l h (by rwa [one_nsmul]) (by rw [one_nsmul]; exact hQ)
  have hz : (Pair.val u ⟨0, 0⟩ : F) = 0 := by simp [Pair.val]
  rw [val_sub hpos hn, hz, zero_sub] at h'
  have hneg := LawfulCurve.toAff_neg (K := F) Q
  rw [hQ] at hneg
  have e : m • Q = -Q := by
    rw [← LawfulCurve.ofAff_toAff (K := F) (m • Q), h', ← LawfulCurve.ofAff_toAff (K := F) (-Q), hneg]
  rw [succ_nsmul, e, neg_add_cancel]

end

end Verif
