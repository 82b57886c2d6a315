import Mathlib.Data.Nat.Prime.Basic
import Mathlib.GroupTheory.OrderOfElement
import Verif.Lemmas.BlsCertificate
import Verif.Lemmas.CurveInstance

set_option linter.unusedSectionVars false

/-!
The modulus of the base field of BLS12-381 is prime, and the G1 generator has order `frOrder`.

The proof is an elliptic-curve primality proof. Over any field in which `fpOrder` is zero, the certificate shows that the
generator, as a point of `y^2 = x^3 + 4`, is killed by `frOrder`. If `fpOrder` were not prime it would have a prime factor
`q` with `q^2 ≤ fpOrder`; the curve over `ZMod q` has at most `2 q + 1` points, which is less than `frOrder`, the order of the
generator.
-/
namespace Verif
open WeierstrassCurve

/-- one doubling modulo `n`, with the inverse `i` of `2 y` supplied and checked -/
def chainDouble (n x y i : Nat) : Option (Nat × Nat) :=
  if 2 * y * i % n = 1 then
    let l := 3 * x * x * i % n
    let x' := (l * l + 2 * (n - x)) % n
    some (x', (l * (x + (n - x')) + (n - y)) % n)
  else none

/-- one addition of `(gx, gy)` modulo `n`, with the inverse `i` of `gx - x` supplied and checked -/
def chainAdd (n gx gy x y i : Nat) : Option (Nat × Nat) :=
  if (gx + (n - x)) * i % n = 1 then
    let l := (gy + (n - y)) * i % n
    let x' := (l * l + (n - x) + (n - gx)) % n
    some (x', (l * (x + (n - x')) + (n - y)) % n)
  else none

/-- run the chain from `(x, y) = m • (gx, gy)`, keeping track of `m` -/
def chainRun (n gx gy : Nat) : List ChainStep → Nat → Nat → Nat → Option (Nat × Nat × Nat)
  | [], m, x, y => some (m, x, y)
  | .double i :: l, m, x, y =>
    match chainDouble n x y i with
    | some (x', y') => chainRun n gx gy l (2 * m) x' y'
    | none => none
  | .add i :: l, m, x, y =>
    match chainAdd n gx gy x y i with
    | some (x', y') => chainRun n gx gy l (m + 1) x' y'
    | none => none

set_option maxRecDepth 100000 in
theorem orderChain_run : chainRun fpOrder g1GeneratorX g1GeneratorY orderChain 1 g1GeneratorX g1GeneratorY =
    some (frOrder - 1, g1GeneratorX, fpOrder - g1GeneratorY) := by
  decide +kernel

/-! ### soundness of the chain in every field where the modulus is zero -/

section
variable {F : Type} [Field F] [DecidableEq F] {n : Nat} (hn : (n : F) = 0)
include hn

theorem cast_mod (a : Nat) : ((a % n : Nat) : F) = a := by
  conv_rhs => rw [← Nat.mod_add_div a n]
  push_cast
  rw [hn]; ring

theorem cast_complement {a : Nat} (h : a ≤ n) : ((n - a : Nat) : F) = -a := by
  rw [Nat.cast_sub h, hn, zero_sub]

theorem cast_inverse {a : Nat} (h : a % n = 1) : (a : F) = 1 := by
  rw [← cast_mod hn a, h, Nat.cast_one]

variable {b : F}

theorem chainDouble_sound {x y i x' y' : Nat} (hx : x ≤ n) (hy : y ≤ n) (h : chainDouble n x y i = some (x', y'))
    (P : CurvePoint b) (h0 : P ≠ 0) (hP : toAff P = ⟨(x : F), y⟩) :
    P + P ≠ 0 ∧ toAff (P + P) = ⟨(x' : F), y'⟩ ∧ x' ≤ n ∧ y' ≤ n := by
  have npos : 0 < n := by
    rcases Nat.eq_zero_or_pos n with e | e
    · subst e
      simp only [Nat.le_zero] at hx hy
      subst hx hy
      simp [chainDouble] at h
    · exact e
  unfold chainDouble at h
  split at h
  case isFalse => exact absurd h (by simp)
  rename_i hi
  have hi' : 2 * (y : F) * i = 1 := by
    have := cast_inverse hn hi
    push_cast at this
    exact this
  simp only [Option.some.injEq, Prod.mk.injEq] at h
  obtain ⟨rfl, rfl⟩ := h
  have h2 : 2 * (y : F) ≠ 0 := by
    intro e
    rw [e, zero_mul] at hi'
    exact zero_ne_one hi'
  have hinv : (i : F) = (2 * (y : F))⁻¹ := eq_inv_of_mul_eq_one_right hi'
  refine ⟨?_, ?_, (Nat.mod_lt _ npos).le, (Nat.mod_lt _ npos).le⟩
  · intro e
    have e' : P = -P := eq_neg_of_add_eq_zero_left e
    have e'' := LawfulCurve.toAff_neg (K := F) P
    rw [← e', hP] at e''
    have := congrArg Aff.y e''
    simp only at this
    exact h2 (by linear_combination this)
  · have t := LawfulCurve.tangent (K := F) P h0 (by rw [hP]; exact h2) (3 * (x : F) ^ 2 / (2 * y))
      ((3 * (x : F) ^ 2 / (2 * y)) ^ 2 - 2 * x) (by rw [hP]) (by rw [hP])
    rw [t, hP, Aff.mk.injEq]
    have hl : ((3 * x * x * i % n : Nat) : F) = 3 * (x : F) ^ 2 / (2 * y) := by
      rw [cast_mod hn]
      push_cast
      rw [hinv]
      ring
    have hx3 : (((3 * x * x * i % n) * (3 * x * x * i % n) + 2 * (n - x)) % n : Nat) =
        ((3 * (x : F) ^ 2 / (2 * y)) ^ 2 - 2 * x : F) := by
      rw [cast_mod hn, Nat.cast_add, Nat.cast_mul, hl, Nat.cast_mul, cast_complement hn hx]
      push_cast
      ring
    refine ⟨hx3.symm, ?_⟩
    simp only
    rw [cast_mod hn, Nat.cast_add, Nat.cast_mul, hl, Nat.cast_add, cast_complement hn (Nat.mod_lt _ npos).le, hx3,
      cast_complement hn hy]
    ring

theorem chainAdd_sound {gx gy x y i x' y' : Nat} (hgx : gx ≤ n) (hx : x ≤ n) (hy : y ≤ n)
    (h : chainAdd n gx gy x y i = some (x', y')) (P Q : CurvePoint b) (h0 : P ≠ 0) (hQ0 : Q ≠ 0)
    (hP : toAff P = ⟨(x : F), y⟩) (hQ : toAff Q = ⟨(gx : F), gy⟩) :
    P + Q ≠ 0 ∧ toAff (P + Q) = ⟨(x' : F), y'⟩ ∧ x' ≤ n ∧ y' ≤ n := by
  have npos : 0 < n := by
    rcases Nat.eq_zero_or_pos n with e | e
    · subst e
      simp only [Nat.le_zero] at hx hy hgx
      subst hx hy hgx
      simp [chainAdd] at h
    · exact e
  unfold chainAdd at h
  split at h
  case isFalse => exact absurd h (by simp)
  rename_i hi
  have hi' : ((gx : F) - x) * i = 1 := by
    have := cast_inverse hn hi
    rw [Nat.cast_mul, Nat.cast_add, cast_complement hn hx] at this
    linear_combination this
  simp only [Option.some.injEq, Prod.mk.injEq] at h
  obtain ⟨rfl, rfl⟩ := h
  have h2 : (gx : F) - x ≠ 0 := by
    intro e
    rw [e, zero_mul] at hi'
    exact zero_ne_one hi'
  have hne : (toAff P).x ≠ (toAff Q).x := by
    rw [hP, hQ]
    exact fun e => h2 (sub_eq_zero.2 e.symm)
  have hinv : (i : F) = ((gx : F) - x)⁻¹ := eq_inv_of_mul_eq_one_right hi'
  refine ⟨?_, ?_, (Nat.mod_lt _ npos).le, (Nat.mod_lt _ npos).le⟩
  · intro e
    have e' : P = -Q := eq_neg_of_add_eq_zero_left e
    apply hne
    rw [e', LawfulCurve.toAff_neg (K := F) Q]
  · have t := LawfulCurve.chord (K := F) P Q h0 hQ0 hne (((gy : F) - y) / (gx - x))
      ((((gy : F) - y) / (gx - x)) ^ 2 - x - gx) (by rw [hP, hQ]) (by rw [hP, hQ])
    rw [t, hP, Aff.mk.injEq]
    have hl : (((gy + (n - y)) * i % n : Nat) : F) = ((gy : F) - y) / (gx - x) := by
      rw [cast_mod hn, Nat.cast_mul, Nat.cast_add, cast_complement hn hy, hinv]
      ring
    have hx3 : ((((gy + (n - y)) * i % n) * ((gy + (n - y)) * i % n) + (n - x) + (n - gx)) % n : Nat) =
        ((((gy : F) - y) / (gx - x)) ^ 2 - x - gx : F) := by
      rw [cast_mod hn, Nat.cast_add, Nat.cast_add, Nat.cast_mul, hl, cast_complement hn hx, cast_complement hn hgx]
      ring
    refine ⟨hx3.symm, ?_⟩
    simp only
    rw [cast_mod hn, Nat.cast_add, Nat.cast_mul, hl, Nat.cast_add, cast_complement hn (Nat.mod_lt _ npos).le, hx3,
      cast_complement hn hy]
    ring

theorem chainRun_sound {gx gy : Nat} (hgx : gx ≤ n) (Q : CurvePoint b) (hQ0 : Q ≠ 0)
    (hQ : toAff Q = ⟨(gx : F), gy⟩) (l : List ChainStep) :
    ∀ {m x y m' x' y' : Nat}, x ≤ n → y ≤ n → chainRun n gx gy l m x y = some (m', x', y') →
      m • Q ≠ 0 → toAff (m • Q) = ⟨(x : F), y⟩ → m' • Q ≠ 0 ∧ toAff (m' • Q) = ⟨(x' : F), y'⟩ := by
  induction l with
  | nil =>
    intro m x y m' x' y' _ _ h h0 hP
    simp only [chainRun, Option.some.injEq, Prod.mk.injEq] at h
    obtain ⟨rfl, rfl, rfl⟩ := h
    exact ⟨h0, hP⟩
  | cons st l ih =>
    intro m x y m' x' y' hx hy h h0 hP
    cases st with
    | double i =>
      rw [chainRun] at h
      split at h
      case h_2 => exact absurd h (by simp)
      rename_i x2 y2 e
      obtain ⟨a, c, d, f⟩ := chainDouble_sound hn hx hy e _ h0 hP
      rw [← two_nsmul, smul_smul] at a c
      exact ih d f h a c
    | add i =>
      rw [chainRun] at h
      split at h
      case h_2 => exact absurd h (by simp)
      rename_i x2 y2 e
      obtain ⟨a, c, d, f⟩ := chainAdd_sound hn hgx hx hy e _ _ h0 hQ0 hP hQ
      rw [← succ_nsmul] at a c
      exact ih d f h a c

end

theorem g1Generator_onCurve : (g1GeneratorY * g1GeneratorY) % fpOrder =
    (g1GeneratorX * g1GeneratorX * g1GeneratorX + 4) % fpOrder := by decide +kernel

/-- the inverse of `2 y` of the generator, the first entry of the certificate -/
def g1GeneratorInv : Nat := match orderChain with
  | .double i :: _ => i
  | _ => 0

theorem g1Generator_inverse : 2 * g1GeneratorY * g1GeneratorInv % fpOrder = 1 := by decide +kernel

theorem generator_nonsingular {F : Type} [Field F] (hn : (fpOrder : F) = 0) :
    (shortCurve (4 : F)).Nonsingular (g1GeneratorX : F) (g1GeneratorY : F) := by
  classical
  rw [Affine.nonsingular_iff, Affine.equation_iff]
  have h1 := congrArg (Nat.cast : Nat → F) g1Generator_onCurve
  rw [cast_mod hn, cast_mod hn] at h1
  push_cast at h1
  have h2 := cast_inverse hn g1Generator_inverse
  push_cast at h2
  refine ⟨?_, .inr ?_⟩
  · simp only [shortCurve]
    linear_combination h1
  · simp only [shortCurve]
    intro e
    have : 2 * (g1GeneratorY : F) = 0 := by linear_combination e
    rw [this, zero_mul] at h2
    exact zero_ne_one h2

/-- the generator as a point, over any field where the modulus is zero -/
def generatorPoint {F : Type} [Field F] (hn : (fpOrder : F) = 0) : CurvePoint (4 : F) :=
  .some g1GeneratorX g1GeneratorY (generator_nonsingular hn)

theorem generatorPoint_ne {F : Type} [Field F] (hn : (fpOrder : F) = 0) : generatorPoint hn ≠ 0 := by
  intro e
  cases e

theorem generatorPoint_order {F : Type} [Field F] [DecidableEq F] (hn : (fpOrder : F) = 0) :
    frOrder • generatorPoint hn = 0 := by
  have hG := generatorPoint_ne hn
  have hA : toAff (generatorPoint hn) = (⟨(g1GeneratorX : F), g1GeneratorY⟩ : Aff F) := rfl
  obtain ⟨-, h⟩ := chainRun_sound hn (by decide +kernel) (generatorPoint hn) hG hA orderChain (by decide +kernel)
    (by decide +kernel) orderChain_run (by rwa [one_nsmul]) (by rw [one_nsmul]; exact hA)
  rw [cast_complement hn (by decide +kernel : g1GeneratorY ≤ fpOrder)] at h
  have hneg : toAff (-generatorPoint hn) = (⟨(g1GeneratorX : F), -g1GeneratorY⟩ : Aff F) :=
    LawfulCurve.toAff_neg (K := F) _
  have e : (frOrder - 1) • generatorPoint hn = -generatorPoint hn := by
    rw [← LawfulCurve.ofAff_toAff (K := F) ((frOrder - 1) • generatorPoint hn), h, ← hneg, LawfulCurve.ofAff_toAff]
  have s : frOrder = (frOrder - 1) + 1 := by decide +kernel
  rw [s, succ_nsmul, e, neg_add_cancel]

/-! ### the number of points of a curve over a finite field -/

theorem card_points_le {F : Type} [Field F] [Fintype F] [DecidableEq F] (b : F) :
    Finite (CurvePoint b) ∧ Nat.card (CurvePoint b) ≤ 2 * Fintype.card F + 1 := by
  classical
  let f : CurvePoint b → Option (F × F) := fun P => match P with
    | .zero => none
    | .some x y _ => some (x, y)
  have hf : Function.Injective f := by
    intro P Q h
    cases P <;> cases Q <;> simp_all [f]
  have : Finite (CurvePoint b) := Finite.of_injective f hf
  refine ⟨this, ?_⟩
  have := Fintype.ofFinite (CurvePoint b)
  rw [Nat.card_eq_fintype_card, ← Finset.card_univ]
  have h1 : (Finset.univ : Finset (CurvePoint b)) = insert 0 (Finset.univ.filter (· ≠ 0)) := by
    ext P; simp [em]
  rw [h1]
  refine (Finset.card_insert_le _ _).trans (Nat.add_le_add_right ?_ 1)
  refine (Finset.card_le_mul_card_image (f := fun P : CurvePoint b => (toAff P).x) _ 2 ?_).trans
    (Nat.mul_le_mul_left 2 (Finset.card_le_univ _))
  intro x hx
  obtain ⟨P, hP, hPx⟩ := Finset.mem_image.1 hx
  refine (Finset.card_le_card (t := {P, -P}) ?_).trans (Finset.card_le_two)
  intro Q hQ
  simp only [Finset.mem_filter, Finset.mem_univ, true_and] at hQ hP
  rcases LawfulCurve.opposite (K := F) Q P hQ.1 hP (hQ.2.trans hPx.symm) with e | e
  · simp [e]
  · simp [eq_neg_of_add_eq_zero_left e]

/-- The modulus of the base field is prime. -/
theorem fpOrder_prime : fpOrder.Prime := by
  by_contra hc
  set q := fpOrder.minFac with hq
  have hqp : q.Prime := Nat.minFac_prime (by decide +kernel)
  have hsq : q ^ 2 ≤ fpOrder := Nat.minFac_sq_le_self (by decide +kernel) hc
  have : Fact q.Prime := ⟨hqp⟩
  have hn : (fpOrder : ZMod q) = 0 := (ZMod.natCast_eq_zero_iff _ _).2 (Nat.minFac_dvd _)
  obtain ⟨hfin, hcard⟩ := card_points_le (4 : ZMod q)
  rw [ZMod.card] at hcard
  have hord : addOrderOf (generatorPoint hn) = frOrder :=
    addOrderOf_eq_prime (generatorPoint_order hn) (generatorPoint_ne hn)
  have hle : frOrder ≤ Nat.card (CurvePoint (4 : ZMod q)) := by
    rw [← hord]
    exact Nat.le_of_dvd Nat.card_pos (addOrderOf_dvd_natCard _)
  have h3 : frOrder ≤ 2 * q + 1 := hle.trans hcard
  have h4 : 2 ^ 253 ≤ q := by
    have : 2 * 2 ^ 253 + 1 ≤ frOrder := by decide +kernel
    omega
  have h5 : (2 ^ 253) ^ 2 ≤ fpOrder := (Nat.pow_le_pow_left h4 2).trans hsq
  exact absurd h5 (by decide +kernel)

end Verif
