import Mathlib.NumberTheory.LucasPrimality
import Mathlib.FieldTheory.Finite.Basic
import Mathlib.Tactic.NormNum.Prime
import Mathlib.Tactic.IntervalCases
import Mathlib.RingTheory.RootsOfUnity.PrimitiveRoots

/-!
The BLS12-381 scalar field as used by the code (`bls12_381::Scalar`, re-exported from `blstrs` in
`cryptography/bls12_381/src/lib.rs`).
-/
namespace Verif

/-- The order of the BLS12-381 scalar field (`Scalar::MODULUS` of blstrs). -/
def frOrder : Nat := 0x73eda753299d7d483339d80809a1d80553bda402fffe5bfeffffffff00000001

/-- `Scalar`: `cryptography/bls12_381/src/lib.rs`, re-export of `blstrs::Scalar`. -/
abbrev Fr : Type := ZMod frOrder

/-- Square and multiply, used only for kernel-checked arithmetic certificates. -/
def powModAux : Nat → Nat → Nat → Nat → Nat → Nat
  | 0, _, _, _, acc => acc
  | f + 1, b, e, m, acc => powModAux f (b * b % m) (e / 2) m (if e % 2 = 1 then acc * b % m else acc)

theorem powModAux_cast (f b e m acc : Nat) (h : e < 2 ^ f) :
    ((powModAux f b e m acc : Nat) : ZMod m) = (acc : ZMod m) * (b : ZMod m) ^ e := by
  induction f generalizing b e acc with
  | zero => simp at h; subst h; simp [powModAux]
  | succ f ih =>
    rw [powModAux, ih _ _ _ (by omega)]
    have he := Nat.div_add_mod e 2
    conv_rhs => rw [← he]
    rcases Nat.mod_two_eq_zero_or_one e with h2 | h2
    · simp [h2, pow_mul]; ring
    · simp [h2, pow_add, pow_mul]; ring

theorem pow_eq_powMod (b e m : Nat) (h : e < 2 ^ 256) :
    (b : ZMod m) ^ e = ((powModAux 256 b e m 1 : Nat) : ZMod m) := by
  rw [powModAux_cast _ _ _ _ _ h]; simp

theorem pow_ne_one_of_powMod {b e : Nat} (h : e < 2 ^ 256)
    (h1 : powModAux 256 b e frOrder 1 % frOrder ≠ 1) : ((b : Nat) : Fr) ^ e ≠ 1 := by
  rw [pow_eq_powMod _ _ _ h]
  intro hc
  apply h1
  have : ((powModAux 256 b e frOrder 1 : Nat) : ZMod frOrder) = ((1 : Nat) : ZMod frOrder) := by
    rw [hc]; simp
  rw [ZMod.natCast_eq_natCast_iff'] at this
  rw [this]; decide +kernel

theorem pow_eq_of_powMod {b e c : Nat} (h : e < 2 ^ 256)
    (h1 : powModAux 256 b e frOrder 1 % frOrder = c % frOrder) : ((b : Nat) : Fr) ^ e = ((c : Nat) : Fr) := by
  rw [pow_eq_powMod _ _ _ h, ZMod.natCast_eq_natCast_iff']
  exact h1

theorem frOrder_sub_one : frOrder - 1 =
    2 ^ 32 * (3 * (11 * (19 * (10177 * (125527 * (859267 * (906349 ^ 2 * (2508409 * (2529403 *
      (52437899 * 254760293 ^ 2)))))))))) := by decide +kernel

theorem prime_dvd_frOrder_sub_one {q : Nat} (hq : q.Prime) (h : q ∣ frOrder - 1) :
    q = 2 ∨ q = 3 ∨ q = 11 ∨ q = 19 ∨ q = 10177 ∨ q = 125527 ∨ q = 859267 ∨ q = 906349 ∨
    q = 2508409 ∨ q = 2529403 ∨ q = 52437899 ∨ q = 254760293 := by
  have aux : ∀ {p : Nat}, p.Prime → q ∣ p → q = p := fun hp hd => (Nat.prime_dvd_prime_iff_eq hq hp).1 hd
  rw [frOrder_sub_one] at h
  rcases hq.dvd_mul.1 h with h | h
  · exact Or.inl (aux (by norm_num) (hq.dvd_of_dvd_pow h))
  rcases hq.dvd_mul.1 h with h | h
  · have := aux (by norm_num) h; simp [this]
  rcases hq.dvd_mul.1 h with h | h
  · have := aux (by norm_num) h; simp [this]
  rcases hq.dvd_mul.1 h with h | h
  · have := aux (by norm_num) h; simp [this]
  rcases hq.dvd_mul.1 h with h | h
  · have := aux (by norm_num) h; simp [this]
  rcases hq.dvd_mul.1 h with h | h
  · have := aux (by norm_num) h; simp [this]
  rcases hq.dvd_mul.1 h with h | h
  · have := aux (by norm_num) h; simp [this]
  rcases hq.dvd_mul.1 h with h | h
  · have := aux (by norm_num) (hq.dvd_of_dvd_pow h); simp [this]
  rcases hq.dvd_mul.1 h with h | h
  · have := aux (by norm_num) h; simp [this]
  rcases hq.dvd_mul.1 h with h | h
  · have := aux (by norm_num) h; simp [this]
  rcases hq.dvd_mul.1 h with h | h
  · have := aux (by norm_num) h; simp [this]
  · have := aux (by norm_num) (hq.dvd_of_dvd_pow h); simp [this]

theorem frOrder_prime : frOrder.Prime := by
  refine lucas_primality frOrder ((7 : Nat) : Fr) ?_ ?_
  · have := pow_eq_of_powMod (b := 7) (e := frOrder - 1) (c := 1) (by decide +kernel) (by decide +kernel)
    simpa using this
  · intro q hq hd
    rcases prime_dvd_frOrder_sub_one hq hd with h | h | h | h | h | h | h | h | h | h | h | h <;>
      (subst h; exact pow_ne_one_of_powMod (by decide +kernel) (by decide +kernel))

instance : Fact frOrder.Prime := ⟨frOrder_prime⟩
instance : NeZero frOrder := ⟨frOrder_prime.ne_zero⟩

/-- `Scalar::ROOT_OF_UNITY` of blstrs, used in `cryptography/polynomial/src/domain.rs:90-92`. -/
def ROOT_OF_UNITY : Fr :=
  ((0x16a2a19edfe81f20d09b681922c813b4b63683508c2280b93829971f439f0d2b : Nat) : Fr)

/-- `Scalar::MULTIPLICATIVE_GENERATOR` of blstrs, used in
`cryptography/erasure_codes/src/reed_solomon.rs:86`. -/
def MULTIPLICATIVE_GENERATOR : Fr := ((7 : Nat) : Fr)

theorem rootOfUnity_pow_two_pow (k : Nat) (hk : k ≤ 32) :
    ROOT_OF_UNITY ^ (2 ^ k) = ((powModAux 256 0x16a2a19edfe81f20d09b681922c813b4b63683508c2280b93829971f439f0d2b (2 ^ k) frOrder 1 : Nat) : Fr) := by
  apply pow_eq_powMod
  exact Nat.pow_lt_pow_right (by norm_num) (by omega)

theorem rootOfUnity_primitive : IsPrimitiveRoot ROOT_OF_UNITY (2 ^ 32) := by
  have h1 : ROOT_OF_UNITY ^ (2 ^ 32) = 1 := by
    have := pow_eq_of_powMod (b := 0x16a2a19edfe81f20d09b681922c813b4b63683508c2280b93829971f439f0d2b)
      (e := 2 ^ 32) (c := 1) (by decide +kernel) (by decide +kernel)
    simpa [ROOT_OF_UNITY] using this
  have h2 : ROOT_OF_UNITY ^ (2 ^ 31) ≠ 1 :=
    pow_ne_one_of_powMod (b := 0x16a2a19edfe81f20d09b681922c813b4b63683508c2280b93829971f439f0d2b)
      (e := 2 ^ 31) (by decide +kernel) (by decide +kernel)
  have : orderOf ROOT_OF_UNITY = 2 ^ (31 + 1) :=
    orderOf_eq_prime_pow (p := 2) h2 h1
  have h := IsPrimitiveRoot.orderOf ROOT_OF_UNITY
  rwa [this] at h

theorem generator_pow_ne_one : MULTIPLICATIVE_GENERATOR ^ 8192 ≠ 1 :=
  pow_ne_one_of_powMod (b := 7) (by decide +kernel) (by decide +kernel)

/-- 7 generates the whole multiplicative group. -/
theorem generator_primitive : IsPrimitiveRoot MULTIPLICATIVE_GENERATOR (frOrder - 1) := by
  have h1 : MULTIPLICATIVE_GENERATOR ^ (frOrder - 1) = 1 := by
    have := pow_eq_of_powMod (b := 7) (e := frOrder - 1) (c := 1) (by decide +kernel) (by decide +kernel)
    simpa [MULTIPLICATIVE_GENERATOR] using this
  rw [IsPrimitiveRoot.iff_orderOf]
  apply orderOf_eq_of_pow_and_pow_div_prime (by decide +kernel) h1
  intro q hq hd
  rcases prime_dvd_frOrder_sub_one hq hd with h | h | h | h | h | h | h | h | h | h | h | h <;>
      (subst h; exact pow_ne_one_of_powMod (by decide +kernel) (by decide +kernel))

theorem frOrder_lt : frOrder < 2 ^ 255 := by decide +kernel
theorem frOrder_gt : 2 ^ 254 < frOrder := by decide +kernel

attribute [irreducible] frOrder

end Verif
