import Mathlib.Data.Nat.Prime.Basic
import Mathlib.FieldTheory.Finite.Basic
import Mathlib.GroupTheory.OrderOfElement
import Mathlib.Tactic.NormNum.Prime

/-!
Pocklington's criterion: if `s` is a prime divisor of `n - 1` and some `a` has `a ^ (n - 1) = 1` modulo `n` while
`a ^ ((n - 1) / s) - 1` is prime to `n`, then every prime divisor of `n` is one more than a multiple of `s`. It is used to prove
that the large factor of the order of the curve of G2 is prime.
-/
namespace Verif

/-- `a ^ e % n` by repeated squaring, with enough fuel for `e < 2 ^ fuel` -/
def powMod (n : Nat) : Nat → Nat → Nat → Nat
  | 0, _, _ => 1 % n
  | fuel + 1, a, e =>
    let h := powMod n fuel (a * a % n) (e / 2)
    if e % 2 = 1 then a * h % n else h

theorem powMod_eq (n : Nat) : ∀ (fuel a e : Nat), e < 2 ^ fuel → powMod n fuel a e % n = a ^ e % n
  | 0, a, e, h => by
    have : e = 0 := by simpa using h
    subst this
    simp [powMod]
  | fuel + 1, a, e, h => by
    have ih := powMod_eq n fuel (a * a % n) (e / 2) (by rw [pow_succ] at h; omega)
    have h2 : a ^ e = (a * a) ^ (e / 2) * a ^ (e % 2) := by
      rw [← pow_two, ← pow_mul, ← pow_add]
      congr 1
      omega
    rw [← Nat.pow_mod] at ih
    unfold powMod
    rcases Nat.mod_two_eq_zero_or_one e with e0 | e1
    · simp only [e0, zero_ne_one, if_false]
      rw [ih, h2, e0, pow_zero, mul_one]
    · simp only [e1, if_true, Nat.mod_mod]
      rw [Nat.mul_mod, ih, ← Nat.mul_mod, h2, e1, pow_one, mul_comm]

/-- the conditions of the criterion, decided by computation -/
def pocklingtonCheck (n s a : Nat) : Bool :=
  decide (s * ((n - 1) / s) = n - 1) && decide (powMod n 512 a (n - 1) % n = 1) &&
    decide (Nat.gcd (powMod n 512 a ((n - 1) / s) + (n - 1)) n = 1)

theorem pocklington_dvd {n s a : Nat} (hn : 1 < n) (hlt : n < 2 ^ 512) (hs : s.Prime) (h : pocklingtonCheck n s a = true)
    {l : Nat} (hl : l.Prime) (hln : l ∣ n) : s ∣ l - 1 := by
  simp only [pocklingtonCheck, Bool.and_eq_true, decide_eq_true_eq] at h
  obtain ⟨⟨hk, h1⟩, h2⟩ := h
  have : Fact l.Prime := ⟨hl⟩
  have cast_eq : ∀ x y : Nat, x % n = y % n → (x : ZMod l) = y := fun x y e =>
    (ZMod.natCast_eq_natCast_iff x y l).2 ((show x ≡ y [MOD n] from e).of_dvd hln)
  have p1 : ((a : ZMod l)) ^ (n - 1) = 1 := by
    have := cast_eq _ _ (powMod_eq n 512 a (n - 1) (by omega))
    have e := cast_eq (powMod n 512 a (n - 1)) 1 (by rw [h1, Nat.mod_eq_of_lt hn])
    rw [this] at e
    push_cast at e
    exact e
  have p2 : ((a : ZMod l)) ^ ((n - 1) / s) ≠ 1 := by
    intro e
    have hle : (n - 1) / s < 2 ^ 512 := (Nat.div_le_self _ _).trans_lt (by omega)
    have := cast_eq _ _ (powMod_eq n 512 a ((n - 1) / s) hle)
    push_cast at this
    have hz : ((powMod n 512 a ((n - 1) / s) + (n - 1) : Nat) : ZMod l) = 0 := by
      rw [Nat.cast_add, this, e, Nat.cast_sub hn.le, (ZMod.natCast_eq_zero_iff _ _).2 hln]
      simp
    have hd : l ∣ 1 := by
      rw [← h2]
      exact Nat.dvd_gcd ((ZMod.natCast_eq_zero_iff _ _).1 hz) hln
    exact hl.one_lt.ne' (Nat.dvd_one.1 hd)
  set b : ZMod l := (a : ZMod l) ^ ((n - 1) / s) with hb
  have hbs : b ^ s = 1 := by rw [hb, ← pow_mul, mul_comm, hk, p1]
  have hb0 : b ≠ 0 := by
    intro e
    rw [e, zero_pow hs.ne_zero] at hbs
    exact zero_ne_one hbs
  have := Fact.mk hs
  rw [← orderOf_eq_prime hbs p2]
  exact orderOf_dvd_of_pow_eq_one (ZMod.pow_card_sub_one_eq_one hb0)

/-- with a divisor of `n - 1` whose square exceeds `n`, the number is prime -/
theorem prime_of_divisors {n F : Nat} (hn : 1 < n) (hF : n < F * F) (h : ∀ l : Nat, l.Prime → l ∣ n → F ∣ l - 1) : n.Prime := by
  by_contra hc
  have hp : n.minFac.Prime := Nat.minFac_prime hn.ne'
  have hsq : n.minFac ^ 2 ≤ n := Nat.minFac_sq_le_self (by omega) hc
  have hle := Nat.le_of_dvd (by have := hp.two_le; omega) (h _ hp (Nat.minFac_dvd n))
  have h2 : F ≤ n.minFac := hle.trans (Nat.sub_le _ _)
  have := Nat.mul_le_mul h2 h2
  rw [← pow_two n.minFac] at this
  omega

theorem pocklington {n s : Nat} (a : Nat) (hs : s.Prime) (hn : 1 < n) (hlt : n < 2 ^ 512) (hF : n < s * s)
    (h : pocklingtonCheck n s a = true) : n.Prime :=
  prime_of_divisors hn hF fun _ hl hln => pocklington_dvd hn hlt hs h hl hln

theorem prime_44 : Nat.Prime 12192593745179 := by
  have h1 : Nat.Prime 541 := by norm_num
  have h2 : Nat.Prime 1367711 := by norm_num
  refine prime_of_divisors (F := 541 * 1367711) (by norm_num) (by norm_num) fun l hl hln => ?_
  exact Nat.Coprime.mul_dvd_of_dvd_of_dvd (by norm_num)
    (pocklington_dvd (a := 2) (by norm_num) (by decide +kernel) h1 (by decide +kernel) hl hln)
    (pocklington_dvd (a := 2) (by norm_num) (by decide +kernel) h2 (by decide +kernel) hl hln)

/-- The large prime factor of the number of points of the curve of G2. -/
def cofactorPrime : Nat :=
  402096035359507321594726366720466575392706800671181159425656785868777272553337714697862511267018014931937703598282857976535744623203249

theorem cofactorPrime_prime : cofactorPrime.Prime := by
  have h1 := pocklington (n := 512088937297519) 2 prime_44 (by decide +kernel) (by decide +kernel) (by decide +kernel) (by decide +kernel)
  have h2 := pocklington (n := 1857858664515398933) 2 h1 (by decide +kernel) (by decide +kernel) (by decide +kernel) (by decide +kernel)
  have h3 := pocklington (n := 22294303974184787197) 2 h2 (by decide +kernel) (by decide +kernel) (by decide +kernel) (by decide +kernel)
  have h4 := pocklington (n := 19931107752921199754119) 2 h3 (by decide +kernel) (by decide +kernel) (by decide +kernel) (by decide +kernel)
  have h5 := pocklington (n := 81162125843606155545104998607900118769099783) 2 h4 (by decide +kernel) (by decide +kernel) (by decide +kernel)
    (by decide +kernel)
  have h6 := pocklington (n := 26935696298915610574513298451669528361624243820491956655650666425177) 2 h5 (by decide +kernel)
    (by decide +kernel) (by decide +kernel) (by decide +kernel)
  have h7 := pocklington
    (n := 4638704574076146691498289350639807119782054683906549022985642612861209609656189848749536921852444848596916990932297) 2 h6
    (by decide +kernel) (by decide +kernel) (by decide +kernel) (by decide +kernel)
  exact pocklington 2 h7 (by decide +kernel) (by decide +kernel) (by decide +kernel) (by decide +kernel)

end Verif
