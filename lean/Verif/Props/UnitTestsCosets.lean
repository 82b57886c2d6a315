import Verif.Props.UnitTestsRs
import Verif.Props.Naive
import Verif.Props.Transcript

/-! C91: the unit tests of the cosets, of the Toeplitz matrices and of small helpers, as programs. -/
namespace Verif
open UnitTests Polynomial Finset

variable {ε : Type}

theorem bytesSet_congr {l m : List Fr} (h : ∀ x, x ∈ l ↔ x ∈ m) : bytesSet l = bytesSet m := by
  unfold bytesSet
  ext b
  simp [h]

theorem bytesSet_card {l : List Fr} (h : l.Nodup) : (bytesSet l).card = l.length := by
  unfold bytesSet
  rw [List.toFinset_card_of_nodup (h.map scalarToBytesBE_inj), List.length_map]

theorem omega_split (e q k j : Nat) (hq : q ≤ e) (he : e ≤ 32) :
    Spec.omega e ^ k * Spec.omega q ^ j = Spec.omega e ^ (k + j * 2 ^ (e - q)) := by
  rw [← omega_pow q e hq he, ← pow_mul, ← pow_add, mul_comm j]

theorem omega_inj (e : Nat) (he : e ≤ 32) {i j : Nat} (hi : i < 2 ^ e) (hj : j < 2 ^ e)
    (h : Spec.omega e ^ i = Spec.omega e ^ j) : i = j := (omega_primitive e he).pow_inj hi hj h

theorem roots_nodup (e : Nat) (he : e ≤ 32) : ((List.range (2 ^ e)).map fun j => Spec.omega e ^ j).Nodup :=
  List.Nodup.map_on (fun _ hi _ hj h => omega_inj e he (List.mem_range.1 hi) (List.mem_range.1 hj) h) List.nodup_range

/-- C91: the test that the cosets are the chunks of the reversed roots passes for all powers of two. -/
theorem C91_cosets_equality (e q : Nat) (hq : q ≤ e) (he : e < 32) :
    (bitReverseCosetsEquality (2 ^ e) (2 ^ q) : Outcome ε Unit) = .ok () := by
  have h2 : 2 ^ e = 2 ^ (e - q) * 2 ^ q := by rw [← pow_add, Nat.sub_add_cancel hq]
  unfold bitReverseCosetsEquality
  have hroots : (domainOf e).roots = (List.range (2 ^ e)).map fun j => Spec.omega e ^ j := rfl
  rw [assertP_true (Nat.two_pow_pos q).ne', Outcome.ok_bind, assertP_true (by rw [h2, Nat.mul_mod_left]), Outcome.ok_bind,
    generateCosets_eq e q hq he true, Outcome.ok_bind, domain_new_two_pow e he.le, Outcome.ok_bind, hroots,
    reverseBitOrder_eq e he (rep_map_range (2 ^ e) _), Outcome.ok_bind]
  have hch : chunks (2 ^ q) ((List.range (2 ^ e)).map fun i => Spec.omega e ^ Spec.brev e i) =
      (List.range (2 ^ (e - q))).map fun k => (List.range (2 ^ q)).map fun j => Spec.point e (2 ^ q * k + j) := by
    conv_lhs => rw [show (List.range (2 ^ e)) = List.range (2 ^ (e - q) * 2 ^ q) by rw [← h2]]
    rw [chunks_map_range _ _ (Nat.two_pow_pos q)]
    apply List.map_congr_left
    intro k _
    apply List.map_congr_left
    intro j _
    rw [Spec.point, mul_comm k]
  simp only [if_true]
  rw [hch, assertP_true (by simp), Outcome.ok_bind, List.zip_map', (forM_ok_iff _ _).2 (by
    intro x hx
    obtain ⟨k, -, rfl⟩ := List.mem_map.1 hx
    rw [assertP_eq_ok]
    simp), Outcome.ok_bind, forM_ok_iff]
  intro x hx
  obtain ⟨k, hk, rfl⟩ := List.mem_map.1 hx
  have hperm := coset_perm e q k hq he
  have hnd : ((List.range (2 ^ q)).map (fun j => Spec.omega e ^ Spec.brev (e - q) k * Spec.omega q ^ j)).Nodup := by
    have := (roots_nodup q (by omega)).map (f := fun x => Spec.omega e ^ Spec.brev (e - q) k * x)
      (mul_right_injective₀ (pow_ne_zero _ (omega_ne_zero e he.le)))
    rwa [List.map_map] at this
  simp only
  rw [assertP_true (bytesSet_congr fun x => hperm.mem_iff), Outcome.ok_bind, assertP_true (bytesSet_card hnd), Outcome.ok_bind,
    assertP_eq_ok, bytesSet_card (hperm.nodup_iff.1 hnd), hperm.length_eq]

/-- C91: the test that the cosets are disjoint and make up all roots passes for all powers of two. -/
theorem C91_valid_cosets (e q : Nat) (hq : q ≤ e) (he : e < 32) : (checkValidCosets (2 ^ e) (2 ^ q) : Outcome ε Unit) = .ok () := by
  have h2 : 2 ^ e = 2 ^ (e - q) * 2 ^ q := by rw [← pow_add, Nat.sub_add_cancel hq]
  have hroots : (domainOf e).roots = (List.range (2 ^ e)).map fun j => Spec.omega e ^ j := rfl
  unfold checkValidCosets
  rw [generateCosets_eq e q hq he false, Outcome.ok_bind]
  simp only [Bool.false_eq_true, if_false, omega_split e q _ _ hq he.le]
  rw [flatten_rows (2 ^ q) (2 ^ (e - q)) (fun k j => Spec.omega e ^ (k + j * 2 ^ (e - q))), ← h2]
  have hlt : ∀ p < 2 ^ e, p / 2 ^ q + p % 2 ^ q * 2 ^ (e - q) < 2 ^ e := by
    intro p hp
    have h1 : p / 2 ^ q < 2 ^ (e - q) := by
      rw [Nat.div_lt_iff_lt_mul (Nat.two_pow_pos q)]; omega
    have h3 := Nat.mod_lt p (Nat.two_pow_pos q)
    have : (p % 2 ^ q + 1) * 2 ^ (e - q) ≤ 2 ^ q * 2 ^ (e - q) := Nat.mul_le_mul_right _ h3
    rw [add_mul, mul_comm (2 ^ q)] at this
    omega
  have hinj : ∀ p < 2 ^ e, ∀ p' < 2 ^ e, p / 2 ^ q + p % 2 ^ q * 2 ^ (e - q) = p' / 2 ^ q + p' % 2 ^ q * 2 ^ (e - q) → p = p' := by
    intro p hp p' hp' h
    have h1 : p / 2 ^ q < 2 ^ (e - q) := by
      rw [Nat.div_lt_iff_lt_mul (Nat.two_pow_pos q)]; omega
    have h1' : p' / 2 ^ q < 2 ^ (e - q) := by
      rw [Nat.div_lt_iff_lt_mul (Nat.two_pow_pos q)]; omega
    have a := congrArg (· / 2 ^ (e - q)) h
    have b := congrArg (· % 2 ^ (e - q)) h
    simp only [Nat.add_mul_div_right _ _ (Nat.two_pow_pos (e - q)), Nat.div_eq_of_lt h1, Nat.div_eq_of_lt h1', zero_add,
      Nat.add_mul_mod_self_right, Nat.mod_eq_of_lt h1, Nat.mod_eq_of_lt h1'] at a b
    rw [← Nat.div_add_mod p (2 ^ q), a, b, Nat.div_add_mod]
  have hnd : ((List.range (2 ^ e)).map fun p => Spec.omega e ^ (p / 2 ^ q + p % 2 ^ q * 2 ^ (e - q))).Nodup :=
    List.Nodup.map_on (fun i hi j hj h => by
      rw [List.mem_range] at hi hj
      exact hinj i hi j hj (omega_inj e he.le (hlt i hi) (hlt j hj) h)) List.nodup_range
  rw [assertP_true (bytesSet_card hnd).symm, Outcome.ok_bind, domain_new_two_pow e he.le, Outcome.ok_bind, hroots, assertP_eq_ok]
  refine (Finset.eq_of_subset_of_card_le ?_ ?_).symm
  · intro b hb
    simp only [bytesSet, List.mem_toFinset, List.mem_map, List.mem_range] at hb ⊢
    obtain ⟨_, ⟨p, hp, rfl⟩, rfl⟩ := hb
    exact ⟨_, ⟨_, hlt p hp, rfl⟩, rfl⟩
  · rw [bytesSet_card hnd, bytesSet_card (roots_nodup e he.le)]
    simp

/-- C91: the test that the data is at the front of the reversed extension passes for all data and all powers of two. -/
theorem C91_data_first (n : Nat) (hn : n < 31) (data : List Fr) (hd : data.length = 2 ^ n) :
    (testDataDistributionBitReverseOrder (2 ^ n) data : Outcome ε Unit) = .ok () := by
  unfold testDataDistributionBitReverseOrder
  have hR : Rep data (2 ^ n) (fun i => data.getD i 0) := hd ▸ rep_getD data (0 : Fr)
  rw [reverseBitOrder_eq n (by omega) hR, Outcome.ok_bind, domain_new_two_pow n (by omega), Outcome.ok_bind]
  obtain ⟨B, hB, hBl, hBe⟩ := ifftScalars_interp (ε := ε) n (by omega) ((List.range (2 ^ n)).map fun i => data.getD (Spec.brev n i) 0)
  rw [hB, Outcome.ok_bind, show 2 ^ n * 2 = 2 ^ (n + 1) from (pow_succ 2 n).symm, domain_new_two_pow (n + 1) (by omega),
    Outcome.ok_bind, fftScalars_eval (n + 1) (by omega) B (by rw [hBl, pow_succ]; omega), Outcome.ok_bind,
    reverseBitOrder_eq (n + 1) (by omega) (rep_map_range (2 ^ (n + 1)) _), Outcome.ok_bind,
    slice_zero (by rw [List.length_map, List.length_range, hd, pow_succ]; omega), Outcome.ok_bind, assertP_eq_ok]
  rw [hR.eq_map, List.length_map, List.length_range, ← List.map_take, List.take_range,
    show min (2 ^ n) (2 ^ (n + 1)) = 2 ^ n by rw [pow_succ]; omega]
  apply List.map_congr_left
  intro i hi
  rw [List.mem_range] at hi
  rw [Spec.brev_succ', Nat.div_eq_of_lt hi, Nat.mod_eq_of_lt hi, Nat.zero_mod, Nat.zero_add, pow_mul]
  have := omega_pow n (n + 1) (by omega) (by omega)
  rw [show n + 1 - n = 1 by omega, pow_one] at this
  rw [this, hBe _ (Spec.brev_lt n i), (rep_map_range (2 ^ n) _).getD 0 (Spec.brev_lt n i)]
  simp only [Spec.brev_brev n i hi]

/-- C91: the test that the data is spread over the cosets in natural order passes for all data and all powers of two. -/
theorem C91_data_spread (n q : Nat) (hq : q ≤ n + 1) (hn : n < 31) (data : List Fr) (hd : data.length = 2 ^ n) :
    (testDataDistributionOriginalCosets (2 ^ n) (2 ^ q) data : Outcome ε Unit) = .ok () := by
  unfold testDataDistributionOriginalCosets
  have hR : Rep data (2 ^ n) (fun i => data.getD i 0) := hd ▸ rep_getD data (0 : Fr)
  have h2 : 2 ^ (n + 1) = 2 ^ (n + 1 - q) * 2 ^ q := by rw [← pow_add, Nat.sub_add_cancel hq]
  have hp := Nat.two_pow_pos (n + 1 - q)
  have hpq := Nat.two_pow_pos q
  obtain ⟨B, hB, hBl, hBe⟩ := ifftScalars_interp (ε := ε) n (by omega) data
  rw [domain_new_two_pow n (by omega), Outcome.ok_bind, hB, Outcome.ok_bind, show 2 ^ n * 2 = 2 ^ (n + 1) from (pow_succ 2 n).symm,
    generateCosets_eq (n + 1) q hq (by omega) false, Outcome.ok_bind]
  simp only
  rw [domain_new_two_pow (n + 1) (by omega), Outcome.ok_bind, fftScalars_eval (n + 1) (by omega) B (by rw [hBl, pow_succ]; omega),
    Outcome.ok_bind, Nat.pow_div hq (by norm_num), takeEveryNth_eq (0 : Fr) _ (2 ^ (n + 1 - q)) (2 ^ q) hp (by simp [← h2])]
  set F : Nat → Fr := fun j => (Spec.polyOf B).eval (Spec.omega (n + 1) ^ j) with hF
  have hidx : ∀ k < 2 ^ (n + 1 - q), ∀ t < 2 ^ q, k + t * 2 ^ (n + 1 - q) < 2 ^ (n + 1) := by
    intro k hk t ht
    have : (t + 1) * 2 ^ (n + 1 - q) ≤ 2 ^ q * 2 ^ (n + 1 - q) := Nat.mul_le_mul_right _ ht
    rw [add_mul, mul_comm (2 ^ q)] at this
    omega
  have hrows : ((List.range (2 ^ (n + 1 - q))).map fun k => (List.range (2 ^ q)).map fun t =>
      ((List.range (2 ^ (n + 1))).map F).getD (k + t * 2 ^ (n + 1 - q)) 0) =
      (List.range (2 ^ (n + 1 - q))).map fun k => (List.range (2 ^ q)).map fun t => F (k + t * 2 ^ (n + 1 - q)) := by
    apply List.map_congr_left
    intro k hk
    apply List.map_congr_left
    intro t ht
    rw [List.mem_range] at hk ht
    exact (rep_map_range (2 ^ (n + 1)) F).getD 0 (hidx k hk t ht)
  rw [hrows, assertP_true (by
    rw [List.map_map]
    apply List.map_congr_left
    intro k _
    simp only [Function.comp, List.map_map]
    apply List.map_congr_left
    intro t _
    simp only [Function.comp, Bool.false_eq_true, if_false]
    rw [polyEval_eq, omega_split (n + 1) q k t hq (by omega)]), Outcome.ok_bind,
    transpose_spec (0 : Fr) _ (2 ^ q) hpq (by simp) (by
      intro row hrow
      obtain ⟨k, -, rfl⟩ := List.mem_map.1 hrow
      simp), Outcome.ok_bind]
  have htr : ((List.range (2 ^ q)).map fun t => ((List.range (2 ^ (n + 1 - q))).map fun k => (List.range (2 ^ q)).map fun t =>
      F (k + t * 2 ^ (n + 1 - q))).map fun row => row.getD t 0).flatten = (List.range (2 ^ (n + 1))).map F := by
    have : ((List.range (2 ^ q)).map fun t => ((List.range (2 ^ (n + 1 - q))).map fun k => (List.range (2 ^ q)).map fun t =>
      F (k + t * 2 ^ (n + 1 - q))).map fun row => row.getD t 0) = (List.range (2 ^ q)).map fun t =>
        (List.range (2 ^ (n + 1 - q))).map fun k => F (k + t * 2 ^ (n + 1 - q)) := by
      apply List.map_congr_left
      intro t ht
      rw [List.mem_range] at ht
      rw [List.map_map]
      apply List.map_congr_left
      intro k _
      exact (rep_map_range (2 ^ q) _).getD 0 ht
    rw [this, flatten_rows (2 ^ (n + 1 - q)) (2 ^ q) (fun t k => F (k + t * 2 ^ (n + 1 - q))), mul_comm, ← h2]
    apply List.map_congr_left
    intro p _
    rw [mul_comm, Nat.mod_add_div]
  rw [htr]
  have heven : (((List.range (2 ^ (n + 1))).map F).zipIdx.filter fun x => x.2 % 2 = 0).map Prod.fst =
      (List.range (2 ^ n)).map fun i => F (2 * i) := by
    have h3 : ∀ m, (((List.range (m * 2)).map F).zipIdx.filter fun x => x.2 % 2 = 0).map Prod.fst =
        (List.range m).map fun i => F (2 * i) := by
      intro m
      induction m with
      | zero => simp
      | succ m ih =>
        rw [show (m + 1) * 2 = m * 2 + 1 + 1 by omega, List.range_succ, List.range_succ, List.map_append, List.map_append,
          List.zipIdx_append, List.zipIdx_append, List.filter_append, List.filter_append, List.map_append, List.map_append, ih,
          List.range_succ, List.map_append]
        simp [mul_comm m 2, Nat.add_mod]
    rw [pow_succ, h3]
  rw [heven, slice_zero (by simp [hd]), Outcome.ok_bind, assertP_eq_ok, hR.eq_map, List.length_map, List.length_range,
    ← List.map_take, List.take_range, min_self]
  apply List.map_congr_left
  intro i hi
  rw [List.mem_range] at hi
  have := omega_pow n (n + 1) (by omega) (by omega)
  rw [show n + 1 - n = 1 by omega, pow_one] at this
  rw [hF]
  simp only
  rw [pow_mul, this, hBe i hi]

theorem brev_sum (l n : Nat) : Spec.brev l n = ∑ i ∈ range l, n / 2 ^ i % 2 * 2 ^ (l - 1 - i) := by
  induction l generalizing n with
  | zero => simp [Spec.brev]
  | succ l ih =>
    rw [Spec.brev, ih, sum_range_succ', add_comm]
    congr 1
    · apply sum_congr rfl
      intro i _
      rw [pow_succ', Nat.div_div_eq_div_mul, show l + 1 - 1 - (i + 1) = l - 1 - i by omega]
    · simp

theorem reverseBits32_eq (n : Nat) : reverseBits32 n = Spec.brev 32 n := by
  have : ∀ (m a : Nat), (List.range m).foldl (fun acc i => acc + (n / 2 ^ i % 2) * 2 ^ (31 - i)) a =
      a + ∑ i ∈ range m, n / 2 ^ i % 2 * 2 ^ (31 - i) := by
    intro m
    induction m with
    | zero => simp
    | succ m ih =>
      intro a
      rw [List.range_succ, List.foldl_append, ih, sum_range_succ]
      simp [add_assoc]
  rw [reverseBits32, this, brev_sum, zero_add]

/-- C91: the test of the bit reversal passes for every number of values. -/
theorem C91_bit_reverse (count : Nat) : (bitReverseFuzz count : Outcome ε Unit) = .ok () := by
  unfold bitReverseFuzz
  rw [forM_ok_iff]
  intro i _
  rw [forM_ok_iff]
  intro e he
  rw [List.mem_range] at he
  simp only
  unfold naiveBitReverse
  rw [assertP_true (isPow2_two_pow _), Outcome.ok_bind, trailingZeros32_two_pow _ (by omega), Outcome.pure_eq, Outcome.ok_bind,
    log2u32_two_pow _ (by omega), Outcome.ok_bind, assertP_eq_ok, reverseBits_eq _ _ (by omega), reverseBits32_eq,
    Nat.shiftRight_eq_div_pow]
  have h := Spec.brev_add (e + 1) (32 - (e + 1)) i
  rw [show e + 1 + (32 - (e + 1)) = 32 by omega] at h
  have hlt := Spec.brev_lt (e + 1) i
  rw [h, Nat.add_mul_div_left _ _ (Nat.two_pow_pos _), Nat.div_eq_of_lt (Spec.brev_lt _ _), zero_add, Spec.brev_mod,
    Nat.mod_eq_of_lt (lt_of_lt_of_le hlt (Nat.pow_le_pow_right (by norm_num) (by omega)))]

/-- C91: the test of the powers passes for every base; the test of the shift passes exactly if the remaining coefficients are
expected. -/
theorem C91_powers (base : Fr) : (testComputePowers base : Outcome ε Unit) = .ok () := by
  unfold testComputePowers
  simp only [computePowers_eq]
  rw [assertP_true (by simp), Outcome.ok_bind, (forM_ok_iff _ _).2 (by
    intro i hi
    rw [List.mem_range] at hi
    rw [idx_lt (by simpa using hi), Outcome.ok_bind, assertP_eq_ok]
    simp), Outcome.ok_bind, assertP_eq_ok]
  rfl

theorem C91_shift (poly : List Fr) (degree : Nat) (expected : List Fr) :
    (checkDivideByMonomialFloor poly degree expected : Outcome ε Unit) = .ok () ↔ expected = poly.drop degree := by
  unfold checkDivideByMonomialFloor
  rw [shiftPolynomial_eq, Outcome.ok_bind, assertP_eq_ok, eq_comm]

theorem allFold {α : Type} (l : List α) (P : α → Bool) (b : Bool) (body : Bool → α → Outcome ε Bool)
    (h : ∀ x ∈ l, ∀ b, body b x = .ok (b && P x)) : l.foldlM body b = .ok (b && l.all P) := by
  induction l generalizing b with
  | nil => simp
  | cons x l ih =>
    rw [List.foldlM_cons, h x (by simp), Outcome.ok_bind, ih _ (fun y hy => h y (by simp [hy])), List.all_cons, Bool.and_assoc]

theorem isToeplitz_eq (n : Nat) (hn : 0 < n) (F : Nat → Nat → Fr) :
    (isToeplitz ((List.range n).map fun i => (List.range n).map (F i)) : Outcome ε Bool) =
      .ok ((List.range (n - 1)).all fun i => (List.range (n - 1)).all fun j => F i j == F (i + 1) (j + 1)) := by
  obtain ⟨m, rfl⟩ : ∃ m, n = m + 1 := ⟨n - 1, by omega⟩
  unfold isToeplitz
  rw [List.range_succ_eq_map, List.map_cons, List.map_cons]
  simp only [List.isEmpty_cons, Bool.false_eq_true, if_false]
  rw [← List.map_cons (f := F 0), ← List.range_succ_eq_map, ← List.map_cons (f := fun i => (List.range (m + 1)).map (F i)),
    ← List.range_succ_eq_map]
  simp only [List.length_map, List.length_range]
  rw [allFold (P := fun i => (List.range (m + 1 - 1)).all fun j => F i j == F (i + 1) (j + 1)), Bool.true_and]
  intro i hi b
  rw [List.mem_range] at hi
  apply allFold
  intro j hj b
  rw [List.mem_range] at hj
  have e1 : ∀ i < m + 1, (idx ((List.range (m + 1)).map fun i => (List.range (m + 1)).map (F i)) i : Outcome ε (List Fr)) =
      .ok ((List.range (m + 1)).map (F i)) := fun i hi => by
    rw [idx_lt (by simpa using hi)]; simp
  have e2 : ∀ i, ∀ j < m + 1, (idx ((List.range (m + 1)).map (F i)) j : Outcome ε Fr) = .ok (F i j) := fun i j hj => by
    rw [idx_lt (by simpa using hj)]; simp
  rw [e1 i (by omega), Outcome.ok_bind, e1 (i + 1) (by omega), Outcome.ok_bind, e2 i j (by omega), Outcome.ok_bind,
    e2 (i + 1) (j + 1) (by omega), Outcome.ok_bind, Outcome.pure_eq]

/-- C91: the test of the dense Toeplitz matrix passes for all rows and columns of one length of at least two, exactly if the
changed value differs from the diagonal. -/
theorem C91_dense_toeplitz (n : Nat) (hn : 2 ≤ n) (first second : List Fr) (h1 : first.length = n) (h2 : second.length = n)
    (changed : Fr) : (smokeTestCheckDenseToeplitzMatrixConstruction first second changed : Outcome ε Unit) = .ok () ↔
      changed ≠ first.getD 0 0 := by
  unfold smokeTestCheckDenseToeplitzMatrixConstruction ToeplitzMatrix.new
  rw [assertP_true ⟨by rintro rfl; simp at h1; omega, by rintro rfl; simp at h2; omega⟩, Outcome.ok_bind, Outcome.pure_eq,
    Outcome.ok_bind, denseFromToeplitz_eq _ n h1 h2, Outcome.ok_bind, isToeplitz_eq n (by omega), Outcome.ok_bind]
  set tm : ToeplitzMatrix := ⟨first, second⟩ with htm
  have hstep : ∀ i j, denseEntry tm i j = denseEntry tm (i + 1) (j + 1) := by
    intro i j
    unfold denseEntry
    by_cases h : i ≤ j
    · rw [if_pos h, if_pos (by omega), show j + 1 - (i + 1) = j - i by omega]
    · rw [if_neg h, if_neg (by omega), show i + 1 - (j + 1) = i - j by omega]
  rw [assertP_true (by
    rw [List.all_eq_true]
    intro i _
    rw [List.all_eq_true]
    intro j _
    simpa using hstep i j), Outcome.ok_bind, idx_lt (by simpa using (by omega : 0 < n)), Outcome.ok_bind,
    setIdx_lt _ (by simpa using (by omega : 0 < n)), Outcome.ok_bind, setIdx_lt _ (by simpa using (by omega : 0 < n)),
    Outcome.ok_bind]
  have hset : ((List.range n).map fun i => (List.range n).map (denseEntry tm i)).set 0
      ((((List.range n).map fun i => (List.range n).map (denseEntry tm i))[0]'(by simpa using (by omega : 0 < n))).set 0 changed) =
      (List.range n).map fun i => (List.range n).map fun j => if i = 0 ∧ j = 0 then changed else denseEntry tm i j := by
    apply List.ext_getElem
    · simp
    · intro i hi hi'
      rw [List.getElem_set]
      by_cases h : 0 = i
      · subst h
        rw [if_pos rfl]
        apply List.ext_getElem
        · simp
        · intro j hj hj'
          rw [List.getElem_set]
          by_cases h : 0 = j
          · subst h; simp
          · rw [if_neg h]
            simp [Ne.symm h]
      · rw [if_neg h]
        simp only [List.getElem_map, List.getElem_range]
        apply List.map_congr_left
        intro j _
        rw [if_neg (by omega)]
  rw [hset, isToeplitz_eq n (by omega), Outcome.ok_bind, assertP_eq_ok, Bool.eq_false_iff]
  have h00 : denseEntry tm 0 0 = first.getD 0 0 := by simp [denseEntry, htm]
  constructor
  · intro h he
    apply h
    rw [List.all_eq_true]
    intro i _
    rw [List.all_eq_true]
    intro j _
    rw [beq_iff_eq, if_neg (c := i + 1 = 0 ∧ j + 1 = 0) (by omega)]
    by_cases h0 : i = 0 ∧ j = 0
    · rw [if_pos h0, he, ← h00, h0.1, h0.2, hstep]
    · rw [if_neg h0, hstep]
  · intro hne h
    rw [List.all_eq_true] at h
    have h := h 0 (by simp; omega)
    rw [List.all_eq_true] at h
    have h := h 0 (by simp; omega)
    rw [beq_iff_eq, if_pos ⟨rfl, rfl⟩, if_neg (by omega), ← hstep, h00] at h
    exact hne h

/-- C91: the test of the dense product passes exactly if the expected values are the products of the rows with the vector. -/
theorem C91_dense_product (n : Nat) (hn : 0 < n) (row col vector expected : List Fr) (h1 : row.length = n) (h2 : col.length = n)
    (h3 : vector.length = n) : (smokeTestDenseMatrixVectorMul row col vector expected : Outcome ε Unit) = .ok () ↔
      expected = (List.range n).map fun a => ∑ b ∈ range n,
        (if a ≤ b then row.getD (b - a) 0 else col.getD (a - b) 0) * vector.getD b 0 := by
  unfold smokeTestDenseMatrixVectorMul ToeplitzMatrix.new
  rw [assertP_true ⟨by rintro rfl; simp at h1; omega, by rintro rfl; simp at h2; omega⟩, Outcome.ok_bind, Outcome.pure_eq,
    Outcome.ok_bind]
  have := denseVectorMul_eq (ε := ε) ⟨row, col⟩ vector n hn h1 h2 h3
  rw [bind_eq_ok] at this
  obtain ⟨dm, hd, hm⟩ := this
  rw [hd, Outcome.ok_bind, hm, Outcome.ok_bind, assertP_eq_ok, eq_comm]
  rfl

/-- C91: the test that compares the circulant with the dense product passes for all rows and columns with the same corner. -/
theorem C91_circulant (k : Nat) (hk : k + 1 ≤ 32) (first second vector : List Fr) (h1 : first.length = 2 ^ k)
    (h2 : second.length = 2 ^ k) (h0 : first.head? = second.head?) (h3 : vector.length = 2 ^ k) :
    (smokeTestCirculantMatrix first second vector : Outcome ε Unit) = .ok () := by
  have hp := Nat.two_pow_pos k
  unfold smokeTestCirculantMatrix ToeplitzMatrix.new
  rw [assertP_true ⟨by rintro rfl; simp at h1; omega, by rintro rfl; simp at h2; omega⟩, Outcome.ok_bind, Outcome.pure_eq,
    Outcome.ok_bind]
  obtain ⟨r, e1, e2⟩ := C62_toeplitz_dense (ε := ε) ⟨first, second⟩ k hk h1 h2 h0 vector h3
  rw [bind_eq_ok] at e2
  obtain ⟨dm, hd, hm⟩ := e2
  rw [hd, Outcome.ok_bind, e1, Outcome.ok_bind, hm, Outcome.ok_bind, assertP_eq_ok]

theorem forM_bind_ok {α : Type} {l : List α} {f : α → Outcome ε Unit} {g : Unit → Outcome ε Unit} :
    (l.forM f >>= g) = .ok () ↔ (∀ a ∈ l, f a = .ok ()) ∧ g () = .ok () := by
  rw [bind_eq_ok, ← forM_ok_iff]
  exact ⟨fun ⟨_, h, h'⟩ => ⟨h, h'⟩, fun ⟨h, h'⟩ => ⟨(), h, h'⟩⟩

theorem recover_six (x : Nat → Fr) : (recoverEvaluationsInDomainOrder 32 [1, 2, 4, 5, 6, 7] [[x 4, x 5, x 6, x 7], [x 8, x 9, x 10, x 11], [x 16, x 17, x 18, x 19], [x 20, x 21, x 22, x 23], [x 24, x 25, x 26, x 27], [x 28, x 29, x 30, x 31]] :
      Outcome ε _) = .ok (some ([4, 2, 1, 5, 3, 7], [0, x 16, x 8, x 24, x 4, x 20, 0, x 28, 0, x 18, x 10, x 26, x 6, x 22, 0, x 30, 0, x 17, x 9, x 25, x 5, x 21, 0, x 29, 0, x 19, x 11, x 27, x 7, x 23, 0, x 31])) := by
  obtain ⟨y, h1, h2, h3, h4⟩ := recoverEvaluations_spec (ε := ε) 2 3 (by decide) [1, 2, 4, 5, 6, 7] [[x 4, x 5, x 6, x 7], [x 8, x 9, x 10, x 11], [x 16, x 17, x 18, x 19], [x 20, x 21, x 22, x 23], [x 24, x 25, x 26, x 27], [x 28, x 29, x 30, x 31]]
    rfl (by decide) (by decide) (by decide) (by simp)
  refine h1.trans ?_
  have hy : y = [0, x 16, x 8, x 24, x 4, x 20, 0, x 28, 0, x 18, x 10, x 26, x 6, x 22, 0, x 30, 0, x 17, x 9, x 25, x 5, x 21, 0, x 29, 0, x 19, x 11, x 27, x 7, x 23, 0, x 31] := by
    refine List.ext_getElem? fun p => ?_
    by_cases hp : p < 32
    · interval_cases p
      · exact h4 0 (by decide) (by decide)
      · exact h3 2 (by decide) 0 (by decide)
      · exact h3 1 (by decide) 0 (by decide)
      · exact h3 4 (by decide) 0 (by decide)
      · exact h3 0 (by decide) 0 (by decide)
      · exact h3 3 (by decide) 0 (by decide)
      · exact h4 6 (by decide) (by decide)
      · exact h3 5 (by decide) 0 (by decide)
      · exact h4 8 (by decide) (by decide)
      · exact h3 2 (by decide) 2 (by decide)
      · exact h3 1 (by decide) 2 (by decide)
      · exact h3 4 (by decide) 2 (by decide)
      · exact h3 0 (by decide) 2 (by decide)
      · exact h3 3 (by decide) 2 (by decide)
      · exact h4 14 (by decide) (by decide)
      · exact h3 5 (by decide) 2 (by decide)
      · exact h4 16 (by decide) (by decide)
      · exact h3 2 (by decide) 1 (by decide)
      · exact h3 1 (by decide) 1 (by decide)
      · exact h3 4 (by decide) 1 (by decide)
      · exact h3 0 (by decide) 1 (by decide)
      · exact h3 3 (by decide) 1 (by decide)
      · exact h4 22 (by decide) (by decide)
      · exact h3 5 (by decide) 1 (by decide)
      · exact h4 24 (by decide) (by decide)
      · exact h3 2 (by decide) 3 (by decide)
      · exact h3 1 (by decide) 3 (by decide)
      · exact h3 4 (by decide) 3 (by decide)
      · exact h3 0 (by decide) 3 (by decide)
      · exact h3 3 (by decide) 3 (by decide)
      · exact h4 30 (by decide) (by decide)
      · exact h3 5 (by decide) 3 (by decide)
    · rw [List.getElem?_eq_none (by rw [h2]; simpa using hp), List.getElem?_eq_none (by simpa using hp)]
  rw [hy]
  rfl

/-- C91: `show_data_distribution_on_recover_evaluations_in_domain_order` passes on 32 values exactly if those of the six cosets that
are kept are not zero. -/
theorem C91_data_shown (evaluations : List Fr) (hl : evaluations.length = 32) :
    (showDataDistribution evaluations : Outcome ε Unit) = .ok () ↔
      ∀ i (hi : i < 32), i / 4 ≠ 0 → i / 4 ≠ 3 → evaluations[i] ≠ 0 := by
  obtain ⟨x, hx⟩ : ∃ x : Nat → Fr, evaluations = (List.range 32).map x :=
    ⟨fun i => evaluations.getD i 0, List.ext_getElem (by simp [hl]) fun i h1 h2 => by simp [List.getD_eq_getElem?_getD, h1]⟩
  have hb : (log2u32 8 : Outcome ε Nat) = .ok 3 := by rfl
  have h1 : (((chunks 4 ((List.range 32).map x)).zipIdx.filter fun q => q.2 ≠ 0 ∧ q.2 ≠ 3).map Prod.fst) = [[x 4, x 5, x 6, x 7], [x 8, x 9, x 10, x 11], [x 16, x 17, x 18, x 19], [x 20, x 21, x 22, x 23], [x 24, x 25, x 26, x 27], [x 28, x 29, x 30, x 31]] := by
    have : chunks 4 ((List.range 32).map x) = [[x 0, x 1, x 2, x 3], [x 4, x 5, x 6, x 7], [x 8, x 9, x 10, x 11],
        [x 12, x 13, x 14, x 15], [x 16, x 17, x 18, x 19], [x 20, x 21, x 22, x 23], [x 24, x 25, x 26, x 27],
        [x 28, x 29, x 30, x 31]] := by simp [chunks, List.range_succ]
    rw [this]
    simp
  have h2 : ((List.range 8).filter fun i => i ≠ 0 ∧ i ≠ 3) = [1, 2, 4, 5, 6, 7] := by decide
  have h3 : (showDataDistribution evaluations : Outcome ε Unit) = .ok () ↔ x 4 ≠ 0 ∧ x 5 ≠ 0 ∧ x 6 ≠ 0 ∧ x 7 ≠ 0 ∧ x 8 ≠ 0 ∧ x 9 ≠ 0 ∧ x 10 ≠ 0 ∧ x 11 ≠ 0 ∧ x 16 ≠ 0 ∧ x 17 ≠ 0 ∧ x 18 ≠ 0 ∧ x 19 ≠ 0 ∧ x 20 ≠ 0 ∧ x 21 ≠ 0 ∧ x 22 ≠ 0 ∧ x 23 ≠ 0 ∧ x 24 ≠ 0 ∧ x 25 ≠ 0 ∧ x 26 ≠ 0 ∧ x 27 ≠ 0 ∧ x 28 ≠ 0 ∧ x 29 ≠ 0 ∧ x 30 ≠ 0 ∧ x 31 ≠ 0 := by
    rw [hx]
    unfold showDataDistribution
    dsimp only
    rw [h1, h2, recover_six, Outcome.ok_bind]
    have e0 : reverseBits 0 3 = 0 := by decide
    have e3 : reverseBits 3 3 = 6 := by decide
    simp only [expect, Outcome.ok_bind, hb, e0, e3]
    have hc : chunks 8 [0, x 16, x 8, x 24, x 4, x 20, 0, x 28, 0, x 18, x 10, x 26, x 6, x 22, 0, x 30, 0, x 17, x 9, x 25, x 5, x 21, 0, x 29, 0, x 19, x 11, x 27, x 7, x 23, 0, x 31] = [[0, x 16, x 8, x 24, x 4, x 20, 0, x 28], [0, x 18, x 10, x 26, x 6, x 22, 0, x 30], [0, x 17, x 9, x 25, x 5, x 21, 0, x 29], [0, x 19, x 11, x 27, x 7, x 23, 0, x 31]] := by
      simp [chunks, List.range_succ]
    rw [hc, assertP_true (show ¬ [4, 2, 1, 5, 3, 7].contains 0 = true by decide),
      assertP_true (show ¬ [4, 2, 1, 5, 3, 7].contains 6 = true by decide)]
    rw [forM_bind_ok]
    simp only [List.forall_mem_cons, forM_ok_iff, List.zipIdx_cons, List.zipIdx_nil]
    simp [assertP_eq_ok]
    tauto
  rw [h3]
  constructor
  · rintro h i hi h0 h3
    interval_cases i <;> simp_all
  · intro h
    have h' : ∀ i (hi : i < 32), i / 4 ≠ 0 → i / 4 ≠ 3 → x i ≠ 0 := fun i hi a b => by simpa [hx] using h i hi a b
    exact ⟨h' 4 (by decide) (by decide) (by decide), h' 5 (by decide) (by decide) (by decide), h' 6 (by decide) (by decide) (by decide), h' 7 (by decide) (by decide) (by decide), h' 8 (by decide) (by decide) (by decide), h' 9 (by decide) (by decide) (by decide), h' 10 (by decide) (by decide) (by decide), h' 11 (by decide) (by decide) (by decide), h' 16 (by decide) (by decide) (by decide), h' 17 (by decide) (by decide) (by decide), h' 18 (by decide) (by decide) (by decide), h' 19 (by decide) (by decide) (by decide), h' 20 (by decide) (by decide) (by decide), h' 21 (by decide) (by decide) (by decide), h' 22 (by decide) (by decide) (by decide), h' 23 (by decide) (by decide) (by decide), h' 24 (by decide) (by decide) (by decide), h' 25 (by decide) (by decide) (by decide), h' 26 (by decide) (by decide) (by decide), h' 27 (by decide) (by decide) (by decide), h' 28 (by decide) (by decide) (by decide), h' 29 (by decide) (by decide) (by decide), h' 30 (by decide) (by decide) (by decide), h' 31 (by decide) (by decide) (by decide)⟩

/-! The values of the repository. -/
example : (bitReverseCosetsEquality 8192 64 : Outcome Unit Unit) = .ok () := C91_cosets_equality 13 6 (by norm_num) (by norm_num)
example : (checkValidCosets 8192 64 : Outcome Unit Unit) = .ok () := C91_valid_cosets 13 6 (by norm_num) (by norm_num)
example : (testDataDistributionBitReverseOrder 4096 ((List.range 4096).map fun (i : Nat) => (i : Fr)) : Outcome Unit Unit) = .ok () :=
  C91_data_first 12 (by norm_num) _ (by simp)
example : (testDataDistributionOriginalCosets 4096 64 ((List.range 4096).map fun (i : Nat) => (i : Fr)) : Outcome Unit Unit) =
    .ok () := C91_data_spread 12 6 (by norm_num) (by norm_num) _ (by simp)
example : (showDataDistribution ((List.range 32).map fun (i : Nat) => ((i + 1 : Nat) : Fr)) : Outcome Unit Unit) = .ok () :=
  (C91_data_shown _ (by simp)).2 (by decide +kernel)
example : (showDataDistribution ((List.range 32).map fun (i : Nat) => ((i - 16 : Nat) : Fr)) : Outcome Unit Unit) ≠ .ok () :=
  fun h => (C91_data_shown _ (by simp)).1 h 16 (by decide) (by decide) (by decide) (by decide +kernel)
example : (bitReverseFuzz 10 : Outcome Unit Unit) = .ok () := C91_bit_reverse 10
example : (testComputePowers 2 : Outcome Unit Unit) = .ok () := C91_powers 2
example : (checkDivideByMonomialFloor [10, 1, 1] 1 [1, 1] : Outcome Unit Unit) = .ok () := (C91_shift _ _ _).2 rfl
example : (smokeTestCheckDenseToeplitzMatrixConstruction [1, 2, 3] [1, 5, 6] 2 : Outcome Unit Unit) = .ok () :=
  (C91_dense_toeplitz 3 (by norm_num) _ _ rfl rfl _).2 (by decide +kernel)
example : (smokeTestDenseMatrixVectorMul [1, 5, 6] [1, 2, 3] [1, 2, 3] [29, 19, 10] : Outcome Unit Unit) = .ok () :=
  (C91_dense_product 3 (by norm_num) _ _ _ _ rfl rfl rfl).2 (by decide +kernel)
example : (smokeTestCirculantMatrix [1, 2, 3, 4] [1, 5, 6, 7] [1, 2, 3, 4] : Outcome Unit Unit) = .ok () :=
  C91_circulant 2 (by norm_num) _ _ _ rfl rfl rfl rfl
example : (smokeTestDownsample : Outcome Unit Unit) = .ok () := by decide +kernel

end Verif
