import Mathlib.FieldTheory.KummerExtension
import Verif.Props.UnitTests
import Verif.Props.ErasureCode

/-! C91: the unit tests of the crate `erasure_codes`, as programs. -/
namespace Verif
open UnitTests Polynomial Finset

variable {ε : Type}

theorem chunks_map_range {α : Type} (k n : Nat) (hk : 0 < k) (f : Nat → α) :
    chunks k ((List.range (n * k)).map f) = (List.range n).map fun b => (List.range k).map fun i => f (b * k + i) := by
  unfold chunks
  rw [List.length_map, List.length_range, show (n * k + k - 1) / k = n by
    rw [show n * k + k - 1 = (k - 1) + k * n by rw [mul_comm]; omega, Nat.add_mul_div_left _ _ hk, Nat.div_eq_of_lt (by omega),
      Nat.zero_add]]
  apply List.map_congr_left
  intro b hb
  rw [List.mem_range] at hb
  apply List.ext_getElem
  · simp only [List.length_take, List.length_drop, List.length_map, List.length_range]
    have : (b + 1) * k ≤ n * k := Nat.mul_le_mul_right k hb
    rw [add_mul] at this
    omega
  · intro i h1 h2
    simp

theorem rs_encode (a b c : Nat) (hab : a + b ≤ 32) (msg : List Fr) (hmsg : msg.length ≤ 2 ^ a) : (rsOf a b c).encode msg =
    .ok ((List.range (2 ^ (a + b))).map (fun j => (Spec.polyOf msg).eval (Spec.omega (a + b) ^ j))) := by
  have hle : 2 ^ a ≤ 2 ^ (a + b) := Nat.pow_le_pow_right (by norm_num) (by omega)
  unfold ReedSolomon.encode rsOf
  simp only
  rw [if_neg (by omega), fftScalars_eval (a + b) hab msg (by omega)]

/-- C91: erasing all blocks panics as the test demands, for all powers of two. -/
theorem C91_vanishing_panics (a b c : Nat) (hab : a + b ≤ 32) (hc : c ≤ 32) :
    (testComputeVanishingPanics (2 ^ a) (2 ^ b) (2 ^ c) : Outcome ε Unit) = .panic := by
  unfold testComputeVanishingPanics
  rw [rs_new a b c hab hc, Outcome.ok_bind]
  unfold ReedSolomon.constructVanishingPolyFromBlockErasures
  rw [assertP_false (by simp [rsOf])]
  rfl

/-- C91: the test of the recovery without erasures passes for every message of full length and all powers of two. -/
theorem C91_recovery_no_erasures (a b c : Nat) (hc : c ≤ a + b) (hab : a + b ≤ 32) (msg : List Fr) (hmsg : msg.length = 2 ^ a) :
    (smokeTestRecoveryNoErasures (2 ^ a) (2 ^ b) (2 ^ c) msg : Outcome ε Unit) = .ok () := by
  unfold smokeTestRecoveryNoErasures
  obtain ⟨rs, cw, m, h1, h2, -, h4⟩ := C21_decodes a b c hc hab msg hmsg.le
    ((List.range (2 ^ (a + b))).map (fun j => (Spec.polyOf msg).eval (Spec.omega (a + b) ^ j))) (by simp) [] (by simp)
  obtain rfl : rs = rsOf a b c := by
    rw [rs_new a b c hab (by omega)] at h1; exact (Outcome.ok.inj h1).symm
  rw [rs_encode a b c hab msg hmsg.le] at h2
  obtain rfl := Outcome.ok.inj h2
  have h5 := h4 (by simp) (by simp)
  rw [hmsg, Nat.sub_self, List.replicate_zero, List.append_nil] at h5
  rw [rs_new a b c hab (by omega), Outcome.ok_bind, rs_encode a b c hab msg hmsg.le]
  simp only [UnitTests.unwrap, Outcome.ok_bind]
  rw [assertP_true (by simp [pow_add]), Outcome.ok_bind, h5]
  simp

/-- C91: the test of the vanishing polynomial of blocks passes for all lists of some but not all blocks. -/
theorem C91_vanishing_blocks (a b c : Nat) (hc : c ≤ a + b) (hab : a + b ≤ 32) (er : List Nat) (hlt : ∀ i ∈ er, i < 2 ^ c)
    (hm : er.length < 2 ^ c) :
    (testVanishingPolyBlockSynchronized (2 ^ a) (2 ^ b) (2 ^ c) er : Outcome ε Unit) = .ok () := by
  unfold testVanishingPolyBlockSynchronized
  obtain ⟨z, hz, hzl, hzp⟩ := constructVanishing_spec (ε := ε) a b c hc er hlt hm
  have hd : (rsOf a b c).evaluationDomain = domainOf (a + b) := rfl
  have hn : (rsOf a b c).numBlocks = 2 ^ (a + b - c) := by
    show 2 ^ (a + b) / 2 ^ c = _
    rw [Nat.pow_div hc (by norm_num)]
  have h2 : 2 ^ (a + b) = 2 ^ (a + b - c) * 2 ^ c := by rw [← pow_add, Nat.sub_add_cancel hc]
  rw [rs_new a b c hab (by omega), Outcome.ok_bind, hz, Outcome.ok_bind, assertP_true (by rw [hzl, pow_add]), Outcome.ok_bind, hd,
    fftScalars_eval (a + b) hab z hzl.le, Outcome.ok_bind]
  simp only
  rw [h2, chunks_map_range _ _ (Nat.two_pow_pos c), assertP_true (by simp [hn]), Outcome.ok_bind, forM_ok_iff]
  intro block hblock
  obtain ⟨k, hk, rfl⟩ := List.mem_map.1 hblock
  rw [forM_ok_iff]
  intro i hi
  rw [List.mem_range] at hi
  rw [idx_lt (by simpa using hi), Outcome.ok_bind, List.getElem_map, List.getElem_range, hzp]
  have key := erasureZ_zero_iff c (a + b - c) (by omega) er hlt (k * 2 ^ c + i)
  rw [show c + (a + b - c) = a + b by omega, Nat.mul_add_mod_self_right, Nat.mod_eq_of_lt hi] at key
  by_cases h : i ∈ er
  · rw [if_pos (by simpa using h), assertP_eq_ok]; exact key.2 h
  · rw [if_neg (by simpa using h), assertP_eq_ok]; exact fun h0 => h (key.1 h0)

/-- the vanishing polynomial of the places of one block -/
theorem prod_places (c d : Nat) (hcd : c + d ≤ 32) (i : Nat) :
    ((List.range (2 ^ d)).map (fun t => (X : Fr[X]) - C (Spec.omega (c + d) ^ (i + t * 2 ^ c)))).prod =
      X ^ 2 ^ d - C (Spec.omega c ^ i) := by
  have hd : Spec.omega (c + d) ^ 2 ^ c = Spec.omega d := by
    have := omega_pow d (c + d) (by omega) hcd
    rwa [show c + d - d = c by omega] at this
  have hc : Spec.omega (c + d) ^ 2 ^ d = Spec.omega c := by
    have := omega_pow c (c + d) (by omega) hcd
    rwa [show c + d - c = d by omega] at this
  rw [X_pow_sub_C_eq_prod (omega_primitive d (by omega)) (Nat.two_pow_pos d) (α := Spec.omega (c + d) ^ i)
    (by rw [← pow_mul, mul_comm, pow_mul, hc]), Finset.prod_range, ← List.prod_ofFn]
  congr 1
  rw [List.ofFn_eq_map]
  apply List.ext_getElem
  · simp
  · intro t h1 h2
    simp only [List.getElem_map, List.getElem_range, List.getElem_finRange, Fin.val_cast]
    rw [pow_add, mul_comm t, pow_mul, hd, mul_comm]

/-- C91: the test that compares the two vanishing polynomials passes for every list of blocks that may be erased. -/
theorem C91_vanishing_random (a b c : Nat) (hc : c ≤ a + b) (hab : a + b ≤ 32) (er : List Nat) (hlt : ∀ i ∈ er, i < 2 ^ c)
    (hm : 2 ^ a + er.length * 2 ^ (a + b - c) ≤ 2 ^ (a + b)) :
    (testVanishingPolyEquivRandom (2 ^ a) (2 ^ b) (2 ^ c) er : Outcome ε Unit) = .ok () := by
  unfold testVanishingPolyEquivRandom
  have h2 : 2 ^ (a + b) = 2 ^ (a + b - c) * 2 ^ c := by rw [← pow_add, Nat.sub_add_cancel hc]
  have hpa := Nat.two_pow_pos a
  have hpd := Nat.two_pow_pos (a + b - c)
  have hlen : er.length < 2 ^ c := by
    by_contra h
    have : 2 ^ c * 2 ^ (a + b - c) ≤ er.length * 2 ^ (a + b - c) := Nat.mul_le_mul_right _ (by omega)
    rw [mul_comm] at this
    omega
  obtain ⟨z, hz, hzl, hzp⟩ := constructVanishing_spec (ε := ε) a b c hc er hlt hlen
  have hd : (rsOf a b c).evaluationDomain = domainOf (a + b) := rfl
  rw [rs_new a b c hab (by omega), Outcome.ok_bind, hz, Outcome.ok_bind, hd, fftScalars_eval (a + b) hab z hzl.le, Outcome.ok_bind]
  simp only
  have hcl : (chunks (2 ^ c) ((List.range (2 ^ (a + b))).map fun j => (Spec.polyOf z).eval (Spec.omega (a + b) ^ j))).length =
      2 ^ (a + b - c) := by
    rw [h2, chunks_map_range _ _ (Nat.two_pow_pos c)]
    simp
  rw [hcl]
  set all := er.flatMap fun index => (List.range (2 ^ (a + b - c))).map fun i => index + i * 2 ^ c with hall
  have hall_len : all.length = er.length * 2 ^ (a + b - c) := by
    rw [hall, List.length_flatMap]
    simp
  have hall_lt : ∀ p ∈ all, p < 2 ^ (a + b) := by
    intro p hp
    obtain ⟨i, hi, hp⟩ := List.mem_flatMap.1 hp
    obtain ⟨t, ht, rfl⟩ := List.mem_map.1 hp
    rw [List.mem_range] at ht
    have := hlt i hi
    have : (t + 1) * 2 ^ c ≤ 2 ^ (a + b - c) * 2 ^ c := Nat.mul_le_mul_right _ ht
    rw [add_mul] at this
    omega
  obtain ⟨y, hy, hyl, hyp⟩ := constructRandom_spec (ε := ε) a b c all hall_lt (by omega)
  rw [hy, Outcome.ok_bind, fftScalars_eval (a + b) hab y (by omega), Outcome.ok_bind, assertP_eq_ok]
  have : Spec.polyOf y = Spec.polyOf z := by
    rw [hyp, hzp, erasureZ, hall]
    clear hall hall_len hall_lt hyp hy hyl hm hlen hz hzl hzp hcl
    induction er with
    | nil => simp
    | cons i er ih =>
      rw [List.flatMap_cons, List.map_append, List.prod_append, ih (fun j hj => hlt j (by simp [hj])), List.map_cons,
        List.prod_cons, List.map_map]
      congr 1
      have := prod_places c (a + b - c) (by omega) i
      rw [show c + (a + b - c) = a + b by omega] at this
      exact this
  rw [this]

/-- setting the first `n` places to zero -/
theorem foldlM_zero (n : Nat) (l : List Fr) (hn : n ≤ l.length) :
    ∃ r, ((List.range n).foldlM (fun cw index => setIdx cw index (0 : Fr)) l : Outcome ε (List Fr)) = .ok r ∧
      r.length = l.length ∧ ∀ p, n ≤ p → r[p]? = l[p]? := by
  obtain ⟨r, hr, h1, h2⟩ := foldlM_range_inv (ε := ε) (n := n) (s := l) (body := fun cw index => setIdx cw index (0 : Fr))
    (fun i r => r.length = l.length ∧ ∀ p, i ≤ p → r[p]? = l[p]?) ⟨rfl, fun p _ => rfl⟩ (by
      rintro i r hi ⟨h1, h2⟩
      refine ⟨_, setIdx_lt 0 (by omega), by simpa using h1, fun p hp => ?_⟩
      rw [List.getElem?_set_ne (by omega)]
      exact h2 p (by omega))
  exact ⟨r, hr, h1, h2⟩

/-- C91: the test of the recovery from erased places passes for every message and all powers of two. -/
theorem C91_recovery_random (a b c : Nat) (hc : c ≤ 32) (hab : a + b ≤ 32) (msg : List Fr) (hmsg : msg.length = 2 ^ a) :
    (smokeTestRecoveryRandomErasures (2 ^ a) (2 ^ b) (2 ^ c) msg : Outcome ε Unit) = .ok () := by
  have hle : 2 ^ a ≤ 2 ^ (a + b) := Nat.pow_le_pow_right (by norm_num) (by omega)
  have hacc : (rsOf a b c).acceptableNumRandomErasures = 2 ^ (a + b) - 2 ^ a := by
    show 2 ^ a * 2 ^ b - 2 ^ a = _
    rw [← pow_add]
  have henc := rs_encode a b c hab msg hmsg.le
  unfold smokeTestRecoveryRandomErasures
  rw [rs_new a b c hab hc, Outcome.ok_bind, henc, hacc]
  simp only [UnitTests.unwrap, Outcome.ok_bind]
  rw [forM_ok_iff]
  intro n hn
  rw [List.mem_range] at hn
  obtain ⟨r, hr, h1, h2⟩ := foldlM_zero (ε := ε) n ((List.range (2 ^ (a + b))).map
    (fun j => (Spec.polyOf msg).eval (Spec.omega (a + b) ^ j))) (by rw [List.length_map, List.length_range]; omega)
  rw [hr, Outcome.ok_bind]
  obtain ⟨rs, h3, h4, -⟩ := C21_random a b c hc hab r (by rw [h1]; simp) (List.range n) (fun i hi => by
    rw [List.mem_range] at hi; omega) (by rw [List.length_range]; omega)
  obtain rfl : rs = rsOf a b c := by
    rw [rs_new a b c hab hc] at h3; exact (Outcome.ok.inj h3).symm
  rw [h4 msg _ hmsg henc (fun p _ hp => h2 p (by simpa using hp))]
  simp

/-- erasing the first places of all blocks -/
theorem foldlM_blocks (k m n : Nat) (hn : n ≤ k) (f : Nat → Nat → Fr) :
    ∃ g : Nat → Nat → Fr, ((List.range n).foldlM (fun blocks index =>
        blocks.mapM fun (block : List Fr) => setIdx block index (0 : Fr))
        ((List.range m).map fun b => (List.range k).map (f b)) : Outcome ε (List (List Fr))) =
      .ok ((List.range m).map fun b => (List.range k).map (g b)) ∧ ∀ b i, n ≤ i → g b i = f b i := by
  obtain ⟨r, hr, g, rfl, hg⟩ := foldlM_range_inv (ε := ε) (n := n) (s := (List.range m).map fun b => (List.range k).map (f b))
    (body := fun blocks index => blocks.mapM fun (block : List Fr) => setIdx block index (0 : Fr))
    (fun j r => ∃ g : Nat → Nat → Fr, r = ((List.range m).map fun b => (List.range k).map (g b)) ∧ ∀ b i, j ≤ i → g b i = f b i)
    ⟨f, rfl, fun _ _ _ => rfl⟩ (by
      rintro j r hj ⟨g, rfl, hg⟩
      refine ⟨_, mapM_ok (g := fun l : List Fr => l.set j 0) ?_, fun b i => if i = j then 0 else g b i, ?_, ?_⟩
      · intro l hl
        obtain ⟨b, -, rfl⟩ := List.mem_map.1 hl
        exact setIdx_lt _ (by rw [List.length_map, List.length_range]; omega)
      · rw [List.map_map]
        apply List.map_congr_left
        intro b _
        apply List.ext_getElem
        · simp
        · intro i h1 h2
          simp only [Function.comp, List.getElem_set, List.getElem_map, List.getElem_range]
          by_cases h : i = j
          · simp [h]
          · rw [if_neg (fun e => h e.symm), if_neg h]
      · intro b i hi
        show (if i = j then 0 else g b i) = f b i
        rw [if_neg (by omega)]
        exact hg b i (by omega))
  exact ⟨g, hr, hg⟩

theorem flatten_rows (k m : Nat) (g : Nat → Nat → Fr) : ((List.range m).map fun b => (List.range k).map (g b)).flatten =
    (List.range (m * k)).map fun p => g (p / k) (p % k) := by
  induction m with
  | zero => simp
  | succ m ih =>
    rw [List.range_succ, List.map_append, List.flatten_append, ih, add_mul, one_mul, List.range_add, List.map_append]
    congr 1
    simp only [List.map_cons, List.map_nil, List.flatten_cons, List.flatten_nil, List.append_nil, List.map_map]
    apply List.map_congr_left
    intro i hi
    rw [List.mem_range] at hi
    simp only [Function.comp]
    rw [Nat.mul_comm m k, Nat.mul_add_div (by omega), Nat.div_eq_of_lt hi, Nat.mul_add_mod, Nat.mod_eq_of_lt hi, Nat.add_zero]

/-- C91: the test of the recovery from erased blocks passes for every message and all powers of two: up to the advertised number
of blocks the message comes back, and above it there is an error. -/
theorem C91_recovery_blocks (a b c : Nat) (hc : c ≤ a + b) (hab : a + b ≤ 32) (msg : List Fr) (hmsg : msg.length = 2 ^ a) :
    (smokeTestRecoveryBlockErasures (2 ^ a) (2 ^ b) (2 ^ c) msg : Outcome ε Unit) = .ok () := by
  have h2 : 2 ^ (a + b) = 2 ^ (a + b - c) * 2 ^ c := by rw [← pow_add, Nat.sub_add_cancel hc]
  have henc := rs_encode a b c hab msg hmsg.le
  unfold smokeTestRecoveryBlockErasures
  rw [rs_new a b c hab (by omega), Outcome.ok_bind, henc]
  simp only [UnitTests.unwrap, Outcome.ok_bind]
  rw [forM_ok_iff]
  intro n hn
  rw [List.mem_range] at hn
  have hch : chunks (2 ^ c) ((List.range (2 ^ (a + b))).map (fun j => (Spec.polyOf msg).eval (Spec.omega (a + b) ^ j))) =
      (List.range (2 ^ (a + b - c))).map fun k => (List.range (2 ^ c)).map fun i =>
        (Spec.polyOf msg).eval (Spec.omega (a + b) ^ (k * 2 ^ c + i)) := by
    conv_lhs => rw [show (List.range (2 ^ (a + b))) = List.range (2 ^ (a + b - c) * 2 ^ c) by rw [h2]]
    rw [chunks_map_range _ _ (Nat.two_pow_pos c)]
  obtain ⟨g, hg, hgf⟩ := foldlM_blocks (ε := ε) (2 ^ c) (2 ^ (a + b - c)) n (by omega)
    (fun k i => (Spec.polyOf msg).eval (Spec.omega (a + b) ^ (k * 2 ^ c + i)))
  rw [hch, hg, Outcome.ok_bind, flatten_rows, ← h2, acceptable_eq a b c hc, Outcome.ok_bind]
  set data := (List.range (2 ^ (a + b))).map fun p => g (p / 2 ^ c) (p % 2 ^ c) with hdata
  have hlt : ∀ i ∈ List.range n, i < 2 ^ c := fun i hi => by rw [List.mem_range] at hi; omega
  by_cases hm : n ≤ (2 ^ (a + b) - 2 ^ a) / 2 ^ (a + b - c)
  · obtain ⟨rs, cw, m, e1, e2, e3, e4⟩ := C21_decodes a b c hc hab msg hmsg.le data (by rw [hdata]; simp) (List.range n) hlt
    obtain rfl : rs = rsOf a b c := by
      rw [rs_new a b c hab (by omega)] at e1; exact (Outcome.ok.inj e1).symm
    rw [henc] at e2
    obtain rfl := Outcome.ok.inj e2
    rw [acceptable_eq a b c hc] at e3
    obtain rfl := Outcome.ok.inj e3
    have e5 := e4 (by simpa using hm) (by
      intro p hp hpe
      rw [List.mem_range, not_lt] at hpe
      rw [hdata, List.getElem?_map, List.getElem?_map, List.getElem?_range hp]
      simp only [Option.map_some]
      rw [hgf _ _ hpe, mul_comm, Nat.div_add_mod])
    rw [hmsg, Nat.sub_self, List.replicate_zero, List.append_nil] at e5
    rw [e5]
    simp [hm]
  · obtain ⟨rs, m, e1, e3, e4⟩ := C21_too_many a b c hc hab data (List.range n) hlt
    obtain rfl : rs = rsOf a b c := by
      rw [rs_new a b c hab (by omega)] at e1; exact (Outcome.ok.inj e1).symm
    rw [acceptable_eq a b c hc] at e3
    obtain rfl := Outcome.ok.inj e3
    rw [e4 (by rw [List.length_range]; omega)]
    simp only
    rw [assertP_true (by omega)]

/-! The values of the repository. -/
example : (testComputeVanishingPanics 16 2 1 : Outcome Unit Unit) = .panic := C91_vanishing_panics 4 1 0 (by norm_num) (by norm_num)
example : (smokeTestRecoveryNoErasures 16 2 1 ((List.range 16).map fun (i : Nat) => -(i : Fr)) : Outcome Unit Unit) = .ok () :=
  C91_recovery_no_erasures 4 1 0 (by norm_num) (by norm_num) _ (by simp)
example : (testVanishingPolyBlockSynchronized 512 2 16 [0, 1, 2, 3] : Outcome Unit Unit) = .ok () :=
  C91_vanishing_blocks 9 1 4 (by norm_num) (by norm_num) _ (by decide) (by decide)
example : (testVanishingPolyEquivRandom 64 2 4 [0, 1] : Outcome Unit Unit) = .ok () :=
  C91_vanishing_random 6 1 2 (by norm_num) (by norm_num) _ (by decide) (by decide)
example : (smokeTestRecoveryRandomErasures 16 2 1 ((List.range 16).map fun (i : Nat) => (i : Fr)) : Outcome Unit Unit) = .ok () :=
  C91_recovery_random 4 1 0 (by norm_num) (by norm_num) _ (by simp)
example : (smokeTestRecoveryBlockErasures 128 2 4 ((List.range 128).map fun (i : Nat) => (i : Fr)) : Outcome Unit Unit) = .ok () :=
  C91_recovery_blocks 7 1 2 (by norm_num) (by norm_num) _ (by simp)

end Verif
