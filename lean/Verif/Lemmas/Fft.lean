import Mathlib.Algebra.Module.Basic
import Mathlib.Algebra.Module.BigOperators
import Mathlib.RingTheory.RootsOfUnity.PrimitiveRoots
import Verif.Lemmas.Rep
import Verif.Model.Fft
import Verif.Spec.Dft

/-! `fft_inplace` computes the DFT. -/
namespace Verif
open Finset

section
variable {F T : Type} [Field F] [DecidableEq F] [AddCommGroup T] [Module F T] [DecidableEq T] {ε : Type}

theorem twiddle_eq (w : F) (x : T) : twiddle w x = w • x := by
  unfold twiddle
  split_ifs with h1 h2 h3
  · simp [h1]
  · simp [h2]
  · simp [h3]
  · rfl

theorem bitreverse_eq (k l : Nat) (hl : l ≤ 32) : bitreverse k l = Spec.brev l k := by
  rw [bitreverse, bitrev_loop_spec 32 l k hl]

/-- effect of a group of butterflies starting at `k` -/
def blockFn (wm : F) (m k c : Nat) (f : Nat → T) (i : Nat) : T :=
  if k ≤ i ∧ i < k + c then f i + wm ^ (i - k) • f (i + m)
  else if k + m ≤ i ∧ i < k + m + c then f (i - m) - wm ^ (i - m - k) • f i
  else f i

theorem fftBlock_spec (wm : F) (m k n : Nat) {A : List T} {f : Nat → T} (h : Rep A n f)
    (hk : k + 2 * m ≤ n) :
    ∃ B, (fftBlock wm m A k : Outcome ε (List T)) = .ok B ∧ Rep B n (blockFn wm m k m f) := by
  obtain ⟨st, hst, hR, -⟩ := foldlM_range_inv (ε := ε) (n := m) (s := (A, (1 : F)))
    (body := fftButterfly wm m k)
    (fun c st => Rep st.1 n (blockFn wm m k c f) ∧ st.2 = wm ^ c)
    (by
      refine ⟨h.congr ?_, by simp⟩
      intro i hi
      unfold blockFn
      rw [if_neg (by omega), if_neg (by omega)])
    (by
      rintro c ⟨B, w⟩ hc ⟨hB, hw⟩
      simp only at hB hw
      have e1 : blockFn wm m k c f (k + c + m) = f (k + c + m) := by
        unfold blockFn
        rw [if_neg (by omega), if_neg (by omega)]
      have e2 : blockFn wm m k c f (k + c) = f (k + c) := by
        unfold blockFn
        rw [if_neg (by omega), if_neg (by omega)]
      have hB1 := hB.set (i := k + c) (f (k + c) + w • f (k + c + m))
      have hB2 := hB1.set (i := k + c + m) (f (k + c) - w • f (k + c + m))
      refine ⟨⟨_, w * wm⟩, ?_, hB2.congr ?_, by simp [hw, pow_succ]⟩
      · simp only [fftButterfly, hB.idx (ε := ε) (show k + c + m < n by omega),
          hB.idx (ε := ε) (show k + c < n by omega), Outcome.ok_bind, e1, e2, twiddle_eq,
          hB.setIdx (ε := ε) (show k + c < n by omega), hB1.setIdx (ε := ε) (show k + c + m < n by omega),
          Outcome.pure_eq]
      · intro i hi
        subst hw
        by_cases h1 : i = k + c + m
        · subst h1
          rw [Function.update_self]
          unfold blockFn
          rw [if_neg (by omega), if_pos (by omega)]
          have e3 : k + c + m - m = k + c := by omega
          have e4 : k + c - k = c := by omega
          rw [e3, e4]
        · rw [Function.update_of_ne h1]
          by_cases h2 : i = k + c
          · subst h2
            rw [Function.update_self]
            unfold blockFn
            rw [if_pos (by omega)]
            have e4 : k + c - k = c := by omega
            rw [e4]
          · rw [Function.update_of_ne h2]
            unfold blockFn
            split_ifs <;> first | rfl | (exfalso; omega))
  exact ⟨st.1, by simp [fftBlock, hst], hR⟩

/-- effect of a stage on the first `c` blocks -/
def stageFn (wm : F) (m c : Nat) (f : Nat → T) (i : Nat) : T :=
  if i < c * (2 * m) then
    if i % (2 * m) < m then f i + wm ^ (i % (2 * m)) • f (i + m)
    else f (i - m) - wm ^ (i % (2 * m) - m) • f i
  else f i

theorem fftStage_spec (tw : List F) (wm : F) (m q n s : Nat) {A : List T} {f : Nat → T} (h : Rep A n f)
    (hm : 0 < m) (hn : n = q * (2 * m)) (htw : tw[s]? = some wm) :
    ∃ B, (fftStage tw n (A, m) s : Outcome ε (List T × Nat)) = .ok (B, m * 2) ∧
      Rep B n (stageFn wm m q f) := by
  have hdiv : (n + 2 * m - 1) / (2 * m) = q := by
    subst hn
    have : q * (2 * m) + 2 * m - 1 = (2 * m - 1) + (2 * m) * q := by
      rw [Nat.mul_comm q]; omega
    rw [this, Nat.add_mul_div_left _ _ (by omega), Nat.div_eq_of_lt (by omega)]; omega
  obtain ⟨B, hB, hR⟩ := foldlM_range_inv (ε := ε) (n := q) (s := A)
    (body := fun a c => fftBlock wm m a (c * (2 * m)))
    (fun c B => Rep B n (stageFn wm m c f))
    (h.congr (by intro i hi; simp [stageFn]))
    (by
      intro c B hc hB
      have hcb : c * (2 * m) + 2 * m ≤ n := by
        rw [hn]
        calc c * (2 * m) + 2 * m = (c + 1) * (2 * m) := by ring
          _ ≤ q * (2 * m) := Nat.mul_le_mul_right _ hc
      obtain ⟨B', hB', hR'⟩ := fftBlock_spec (ε := ε) wm m (c * (2 * m)) n hB hcb
      refine ⟨B', hB', hR'.congr ?_⟩
      intro i hi
      have hsucc : (c + 1) * (2 * m) = c * (2 * m) + 2 * m := by ring
      have hmod : c * (2 * m) ≤ i → i < c * (2 * m) + 2 * m → i % (2 * m) = i - c * (2 * m) := by
        intro hge h2
        have : i = (i - c * (2 * m)) + (2 * m) * c := by rw [Nat.mul_comm (2 * m) c]; omega
        conv_lhs => rw [this]
        rw [Nat.add_mul_mod_self_left, Nat.mod_eq_of_lt (by omega)]
      have hmi := Nat.mod_lt i (show 0 < 2 * m by omega)
      unfold blockFn
      by_cases h1 : i < c * (2 * m)
      · rw [if_neg (by omega), if_neg (by omega)]
        unfold stageFn
        have h1' : i < c * (2 * m) + 2 * m := by omega
        rw [hsucc]
        simp only [h1, h1', if_true]
      · have hge : c * (2 * m) ≤ i := by omega
        by_cases h2 : i < c * (2 * m) + 2 * m
        · specialize hmod hge h2
          by_cases h3 : i < c * (2 * m) + m
          · rw [if_pos ⟨hge, h3⟩]
            unfold stageFn
            rw [hsucc, if_neg h1, if_neg (by omega), if_pos h2, if_pos (by omega), hmod]
          · rw [if_neg (by omega), if_pos (by omega)]
            unfold stageFn
            rw [hsucc, if_neg (by omega), if_neg h1, if_pos h2, if_neg (by omega), hmod]
            have : i - m - c * (2 * m) = i - c * (2 * m) - m := by omega
            rw [this]
        · rw [if_neg (by omega), if_neg (by omega)]
          unfold stageFn
          rw [hsucc, if_neg h1, if_neg h2])
  refine ⟨B, ?_, hR⟩
  have hfold : (stepBy n (2 * m)).foldlM (fftBlock wm m) A = (Outcome.ok B : Outcome ε (List T)) := by
    rw [stepBy, hdiv, List.foldlM_map]
    exact hB
  simp only [fftStage, idx_ok htw, Outcome.ok_bind, hfold, Outcome.pure_eq]

/-- State of the transform after `s` stages; `b` is the bit-reversed input. -/
def partialDft (ω : F) (n s : Nat) (b : Nat → T) (i : Nat) : T :=
  ∑ t ∈ range (2 ^ s), (ω ^ (n / 2 ^ s)) ^ ((i % 2 ^ s) * Spec.brev s t) • b (i / 2 ^ s * 2 ^ s + t)

omit [DecidableEq F] [DecidableEq T] in
theorem partialDft_zero (ω : F) (n : Nat) (b : Nat → T) (i : Nat) : partialDft ω n 0 b i = b i := by
  simp [partialDft, Spec.brev]

omit [DecidableEq F] [DecidableEq T] in
theorem partialDft_succ (ω : F) (L s : Nat) (b : Nat → T) (hs : s < L) (i : Nat) (hi : i < 2 ^ L)
    (hneg : ω ^ (2 ^ L / 2) = -1) :
    stageFn (ω ^ (2 ^ L / 2 ^ (s + 1))) (2 ^ s) (2 ^ L / 2 ^ (s + 1)) (partialDft ω (2 ^ L) s b) i =
      partialDft ω (2 ^ L) (s + 1) b i := by
  obtain ⟨d, rfl⟩ : ∃ d, L = s + 1 + d := ⟨L - (s + 1), by omega⟩
  have hdiv1 : 2 ^ (s + 1 + d) / 2 ^ (s + 1) = 2 ^ d := by
    rw [pow_add]; exact Nat.mul_div_cancel_left _ (by positivity)
  have hdiv0 : 2 ^ (s + 1 + d) / 2 ^ s = 2 * 2 ^ d := by
    rw [show s + 1 + d = s + (d + 1) by ring, pow_add, Nat.mul_div_cancel_left _ (by positivity)]; ring
  have hdivh : 2 ^ (s + 1 + d) / 2 = 2 ^ d * 2 ^ s := by
    rw [show s + 1 + d = 1 + (d + s) by ring, pow_add, pow_one, Nat.mul_div_cancel_left _ (by norm_num),
      pow_add]
  rw [hdivh] at hneg
  set m := 2 ^ s with hm
  have hmpos : 0 < m := by positivity
  have h2m : 2 ^ (s + 1) = 2 * m := by rw [pow_succ]; ring
  set v := ω ^ 2 ^ d with hv
  have hvm : v ^ m = -1 := by rw [hv, ← pow_mul]; exact hneg
  have hw0 : ω ^ (2 ^ (s + 1 + d) / m) = v ^ 2 := by rw [hdiv0, hv, ← pow_mul]; ring_nf
  have hlt : i < 2 ^ (s + 1 + d) / 2 ^ (s + 1) * (2 * m) := by
    rw [hdiv1]
    calc i < 2 ^ (s + 1 + d) := hi
      _ = 2 ^ d * (2 * m) := by rw [pow_add, h2m]; ring
  set q := i / (2 * m) with hq
  set j := i % (2 * m) with hj
  have hij : i = 2 * m * q + j := by rw [hq, hj]; exact (Nat.div_add_mod i (2 * m)).symm
  have hj2 : j < 2 * m := Nat.mod_lt _ (by omega)
  -- target, split in two halves
  have htarget : partialDft ω (2 ^ (s + 1 + d)) (s + 1) b i =
      (∑ t ∈ range m, v ^ (j * (2 * Spec.brev s t)) • b (q * (2 * m) + t)) +
      (∑ t ∈ range m, v ^ (j * (1 + 2 * Spec.brev s t)) • b (q * (2 * m) + (m + t))) := by
    unfold partialDft
    rw [hdiv1, ← hv, h2m, show 2 * m = m + m by ring, sum_range_add]
    rw [show m + m = 2 * m by ring, ← hq, ← hj]
    congr 1
    · apply sum_congr rfl
      intro t ht
      have ht' : t < m := mem_range.1 ht
      rw [Spec.brev_succ', ← hm, Nat.div_eq_of_lt ht', Nat.mod_eq_of_lt ht']
      simp
    · apply sum_congr rfl
      intro t ht
      have ht' : t < m := mem_range.1 ht
      rw [Spec.brev_succ', ← hm, Nat.add_div_left _ hmpos, Nat.div_eq_of_lt ht', Nat.add_mod_left,
        Nat.mod_eq_of_lt ht']
  have hv2 : ∀ e, v ^ (m * (2 * e)) = 1 := by
    intro e
    rw [pow_mul, hvm, pow_mul]; simp
  -- values of the previous stage
  have hprev : ∀ a c, c < m → partialDft ω (2 ^ (s + 1 + d)) s b (m * a + c) =
      ∑ t ∈ range m, v ^ (c * (2 * Spec.brev s t)) • b (m * a + t) := by
    intro a c hc
    unfold partialDft
    rw [← hm, hw0]
    apply sum_congr rfl
    intro t _
    have e1 : (m * a + c) % m = c := by rw [Nat.mul_add_mod, Nat.mod_eq_of_lt hc]
    have e2 : (m * a + c) / m = a := by
      rw [Nat.mul_add_div hmpos, Nat.div_eq_of_lt hc]; simp
    rw [e1, e2, ← pow_mul, Nat.mul_comm a m]
    congr 2; ring
  rw [htarget]
  unfold stageFn
  rw [if_pos hlt, ← hj, hdiv1, ← hv]
  by_cases hc : j < m
  · rw [if_pos hc]
    have e1 : i = m * (2 * q) + j := by rw [hij]; ring
    have e2 : i + m = m * (2 * q + 1) + j := by rw [hij]; ring
    rw [e2, hprev _ _ hc]
    conv_lhs => rw [e1]
    rw [hprev _ _ hc, smul_sum]
    congr 1
    · apply sum_congr rfl; intro t _; congr 2; ring
    · apply sum_congr rfl
      intro t _
      rw [smul_smul, ← pow_add]
      congr 2 <;> ring
  · rw [if_neg hc]
    obtain ⟨c, hcj⟩ : ∃ c, j = m + c := ⟨j - m, by omega⟩
    have hcm : c < m := by omega
    have e1 : i - m = m * (2 * q) + c := by
      have : i = m * (2 * q) + c + m := by rw [hij, hcj]; ring
      omega
    have e2 : i = m * (2 * q + 1) + c := by rw [hij, hcj]; ring
    rw [e1, hprev _ _ hcm]
    conv_lhs => rw [e2]
    rw [hprev _ _ hcm, smul_sum, sub_eq_add_neg, ← sum_neg_distrib, hcj]
    congr 1
    · apply sum_congr rfl
      intro t _
      rw [Nat.add_mul, pow_add, hv2, one_mul]
      congr 2; ring
    · apply sum_congr rfl
      intro t _
      have : v ^ ((m + c) * (1 + 2 * Spec.brev s t)) = - (v ^ c * v ^ (c * (2 * Spec.brev s t))) := by
        have : (m + c) * (1 + 2 * Spec.brev s t) =
          m + m * (2 * Spec.brev s t) + (c + c * (2 * Spec.brev s t)) := by ring
        rw [this, pow_add, pow_add, hvm, hv2, pow_add]; ring
      rw [this, Nat.add_sub_cancel_left, smul_smul, neg_smul]
      congr 3; ring

/-- Main theorem on `fft_inplace`: for a power-of-two length up to `2^32` and a root `ω` with
`ω^(n/2) = -1` whose twiddle factors are supplied, the result is the DFT, in natural order. -/
theorem fftInplace_spec (ω : F) (L : Nat) (hL : L ≤ 32) (hω : IsPrimitiveRoot ω (2 ^ L))
    {A : List T} {x : Nat → T} (h : Rep A (2 ^ L) x) :
    ∃ B, (fftInplace (precomputeTwiddleFactors ω (2 ^ L)) A : Outcome ε (List T)) = .ok B ∧
      Rep B (2 ^ L) (Spec.dft ω (2 ^ L) x) := by
  have hlog : log2Pow2 (2 ^ L) = L := trailingZeros_two_pow L (by omega)
  -- bit reversal
  obtain ⟨A1, hA1, hR1⟩ := swapLoop_spec (ε := ε) h (Spec.brev L) (fun i _ => Spec.brev_lt L i)
    (fun i hi => Spec.brev_brev L i hi)
  have hbr : (fftBitrev L (2 ^ L) A : Outcome ε (List T)) = .ok A1 := by
    rw [← hA1]
    unfold fftBitrev
    have hcongr : ∀ (l : List Nat) (a : List T), (∀ k ∈ l, k < 2 ^ L) →
        (l.foldlM (fun a k =>
          let rk := bitreverse (k % 2 ^ 32) L
          if k < rk then swapIdx a rk k else pure a) a : Outcome ε (List T)) =
        l.foldlM (fun a k => if k < Spec.brev L k then swapIdx a (Spec.brev L k) k else pure a) a := by
      intro l
      induction l with
      | nil => intro a _; rfl
      | cons k l ih =>
        intro a hl
        have hk : k < 2 ^ 32 :=
          lt_of_lt_of_le (hl k (by simp)) (Nat.pow_le_pow_right (by norm_num) hL)
        simp only [List.foldlM_cons, Nat.mod_eq_of_lt hk, bitreverse_eq k L hL]
        congr 1
        funext a'
        exact ih a' (fun k' hk' => hl k' (by simp [hk']))
    exact hcongr _ _ (by simp)
  -- stages
  have htw : ∀ s, s < L → (precomputeTwiddleFactors ω (2 ^ L))[s]? = some (ω ^ (2 ^ L / 2 ^ (s + 1))) := by
    intro s hs
    simp [precomputeTwiddleFactors, hlog, hs]
  obtain ⟨st, hst, hR, -⟩ := foldlM_range_inv (ε := ε) (n := L) (s := (A1, 1))
    (body := fftStage (precomputeTwiddleFactors ω (2 ^ L)) (2 ^ L))
    (fun s st => Rep st.1 (2 ^ L) (partialDft ω (2 ^ L) s (fun i => x (Spec.brev L i))) ∧ st.2 = 2 ^ s)
    (by
      refine ⟨hR1.congr ?_, by simp⟩
      intro i hi
      rw [partialDft_zero])
    (by
      rintro s ⟨B, m⟩ hs ⟨hB, hm⟩
      simp only at hB hm
      subst hm
      have hneg : ω ^ (2 ^ L / 2) = -1 := by
        obtain ⟨L', rfl⟩ : ∃ L', L = L' + 1 := ⟨L - 1, by omega⟩
        have hprim : IsPrimitiveRoot (ω ^ 2 ^ L') 2 :=
          hω.pow (by positivity) (by rw [pow_succ])
        have e : 2 ^ (L' + 1) / 2 = 2 ^ L' := by rw [pow_succ]; omega
        rw [e]
        exact hprim.eq_neg_one_of_two_right
      have hq : 2 ^ L = 2 ^ L / 2 ^ (s + 1) * (2 * 2 ^ s) := by
        rw [show 2 * 2 ^ s = 2 ^ (s + 1) by rw [pow_succ]; ring]
        exact (Nat.div_mul_cancel (Nat.pow_dvd_pow 2 hs)).symm
      obtain ⟨B', hB', hR'⟩ := fftStage_spec (ε := ε) (precomputeTwiddleFactors ω (2 ^ L))
        (ω ^ (2 ^ L / 2 ^ (s + 1))) (2 ^ s) (2 ^ L / 2 ^ (s + 1)) (2 ^ L) s hB (by positivity) hq (htw s hs)
      refine ⟨(B', 2 ^ s * 2), hB', hR'.congr ?_, by rw [pow_succ]⟩
      intro i hi
      exact partialDft_succ ω L s _ hs i hi hneg)
  refine ⟨st.1, ?_, hR.congr ?_⟩
  · simp only [fftInplace, h.1, hlog, assertP_true, Outcome.ok_bind, hbr, hst, Outcome.pure_eq]
  · intro j hj
    unfold partialDft Spec.dft
    rw [Nat.div_self (by positivity), pow_one, Nat.mod_eq_of_lt hj, Nat.div_eq_of_lt hj]
    refine sum_nbij' (Spec.brev L) (Spec.brev L) ?_ ?_ ?_ ?_ ?_
    · intro t _; exact mem_range.2 (Spec.brev_lt L t)
    · intro t _; exact mem_range.2 (Spec.brev_lt L t)
    · intro t ht; exact Spec.brev_brev L t (mem_range.1 ht)
    · intro t ht; exact Spec.brev_brev L t (mem_range.1 ht)
    · intro t _; simp [Nat.mul_comm]

end
end Verif
