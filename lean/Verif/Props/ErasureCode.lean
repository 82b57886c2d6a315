import Verif.Lemmas.ReedSolomon

/-! C21: the Reed-Solomon code. Block `i` is the set of positions congruent to `i` modulo the block size. -/
namespace Verif
open Polynomial Finset

/-- C21: for all power-of-two parameters, decoding a codeword with arbitrary values in at most the advertised number of
erased blocks returns the message (padded with zeros to the message length). -/
theorem C21_decodes (a b c : Nat) (hc : c ≤ a + b) (hab : a + b ≤ 32) (msg : List Fr) (hmsg : msg.length ≤ 2 ^ a)
    (data : List Fr) (hd : data.length = 2 ^ (a + b)) (er : List Nat) (hlt : ∀ i ∈ er, i < 2 ^ c) :
    ∃ rs cw m, (ReedSolomon.new (2 ^ a) (2 ^ b) (2 ^ c) : Outcome RSError ReedSolomon) = .ok rs ∧
      rs.encode msg = .ok cw ∧ (rs.acceptableNumBlockErasures : Outcome RSError Nat) = .ok m ∧
      (er.length ≤ m → (∀ p < 2 ^ (a + b), p % 2 ^ c ∉ er → data[p]? = cw[p]?) →
        rs.recoverPolynomialCoefficient data er = .ok (msg ++ List.replicate (2 ^ a - msg.length) 0)) := by
  have hle : 2 ^ a ≤ 2 ^ (a + b) := Nat.pow_le_pow_right (by norm_num) (by omega)
  have henc : (rsOf a b c).encode msg =
      .ok ((List.range (2 ^ (a + b))).map (fun j => (Spec.polyOf msg).eval (Spec.omega (a + b) ^ j))) := by
    unfold ReedSolomon.encode rsOf
    simp only
    rw [if_neg (by omega), fftScalars_eval (a + b) hab msg (by omega)]
  refine ⟨rsOf a b c, _, _, rs_new a b c hab (by omega), henc, acceptable_eq a b c hc, ?_⟩
  intro hm hdata
  have hag : Agrees a b c data er (Spec.polyOf msg) := by
    refine ⟨lt_of_lt_of_le (Spec.degree_polyOf_lt msg) (by exact_mod_cast hmsg), ?_⟩
    intro p hp hper
    have h1 := hdata p hp hper
    rw [(rep_map_range (2 ^ (a + b)) _).2 p hp] at h1
    rw [List.getD_eq_getElem?_getD, h1]
    rfl
  rcases rs_recover a b c hc hab data hd er hlt hm with ⟨f, hf, hr⟩ | ⟨hne, -⟩
  · rw [hr, agrees_unique a b c hc hab data er hlt hm hf hag]
    congr 1
    refine (Rep.eq_map ⟨by simp; omega, ?_⟩).symm
    intro i hi
    rw [Spec.coeff_polyOf, List.getElem?_append]
    by_cases h : i < msg.length
    · simp [h]
    · have : i - msg.length < 2 ^ a - msg.length := by omega
      simp [h, this]
  · exact absurd ⟨_, hag⟩ hne

/-- C21: whatever the received word is, an answer is returned exactly when some message of the right length encodes to a
codeword that agrees with the word outside of the erased blocks; otherwise the result is an error. -/
theorem C21_rejects (a b c : Nat) (hc : c ≤ a + b) (hab : a + b ≤ 32)
    (data : List Fr) (hd : data.length = 2 ^ (a + b)) (er : List Nat) (hlt : ∀ i ∈ er, i < 2 ^ c) :
    ∃ rs m, (ReedSolomon.new (2 ^ a) (2 ^ b) (2 ^ c) : Outcome RSError ReedSolomon) = .ok rs ∧
      (rs.acceptableNumBlockErasures : Outcome RSError Nat) = .ok m ∧
      (er.length ≤ m →
        (¬ ∃ msg cw, msg.length = 2 ^ a ∧ rs.encode msg = .ok cw ∧
          ∀ p < 2 ^ (a + b), p % 2 ^ c ∉ er → data[p]? = cw[p]?) →
        rs.recoverPolynomialCoefficient data er = .err (.PolynomialHasInvalidLength (2 ^ (a + b)) (2 ^ a))) := by
  refine ⟨rsOf a b c, _, rs_new a b c hab (by omega), acceptable_eq a b c hc, ?_⟩
  intro hm hno
  rcases rs_recover a b c hc hab data hd er hlt hm with ⟨f, hf, hr⟩ | ⟨-, hr⟩
  · exfalso
    apply hno
    have hle : 2 ^ a ≤ 2 ^ (a + b) := Nat.pow_le_pow_right (by norm_num) (by omega)
    have hlen : (Spec.coeffs (2 ^ a) f).length = 2 ^ a := by simp [Spec.coeffs]
    refine ⟨Spec.coeffs (2 ^ a) f,
      (List.range (2 ^ (a + b))).map (fun j => (Spec.polyOf (Spec.coeffs (2 ^ a) f)).eval (Spec.omega (a + b) ^ j)),
      hlen, ?_, ?_⟩
    · unfold ReedSolomon.encode rsOf
      simp only
      rw [if_neg (by omega), fftScalars_eval (a + b) hab _ (by omega)]
    · intro p hp hper
      rw [(rep_map_range (2 ^ (a + b)) _).2 p hp, Spec.polyOf_coeffs hf.1, hf.2 p hp hper]
      simp [List.getD, show p < data.length by omega]
  · exact hr

/-- C21: every message of at most the message length is encoded, to a codeword of the advertised length. -/
theorem C21_codeword_length (a b c : Nat) (hc : c ≤ a + b) (hab : a + b ≤ 32) (msg : List Fr) (hmsg : msg.length ≤ 2 ^ a) :
    ∃ rs cw, (ReedSolomon.new (2 ^ a) (2 ^ b) (2 ^ c) : Outcome RSError ReedSolomon) = .ok rs ∧
      rs.encode msg = .ok cw ∧ cw.length = rs.codewordLength := by
  have hle : 2 ^ a ≤ 2 ^ (a + b) := Nat.pow_le_pow_right (by norm_num) (by omega)
  refine ⟨rsOf a b c, (List.range (2 ^ (a + b))).map (fun j => (Spec.polyOf msg).eval (Spec.omega (a + b) ^ j)), rs_new a b c hab (by omega),
    ?_, ?_⟩
  · unfold ReedSolomon.encode rsOf
    simp only
    rw [if_neg (by omega), fftScalars_eval (a + b) hab msg (by omega)]
  · rw [List.length_map, List.length_range, pow_add]
    rfl

/-- C21: the advertised number of erasures is what the redundancy allows: at least one more erased block leaves fewer
received symbols than message symbols. -/
theorem C21_capacity (a b c : Nat) (hc : c ≤ a + b) (hab : a + b ≤ 32) :
    ∃ rs m, (ReedSolomon.new (2 ^ a) (2 ^ b) (2 ^ c) : Outcome RSError ReedSolomon) = .ok rs ∧
      (rs.acceptableNumBlockErasures : Outcome RSError Nat) = .ok m ∧
      2 ^ a + m * 2 ^ (a + b - c) ≤ 2 ^ (a + b) ∧ 2 ^ (a + b) < 2 ^ a + (m + 1) * 2 ^ (a + b - c) := by
  refine ⟨rsOf a b c, _, rs_new a b c hab (by omega), acceptable_eq a b c hc, acceptable_mul a b c _ le_rfl, ?_⟩
  have h := Nat.lt_div_mul_add (a := 2 ^ (a + b) - 2 ^ a) (b := 2 ^ (a + b - c)) (Nat.two_pow_pos _)
  rw [add_mul, one_mul]
  omega

/-- C21: an out-of-range block index is reported first, with the first bad index. -/
theorem C21_bad_index (rs : ReedSolomon) (data : List Fr) (pre post : List Nat) (bad : Nat)
    (hpre : ∀ i ∈ pre, i < rs.blockSize) (hbad : rs.blockSize ≤ bad) :
    rs.recoverPolynomialCoefficient data (pre ++ bad :: post) = .err (.InvalidBlockIndex bad rs.blockSize) := by
  have h : (pre ++ bad :: post).find? (fun i => decide (i ≥ rs.blockSize)) = some bad := by
    rw [List.find?_append, List.find?_eq_none.2]
    · simp [hbad]
    · intro x hx; simpa using hpre x hx
  unfold ReedSolomon.recoverPolynomialCoefficient ReedSolomon.constructVanishingPoly
  rw [h]; rfl

/-- C21: too many erasures. -/
theorem C21_too_many (a b c : Nat) (hc : c ≤ a + b) (hab : a + b ≤ 32) (data : List Fr) (er : List Nat)
    (hlt : ∀ i ∈ er, i < 2 ^ c) :
    ∃ rs m, (ReedSolomon.new (2 ^ a) (2 ^ b) (2 ^ c) : Outcome RSError ReedSolomon) = .ok rs ∧
      (rs.acceptableNumBlockErasures : Outcome RSError Nat) = .ok m ∧
      (m < er.length → rs.recoverPolynomialCoefficient data er = .err (.TooManyBlockErasures er.length m)) := by
  refine ⟨rsOf a b c, _, rs_new a b c hab (by omega), acceptable_eq a b c hc, ?_⟩
  intro hm
  have h : er.find? (fun i => decide (i ≥ (rsOf a b c).blockSize)) = none := by
    rw [List.find?_eq_none]; intro x hx; simpa [rsOf] using hlt x hx
  unfold ReedSolomon.recoverPolynomialCoefficient ReedSolomon.constructVanishingPoly
  rw [h]
  simp only
  rw [acceptable_eq a b c hc, Outcome.ok_bind, if_pos hm]
  rfl

/-- C21: a message that is too long is refused by the encoder. -/
theorem C21_encode_too_long (rs : ReedSolomon) (msg : List Fr) (h : rs.polyLen < msg.length) :
    rs.encode msg = .err (.PolynomialHasTooManyCoefficients msg.length rs.polyLen) := by
  unfold ReedSolomon.encode; rw [if_pos h]

/-- C21, precondition `c ≤ a + b` is needed: with a block size above the codeword length the constructor succeeds, and
every decoding attempt with valid indices panics (division by zero). -/
theorem C21_large_block_panics (a b c : Nat) (hc : a + b < c) (hab : a + b ≤ 32) (hc2 : c ≤ 32) (data : List Fr)
    (er : List Nat) (hlt : ∀ i ∈ er, i < 2 ^ c) :
    ∃ rs, (ReedSolomon.new (2 ^ a) (2 ^ b) (2 ^ c) : Outcome RSError ReedSolomon) = .ok rs ∧
      rs.recoverPolynomialCoefficient data er = .panic := by
  refine ⟨rsOf a b c, rs_new a b c hab hc2, ?_⟩
  have h : er.find? (fun i => decide (i ≥ (rsOf a b c).blockSize)) = none := by
    rw [List.find?_eq_none]; intro x hx; simpa [rsOf] using hlt x hx
  have h0 : 2 ^ (a + b) / 2 ^ c = 0 := Nat.div_eq_of_lt (Nat.pow_lt_pow_right (by norm_num) hc)
  unfold ReedSolomon.recoverPolynomialCoefficient ReedSolomon.constructVanishingPoly
    ReedSolomon.acceptableNumBlockErasures
  rw [h]
  simp [rsOf, h0, assertP]

/-- C21, the pattern `Random` of the tests: decoding a codeword with arbitrary values in any places, as many as there are redundant
symbols, returns the message; decoding a word that no message encodes outside of these places returns an error. -/
theorem C21_random (a b c : Nat) (hc : c ≤ 32) (hab : a + b ≤ 32) (data : List Fr) (hd : data.length = 2 ^ (a + b))
    (er : List Nat) (hlt : ∀ i ∈ er, i < 2 ^ (a + b)) (hm : er.length + 2 ^ a ≤ 2 ^ (a + b)) :
    ∃ rs, (ReedSolomon.new (2 ^ a) (2 ^ b) (2 ^ c) : Outcome RSError ReedSolomon) = .ok rs ∧
      (∀ msg cw, msg.length = 2 ^ a → rs.encode msg = .ok cw → (∀ p < 2 ^ (a + b), p ∉ er → data[p]? = cw[p]?) →
        rs.recoverPolynomialCoefficientRandomErasure data er = .ok msg) ∧
      ((¬ ∃ msg cw, msg.length = 2 ^ a ∧ rs.encode msg = .ok cw ∧ ∀ p < 2 ^ (a + b), p ∉ er → data[p]? = cw[p]?) →
        rs.recoverPolynomialCoefficientRandomErasure data er = .err (.PolynomialHasInvalidLength (2 ^ (a + b)) (2 ^ a))) := by
  have hle : 2 ^ a ≤ 2 ^ (a + b) := Nat.pow_le_pow_right (by norm_num) (by omega)
  have henc : ∀ msg : List Fr, msg.length = 2 ^ a → (rsOf a b c).encode msg =
      .ok ((List.range (2 ^ (a + b))).map (fun j => (Spec.polyOf msg).eval (Spec.omega (a + b) ^ j))) := by
    intro msg hmsg
    unfold ReedSolomon.encode rsOf
    simp only
    rw [if_neg (by omega), fftScalars_eval (a + b) hab msg (by omega)]
  refine ⟨rsOf a b c, rs_new a b c hab hc, ?_, ?_⟩
  · intro msg cw hmsg hcw hdata
    rw [henc msg hmsg] at hcw
    cases hcw
    have hag : AgreesOff a b data (· ∈ er) (Spec.polyOf msg) := by
      refine ⟨by have := Spec.degree_polyOf_lt msg; rwa [hmsg] at this, ?_⟩
      intro p hp hper
      have h1 := hdata p hp hper
      rw [(rep_map_range (2 ^ (a + b)) _).2 p hp] at h1
      rw [List.getD_eq_getElem?_getD, h1]
      rfl
    rcases rs_recover_random a b c hab data hd er hlt (by omega) with ⟨f, hf, hr⟩ | ⟨hne, -⟩
    · rw [hr, agreesOff_unique a b hab data er (by omega) hf hag]
      congr 1
      refine (Rep.eq_map ⟨hmsg, ?_⟩).symm
      intro i hi
      rw [Spec.coeff_polyOf]
      simp [List.getD, hmsg, hi]
    · exact absurd ⟨_, hag⟩ hne
  · intro hno
    rcases rs_recover_random a b c hab data hd er hlt (by omega) with ⟨f, hf, hr⟩ | ⟨-, hr⟩
    · exfalso
      apply hno
      have hlen : (Spec.coeffs (2 ^ a) f).length = 2 ^ a := by simp [Spec.coeffs]
      refine ⟨Spec.coeffs (2 ^ a) f, _, hlen, henc _ hlen, ?_⟩
      intro p hp hper
      rw [(rep_map_range (2 ^ (a + b)) _).2 p hp, Spec.polyOf_coeffs hf.1, hf.2 p hp hper]
      simp [List.getD, show p < data.length by omega]
    · exact hr

/-- C21, the pattern `Random`: more places than that, or a place outside of the codeword, make it panic. -/
theorem C21_random_panics (a b c : Nat) (hc : c ≤ 32) (hab : a + b ≤ 32) (data : List Fr) (er : List Nat)
    (h : 2 ^ (a + b) < er.length + 2 ^ a ∨ ∃ i ∈ er, 2 ^ (a + b) ≤ i) :
    ∃ rs, (ReedSolomon.new (2 ^ a) (2 ^ b) (2 ^ c) : Outcome RSError ReedSolomon) = .ok rs ∧
      rs.recoverPolynomialCoefficientRandomErasure data er = .panic := by
  have hle : 2 ^ a ≤ 2 ^ (a + b) := Nat.pow_le_pow_right (by norm_num) (by omega)
  have hacc : (rsOf a b c).acceptableNumRandomErasures = 2 ^ (a + b) - 2 ^ a := by
    show 2 ^ a * 2 ^ b - 2 ^ a = _
    rw [← pow_add]
  have hr : (rsOf a b c).evaluationDomain.roots.length = 2 ^ (a + b) := by simp [rsOf, domainOf]
  refine ⟨rsOf a b c, rs_new a b c hab hc, ?_⟩
  unfold ReedSolomon.recoverPolynomialCoefficientRandomErasure ReedSolomon.constructVanishingPolyRandom
  by_cases hm : er.length ≤ (rsOf a b c).acceptableNumRandomErasures
  · rw [assertP_true hm, Outcome.ok_bind]
    obtain ⟨i, hi, hbig⟩ : ∃ i ∈ er, 2 ^ (a + b) ≤ i := by
      rcases h with h | h
      · omega
      · exact h
    have hp : (er.mapM (fun index => idx (rsOf a b c).evaluationDomain.roots index) : Outcome RSError (List Fr)) = .panic := by
      generalize (rsOf a b c).evaluationDomain.roots = R at hr
      clear h hm
      induction er with
      | nil => simp at hi
      | cons j er ih =>
        rw [List.mapM_cons]
        rcases Nat.lt_or_ge j R.length with hj | hj
        · rw [idx_lt hj, Outcome.ok_bind, ih (by
            rcases List.mem_cons.1 hi with rfl | hi
            · omega
            · exact hi)]
          rfl
        · have : (idx R j : Outcome RSError Fr) = .panic := by
            unfold idx
            rw [List.getElem?_eq_none hj]; rfl
          rw [this]; rfl
    rw [hp]; rfl
  · unfold assertP
    rw [if_neg hm]; rfl

/-- C21 (the test `test_vanishing_poly_erasure_pattern_equiv_random`): erasing blocks and erasing all their places decodes to the
same result, for every received word. -/
theorem C21_patterns_agree (a b c : Nat) (hc : c ≤ a + b) (hab : a + b ≤ 32) (data : List Fr) (hd : data.length = 2 ^ (a + b))
    (er places : List Nat) (hlt : ∀ i ∈ er, i < 2 ^ c) (hnd : places.Nodup)
    (hpl : ∀ p, p ∈ places ↔ p < 2 ^ (a + b) ∧ p % 2 ^ c ∈ er) :
    ∃ rs m, (ReedSolomon.new (2 ^ a) (2 ^ b) (2 ^ c) : Outcome RSError ReedSolomon) = .ok rs ∧
      (rs.acceptableNumBlockErasures : Outcome RSError Nat) = .ok m ∧
      (er.length ≤ m → rs.recoverPolynomialCoefficientRandomErasure data places = rs.recoverPolynomialCoefficient data er) := by
  refine ⟨rsOf a b c, _, rs_new a b c hab (by omega), acceptable_eq a b c hc, ?_⟩
  intro hm
  have hacc := acceptable_mul a b c _ hm
  have hpc := Nat.two_pow_pos c
  have hpl' : places.length ≤ er.length * 2 ^ (a + b - c) := by
    have h2 : 2 ^ (a + b) = 2 ^ c * 2 ^ (a + b - c) := by rw [← pow_add, Nat.add_sub_cancel' hc]
    have hsub : places ⊆ er.flatMap (fun i => (List.range (2 ^ (a + b - c))).map (fun t => i + 2 ^ c * t)) := by
      intro p hp
      obtain ⟨hp1, hp2⟩ := (hpl p).1 hp
      rw [List.mem_flatMap]
      refine ⟨_, hp2, List.mem_map.2 ⟨p / 2 ^ c, ?_, Nat.mod_add_div p (2 ^ c)⟩⟩
      rw [List.mem_range]
      exact Nat.div_lt_of_lt_mul (by omega)
    have := (List.subperm_of_subset hnd hsub).length_le
    rw [List.length_flatMap] at this
    simpa using this
  have hiff : ∀ f, AgreesOff a b data (· ∈ places) f ↔ Agrees a b c data er f := by
    intro f
    unfold AgreesOff Agrees
    refine and_congr_right fun _ => forall_congr' fun p => forall_congr' fun hp => ?_
    simp only [hpl p, hp, true_and]
  rcases rs_recover a b c hc hab data hd er hlt hm with ⟨f, hf, hr⟩ | ⟨hne, hr⟩ <;>
  rcases rs_recover_random a b c hab data hd places (fun i hi => ((hpl i).1 hi).1) (by omega) with ⟨f', hf', hr'⟩ | ⟨hne', hr'⟩
  · rw [hr, hr', agrees_unique a b c hc hab data er hlt hm hf ((hiff f').1 hf')]
  · exact absurd ⟨f, (hiff f).2 hf⟩ hne'
  · exact absurd ⟨f', (hiff f').1 hf'⟩ hne
  · rw [hr, hr']

/-! Non-vacuity: a code with 2 message symbols, 4 code symbols, 4 blocks of one symbol; two erasures are fine. -/

example : ∃ rs cw, (ReedSolomon.new (2 ^ 1) (2 ^ 1) (2 ^ 2) : Outcome RSError ReedSolomon) = .ok rs ∧
    rs.encode [5, 6] = .ok cw ∧
    rs.recoverPolynomialCoefficient (cw.set 1 99 |>.set 3 77) [1, 3] = .ok [5, 6] := by
  obtain ⟨rs, cw, m, h1, h2, h3, h4⟩ := C21_decodes 1 1 2 (by norm_num) (by norm_num) [5, 6] (by norm_num)
    ((List.range 4).map (fun j => (Spec.polyOf [5, 6]).eval (Spec.omega 2 ^ j)) |>.set 1 99 |>.set 3 77)
    (by simp) [1, 3] (by decide)
  have e1 : rs = rsOf 1 1 2 := by
    have := rs_new (ε := RSError) 1 1 2 (by norm_num) (by norm_num)
    rw [h1] at this; exact Outcome.ok.inj this
  subst e1
  have e2 : cw = (List.range 4).map (fun j => (Spec.polyOf [5, 6]).eval (Spec.omega 2 ^ j)) := by
    unfold ReedSolomon.encode rsOf at h2
    simp only at h2
    rw [if_neg (by norm_num), fftScalars_eval 2 (by norm_num) _ (by norm_num)] at h2
    exact (Outcome.ok.inj h2).symm
  have e3 : m = 2 := by
    rw [acceptable_eq 1 1 2 (by norm_num)] at h3
    exact (Outcome.ok.inj h3).symm
  subst e2 e3
  refine ⟨_, _, h1, h2, ?_⟩
  refine h4 (by norm_num) ?_
  intro p hp hne
  have : p = 0 ∨ p = 2 := by
    simp only [Nat.reduceAdd, Nat.reducePow] at hp hne
    have := Nat.mod_eq_of_lt hp
    rw [this] at hne
    simp at hne
    omega
  rcases this with rfl | rfl <;> simp

/-- `C21_random` and `C21_patterns_agree`: three of four places erased with one message symbol; one of two blocks. -/
example : ∃ rs, (ReedSolomon.new (2 ^ 0) (2 ^ 2) (2 ^ 1) : Outcome RSError ReedSolomon) = .ok rs ∧
    rs.recoverPolynomialCoefficientRandomErasure [9, 5, 8, 7] [0, 3, 2] = .ok [5] := by
  obtain ⟨rs, h, h', -⟩ := C21_random 0 2 1 (by norm_num) (by norm_num) [9, 5, 8, 7] rfl [0, 3, 2] (by decide) (by decide)
  obtain rfl : rs = rsOf 0 2 1 := by
    have := rs_new (ε := RSError) 0 2 1 (by norm_num) (by norm_num)
    rw [h] at this; exact Outcome.ok.inj this
  refine ⟨_, h, h' [5] [5, 5, 5, 5] rfl ?_ ?_⟩
  · unfold ReedSolomon.encode rsOf
    simp only
    rw [if_neg (by norm_num), fftScalars_eval 2 (by norm_num) _ (by norm_num)]
    simp [Spec.polyOf, List.range_succ]
  · intro p hp hne
    have : p = 1 := by simp at hp hne; omega
    subst this; rfl
example : [0, 2].Nodup ∧ ∀ p, p ∈ [0, 2] ↔ p < 2 ^ (1 + 1) ∧ p % 2 ^ 1 ∈ [0] := by
  refine ⟨by decide, fun p => ?_⟩
  simp
  omega

end Verif
