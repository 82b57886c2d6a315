import Verif.Lemmas.Reassembly

/-! C39, continued: what `recover_evaluations_in_domain_order` does with every input -/
namespace Verif

variable {ε : Type}

/-- the coset given last for an index is placed, positions of absent cosets keep zero -/
theorem placeCosets_last (len N : Nat) (inds : List Nat) (evals : List (List Fr))
    (hl : inds.length = evals.length) (hlt : ∀ i ∈ inds, i < N / len) (hev : ∀ e ∈ evals, e.length = len) :
    ∃ y, (placeCosets len inds evals (List.replicate N 0) : Outcome ε (List Fr)) = .ok y ∧ y.length = N ∧
      (∀ i (hi : i < inds.length), (∀ i' (hi' : i' < inds.length), i < i' → inds[i'] ≠ inds[i]) →
        ∀ j < len, y[inds[i] * len + j]? = (evals[i]'(hl ▸ hi))[j]?) ∧
      (∀ p < N, p / len ∉ inds → y[p]? = some 0) := by
  unfold placeCosets
  obtain ⟨y, hy, h1, h2, h3⟩ := foldlM_list_inv (ε := ε) (l := inds.zip evals) (s := List.replicate N (0 : Fr))
    (body := fun elements (p : Nat × List Fr) =>
      copyFromSlice elements (p.1 * len) (p.1 * len + len) p.2)
    (fun q y => y.length = N ∧
      (∀ i (hi : i < inds.length), i < q → (∀ i' (hi' : i' < inds.length), i < i' → i' < q → inds[i'] ≠ inds[i]) →
        ∀ j < len, y[inds[i] * len + j]? = (evals[i]'(hl ▸ hi))[j]?) ∧
      (∀ p < N, (∀ i (hi : i < inds.length), i < q → inds[i] ≠ p / len) → y[p]? = some 0))
    (by
      refine ⟨by simp, fun i hi h => absurd h (by omega), fun p hp _ => by simp [hp]⟩)
    (by
      rintro q y hq ⟨hy, h2, h3⟩
      have hq' : q < inds.length := by simp at hq; omega
      have hqe : q < evals.length := by omega
      have hk : inds[q] < N / len := hlt _ (List.getElem_mem hq')
      have hb : inds[q] * len + len ≤ y.length := by
        rw [hy]
        have h5 : (inds[q] + 1) * len ≤ N / len * len := Nat.mul_le_mul_right _ hk
        have h6 := Nat.div_mul_le_self N len
        rw [Nat.add_mul, Nat.one_mul] at h5
        omega
      obtain ⟨y', hy', hl', ha, hb'⟩ := copyFromSlice_ok (ε := ε) y (inds[q] * len) len evals[q] hb
        (hev _ (List.getElem_mem hqe))
      refine ⟨y', by simpa using hy', by omega, ?_, ?_⟩
      · intro i hi hiq hlast j hj
        by_cases hiq' : i = q
        · subst hiq'; exact ha j hj
        · have hne : inds[i] ≠ inds[q] := fun h => hlast q hq' (by omega) (by omega) h.symm
          rw [hb' _ _]
          · exact h2 i hi (by omega) (fun i' hi' h5 h6 => hlast i' hi' h5 (by omega)) j hj
          · rcases Nat.lt_or_gt_of_ne hne with h | h
            · left
              have : (inds[i] + 1) * len ≤ inds[q] * len := Nat.mul_le_mul_right _ h
              rw [Nat.add_mul, Nat.one_mul] at this
              omega
            · right
              have : (inds[q] + 1) * len ≤ inds[i] * len := Nat.mul_le_mul_right _ h
              rw [Nat.add_mul, Nat.one_mul] at this
              omega
      · intro p hp hpn
        rw [hb' _ _]
        · exact h3 p hp (fun i hi hiq => hpn i hi (by omega))
        · by_contra hcon
          push Not at hcon
          apply hpn q hq' (by omega)
          symm
          rw [Nat.div_eq_iff (by omega)]
          constructor <;> omega)
  refine ⟨y, hy, h1, ?_, ?_⟩
  · intro i hi hlast j hj
    exact h2 i hi (by simp; omega) (fun i' hi' h5 _ => hlast i' hi' h5) j hj
  · intro p hp hpn
    apply h3 p hp
    intro i hi _ h
    exact hpn (h ▸ List.getElem_mem hi)

/-- the function after its checks of the lists -/
theorem reassembly_run (N len : Nat) (inds : List Nat) (evals : List (List Fr)) (hl : inds.length = evals.length)
    (hne : inds ≠ []) (hev : ∀ e ∈ evals, e.length = len) (h0 : len ≠ 0) (hlt : ∀ i ∈ inds, i < N / len) :
    (recoverEvaluationsInDomainOrder N inds evals : Outcome ε _) = (do
      let elements ← placeCosets len inds evals (List.replicate N 0)
      let elements ← reverseBitOrder elements
      let bits ← log2u32 ((N / len) % 2 ^ 32)
      pure (some (inds.map (fun i => reverseBits i bits), elements))) := by
  unfold recoverEvaluationsInDomainOrder
  rw [assertP_true hl, Outcome.ok_bind]
  have h1 : inds.isEmpty = false := by simpa using hne
  rw [h1]
  simp only [Bool.false_eq_true, if_false]
  have hen : evals ≠ [] := by
    intro h; rw [h] at hl; exact hne (List.length_eq_zero_iff.1 hl)
  obtain ⟨e0, es, rfl⟩ := List.exists_cons_of_ne_nil hen
  have he0 : e0.length = len := hev e0 (by simp)
  have hidx : (idx (e0 :: es) 0 : Outcome ε (List Fr)) = .ok e0 := rfl
  rw [hidx, Outcome.ok_bind, he0]
  have hall : ((e0 :: es).all (fun c => c.length == len)) = true := by
    rw [List.all_eq_true]; intro c hc; simp [hev c hc]
  have hall2 : (inds.all (fun i => decide (i < N / len))) = true := by
    rw [List.all_eq_true]; intro i hi; simp [hlt i hi]
  rw [hall, hall2]
  simp only [not_true, if_false]
  rw [assertP_true h0, Outcome.ok_bind]

/-- C39: the inputs without a result. Lists of different lengths panic; no cosets, cosets of different lengths and an index
for which there is no room give `None`; empty cosets panic (division by zero). -/
theorem C39_refuses (N : Nat) (inds : List Nat) (evals : List (List Fr)) :
    (inds.length ≠ evals.length → (recoverEvaluationsInDomainOrder N inds evals : Outcome ε _) = .panic) ∧
    (recoverEvaluationsInDomainOrder N [] [] : Outcome ε _) = .ok none ∧
    (inds.length = evals.length → (∃ e ∈ evals, ∃ e' ∈ evals, e.length ≠ e'.length) →
      (recoverEvaluationsInDomainOrder N inds evals : Outcome ε _) = .ok none) ∧
    (inds.length = evals.length → evals ≠ [] → (∀ e ∈ evals, e = []) →
      (recoverEvaluationsInDomainOrder N inds evals : Outcome ε _) = .panic) ∧
    (∀ len, inds.length = evals.length → 0 < len → (∀ e ∈ evals, e.length = len) → (∃ i ∈ inds, N / len ≤ i) →
      (recoverEvaluationsInDomainOrder N inds evals : Outcome ε _) = .ok none) := by
  have key : ∀ (hl : inds.length = evals.length) (e0 : List Fr) (es : List (List Fr)), evals = e0 :: es →
      (recoverEvaluationsInDomainOrder N inds evals : Outcome ε _) =
      (if ¬ (evals.all (fun c => c.length == e0.length)) then pure none
      else do
        assertP (e0.length ≠ 0)
        if ¬ (inds.all (fun i => decide (i < N / e0.length))) then pure none
        else do
          let elements ← placeCosets e0.length inds evals (List.replicate N 0)
          let elements ← reverseBitOrder elements
          let bits ← log2u32 ((N / e0.length) % 2 ^ 32)
          pure (some (inds.map (fun i => reverseBits i bits), elements))) := by
    rintro hl e0 es rfl
    unfold recoverEvaluationsInDomainOrder
    rw [assertP_true hl, Outcome.ok_bind]
    have h1 : inds.isEmpty = false := by
      cases inds with
      | nil => simp at hl
      | cons a l => rfl
    rw [h1]
    simp only [Bool.false_eq_true, if_false]
    have hidx : (idx (e0 :: es) 0 : Outcome ε (List Fr)) = .ok e0 := rfl
    rw [hidx, Outcome.ok_bind]
  refine ⟨?_, rfl, ?_, ?_, ?_⟩
  · intro h
    unfold recoverEvaluationsInDomainOrder
    rw [assertP_false h]
    rfl
  · rintro hl ⟨e, he, e', he', hne⟩
    obtain ⟨e0, es, hes⟩ := List.exists_cons_of_ne_nil (List.ne_nil_of_mem he)
    rw [key hl e0 es hes, if_pos]
    · rfl
    · intro h
      rw [List.all_eq_true] at h
      have h1 := h e he
      have h2 := h e' he'
      simp only [beq_iff_eq] at h1 h2
      exact hne (h1.trans h2.symm)
  · intro hl hne hall
    obtain ⟨e0, es, hes⟩ := List.exists_cons_of_ne_nil hne
    have h0 : e0 = [] := hall e0 (by rw [hes]; simp)
    rw [key hl e0 es hes, if_neg, assertP_false]
    · rfl
    · simp [h0]
    · rw [not_not, List.all_eq_true]
      intro c hc
      rw [hall c hc, h0]; rfl
  · rintro len hl hlen hev ⟨i, hi, hN⟩
    have hne : evals ≠ [] := by
      rintro rfl
      have : inds = [] := List.length_eq_zero_iff.1 hl
      rw [this] at hi; cases hi
    obtain ⟨e0, es, hes⟩ := List.exists_cons_of_ne_nil hne
    have h0 : e0.length = len := hev e0 (by rw [hes]; simp)
    rw [key hl e0 es hes, h0, if_neg, assertP_true (by omega), Outcome.ok_bind, if_pos]
    · rfl
    · intro h
      rw [List.all_eq_true] at h
      have := h i hi
      simp only [decide_eq_true_eq] at this
      omega
    · rw [not_not, List.all_eq_true]
      intro c hc
      simp [hev c hc]

/-- C39: all other inputs, with a domain of less than `2^32` elements: there is a result exactly if the domain and the number of
cosets that fit into it are powers of two, otherwise the call panics. The length of the cosets need not divide the size of
the domain. Of several cosets with the same index the last one is used, and the index is returned as often as it was
given. -/
theorem C39_every_size (N len : Nat) (hN : N < 2 ^ 32) (inds : List Nat) (evals : List (List Fr))
    (hl : inds.length = evals.length) (hne : inds ≠ []) (hlen : 0 < len) (hev : ∀ e ∈ evals, e.length = len)
    (hlt : ∀ i ∈ inds, i < N / len) :
    (∀ L d, N = 2 ^ L → N / len = 2 ^ d →
      ∃ y, (recoverEvaluationsInDomainOrder N inds evals : Outcome ε _) = .ok (some (inds.map (Spec.brev d), y)) ∧
        y.length = N ∧
        (∀ i (hi : i < inds.length), (∀ i' (hi' : i' < inds.length), i < i' → inds[i'] ≠ inds[i]) →
          ∀ j < len, y[Spec.brev L (len * inds[i] + j)]? = (evals[i]'(hl ▸ hi))[j]?) ∧
        (∀ p < N, Spec.brev L p / len ∉ inds → y[p]? = some 0)) ∧
    ((¬ ∃ L d, N = 2 ^ L ∧ N / len = 2 ^ d) →
      (recoverEvaluationsInDomainOrder N inds evals : Outcome ε _) = .panic) := by
  obtain ⟨y, hy, hyl, h1, h2⟩ := placeCosets_last (ε := ε) len N inds evals hl hlt hev
  rw [reassembly_run N len inds evals hl hne hev (by omega) hlt, hy, Outcome.ok_bind]
  have hdN : N / len ≤ N := Nat.div_le_self _ _
  have hmod : N / len % 2 ^ 32 = N / len := Nat.mod_eq_of_lt (by omega)
  rw [hmod]
  constructor
  · intro L d hNL hd
    have hL : L < 32 := (Nat.pow_lt_pow_iff_right (by norm_num)).1 (hNL ▸ hN)
    have hdL : d < 32 := (Nat.pow_lt_pow_iff_right (by norm_num)).1 (hd ▸ lt_of_le_of_lt hdN hN)
    have hyR : Rep y (2 ^ L) (fun p => y.getD p 0) := by
      have := rep_getD y (0 : Fr)
      rwa [hyl, hNL] at this
    obtain ⟨z, hz, hzR⟩ := reverseBitOrder_spec (ε := ε) L hL hyR
    rw [hz, Outcome.ok_bind, hd, log2u32_two_pow d hdL, Outcome.ok_bind, Outcome.pure_eq]
    refine ⟨z, ?_, by rw [hzR.1, hNL], ?_, ?_⟩
    · have : inds.map (fun i => reverseBits i d) = inds.map (Spec.brev d) := by
        apply List.map_congr_left
        intro i _
        exact reverseBits_eq i d (by omega)
      rw [this]
    · intro i hi hlast j hj
      have hk : inds[i] < N / len := hlt _ (List.getElem_mem hi)
      have hb : len * inds[i] + j < 2 ^ L := by
        rw [← hNL]
        have h5 : len * (inds[i] + 1) ≤ len * (N / len) := Nat.mul_le_mul_left _ hk
        have h6 := Nat.mul_div_le N len
        rw [Nat.mul_add, Nat.mul_one] at h5
        omega
      rw [hzR.2 _ (Spec.brev_lt _ _)]
      simp only
      rw [Spec.brev_brev _ _ hb, ← hyR.2 _ hb, Nat.mul_comm, h1 i hi hlast j hj]
    · intro p hp hpn
      rw [hNL] at hp
      rw [hzR.2 p hp, ← hyR.2 _ (Spec.brev_lt _ _), h2 _ (by rw [hNL]; exact Spec.brev_lt _ _) hpn]
  · intro hno
    by_cases hL : ∃ L, N = 2 ^ L
    · obtain ⟨L, hNL⟩ := hL
      have hL : L < 32 := (Nat.pow_lt_pow_iff_right (by norm_num)).1 (hNL ▸ hN)
      have hyR : Rep y (2 ^ L) (fun p => y.getD p 0) := by
        have := rep_getD y (0 : Fr)
        rwa [hyl, hNL] at this
      obtain ⟨z, hz, -⟩ := reverseBitOrder_spec (ε := ε) L hL hyR
      have : (log2u32 (N / len) : Outcome ε Nat) = .panic := by
        unfold log2u32
        rw [assertP_false]
        · rfl
        · rintro ⟨-, h5⟩
          obtain ⟨d, hd⟩ := (isPow2_iff _).1 h5
          exact hno ⟨L, d, hNL, hd⟩
      rw [hz, Outcome.ok_bind, this]
      rfl
    · rw [reverseBitOrder_panic (by rw [hyl]; exact hN) (fun k hk => hL ⟨k, by rw [← hk, hyl]⟩)]
      rfl

/-! Concrete cases: two cosets of three values in a domain of eight, the index 1 given twice, and inputs without a result. -/
example : (recoverEvaluationsInDomainOrder 8 [1, 0, 1] [[1, 2, 3], [4, 5, 6], [7, 8, 9]] : Outcome Unit _) =
    .ok (some ([1, 0, 1], [4, 8, 6, 0, 5, 9, 7, 0])) := by decide +kernel
example : (recoverEvaluationsInDomainOrder 8 [0] [[1]] : Outcome Unit _) =
    .ok (some ([0], [1, 0, 0, 0, 0, 0, 0, 0])) := by decide +kernel
example : (recoverEvaluationsInDomainOrder 12 [0] [[1, 2, 3]] : Outcome Unit _) = .panic := by decide +kernel
example : (recoverEvaluationsInDomainOrder 16 [0] [[1, 2, 3]] : Outcome Unit _) = .panic := by decide +kernel
example : (recoverEvaluationsInDomainOrder 8 [2] [[1, 2, 3]] : Outcome Unit _) = .ok none := by decide +kernel
example : (recoverEvaluationsInDomainOrder 8 [0] [[]] : Outcome Unit _) = .panic := by decide +kernel

end Verif
