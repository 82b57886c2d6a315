import Verif.Model.Cosets
import Verif.Lemmas.Cosets
import Verif.Lemmas.Outcome

/-! Placement of cosets in the domain (`recover_evaluations_in_domain_order`). -/
namespace Verif

variable {ε : Type}

theorem copyFromSlice_ok {α : Type} (z : List α) (start len : Nat) (src : List α) (h : start + len ≤ z.length)
    (hs : src.length = len) :
    ∃ y, (copyFromSlice z start (start + len) src : Outcome ε (List α)) = .ok y ∧ y.length = z.length ∧
      (∀ j < len, y[start + j]? = src[j]?) ∧
      (∀ p, (p < start ∨ start + len ≤ p) → y[p]? = z[p]?) := by
  refine ⟨z.take start ++ src ++ z.drop (start + len), ?_, ?_, ?_, ?_⟩
  · unfold copyFromSlice
    rw [if_pos ⟨by omega, h, by omega⟩]
  · simp; omega
  · intro j hj
    rw [List.append_assoc, List.getElem?_append_right (by simp), List.getElem?_append_left (by simp; omega)]
    congr 1
    simp; omega
  · intro p hp
    rcases hp with hp | hp
    · rw [List.append_assoc, List.getElem?_append_left (by simp; omega), List.getElem?_take_of_lt hp]
    · rw [List.getElem?_append_right (by simp; omega), List.getElem?_drop]
      congr 1
      simp; omega

/-- every coset is placed, everything else stays zero -/
theorem placeCosets_spec (len m : Nat) (inds : List Nat) (evals : List (List Fr))
    (hl : inds.length = evals.length) (hnd : inds.Nodup) (hlt : ∀ i ∈ inds, i < m)
    (hev : ∀ e ∈ evals, e.length = len) :
    ∃ y, (placeCosets len inds evals (List.replicate (len * m) 0) : Outcome ε (List Fr)) = .ok y ∧
      y.length = len * m ∧
      (∀ i (hi : i < inds.length), ∀ j < len, y[inds[i] * len + j]? = (evals[i]'(hl ▸ hi))[j]?) ∧
      (∀ p < len * m, p / len ∉ inds → y[p]? = some 0) := by
  unfold placeCosets
  obtain ⟨y, hy, h1, h2, h3⟩ := foldlM_list_inv (ε := ε) (l := inds.zip evals) (s := List.replicate (len * m) (0 : Fr))
    (body := fun elements (p : Nat × List Fr) =>
      copyFromSlice elements (p.1 * len) (p.1 * len + len) p.2)
    (fun q y => y.length = len * m ∧
      (∀ i (hi : i < inds.length), i < q → ∀ j < len, y[inds[i] * len + j]? = (evals[i]'(hl ▸ hi))[j]?) ∧
      (∀ p < len * m, (∀ i (hi : i < inds.length), i < q → inds[i] ≠ p / len) → y[p]? = some 0))
    (by
      refine ⟨by simp, fun i hi h => absurd h (by omega), fun p hp _ => by simp [hp]⟩)
    (by
      rintro q y hq ⟨hy, h2, h3⟩
      have hq' : q < inds.length := by simp at hq; omega
      have hqe : q < evals.length := by omega
      have hk : inds[q] < m := hlt _ (List.getElem_mem hq')
      have hb : inds[q] * len + len ≤ y.length := by
        rw [hy]
        have : (inds[q] + 1) * len ≤ m * len := Nat.mul_le_mul_right _ hk
        rw [Nat.mul_comm m, Nat.add_mul, Nat.one_mul] at this
        exact this
      obtain ⟨y', hy', hl', ha, hb'⟩ := copyFromSlice_ok (ε := ε) y (inds[q] * len) len evals[q] hb
        (hev _ (List.getElem_mem hqe))
      refine ⟨y', by simpa using hy', by omega, ?_, ?_⟩
      · intro i hi hiq j hj
        by_cases hiq' : i = q
        · subst hiq'; exact ha j hj
        · have hne : inds[i] ≠ inds[q] := fun h => hiq' ((hnd.getElem_inj_iff).1 h)
          rw [hb' _ _]
          · exact h2 i hi (by omega) j hj
          · rcases Nat.lt_or_gt_of_ne hne with h | h
            · left
              have : (inds[i] + 1) * len ≤ inds[q] * len := Nat.mul_le_mul_right _ h
              rw [Nat.add_mul, Nat.one_mul] at this
              omega
            · right
              have : (inds[q] + 1) * len ≤ inds[i] * len := Nat.mul_le_mul_right _ h
              rw [Nat.add_mul, Nat.one_mul] at this
              omega
      · intro p hp hpn
        rw [hb' _ _]
        · exact h3 p hp (fun i hi hiq => hpn i hi (by omega))
        · by_contra hcon
          push Not at hcon
          apply hpn q hq' (by omega)
          symm
          rw [Nat.div_eq_iff (by omega)]
          constructor <;> omega)
  refine ⟨y, hy, h1, ?_, ?_⟩
  · intro i hi j hj
    exact h2 i hi (by simp; omega) j hj
  · intro p hp hpn
    apply h3 p hp
    intro i hi _ h
    exact hpn (h ▸ List.getElem_mem hi)

/-- Reassembly in domain order. -/
theorem recoverEvaluations_spec (q d : Nat) (hqd : q + d < 32) (inds : List Nat) (evals : List (List Fr))
    (hl : inds.length = evals.length) (hne : inds ≠ []) (hnd : inds.Nodup) (hlt : ∀ i ∈ inds, i < 2 ^ d)
    (hev : ∀ e ∈ evals, e.length = 2 ^ q) :
    ∃ y, (recoverEvaluationsInDomainOrder (2 ^ (q + d)) inds evals : Outcome ε _) =
        .ok (some (inds.map (Spec.brev d), y)) ∧
      y.length = 2 ^ (q + d) ∧
      (∀ i (hi : i < inds.length), ∀ j < 2 ^ q,
        y[Spec.brev (q + d) (2 ^ q * inds[i] + j)]? = (evals[i]'(hl ▸ hi))[j]?) ∧
      (∀ p < 2 ^ (q + d), Spec.brev (q + d) p / 2 ^ q ∉ inds → y[p]? = some 0) := by
  have hq := Nat.two_pow_pos q
  have hmul : 2 ^ (q + d) = 2 ^ q * 2 ^ d := pow_add _ _ _
  unfold recoverEvaluationsInDomainOrder
  rw [assertP_true hl, Outcome.ok_bind]
  have h0 : inds.isEmpty = false := by simpa using hne
  rw [h0]
  simp only [Bool.false_eq_true, if_false]
  have hen : evals ≠ [] := by
    intro h; rw [h] at hl; exact hne (List.length_eq_zero_iff.1 hl)
  obtain ⟨e0, es, rfl⟩ := List.exists_cons_of_ne_nil hen
  have he0 : e0.length = 2 ^ q := hev e0 (by simp)
  have hidx : (idx (e0 :: es) 0 : Outcome ε (List Fr)) = .ok e0 := rfl
  rw [hidx, Outcome.ok_bind, he0]
  have hall : ((e0 :: es).all (fun c => c.length == 2 ^ q)) = true := by
    rw [List.all_eq_true]; intro c hc; simp [hev c hc]
  have hdiv : 2 ^ (q + d) / 2 ^ q = 2 ^ d := by
    rw [hmul, Nat.mul_div_cancel_left _ hq]
  have hall2 : (inds.all (fun i => decide (i < 2 ^ (q + d) / 2 ^ q))) = true := by
    rw [List.all_eq_true]; intro i hi; rw [hdiv]; simp [hlt i hi]
  obtain ⟨y, hy, hyl, h1, h2⟩ := placeCosets_spec (ε := ε) (2 ^ q) (2 ^ d) inds (e0 :: es) hl hnd hlt hev
  have hyR : Rep y (2 ^ (q + d)) (fun p => y.getD p 0) := by
    have := rep_getD y (0 : Fr)
    rwa [hyl, ← hmul] at this
  obtain ⟨z, hz, hzR⟩ := reverseBitOrder_spec (ε := ε) (q + d) hqd hyR
  have hlog : (log2u32 (2 ^ (q + d) / 2 ^ q % 2 ^ 32) : Outcome ε Nat) = .ok d := by
    rw [hdiv, Nat.mod_eq_of_lt (Nat.pow_lt_pow_right (by norm_num) (by omega)), log2u32_two_pow d (by omega)]
  rw [hall, hall2]
  simp only [not_true, if_false]
  rw [assertP_true (by omega), Outcome.ok_bind, hmul, hy, Outcome.ok_bind, hz, Outcome.ok_bind, ← hmul, hlog,
    Outcome.ok_bind, Outcome.pure_eq]
  refine ⟨z, ?_, hzR.1, ?_, ?_⟩
  · have : inds.map (fun i => reverseBits i d) = inds.map (Spec.brev d) := by
      apply List.map_congr_left
      intro i _
      exact reverseBits_eq i d (by omega)
    rw [this]
  · intro i hi j hj
    have hk : inds[i] < 2 ^ d := hlt _ (List.getElem_mem hi)
    have hb : 2 ^ q * inds[i] + j < 2 ^ (q + d) := by
      rw [hmul]
      have : 2 ^ q * (inds[i] + 1) ≤ 2 ^ q * 2 ^ d := Nat.mul_le_mul_left _ hk
      rw [Nat.mul_add, Nat.mul_one] at this
      omega
    rw [hzR.2 _ (Spec.brev_lt _ _)]
    simp only
    rw [Spec.brev_brev _ _ hb, ← hyR.2 _ hb, Nat.mul_comm, h1 i hi j hj]
  · intro p hp hpn
    rw [hzR.2 p hp, ← hyR.2 _ (Spec.brev_lt _ _), h2 _ (by rw [← hmul]; exact Spec.brev_lt _ _) hpn]

end Verif
