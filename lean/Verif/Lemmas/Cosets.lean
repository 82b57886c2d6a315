import Verif.Model.Cosets
import Verif.Lemmas.Domain
import Verif.Lemmas.Outcome

/-! Lemmas on bit reversal and coset generators. -/
namespace Verif

variable {ε α : Type}

theorem reverseBits_eq (k l : Nat) (hl : l ≤ 64) : reverseBits k l = Spec.brev l k := by
  rw [reverseBits, bitrev_loop_spec 64 l k hl]

theorem log2u32_two_pow (k : Nat) (hk : k < 32) : (log2u32 (2 ^ k) : Outcome ε Nat) = .ok k := by
  simp [log2u32, trailingZeros32_two_pow k hk]

theorem reverseBitOrder_spec (L : Nat) (hL : L < 32) {A : List α} {f : Nat → α} (h : Rep A (2 ^ L) f) :
    ∃ B, (reverseBitOrder A : Outcome ε (List α)) = .ok B ∧ Rep B (2 ^ L) (fun i => f (Spec.brev L i)) := by
  have hlt : (2 : Nat) ^ L < 2 ^ 32 := Nat.pow_lt_pow_right (by norm_num) hL
  obtain ⟨B, hB, hR⟩ := swapLoop_spec (ε := ε) h (Spec.brev L) (fun i _ => Spec.brev_lt L i)
    (fun i hi => Spec.brev_brev L i hi)
  refine ⟨B, ?_, hR⟩
  have hfun : (fun (a : List α) k =>
      let rk := reverseBits k L % 2 ^ 32
      if k < rk then (swapIdx a rk k : Outcome ε (List α)) else pure a) =
      fun a k => if k < Spec.brev L k then swapIdx a (Spec.brev L k) k else pure a := by
    funext a k
    have h1 : reverseBits k L % 2 ^ 32 = Spec.brev L k := by
      rw [reverseBits_eq k L (by omega), Nat.mod_eq_of_lt (lt_trans (Spec.brev_lt L k) hlt)]
    simp only [h1]
  unfold reverseBitOrder
  simp only [h.1, Nat.mod_eq_of_lt hlt]
  rw [assertP_true (isPow2_two_pow L), log2u32_two_pow L hL]
  simp only [Outcome.ok_bind, reverseBitOrderLoop]
  rw [hfun, hB]

theorem reverseBitOrder_eq (L : Nat) (hL : L < 32) {A : List α} {f : Nat → α} (h : Rep A (2 ^ L) f) :
    (reverseBitOrder A : Outcome ε (List α)) = .ok ((List.range (2 ^ L)).map (fun i => f (Spec.brev L i))) := by
  obtain ⟨B, hB, hR⟩ := reverseBitOrder_spec (ε := ε) L hL h
  rw [hB, hR.eq_map]

theorem reverseBitOrder_panic {A : List α} (h : A.length < 2 ^ 32) (hp : ∀ k, A.length ≠ 2 ^ k) :
    (reverseBitOrder A : Outcome ε (List α)) = .panic := by
  unfold reverseBitOrder
  simp only [Nat.mod_eq_of_lt h]
  rw [assertP_false]
  · rfl
  · rw [isPow2_iff]; rintro ⟨k, hk⟩; exact hp k hk

/-- coset generators in bit-reversed order -/
theorem cosetGens_spec (a b : Nat) (ha : a ≤ 32) (hb : b < 32) :
    (cosetGens (2 ^ a) (2 ^ b) true : Outcome ε (List Fr)) =
      .ok ((List.range (2 ^ b)).map (fun i => Spec.omega a ^ Spec.brev b i)) := by
  unfold cosetGens
  rw [domain_new_two_pow a ha, Outcome.ok_bind]
  apply mapM_ok
  intro i _
  unfold cosetGenAt
  have hlt : (2 : Nat) ^ b < 2 ^ 32 := Nat.pow_lt_pow_right (by norm_num) hb
  rw [Nat.mod_eq_of_lt hlt, log2u32_two_pow b hb]
  simp [reverseBits_eq i b (by omega), domainOf]

theorem cosetGens_spec_false (a m : Nat) (ha : a ≤ 32) :
    (cosetGens (2 ^ a) m false : Outcome ε (List Fr)) = .ok ((List.range m).map (fun i => Spec.omega a ^ i)) := by
  unfold cosetGens
  rw [domain_new_two_pow a ha, Outcome.ok_bind]
  exact mapM_ok (fun i _ => rfl)

theorem setIdx_append (p s : List α) (i : Nat) (x : α) (hi : i < p.length) :
    (setIdx (p ++ s) i x : Outcome ε (List α)) = (setIdx p i x >>= fun p => pure (p ++ s)) := by
  unfold setIdx
  rw [if_pos (by simp; omega), if_pos hi]
  simp [hi]

theorem idx_append (p s : List α) (i : Nat) (hi : i < p.length) :
    (idx (p ++ s) i : Outcome ε α) = idx p i := by
  unfold idx
  rw [List.getElem?_append_left hi]

theorem swapIdx_append (p s : List α) (i j : Nat) (hi : i < p.length) (hj : j < p.length) :
    ∃ q, (swapIdx p i j : Outcome ε (List α)) = .ok q ∧ q.length = p.length ∧
      (swapIdx (p ++ s) i j : Outcome ε (List α)) = .ok (q ++ s) := by
  have h1 : (idx p i : Outcome ε α) = .ok p[i] := by simp [idx, List.getElem?_eq_getElem hi]
  have h2 : (idx p j : Outcome ε α) = .ok p[j] := by simp [idx, List.getElem?_eq_getElem hj]
  refine ⟨(p.set i p[j]).set j p[i], ?_, by simp, ?_⟩
  · unfold swapIdx setIdx
    rw [h1, h2]
    simp only [Outcome.ok_bind]
    rw [if_pos hi, Outcome.ok_bind, if_pos (by simpa using hj)]
  · unfold swapIdx
    rw [idx_append p s i hi, idx_append p s j hj, h1, h2]
    simp only [Outcome.ok_bind]
    rw [setIdx_append _ _ _ _ hi]
    simp only [setIdx]
    rw [if_pos hi]
    simp only [Outcome.ok_bind, Outcome.pure_eq]
    rw [if_pos (by simp; omega)]
    simp [hj]

theorem swapFold_append (ρ : Nat → Nat) (s : List α) (ks : List Nat) (p : List α)
    (hk : ∀ k ∈ ks, k < p.length) (hρ : ∀ k, ρ k < p.length) :
    ∃ q, (ks.foldlM (fun a k => if k < ρ k then swapIdx a (ρ k) k else pure a) p : Outcome ε (List α)) = .ok q ∧
      (ks.foldlM (fun a k => if k < ρ k then swapIdx a (ρ k) k else pure a) (p ++ s) : Outcome ε (List α)) =
        .ok (q ++ s) := by
  induction ks generalizing p with
  | nil => exact ⟨p, rfl, rfl⟩
  | cons k ks ih =>
    rw [List.foldlM_cons, List.foldlM_cons]
    by_cases h : k < ρ k
    · obtain ⟨q, hq, hl, hqs⟩ := swapIdx_append (ε := ε) p s (ρ k) k (hρ k) (hk k (by simp))
      rw [if_pos h, if_pos h, hq, hqs, Outcome.ok_bind, Outcome.ok_bind]
      exact ih q (fun k' h' => hl ▸ hk k' (by simp [h'])) (fun k' => hl ▸ hρ k')
    · rw [if_neg h, if_neg h]
      exact ih p (fun k' h' => hk k' (by simp [h'])) hρ

/-- bit reversal sees only the low 32 bits of the length -/
theorem reverseBitOrder_append (L m : Nat) (hL : L < 32) (p s : List α) (hp : p.length = 2 ^ L)
    (hs : s.length = m * 2 ^ 32) :
    ∃ q, (reverseBitOrder p : Outcome ε (List α)) = .ok q ∧ (reverseBitOrder (p ++ s) : Outcome ε (List α)) = .ok (q ++ s) := by
  have hlt : (2 : Nat) ^ L < 2 ^ 32 := Nat.pow_lt_pow_right (by norm_num) hL
  have hl : (p ++ s).length % 2 ^ 32 = 2 ^ L := by
    rw [List.length_append, hp, hs, Nat.add_mul_mod_self_right, Nat.mod_eq_of_lt hlt]
  obtain ⟨q, h1, h2⟩ := swapFold_append (ε := ε) (fun k => reverseBits k L % 2 ^ 32) s (List.range (2 ^ L)) p
    (fun k hk => by rw [hp]; simpa using hk) (fun k => by
      show reverseBits k L % 2 ^ 32 < _
      rw [reverseBits_eq k L (by omega), hp]
      exact lt_of_le_of_lt (Nat.mod_le _ _) (Spec.brev_lt L k))
  refine ⟨q, ?_, ?_⟩
  · unfold reverseBitOrder
    simp only [hp, Nat.mod_eq_of_lt hlt]
    rw [assertP_true (isPow2_two_pow L), log2u32_two_pow L hL]
    exact h1
  · unfold reverseBitOrder
    simp only [hl]
    rw [assertP_true (isPow2_two_pow L), log2u32_two_pow L hL]
    exact h2

end Verif
