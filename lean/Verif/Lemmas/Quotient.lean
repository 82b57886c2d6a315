import Verif.Lemmas.VerifyRun

set_option linter.unusedSectionVars false

/-! The divisor of a cell and division by it. -/
namespace Verif
open Polynomial Finset

/-- `X^64 - h^64` with `h` the first point of coset `k` -/
noncomputable def cellDivisor (k : Nat) : Fr[X] := X ^ 64 - C (Spec.point 13 (64 * k) ^ 64)

theorem cellDivisor_eq (k : Nat) : Spec.vanishing 13 6 k = cellDivisor k := by
  rw [vanishing_eq 13 6 k (by norm_num) (by norm_num)]
  unfold cellDivisor
  have h := omega_pow 7 13 (by norm_num) (by norm_num)
  have e : Spec.point 13 (64 * k) ^ 64 = Spec.omega 7 ^ Spec.brev 7 k := by
    rw [point_start, ← pow_mul, mul_comm (Spec.brev 7 k) 64, pow_mul (Spec.omega 13) 64 (Spec.brev 7 k)]
    have h' : Spec.omega 13 ^ 64 = Spec.omega 7 := h
    rw [h']
  rw [e, show (2 : Nat) ^ 6 = 64 from rfl, show 13 - 6 = 7 from rfl]

theorem cellDivisor_monic (k : Nat) : (cellDivisor k).Monic := monic_X_pow_sub_C _ (by norm_num)

theorem cellDivisor_degree (k : Nat) : (cellDivisor k).degree = 64 := by
  unfold cellDivisor
  rw [degree_X_pow_sub_C (by norm_num)]; rfl

theorem cellDivisor_natDegree (k : Nat) : (cellDivisor k).natDegree = 64 := natDegree_X_pow_sub_C

theorem cellDivisor_eval (k : Nat) (τ : Fr) : (cellDivisor k).eval τ = τ ^ 64 - Spec.point 13 (64 * k) ^ 64 := by
  simp [cellDivisor]

theorem cellDivisor_root (k j : Nat) (hj : j < 64) : (cellDivisor k).eval (Spec.point 13 (64 * k + j)) = 0 := by
  rw [← cellDivisor_eq]
  unfold Spec.vanishing
  rw [eval_prod, show (2 : Nat) ^ 6 = 64 from rfl]
  exact prod_eq_zero (mem_range.2 hj) (by simp)

theorem isCell_mod (f : Fr[X]) (k : Nat) (c : List UInt8) : Spec.IsCell (f %ₘ cellDivisor k) k c ↔ Spec.IsCell f k c := by
  have : ∀ j < 64, (f %ₘ cellDivisor k).eval (Spec.point 13 (64 * k + j)) = f.eval (Spec.point 13 (64 * k + j)) := by
    intro j hj
    conv_rhs => rw [← modByMonic_add_div f (cellDivisor k)]
    rw [eval_add, eval_mul, cellDivisor_root k j hj, zero_mul, add_zero]
  unfold Spec.IsCell
  constructor
  · rintro ⟨h1, h2⟩
    exact ⟨h1, fun j hj => by rw [← this j hj]; exact h2 j hj⟩
  · rintro ⟨h1, h2⟩
    exact ⟨h1, fun j hj => by rw [this j hj]; exact h2 j hj⟩

theorem mod_degree (f : Fr[X]) (k : Nat) : (f %ₘ cellDivisor k).degree < 64 := by
  have := degree_modByMonic_lt f (cellDivisor_monic k)
  rwa [cellDivisor_degree] at this

/-- the polynomial of degree below 64 with given cell is unique -/
theorem interp_unique {I J : Fr[X]} {k : Nat} {c : List UInt8} (hI : I.degree < 64) (hJ : J.degree < 64)
    (h1 : Spec.IsCell I k c) (h2 : Spec.IsCell J k c) : I = J := by
  refine Interp_unique (k := k) (ev := (List.range 64).map (fun j => I.eval (Spec.point 13 (64 * k + j)))) ⟨hI, ?_⟩ ⟨hJ, ?_⟩
  · intro j hj
    rw [(rep_map_range 64 _).getD 0 hj]
  · intro j hj
    rw [(rep_map_range 64 _).getD 0 hj]
    exact encodes_inj (h2.2 j hj) (h1.2 j hj)

section
variable {G1 G2 : Type} [AddCommGroup G1] [Module Fr G1] [DecidableEq G1] [PointCodec G1] [AddCommGroup G2] [Module Fr G2]

theorem quotient_degree (f : Fr[X]) (hf : f.degree < 4096) (k : Nat) : (f /ₘ cellDivisor k).degree < 4096 :=
  lt_of_le_of_lt (degree_divByMonic_le f _) hf

theorem openingProof_eval {g1 : List G1} {g2 : List G2} {τ : Fr} {P : G1} {H : G2} (h : Spec.PowersOfTau g1 g2 τ P H)
    (f : Fr[X]) (hf : f.degree < 4096) (k : Nat) :
    Spec.openingProof g1 13 6 f k = (f /ₘ cellDivisor k).eval τ • P := by
  unfold Spec.openingProof
  rw [cellDivisor_eq, commitment_eval h _ (quotient_degree f hf k)]

theorem honest_valid (τ : Fr) (P : G1) (f : Fr[X]) (k : Nat) :
    Spec.Opening.Valid τ P ⟨f.eval τ • P, k, f %ₘ cellDivisor k, (f /ₘ cellDivisor k).eval τ • P⟩ := by
  unfold Spec.Opening.Valid
  simp only
  rw [← cellDivisor_eval, ← mul_smul, ← sub_smul]
  congr 1
  have := congrArg (eval τ) (modByMonic_add_div f (cellDivisor k))
  rw [eval_add, eval_mul] at this
  rw [← this]; ring

end
end Verif
