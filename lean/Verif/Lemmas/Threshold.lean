import Mathlib.RingTheory.Polynomial.Basic
import Mathlib.Data.Set.Card
import Verif.Lemmas.Api
import Verif.Lemmas.Quotient

/-! How many polynomials of bounded degree have given values at given points. -/
namespace Verif
open Polynomial Finset

section
variable {F ι : Type} [Field F]

theorem ncard_degree_lt (m : Nat) : {g : F[X] | g.degree < m}.ncard = Nat.card F ^ m := by
  have : {g : F[X] | g.degree < m} = (degreeLT F m : Set F[X]) := by
    ext g
    simp [mem_degreeLT]
  rw [this, ← Nat.card_coe_set_eq]
  rw [show Nat.card (degreeLT F m : Set F[X]) = Nat.card (Fin m → F) from Nat.card_congr (degreeLTEquiv F m).toEquiv]
  rw [Nat.card_fun, Nat.card_fin]

theorem nodal_dvd [DecidableEq ι] {s : Finset ι} {v : ι → F} (hv : Set.InjOn v s) {f : F[X]} (h : ∀ i ∈ s, f.eval (v i) = 0) :
    Lagrange.nodal s v ∣ f := by
  rw [Lagrange.nodal_eq]
  refine Finset.prod_dvd_of_coprime (fun i hi j hj hij => ?_) (fun i hi => dvd_iff_isRoot.2 (h i hi))
  exact pairwise_coprime_X_sub_C Function.injective_id (fun e => hij (hv hi hj e))

/-- The polynomials of degree below `n` with given values at the points `v i`. -/
theorem ncard_interp [DecidableEq ι] (s : Finset ι) (v : ι → F) (hv : Set.InjOn v s) (r : ι → F) (n : Nat) (hn : s.card ≤ n) :
    {f : F[X] | f.degree < n ∧ ∀ i ∈ s, f.eval (v i) = r i}.ncard = Nat.card F ^ (n - s.card) := by
  set I := Lagrange.interpolate s v r with hI
  set Z := Lagrange.nodal s v with hZ
  have hZ0 : Z ≠ 0 := Lagrange.nodal_ne_zero
  have hinj : Function.Injective (fun g : F[X] => I + Z * g) := by
    intro g g' h
    exact mul_left_cancel₀ hZ0 (add_left_cancel h)
  have hcast : ((n - s.card : Nat) : WithBot ℕ) + s.card = n := by
    rw [← Nat.cast_add]; congr 1; omega
  have : {f : F[X] | f.degree < n ∧ ∀ i ∈ s, f.eval (v i) = r i} = (fun g : F[X] => I + Z * g) '' {g | g.degree < (n - s.card : Nat)} := by
    ext f
    constructor
    · rintro ⟨hf, hr⟩
      obtain ⟨g, hg⟩ := nodal_dvd (f := f - I) hv (fun i hi => by
        rw [eval_sub, hr i hi, hI, Lagrange.eval_interpolate_at_node _ hv hi, sub_self])
      refine ⟨g, ?_, by simp only [hZ]; rw [← hg]; ring⟩
      have hd : (f - I).degree < n := lt_of_le_of_lt (degree_sub_le _ _) (max_lt hf
        (lt_of_lt_of_le (Lagrange.degree_interpolate_lt _ hv) (by exact_mod_cast hn)))
      rw [hg, degree_mul, Lagrange.degree_nodal, ← hcast, add_comm] at hd
      exact lt_of_add_lt_add_right hd
    · rintro ⟨g, hg, rfl⟩
      refine ⟨?_, fun i hi => ?_⟩
      · refine lt_of_le_of_lt (degree_add_le _ _) (max_lt (lt_of_lt_of_le (Lagrange.degree_interpolate_lt _ hv) (by exact_mod_cast hn)) ?_)
        rw [degree_mul, Lagrange.degree_nodal, ← hcast, add_comm]
        exact WithBot.add_lt_add_right (WithBot.natCast_ne_bot _) hg
      · simp only [eval_add, eval_mul]
        rw [hI, hZ, Lagrange.eval_interpolate_at_node _ hv hi, Lagrange.eval_nodal_at_node hi, zero_mul, add_zero]
  rw [this, Set.ncard_image_of_injective _ hinj, ncard_degree_lt]
end

theorem card_fr : Nat.card Fr = frOrder := by
  have : NeZero frOrder := ⟨frOrder_prime.ne_zero⟩
  rw [Nat.card_eq_fintype_card]
  exact ZMod.card frOrder

/-- a blob is the blob of its polynomial -/
theorem isBlobPoly_iff {blob : List UInt8} {f : Fr[X]} : Spec.IsBlobPoly blob f ↔ f.degree < 4096 ∧ blob = blobOf f := by
  constructor
  · rintro ⟨hd, hl, he⟩
    refine ⟨hd, ?_⟩
    rw [← flatten_blocks 32 4096 blob (by rw [hl])]
    unfold blobOf
    refine congrArg List.flatten (List.map_congr_left fun j hj => ?_)
    exact encodes_iff.1 (he j (List.mem_range.1 hj))
  · rintro ⟨hd, h⟩
    rw [h]
    exact isBlobPoly_blobOf f hd

theorem blobOf_injOn : Set.InjOn blobOf {f : Fr[X] | f.degree < 4096} := fun f hf g hg h => by
  have h1 := isBlobPoly_blobOf f hf
  rw [h] at h1
  exact isBlobPoly_unique h1 (isBlobPoly_blobOf g hg)

/-- quotients by the divisor of a cell: equal values in the coset and at a further point give equal values of the quotients there -/
theorem quotient_eval_eq {f g : Fr[X]} {k : Nat} {τ : Fr} (hc : cellOf f k = cellOf g k) (hτ : f.eval τ = g.eval τ)
    (h0 : (cellDivisor k).eval τ ≠ 0) : (f /ₘ cellDivisor k).eval τ = (g /ₘ cellDivisor k).eval τ := by
  have hI : f %ₘ cellDivisor k = g %ₘ cellDivisor k :=
    interp_unique (c := cellOf f k) (mod_degree f k) (mod_degree g k) ((isCell_mod f k _).2 ((isCell_iff f k _).2 rfl))
      ((isCell_mod g k _).2 ((isCell_iff g k _).2 hc))
  have hf := congrArg (eval τ) (modByMonic_add_div f (cellDivisor k))
  have hg := congrArg (eval τ) (modByMonic_add_div g (cellDivisor k))
  rw [eval_add, eval_mul] at hf hg
  rw [hI, hτ, ← hg] at hf
  exact mul_left_cancel₀ h0 (add_left_cancel hf)

theorem cellOf_eq_iff {f g : Fr[X]} {k : Nat} :
    cellOf f k = cellOf g k ↔ ∀ j < 64, f.eval (Spec.point 13 (64 * k + j)) = g.eval (Spec.point 13 (64 * k + j)) := by
  constructor
  · intro h j hj
    have h1 := (isCell_iff f k _).2 rfl
    have h2 := (isCell_iff g k _).2 h
    exact encodes_inj (h1.2 j hj) (h2.2 j hj)
  · intro h
    unfold cellOf
    congr 1
    apply List.map_congr_left
    intro j hj
    rw [h j (List.mem_range.1 hj)]

/-- every canonical cell is the cell of some polynomial -/
theorem exists_cellOf (k : Nat) {cell : List UInt8} (hl : cell.length = 2048) (hc : Spec.Canonical 64 cell) :
    ∃ v : Nat → Fr, ∀ f : Fr[X], cellOf f k = cell ↔ ∀ j < 64, f.eval (Spec.point 13 (64 * k + j)) = v j := by
  refine ⟨fun j => ((Spec.beValue (Spec.block 32 j cell) : Nat) : Fr), fun f => ?_⟩
  rw [eq_comm, ← isCell_iff]
  have hb : ∀ j < 64, Spec.Encodes (Spec.block 32 j cell) ((Spec.beValue (Spec.block 32 j cell) : Nat) : Fr) := by
    intro j hj
    refine ⟨?_, by rw [ZMod.val_natCast_of_lt (hc j hj)]⟩
    unfold Spec.block
    rw [List.length_take, List.length_drop, hl]
    omega
  constructor
  · rintro ⟨-, h⟩ j hj
    exact encodes_inj (h j hj) (hb j hj)
  · intro h
    refine ⟨hl, fun j hj => ?_⟩
    rw [h j hj]
    exact hb j hj

end Verif
