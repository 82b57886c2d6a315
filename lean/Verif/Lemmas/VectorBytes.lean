import Verif.Model.TestVectors
import Verif.Spec.Setup
import Verif.Lemmas.VectorCheck
import Verif.Props.TrustedSetup

set_option linter.unusedSectionVars false
set_option exponentiation.threshold 800

/-! Constant blobs, multiples of single points, and the texts of byte strings. -/
namespace Verif.TestVectors
open Polynomial Bls Msm Vectors

theorem hex_spec (b : List UInt8) : Spec.HexString (hex b) b := Toy.hexText_spec b

theorem flatten_singles : ∀ l : List Nat, (l.map fun k => [k]).flatten = l
  | [] => rfl
  | k :: l => by rw [List.map_cons, List.flatten_cons, flatten_singles l]; rfl

theorem constant_bytes (n : Nat) (c : Fr) (p : Nat → Fr) :
    ((List.range n).map fun i => scalarToBytesBE ((C c).eval (p i))).flatten = (List.replicate n (natToBE 32 c.val)).flatten := by
  refine congrArg List.flatten ?_
  rw [List.map_congr_left (g := fun _ => natToBE 32 c.val) fun i _ => by rw [eval_C]; rfl, List.map_const', List.length_range]

theorem constant_blobOf (c : Fr) : blobOf (C c) = constantBlob c.val := constant_bytes 4096 c _

theorem constant_cellOf (c : Fr) (k : Nat) : cellOf (C c) k = constantCell c.val := constant_bytes 64 c _

theorem constant_cellsOf (c : Fr) : cellsOf (C c) = List.replicate 128 (constantCell c.val) := by
  rw [cellsOf_eq, List.map_congr_left fun k _ => constant_cellOf c k, List.map_const', List.length_range]

theorem constant_isBlobPoly (c : Fr) : Spec.IsBlobPoly (constantBlob c.val) (C c) := by
  rw [← constant_blobOf]
  exact isBlobPoly_blobOf _ (lt_of_le_of_lt degree_C_le (by decide))

section
variable {G : Type} [AddCommGroup G] [Module Fr G]

theorem commitment_zero (g : List G) : Spec.commitment g 0 = 0 := by simp [Spec.commitment]

theorem commitment_constant {g : List G} {P : G} (h : g[0]? = some P) (c : Fr) : Spec.commitment g (C c) = c • P := by
  unfold Spec.commitment
  have hl : 0 < g.length := by
    rcases g with _ | _
    · cases h
    · simp
  rw [Finset.sum_eq_single 0]
  · rw [coeff_C_zero, List.getD, h]; rfl
  · intro i _ hi
    rw [coeff_C_of_ne_zero hi, zero_smul]
  · intro hn
    exact absurd (Finset.mem_range.2 hl) hn

theorem openingProof_constant (g : List G) (c : Fr) (k : Nat) : Spec.openingProof g 13 6 (C c) k = 0 := by
  unfold Spec.openingProof
  rw [cellDivisor_eq, (divByMonic_eq_zero_iff (cellDivisor_monic k)).2, commitment_zero]
  rw [cellDivisor_degree]
  exact lt_of_le_of_lt degree_C_le (by decide)

end

theorem constant_proofsOf (g : List G1) (c : Fr) : proofsOf g (C c) = List.replicate 128 (toCompressed (0 : G1)) := by
  unfold proofsOf
  rw [List.map_congr_left fun k _ => by rw [openingProof_constant], List.map_const', List.length_range]

theorem encodes_unique {b : List UInt8} {P : G1} (h : Spec.EncodesG1 b (P : Curve1)) : toCompressed P = b :=
  (Bls.encodes_iff.1 (C53_encode P)).trans (Bls.encodes_iff.1 h).symm

theorem infinity_encodes {n : Nat} (h : n % 256 ^ 48 = Spec.g1Code (0 : Curve1)) : Spec.EncodesG1 (natToBE 48 n) (0 : Curve1) := by
  refine ⟨length_natToBE _ _, ?_⟩
  rw [← beToNat_eq, beToNat_natToBE]
  exact h

theorem infinity_bytes : toCompressed (0 : G1) = natToBE 48 (3 * 2 ^ 382) :=
  encodes_unique (infinity_encodes (by decide +kernel))

/-- the groups of one bit, with their results -/
noncomputable def single (n m : Nat) (l : List Item) : List (List Nat × Jc) :=
  (List.range 256).reverse.map fun k => ([k], (agg n m [k] l).2)

/-- a multiple of one point, from a computation on numbers -/
theorem multiple_check {m X Y Z n0 y0 c n y : Nat} {P : Curve1} (hP : Spec.EncodesG1 (natToBE 48 n0) P)
    (h0 : g1Checks [n0] [y0] = true) (hc : c < 2 ^ 256) (hm : m + 1 = fpOrder)
    (hr : (horner fpOrder m .inf (single fpOrder m (zip3s [[c]] [[n0]] [[y0]]))).is X Y Z = true)
    (hs : same fpOrder X Y Z (n % 2 ^ 381) y = true) (hn : g1Check n y = true) : Spec.EncodesG1 (natToBE 48 n) (c • P) := by
  obtain ⟨v, e1, e2⟩ := zip3s_spec [[c]] [[n0]] [[y0]] [P] (.cons h0 .nil) rfl (.cons hP .nil)
  have h := sum_check hm _ v (fun i hi => by
    have : i.c ∈ [[c]].flatten := by rw [← e1]; exact List.mem_map_of_mem hi
    simp only [List.flatten_cons, List.flatten_nil, List.append_nil, List.mem_singleton] at this
    rwa [this]) (single fpOrder m _) (fun w hw => by
    obtain ⟨k, -, rfl⟩ := List.mem_map.1 hw
    rfl) (by
    unfold single
    rw [List.map_map]
    exact flatten_singles _) hr hs hn
  rw [e2] at h
  simpa using h

end Verif.TestVectors
