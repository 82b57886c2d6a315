import Verif.Lemmas.ConsensusFft
import Verif.Lemmas.Quotient
import Verif.Lemmas.PrecompWitness

set_option linter.unusedSectionVars false

/-! The prover functions of the consensus specification: what they compute, as polynomials. -/
namespace Verif.Consensus
open Polynomial Finset

/-! ### Bytes -/

theorem intToBytes_eq (n v : Nat) : intToBytes n v = natToBE n v := by
  induction n generalizing v with
  | zero => simp [intToBytes, natToBE, natToLE]
  | succ n ih =>
    rw [natToBE_succ, ← ih]
    unfold intToBytes
    rw [List.range_succ, List.map_append]
    congr 1
    · apply List.map_congr_left
      intro i hi
      have hi := List.mem_range.1 hi
      rw [Nat.div_div_eq_div_mul, ← pow_succ', show n + 1 - 1 - i = n - 1 - i + 1 by omega]
    · simp

theorem blsFieldToBytes_eq (x : Fr) : blsFieldToBytes x = scalarToBytesBE x := intToBytes_eq 32 x.val

theorem bytesToBlsField_some {b : List UInt8} {s : Fr} (h : Spec.Encodes b s) : bytesToBlsField b = some s := by
  have hl := h.1
  have h2 := (scalarFromBytesBE_eq_some hl).2 h
  unfold scalarFromBytesBE at h2
  rw [beToNat_eq] at h2
  exact h2

theorem bytesToBlsField_none {b : List UInt8} (h : frOrder ≤ Spec.beValue b) : bytesToBlsField b = none := by
  unfold bytesToBlsField
  rw [if_neg (by omega)]

theorem bind_of {α β : Type} {x : Option α} {a : α} (h : x = some a) (f : α → Option β) : (x >>= f) = f a := by
  subst h; rfl

theorem bind_none {α β : Type} {x : Option α} (h : x = none) (f : α → Option β) : (x >>= f) = none := by
  subst h; rfl

theorem mapM_some {α β : Type} (l : List α) (f : α → Option β) (g : α → β) (h : ∀ a ∈ l, f a = some (g a)) :
    l.mapM f = some (l.map g) := by
  induction l with
  | nil => rfl
  | cons a l ih =>
    rw [List.mapM_cons, h a (by simp), ih (fun b hb => h b (by simp [hb]))]
    rfl

theorem mapM_none {α β : Type} (l : List α) (f : α → Option β) (a : α) (ha : a ∈ l) (h : f a = none) :
    l.mapM f = none := by
  induction l with
  | nil => simp at ha
  | cons b l ih =>
    rw [List.mapM_cons]
    rcases List.mem_cons.1 ha with rfl | ha
    · rw [h]; rfl
    · cases f b with
      | none => rfl
      | some c => rw [ih ha]; rfl

theorem block_eq (bytes : List UInt8) (i : Nat) : (bytes.drop (i * 32)).take 32 = Spec.block 32 i bytes := by
  unfold Spec.block; rw [mul_comm]

theorem fields_some (n : Nat) (bytes : List UInt8) (v : Nat → Fr) (h : ∀ i < n, Spec.Encodes (Spec.block 32 i bytes) (v i)) :
    (List.range n).mapM (fun i => bytesToBlsField ((bytes.drop (i * 32)).take 32)) = some ((List.range n).map v) := by
  apply mapM_some
  intro i hi
  rw [block_eq]
  exact bytesToBlsField_some (h i (List.mem_range.1 hi))

theorem fields_none (n : Nat) (bytes : List UInt8) (h : ¬ Spec.Canonical n bytes) :
    (List.range n).mapM (fun i => bytesToBlsField ((bytes.drop (i * 32)).take 32)) = none := by
  unfold Spec.Canonical at h
  push Not at h
  obtain ⟨i, hi, hb⟩ := h
  apply mapM_none _ _ i (List.mem_range.2 hi)
  rw [block_eq]
  exact bytesToBlsField_none hb

/-! ### Blobs and cosets -/

theorem blobToPolynomial_some {blob : List UInt8} {f : Fr[X]} (hf : Spec.IsBlobPoly blob f) :
    blobToPolynomial blob = some ((List.range 4096).map (fun i => f.eval (Spec.point 12 i))) :=
  fields_some 4096 blob _ hf.2.2

theorem blobToPolynomial_none {blob : List UInt8} (hl : blob.length = 131072) (h : ¬ ∃ f, Spec.IsBlobPoly blob f) :
    blobToPolynomial blob = none :=
  fields_none 4096 blob (fun hc => h ((blobPoly_iff hl).2 hc))

theorem brp_map_range {α : Type} [Zero α] (k : Nat) (v : Nat → α) :
    bitReversalPermutation ((List.range (2 ^ k)).map v) = (List.range (2 ^ k)).map (fun i => v (Spec.brev k i)) := by
  rw [brp_eq k _ (by simp)]
  apply List.map_congr_left
  intro i _
  rw [(rep_map_range _ _).getD 0 (Spec.brev_lt k i)]

theorem evalToCoeff_eq {f : Fr[X]} (hf : f.degree < 4096) :
    polynomialEvalToCoeff ((List.range 4096).map (fun i => f.eval (Spec.point 12 i))) = Spec.coeffs 4096 f := by
  unfold polynomialEvalToCoeff
  have h1 : bitReversalPermutation ((List.range 4096).map (fun i => f.eval (Spec.point 12 i))) =
      (List.range (2 ^ 12)).map (fun i => f.eval (Spec.point 12 (Spec.brev 12 i))) := brp_map_range 12 _
  rw [h1]
  refine ifftField_eq 12 (by norm_num) _ (by rw [List.length_map, List.length_range]) f hf ?_
  intro j hj
  rw [(rep_map_range _ _).getD 0 hj, Spec.point, Spec.brev_brev 12 j hj]

theorem extended_roots : bitReversalPermutation (computeRootsOfUnity 8192) =
    (List.range (2 ^ 13)).map (fun i => Spec.point 13 i) :=
  brp_map_range 13 (fun i => Spec.omega 13 ^ i)

theorem cosetForCell_eq {k : Nat} (hk : k < 128) :
    cosetForCell k = some ((List.range 64).map (fun j => Spec.point 13 (64 * k + j))) := by
  unfold cosetForCell
  rw [if_pos hk, extended_roots]
  congr 1
  apply List.ext_getElem?
  intro j
  by_cases hj : j < 64
  · rw [List.getElem?_take, if_pos hj, List.getElem?_drop, List.getElem?_map, List.getElem?_map,
      List.getElem?_range (show 64 * k + j < 2 ^ 13 by norm_num; omega), List.getElem?_range hj, Option.map_some,
      Option.map_some]
  · rw [List.getElem?_eq_none (by rw [List.length_take]; omega),
      List.getElem?_eq_none (by rw [List.length_map, List.length_range]; omega)]

theorem cosetShiftForCell_eq {k : Nat} (hk : k < 128) : cosetShiftForCell k = some (Spec.point 13 (64 * k)) := by
  unfold cosetShiftForCell
  rw [if_pos hk, extended_roots, (rep_map_range _ _).getD 0 (show 64 * k < 2 ^ 13 by norm_num; omega)]

theorem cosetEvalsToCell_eq (f : Fr[X]) (k : Nat) :
    cosetEvalsToCell ((List.range 64).map (fun j => f.eval (Spec.point 13 (64 * k + j)))) = cellOf f k := by
  unfold cosetEvalsToCell cellOf
  rw [List.map_map]
  congr 1
  apply List.map_congr_left
  intro j _
  exact blsFieldToBytes_eq _

theorem prod_map_range {M : Type} [CommMonoid M] (n : Nat) (F : Nat → M) :
    ((List.range n).map F).prod = ∏ i ∈ range n, F i := by
  induction n with
  | zero => simp
  | succ n ih => rw [List.range_succ, List.map_append, List.prod_append, ih, prod_range_succ]; simp

/-! ### Proofs -/

section
variable {G1 : Type} [AddCommGroup G1] [Module Fr G1] [PointCodec G1]

theorem g1Lincomb_eq (points : List G1) (scalars : List Fr) (n : Nat) (hp : points.length = n) (hs : scalars.length = n) :
    g1Lincomb points scalars = some (∑ i ∈ range n, scalars.getD i 0 • points.getD i 0) := by
  unfold g1Lincomb
  rw [if_pos (by omega)]
  congr 1
  exact lcSum_eq points scalars n hp hs

theorem g1Lincomb_commitment (g : List G1) (q : List Fr) (n : Nat) (hn : q.length = n) (h : n ≤ g.length) :
    g1Lincomb (g.take n) q = some (Spec.commitment g (Spec.polyOf q)) := by
  rw [g1Lincomb_eq _ _ n (by rw [List.length_take]; omega) hn]
  congr 1
  unfold Spec.commitment
  rw [← Finset.sum_subset (s₁ := range n) (s₂ := range g.length)]
  · apply sum_congr rfl
    intro i hi
    have hi := mem_range.1 hi
    rw [Spec.coeff_polyOf]
    congr 1
    simp [List.getD, hi]
  · intro i hi; rw [mem_range] at *; omega
  · intro i _ hi
    rw [mem_range] at hi
    rw [Spec.coeff_polyOf, getD_of_le (by omega), zero_smul]

theorem proofMulti_eq (g : List G1) (hg : g.length = 4096) (c : List Fr) (hc : c.length = 4096) (k : Nat) :
    computeKzgProofMultiImpl g c ((List.range 64).map (fun j => Spec.point 13 (64 * k + j))) =
      some (toCompressed (Spec.openingProof g 13 6 (Spec.polyOf c) k),
        (List.range 64).map (fun j => (Spec.polyOf c).eval (Spec.point 13 (64 * k + j)))) := by
  unfold computeKzgProofMultiImpl
  obtain ⟨d, hd, hdp, hdl⟩ := vanishing_spec' ((List.range 64).map (fun j => Spec.point 13 (64 * k + j))) (by simp)
  rw [List.length_map, List.length_range] at hdl
  have hv : Spec.polyOf d = Spec.vanishing 13 6 k := by
    rw [hdp, List.map_map, prod_map_range]
    rfl
  simp only
  rw [bind_of hd]
  obtain ⟨q1, q2⟩ := divide_spec c d (by intro h; rw [h] at hdl; simp at hdl) (by
    rw [← Spec.coeff_polyOf, hv, cellDivisor_eq, hdl]
    have := (cellDivisor_monic k).coeff_natDegree
    rwa [cellDivisor_natDegree] at this) (by omega)
  rw [bind_of (g1Lincomb_commitment g _ _ rfl (by rw [q2]; omega)), q1, hv, List.map_map]
  have e : ∀ z, evaluatePolynomialcoeff c z = (Spec.polyOf c).eval z := evaluate_eq c
  have : (List.range 64).map (evaluatePolynomialcoeff c ∘ fun j => Spec.point 13 (64 * k + j)) =
      (List.range 64).map (fun j => (Spec.polyOf c).eval (Spec.point 13 (64 * k + j))) :=
    List.map_congr_left (fun j _ => e _)
  rw [this]
  rfl

theorem cellsAndProofs_eq (g : List G1) (hg : g.length = 4096) (c : List Fr) (hc : c.length = 4096) :
    computeCellsAndKzgProofsPolynomialcoeff g c = some (cellsOf (Spec.polyOf c), proofsOf g (Spec.polyOf c)) := by
  unfold computeCellsAndKzgProofsPolynomialcoeff
  rw [bind_of (mapM_some _ _ (fun k => (cellOf (Spec.polyOf c) k,
    toCompressed (Spec.openingProof g 13 6 (Spec.polyOf c) k))) ?_), List.map_map, List.map_map]
  · rfl
  · intro k hk
    have hk := List.mem_range.1 hk
    rw [bind_of (cosetForCell_eq hk), bind_of (proofMulti_eq g hg c hc k)]
    simp only
    rw [cosetEvalsToCell_eq]

theorem polyOf_coeffs4096 {f : Fr[X]} (hf : f.degree < 4096) : Spec.polyOf (Spec.coeffs 4096 f) = f :=
  Spec.polyOf_coeffs (by simpa using hf)

theorem computeCellsAndKzgProofs_some (g : List G1) (hg : g.length = 4096) {blob : List UInt8} {f : Fr[X]}
    (hf : Spec.IsBlobPoly blob f) : computeCellsAndKzgProofs g blob = some (cellsOf f, proofsOf g f) := by
  unfold computeCellsAndKzgProofs
  rw [if_pos hf.2.1, bind_of (blobToPolynomial_some hf), evalToCoeff_eq hf.1, cellsAndProofs_eq g hg _ (by simp [Spec.coeffs]), polyOf_coeffs4096 hf.1]

theorem computeCellsAndKzgProofs_none (g : List G1) {blob : List UInt8} (hl : blob.length = 131072)
    (h : ¬ ∃ f, Spec.IsBlobPoly blob f) : computeCellsAndKzgProofs g blob = none := by
  unfold computeCellsAndKzgProofs
  rw [if_pos hl]
  exact bind_none (blobToPolynomial_none hl h) _

theorem cells_loop (c : List Fr) (f : Fr[X]) (e : ∀ z, evaluatePolynomialcoeff c z = f.eval z) (n : Nat) (hn : n ≤ 128) :
    (List.range n).mapM (fun i => (cosetForCell i).bind (fun coset =>
      some (cosetEvalsToCell (coset.map (evaluatePolynomialcoeff c))))) = some ((List.range n).map (cellOf f)) := by
  apply mapM_some
  intro k hk
  rw [cosetForCell_eq (lt_of_lt_of_le (List.mem_range.1 hk) hn), Option.bind_some, List.map_map]
  have : (List.range 64).map (evaluatePolynomialcoeff c ∘ fun j => Spec.point 13 (64 * k + j)) =
      (List.range 64).map (fun j => f.eval (Spec.point 13 (64 * k + j))) := List.map_congr_left (fun j _ => e _)
  rw [this, cosetEvalsToCell_eq]

theorem cells_loop' (c : List Fr) (f : Fr[X]) (e : ∀ z, evaluatePolynomialcoeff c z = f.eval z) :
    computeCellsPolynomialcoeff c = some (cellsOf f) := cells_loop c f e 128 le_rfl

theorem computeCells_of {blob : List UInt8} {p : List Fr} (hl : blob.length = 131072)
    (hp : blobToPolynomial blob = some p) :
    computeCells blob = computeCellsPolynomialcoeff (polynomialEvalToCoeff p) := by
  unfold computeCells
  rw [if_pos hl]
  exact bind_of hp _

theorem computeCells_some {blob : List UInt8} {f : Fr[X]} (hf : Spec.IsBlobPoly blob f) :
    computeCells blob = some (cellsOf f) := by
  rw [computeCells_of hf.2.1 (blobToPolynomial_some hf), evalToCoeff_eq hf.1,
    cells_loop' _ f (fun z => by rw [evaluate_eq, polyOf_coeffs4096 hf.1])]

theorem computeCells_none {blob : List UInt8} (hl : blob.length = 131072)
    (h : ¬ ∃ f, Spec.IsBlobPoly blob f) : computeCells blob = none := by
  unfold computeCells
  rw [if_pos hl]
  exact bind_none (blobToPolynomial_none hl h) _

theorem commitment_some (g1Lagrange : List G1) (τ : Fr) (P : G1) (hs : LagrangeSetup g1Lagrange τ P) {blob : List UInt8}
    {f : Fr[X]} (hf : Spec.IsBlobPoly blob f) :
    blobToKzgCommitment g1Lagrange blob = some (toCompressed (f.eval τ • P)) := by
  unfold blobToKzgCommitment
  rw [if_pos hf.2.1, bind_of (blobToPolynomial_some hf), brp_eq 12 _ hs.length_eq,
    bind_of (g1Lincomb_eq _ _ (2 ^ 12) (by rw [List.length_map, List.length_range])
      (by rw [List.length_map, List.length_range]; norm_num))]
  have key : ∀ n : Nat, n = 2 ^ 12 → (∀ i < n, g1Lagrange[i]? = some ((Lagrange.basis (Finset.range n)
      (fun j => Spec.omega 12 ^ j) i).eval τ • P)) → f.degree < n →
      ∑ i ∈ range n, ((List.range n).map (fun i => f.eval (Spec.point 12 i))).getD i 0 •
        ((List.range n).map (fun i => g1Lagrange.getD (Spec.brev 12 i) 0)).getD i 0 = f.eval τ • P := by
    intro n hn hget hdeg
    have hinj : Set.InjOn (fun j : Nat => Spec.omega 12 ^ j) (range n : Finset ℕ) := by
      intro i hi j hj hij
      rw [hn] at hi hj
      exact (omega_primitive 12 (by norm_num)).pow_inj (by simpa using hi) (by simpa using hj) hij
    have hI := Lagrange.eq_interpolate hinj (f := f) (by rw [card_range]; exact hdeg)
    have e : ∑ i ∈ range n, ((List.range n).map (fun i => f.eval (Spec.point 12 i))).getD i 0 •
        ((List.range n).map (fun i => g1Lagrange.getD (Spec.brev 12 i) 0)).getD i 0 =
        ∑ i ∈ range n, (f.eval (Spec.omega 12 ^ i) * (Lagrange.basis (range n) (fun j => Spec.omega 12 ^ j) i).eval τ) • P := by
      refine Finset.sum_bij' (fun i _ => Spec.brev 12 i) (fun i _ => Spec.brev 12 i) ?_ ?_ ?_ ?_ ?_
      · intro i _; rw [mem_range, hn]; exact Spec.brev_lt 12 i
      · intro i _; rw [mem_range, hn]; exact Spec.brev_lt 12 i
      · intro i hi; rw [mem_range, hn] at hi; exact Spec.brev_brev 12 i hi
      · intro i hi; rw [mem_range, hn] at hi; exact Spec.brev_brev 12 i hi
      · intro i hi
        have hi := mem_range.1 hi
        rw [(rep_map_range _ _).getD 0 hi, (rep_map_range _ _).getD 0 hi, List.getD,
          hget _ (by rw [hn]; exact Spec.brev_lt 12 i), Option.getD_some, mul_smul]
        rfl
    rw [e, ← sum_smul]
    congr 1
    conv_rhs => rw [hI]
    rw [Lagrange.interpolate_apply, eval_finsetSum]
    apply sum_congr rfl
    intro i _
    rw [eval_mul, eval_C]
  have h2 := key (2 ^ 12) rfl hs.getElem_eq hf.1
  rw [show (4096 : Nat) = 2 ^ 12 from rfl, h2]

theorem commitment_none (g1Lagrange : List G1) {blob : List UInt8} (hl : blob.length = 131072)
    (h : ¬ ∃ f, Spec.IsBlobPoly blob f) : blobToKzgCommitment g1Lagrange blob = none := by
  unfold blobToKzgCommitment
  rw [if_pos hl]
  exact bind_none (blobToPolynomial_none hl h) _

end
end Verif.Consensus
