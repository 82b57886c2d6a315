import Verif.Props.WrongCells
import Verif.Props.Bias
import Verif.Spec.Change
import Verif.Lemmas.Barycentric

set_option linter.unusedSectionVars false

/-!
C98: what a change to a blob changes. The elements of the extension and the commitment as explicit sums over the elements of the blob, how
many elements of the extension can stay the same, and when the commitment does.
-/
namespace Verif
open Polynomial Finset

attribute [local irreducible] Spec.changed Spec.kept

/-- the points of the blob and of the extension -/
def chg_point : Fin 4096 ⊕ (Fin 64 × Fin 64) → Fr
  | .inl i => Spec.point 13 i
  | .inr p => Spec.point 13 (64 * (64 + p.1) + p.2)

theorem chg_point_injective : Function.Injective chg_point := by
  rintro (i | ⟨k, j⟩) (i' | ⟨k', j'⟩) h
  · have := point_inj (i := i) (j := i') (by omega) (by omega) h
    exact congrArg Sum.inl (Fin.ext this)
  · have := point_inj (i := i) (j := 64 * (64 + k') + j') (by omega) (by omega) h
    omega
  · have := point_inj (i := 64 * (64 + k) + j) (j := i') (by omega) (by omega) h
    omega
  · have := point_inj (i := 64 * (64 + k) + j) (j := 64 * (64 + k') + j') (by omega) (by omega) h
    have h1 : k = k' := by ext; omega
    have h2 : j = j' := by ext; omega
    rw [h1, h2]

theorem chg_point_blob (i : Fin 4096) : chg_point (.inl i) = Spec.point 12 i := point_13_12 i i.2

theorem chg_mem_changed {blob blob' : List UInt8} {f f' : Fr[X]} (hf : Spec.IsBlobPoly blob f) (hf' : Spec.IsBlobPoly blob' f') (i : Fin 4096) :
    i ∈ Spec.changed blob blob' ↔ f.eval (chg_point (.inl i)) ≠ f'.eval (chg_point (.inl i)) := by
  unfold Spec.changed
  rw [mem_filter, chg_point_blob, and_iff_right (mem_univ _), not_iff_not]
  have e1 := hf.2.2 i i.2
  have e2 := hf'.2.2 i i.2
  constructor
  · intro h
    exact encodes_inj e1 (h ▸ e2)
  · intro h
    rw [encodes_iff.1 e1, encodes_iff.1 e2, h]

theorem chg_mem_kept {cells cells' : List (List UInt8)} {f f' : Fr[X]} (hc : ∀ k : Fin 128, cells[k.val]? = some (cellOf f k))
    (hc' : ∀ k : Fin 128, cells'[k.val]? = some (cellOf f' k)) (p : Fin 64 × Fin 64) :
    p ∈ Spec.kept cells cells' ↔ f.eval (chg_point (.inr p)) = f'.eval (chg_point (.inr p)) := by
  have hk : 64 + p.1.val < 128 := by omega
  have h1 := hc ⟨64 + p.1, hk⟩
  have h2 := hc' ⟨64 + p.1, hk⟩
  unfold Spec.kept
  rw [mem_filter, and_iff_right (mem_univ _)]
  simp only at h1 h2
  rw [h1, h2, Option.map_some, Option.map_some, Option.some_inj]
  exact wc_block_eq f f' (⟨64 + p.1, hk⟩, p.2)

theorem chg_pow (n : Nat) (hn : n < 4096) : Spec.point 13 (4096 + n) ^ 4096 = -1 := by
  unfold Spec.point
  have h1 := Spec.brev_concat 12 1 n 1 hn
  have h2 := omega_pow 1 13 (by norm_num) (by norm_num)
  have h3 : Spec.brev 1 1 = 1 := by decide
  have hm : Spec.omega 1 = -1 := IsPrimitiveRoot.eq_neg_one_of_two_right (omega_primitive 1 (by norm_num))
  rw [h3, mul_one, add_comm n, show (2 : Nat) ^ 12 = 4096 from rfl, show 12 + 1 = 13 from rfl] at h1
  rw [show (2 : Nat) ^ (13 - 1) = 4096 from rfl, hm] at h2
  rw [h1, ← pow_mul, mul_comm, pow_mul, h2, pow_add, pow_one, pow_mul, pow_one]
  norm_num

theorem chg_4096 : (4096 : Fr) ≠ 0 := by
  intro h
  have := congrArg ZMod.val h
  revert this
  decide +kernel

theorem chg_root (i : Nat) : Spec.point 12 i ^ 4096 = 1 := by
  unfold Spec.point
  rw [← pow_mul, mul_comm, pow_mul, show 4096 = 2 ^ 12 from rfl, (omega_primitive 12 (by norm_num)).pow_eq_one, one_pow]

theorem chg_injOn : Set.InjOn (fun i => Spec.point 12 i) (range 4096 : Finset Nat) := by
  intro i hi j hj h
  have hi := mem_range.1 (mem_coe.1 hi)
  have hj := mem_range.1 (mem_coe.1 hj)
  simp only at h
  rw [← point_13_12 i hi, ← point_13_12 j hj] at h
  exact point_inj (by omega) (by omega) h

theorem chg_eval {g : Fr[X]} (hg : g.degree < 4096) {x : Fr} (hx : ∀ i < 4096, x ≠ Spec.point 12 i) :
    g.eval x = (x ^ 4096 - 1) / 4096 * ∑ i ∈ range 4096, g.eval (Spec.point 12 i) * Spec.point 12 i / (x - Spec.point 12 i) := by
  have h := barycentric 4096 (by norm_num) (range 4096) (fun i => Spec.point 12 i) chg_injOn (card_range _) (fun i _ => chg_root i) g hg x
    fun i hi => hx i (mem_range.1 hi)
  rwa [Nat.cast_ofNat] at h

theorem chg_outside {τ : Fr} (hτ : ∀ i < 4096, τ ≠ Spec.point 12 i) : τ ^ 4096 - 1 ≠ 0 := by
  intro h
  have hp := omega_primitive 12 (by norm_num)
  obtain ⟨n, hn, e⟩ := hp.eq_pow_of_pow_eq_one (sub_eq_zero.1 h)
  refine hτ (Spec.brev 12 n) (Spec.brev_lt 12 n) ?_
  unfold Spec.point
  rw [Spec.brev_brev 12 n hn, e]

section
variable {ε K G1 G2 GT : Type} [Field K] [DecidableEq K] [AddCommGroup G1] [Module Fr G1] [DecidableEq G1]
  [Curve K G1] [PointCodec G1] [AddCommGroup G2] [Module Fr G2] [AddCommGroup GT] [DecidableEq GT]
  [Pairing G1 G2 GT]

/-- C98: of the elements of the extension fewer stay the same than elements of the blob are changed. -/
theorem C98_few (setup : SetupPoints G1 G2) (up : UsePrecomp) (h1 : setup.g1Monomial.length = 4096)
    (ctx : DASContext K G1 G2) (hctx : (DASContext.new setup up : Outcome ε (DASContext K G1 G2)) = .ok ctx)
    (blob blob' : List UInt8) (hb : blob.length = 131072) (hb' : blob'.length = 131072) (hne : blob ≠ blob')
    (cells proofs cells' proofs' : List (List UInt8)) (h : ctx.computeCellsAndKzgProofs blob = .ok (cells, proofs))
    (h' : ctx.computeCellsAndKzgProofs blob' = .ok (cells', proofs')) :
    (Spec.kept cells cells').card < (Spec.changed blob blob').card := by
  obtain ⟨f, hfd, hf, hc⟩ := wc_sent h1 hctx hb h
  obtain ⟨f', hfd', hf', hc'⟩ := wc_sent h1 hctx hb' h'
  by_contra hge
  have hle : (Spec.changed blob blob').card ≤ 4096 := by
    have := card_le_univ (Spec.changed blob blob')
    rwa [Fintype.card_fin] at this
  have hcard : 4096 ≤ ((Spec.changed blob blob')ᶜ.disjSum (Spec.kept cells cells')).card := by
    rw [card_disjSum, card_compl, Fintype.card_fin]
    omega
  have hcard' : ((4096 : Nat) : WithBot Nat) ≤ (((Spec.changed blob blob')ᶜ.disjSum (Spec.kept cells cells')).card : Nat) := by
    exact_mod_cast hcard
  have e : f = f' := by
    refine eq_of_degrees_lt_of_eval_index_eq _ chg_point_injective.injOn (hfd.trans_le hcard') (hfd'.trans_le hcard') ?_
    rintro (i | p) hi
    · have := mem_compl.1 (inl_mem_disjSum.1 hi)
      rwa [chg_mem_changed hf hf', not_not] at this
    · exact (chg_mem_kept hc hc' p).1 (inr_mem_disjSum.1 hi)
  refine hne ?_
  rw [(isBlobPoly_iff.1 hf).2, (isBlobPoly_iff.1 hf').2, e]

/-- C98: a cell of the first half changes exactly if one of its elements of the blob does. -/
theorem C98_first (setup : SetupPoints G1 G2) (up : UsePrecomp) (h1 : setup.g1Monomial.length = 4096)
    (ctx : DASContext K G1 G2) (hctx : (DASContext.new setup up : Outcome ε (DASContext K G1 G2)) = .ok ctx)
    (blob blob' : List UInt8) (hb : blob.length = 131072) (hb' : blob'.length = 131072)
    (cells proofs cells' proofs' : List (List UInt8)) (h : ctx.computeCellsAndKzgProofs blob = .ok (cells, proofs))
    (h' : ctx.computeCellsAndKzgProofs blob' = .ok (cells', proofs')) (k : Nat) (hk : k < 64) :
    cells[k]? ≠ cells'[k]? ↔ ∃ i ∈ Spec.changed blob blob', i.val / 64 = k := by
  obtain ⟨f, hfd, hf, hc⟩ := wc_sent h1 hctx hb h
  obtain ⟨f', hfd', hf', hc'⟩ := wc_sent h1 hctx hb' h'
  have e1 := hc ⟨k, by omega⟩
  have e2 := hc' ⟨k, by omega⟩
  simp only at e1 e2
  rw [e1, e2, Ne, Option.some_inj, cellOf_eq_iff]
  push Not
  constructor
  · rintro ⟨j, hj, hne⟩
    exact ⟨⟨64 * k + j, by omega⟩, (chg_mem_changed hf hf' _).2 hne, by show (64 * k + j) / 64 = k; omega⟩
  · rintro ⟨i, hi, hik⟩
    refine ⟨i % 64, by omega, ?_⟩
    have := (chg_mem_changed hf hf' i).1 hi
    have e : 64 * k + i.val % 64 = i := by omega
    rwa [e]

/-- C98: if between one and 64 elements of a blob change, all 64 cells of the extension change. -/
theorem C98_all_cells (setup : SetupPoints G1 G2) (up : UsePrecomp) (h1 : setup.g1Monomial.length = 4096)
    (ctx : DASContext K G1 G2) (hctx : (DASContext.new setup up : Outcome ε (DASContext K G1 G2)) = .ok ctx)
    (blob blob' : List UInt8) (hb : blob.length = 131072) (hb' : blob'.length = 131072) (hne : blob ≠ blob')
    (hfew : (Spec.changed blob blob').card ≤ 64)
    (cells proofs cells' proofs' : List (List UInt8)) (h : ctx.computeCellsAndKzgProofs blob = .ok (cells, proofs))
    (h' : ctx.computeCellsAndKzgProofs blob' = .ok (cells', proofs')) (k : Nat) (hk : 64 ≤ k) (hk' : k < 128) :
    cells[k]? ≠ cells'[k]? := by
  intro e
  have hlt := C98_few setup up h1 ctx hctx blob blob' hb hb' hne cells proofs cells' proofs' h h'
  obtain ⟨f, hfd, hf, hc⟩ := wc_sent h1 hctx hb h
  obtain ⟨f', hfd', hf', hc'⟩ := wc_sent h1 hctx hb' h'
  have e1 := hc ⟨k, hk'⟩
  have e2 := hc' ⟨k, hk'⟩
  simp only at e1 e2
  rw [e1, e2, Option.some_inj, cellOf_eq_iff] at e
  have hsub : (univ : Finset (Fin 64)).image (fun j => ((⟨k - 64, by omega⟩ : Fin 64), j)) ⊆ Spec.kept cells cells' := by
    intro p hp
    obtain ⟨j, -, rfl⟩ := mem_image.1 hp
    refine (chg_mem_kept hc hc' _).2 ?_
    have := e j j.2
    have hkk : 64 + (k - 64) = k := by omega
    unfold chg_point
    simp only [hkk]
    exact this
  have := card_le_card hsub
  rw [card_image_of_injective _ (fun a b hab => (Prod.mk.inj hab).2), card_univ, Fintype.card_fin] at this
  omega

/-- C98: if exactly one element of a blob changes, then exactly one cell of the first half does, and in the extension all elements do. -/
theorem C98_one (setup : SetupPoints G1 G2) (up : UsePrecomp) (h1 : setup.g1Monomial.length = 4096)
    (ctx : DASContext K G1 G2) (hctx : (DASContext.new setup up : Outcome ε (DASContext K G1 G2)) = .ok ctx)
    (blob blob' : List UInt8) (hb : blob.length = 131072) (hb' : blob'.length = 131072) (i : Fin 4096) (hone : Spec.changed blob blob' = {i})
    (cells proofs cells' proofs' : List (List UInt8)) (h : ctx.computeCellsAndKzgProofs blob = .ok (cells, proofs))
    (h' : ctx.computeCellsAndKzgProofs blob' = .ok (cells', proofs')) :
    (∀ k < 64, cells[k]? ≠ cells'[k]? ↔ k = i.val / 64) ∧ Spec.kept cells cells' = ∅ := by
  constructor
  · intro k hk
    rw [C98_first setup up h1 ctx hctx blob blob' hb hb' cells proofs cells' proofs' h h' k hk, hone]
    constructor
    · rintro ⟨j, hj, rfl⟩
      rw [mem_singleton.1 hj]
    · rintro rfl
      exact ⟨i, mem_singleton_self i, rfl⟩
  · have hne : blob ≠ blob' := by
      rintro rfl
      have hi : i ∈ Spec.changed blob blob := by rw [hone]; exact mem_singleton_self i
      unfold Spec.changed at hi
      exact (mem_filter.1 hi).2 rfl
    have := C98_few setup up h1 ctx hctx blob blob' hb hb' hne cells proofs cells' proofs' h h'
    rw [hone, card_singleton] at this
    exact card_eq_zero.1 (by omega)

/-- C98: nothing more can be said. For every set of elements of the blob and every smaller set of elements of the extension there is a
change to exactly the former that keeps exactly the latter. -/
theorem C98_sharp (setup : SetupPoints G1 G2) (h1 : setup.g1Monomial.length = 4096)
    (ctx : DASContext K G1 G2) (hctx : (DASContext.new setup .no : Outcome Error (DASContext K G1 G2)) = .ok ctx)
    (blob : List UInt8) (hb : blob.length = 131072) (cells proofs : List (List UInt8))
    (h : ctx.computeCellsAndKzgProofs blob = .ok (cells, proofs)) (A : Finset (Fin 4096)) (B : Finset (Fin 64 × Fin 64)) (hAB : B.card < A.card) :
    ∃ (blob' : List UInt8) (cells' proofs' : List (List UInt8)), blob'.length = 131072 ∧
      ctx.computeCellsAndKzgProofs blob' = .ok (cells', proofs') ∧ Spec.changed blob blob' = A ∧ Spec.kept cells cells' = B := by
  obtain ⟨f, hfd, hf, hc⟩ := wc_sent h1 hctx hb h
  have hA : A.card ≤ 4096 := by
    have := card_le_univ A
    rwa [Fintype.card_fin] at this
  set S := Aᶜ.disjSum B with hS
  have hcard : S.card < 4096 := by
    rw [hS, card_disjSum, card_compl, Fintype.card_fin]
    omega
  set g : Fr[X] := ∏ y ∈ S, (X - C (chg_point y)) with hg
  have hgd : g.degree < 4096 := by
    rw [hg, degree_prod, sum_congr rfl fun y _ => degree_X_sub_C _, sum_const, nsmul_eq_mul, mul_one]
    exact_mod_cast hcard
  have hg0 : ∀ y, g.eval (chg_point y) = 0 ↔ y ∈ S := by
    intro y
    rw [hg, eval_prod, prod_eq_zero_iff]
    constructor
    · rintro ⟨z, hz, e⟩
      rw [eval_sub, eval_X, eval_C, sub_eq_zero] at e
      rwa [chg_point_injective e]
    · intro hy
      exact ⟨y, hy, by rw [eval_sub, eval_X, eval_C, sub_self]⟩
  have hfd' : (f + g).degree < 4096 := lt_of_le_of_lt (degree_add_le _ _) (max_lt hfd hgd)
  have hf' := isBlobPoly_blobOf (f + g) hfd'
  have hlen : (blobOf (f + g)).length = 131072 := hf'.2.1
  obtain ⟨cells', proofs', h'⟩ := C02_accepts setup h1 ctx hctx (blobOf (f + g)) hlen ((blobPoly_iff hlen).1 ⟨_, hf'⟩)
  obtain ⟨f'', hfd'', hf'', hc'⟩ := wc_sent h1 hctx hlen h'
  rw [isBlobPoly_unique hf'' hf'] at hc'
  refine ⟨_, cells', proofs', hlen, h', ?_, ?_⟩
  · ext i
    rw [chg_mem_changed hf hf', eval_add, Ne, left_eq_add, hg0, hS, inl_mem_disjSum, mem_compl, not_not]
  · ext p
    rw [chg_mem_kept hc hc', eval_add, left_eq_add, hg0, hS, inr_mem_disjSum]

/-- C98: every element of the extension as a sum over the elements of the blob. -/
theorem C98_extension (setup : SetupPoints G1 G2) (up : UsePrecomp) (h1 : setup.g1Monomial.length = 4096)
    (ctx : DASContext K G1 G2) (hctx : (DASContext.new setup up : Outcome ε (DASContext K G1 G2)) = .ok ctx)
    (blob : List UInt8) (hb : blob.length = 131072) (a : Nat → Fr) (ha : ∀ i < 4096, Spec.Encodes (Spec.block 32 i blob) (a i))
    (cells proofs : List (List UInt8)) (h : ctx.computeCellsAndKzgProofs blob = .ok (cells, proofs))
    (k j : Nat) (hk : 64 ≤ k) (hk' : k < 128) (hj : j < 64) :
    ∃ cell, cells[k]? = some cell ∧ Spec.Encodes (Spec.block 32 j cell)
      (-2 / 4096 * ∑ i ∈ range 4096, a i * Spec.point 12 i / (Spec.point 13 (64 * k + j) - Spec.point 12 i)) := by
  obtain ⟨f, hfd, hf, hc⟩ := wc_sent h1 hctx hb h
  refine ⟨_, hc ⟨k, hk'⟩, ?_⟩
  have e := ((isCell_iff f k _).2 rfl).2 j hj
  rw [chg_eval hfd (x := Spec.point 13 (64 * k + j)) (fun i hi hx => ?_)] at e
  · have hp : Spec.point 13 (64 * k + j) ^ 4096 = -1 := by
      have := chg_pow (64 * k + j - 4096) (by omega)
      rwa [show 4096 + (64 * k + j - 4096) = 64 * k + j by omega] at this
    rw [hp, show (-1 - 1 : Fr) = -2 by norm_num] at e
    have hs : ∑ i ∈ range 4096, f.eval (Spec.point 12 i) * Spec.point 12 i / (Spec.point 13 (64 * k + j) - Spec.point 12 i) =
        ∑ i ∈ range 4096, a i * Spec.point 12 i / (Spec.point 13 (64 * k + j) - Spec.point 12 i) :=
      sum_congr rfl fun i hi => by rw [encodes_inj (hf.2.2 i (mem_range.1 hi)) (ha i (mem_range.1 hi))]
    rw [hs] at e
    exact e
  · rw [← point_13_12 i hi] at hx
    have := point_inj (by omega) (by omega) hx
    omega

/-- C98: the commitment as a sum over the elements of the blob. -/
theorem C98_commitment (setup : SetupPoints G1 G2) (up : UsePrecomp) (τ : Fr) (P : G1) (H : G2)
    (hpt : Spec.PowersOfTau setup.g1Monomial setup.g2Monomial τ P H) (hτ : ∀ i < 4096, τ ≠ Spec.point 12 i)
    (ctx : DASContext K G1 G2) (hctx : (DASContext.new setup up : Outcome ε (DASContext K G1 G2)) = .ok ctx)
    (blob : List UInt8) (hb : blob.length = 131072) (a : Nat → Fr) (ha : ∀ i < 4096, Spec.Encodes (Spec.block 32 i blob) (a i)) :
    ctx.blobToKzgCommitment blob = .ok (toCompressed
      (((τ ^ 4096 - 1) / 4096 * ∑ i ∈ range 4096, a i * Spec.point 12 i / (τ - Spec.point 12 i)) • P)) := by
  obtain ⟨f, hf⟩ := (blobPoly_iff hb).2 fun i hi => by
    rw [(ha i hi).2]
    exact bias_lt (a i)
  rw [C03_commitment setup up τ P H hpt ctx hctx blob f hf, chg_eval hf.1 hτ]
  have hs : ∑ i ∈ range 4096, f.eval (Spec.point 12 i) * Spec.point 12 i / (τ - Spec.point 12 i) =
      ∑ i ∈ range 4096, a i * Spec.point 12 i / (τ - Spec.point 12 i) :=
    sum_congr rfl fun i hi => by rw [encodes_inj (hf.2.2 i (mem_range.1 hi)) (ha i (mem_range.1 hi))]
  rw [hs]

/-- C98: two blobs have the same commitment exactly if this sum over the changed elements is zero. -/
theorem C98_same_commitment [LawfulPointCodec G1 48] (setup : SetupPoints G1 G2) (up : UsePrecomp) (τ : Fr) (P : G1) (hP : P ≠ 0) (H : G2)
    (hpt : Spec.PowersOfTau setup.g1Monomial setup.g2Monomial τ P H) (hτ : ∀ i < 4096, τ ≠ Spec.point 12 i)
    (ctx : DASContext K G1 G2) (hctx : (DASContext.new setup up : Outcome ε (DASContext K G1 G2)) = .ok ctx)
    (blob blob' : List UInt8) (hb : blob.length = 131072) (hb' : blob'.length = 131072) (a a' : Nat → Fr)
    (ha : ∀ i < 4096, Spec.Encodes (Spec.block 32 i blob) (a i)) (ha' : ∀ i < 4096, Spec.Encodes (Spec.block 32 i blob') (a' i)) :
    ctx.blobToKzgCommitment blob = ctx.blobToKzgCommitment blob' ↔
      ∑ i ∈ Spec.changed blob blob', (a i - a' i) * Spec.point 12 i / (τ - Spec.point 12 i) = 0 := by
  rw [C98_commitment setup up τ P H hpt hτ ctx hctx blob hb a ha, C98_commitment setup up τ P H hpt hτ ctx hctx blob' hb' a' ha']
  have hne : (τ ^ 4096 - 1) / 4096 ≠ (0 : Fr) := div_ne_zero (chg_outside hτ) chg_4096
  have hsum : ∑ i ∈ range 4096, a i * Spec.point 12 i / (τ - Spec.point 12 i) -
      ∑ i ∈ range 4096, a' i * Spec.point 12 i / (τ - Spec.point 12 i) =
      ∑ i ∈ Spec.changed blob blob', (a i - a' i) * Spec.point 12 i / (τ - Spec.point 12 i) := by
    rw [← sum_sub_distrib, ← Fin.sum_univ_eq_sum_range (fun i => a i * Spec.point 12 i / (τ - Spec.point 12 i) - a' i * Spec.point 12 i / (τ - Spec.point 12 i)) 4096]
    refine (sum_subset (subset_univ _) fun i _ hi => ?_).symm.trans (sum_congr rfl fun i _ => ?_)
    · have e : Spec.block 32 i blob = Spec.block 32 i blob' := by
        unfold Spec.changed at hi
        rw [mem_filter, and_iff_right (mem_univ _), not_not] at hi
        exact hi
      have := encodes_inj (ha i i.2) (e ▸ ha' i i.2)
      rw [this, sub_self]
    · rw [sub_mul, sub_div]
  constructor
  · intro h
    injection h with h
    have h := smul_left_injective Fr hP (toCompressed_inj h)
    rw [← hsum, sub_eq_zero]
    exact mul_left_cancel₀ hne h
  · intro h
    rw [← hsum, sub_eq_zero] at h
    rw [h]

/-- C98: changing one element of a blob always changes the commitment. -/
theorem C98_one_commitment [LawfulPointCodec G1 48] (setup : SetupPoints G1 G2) (up : UsePrecomp) (τ : Fr) (P : G1) (hP : P ≠ 0) (H : G2)
    (hpt : Spec.PowersOfTau setup.g1Monomial setup.g2Monomial τ P H) (hτ : ∀ i < 4096, τ ≠ Spec.point 12 i)
    (ctx : DASContext K G1 G2) (hctx : (DASContext.new setup up : Outcome ε (DASContext K G1 G2)) = .ok ctx)
    (blob blob' : List UInt8) (hb : blob.length = 131072) (hb' : blob'.length = 131072) (a a' : Nat → Fr)
    (ha : ∀ i < 4096, Spec.Encodes (Spec.block 32 i blob) (a i)) (ha' : ∀ i < 4096, Spec.Encodes (Spec.block 32 i blob') (a' i))
    (i : Fin 4096) (hone : Spec.changed blob blob' = {i}) :
    ctx.blobToKzgCommitment blob ≠ ctx.blobToKzgCommitment blob' := by
  rw [Ne, C98_same_commitment setup up τ P hP H hpt hτ ctx hctx blob blob' hb hb' a a' ha ha', hone, sum_singleton, div_eq_zero_iff,
    mul_eq_zero, not_or, not_or]
  refine ⟨⟨fun h => ?_, fun h => ?_⟩, fun h => hτ i i.2 (sub_eq_zero.1 h)⟩
  · have hi : i ∈ Spec.changed blob blob' := by rw [hone]; exact mem_singleton_self i
    unfold Spec.changed at hi
    refine (mem_filter.1 hi).2 ?_
    rw [encodes_iff.1 (ha i i.2), encodes_iff.1 (ha' i i.2), sub_eq_zero.1 h]
  · have := chg_root i
    rw [h, zero_pow (by norm_num)] at this
    exact zero_ne_one this

theorem chg_quotient {f g : Fr[X]} {k : Nat} {τ : Fr} (hc : cellOf f k = cellOf g k) :
    (cellDivisor k).eval τ * ((f /ₘ cellDivisor k).eval τ - (g /ₘ cellDivisor k).eval τ) = f.eval τ - g.eval τ := by
  have hI : f %ₘ cellDivisor k = g %ₘ cellDivisor k :=
    interp_unique (c := cellOf f k) (mod_degree f k) (mod_degree g k) ((isCell_mod f k _).2 ((isCell_iff f k _).2 rfl))
      ((isCell_mod g k _).2 ((isCell_iff g k _).2 hc))
  have hf := congrArg (eval τ) (modByMonic_add_div f (cellDivisor k))
  have hg := congrArg (eval τ) (modByMonic_add_div g (cellDivisor k))
  rw [eval_add, eval_mul] at hf hg
  rw [← hf, ← hg, hI]
  ring

/-- C98: the proof of a cell that does not change stays the same exactly if the commitment does. -/
theorem C98_proofs [LawfulPointCodec G1 48] (setup : SetupPoints G1 G2) (τ : Fr) (P : G1) (hP : P ≠ 0) (H : G2)
    (hpt : Spec.PowersOfTau setup.g1Monomial setup.g2Monomial τ P H) (hτ : ∀ i < 8192, τ ≠ Spec.point 13 i)
    (ctx : DASContext K G1 G2) (hctx : (DASContext.new setup .no : Outcome Error (DASContext K G1 G2)) = .ok ctx)
    (blob blob' : List UInt8) (hb : blob.length = 131072) (hb' : blob'.length = 131072)
    (cells proofs cells' proofs' : List (List UInt8)) (h : ctx.computeCellsAndKzgProofs blob = .ok (cells, proofs))
    (h' : ctx.computeCellsAndKzgProofs blob' = .ok (cells', proofs')) (k : Nat) (hk : k < 128) (hsame : cells[k]? = cells'[k]?) :
    proofs[k]? = proofs'[k]? ↔ ctx.blobToKzgCommitment blob = ctx.blobToKzgCommitment blob' := by
  obtain ⟨f, hd, b1, b2, b3⟩ := (published_iff hpt.length_g1 hctx blob cells proofs).1 ⟨hb, h⟩
  obtain ⟨g, hd', b4, b5, b6⟩ := (published_iff hpt.length_g1 hctx blob' cells' proofs').1 ⟨hb', h'⟩
  have e1 := cellsOf_get f ⟨k, hk⟩
  have e2 := cellsOf_get g ⟨k, hk⟩
  have e3 := proofsOf_get hpt hd ⟨k, hk⟩
  have e4 := proofsOf_get hpt hd' ⟨k, hk⟩
  simp only at e1 e2 e3 e4
  rw [b2, b5, e1, e2, Option.some_inj] at hsame
  rw [b1, b3, b4, b6, e3, e4, Option.some_inj, C03_commitment setup .no τ P H hpt ctx hctx _ f (isBlobPoly_blobOf f hd),
    C03_commitment setup .no τ P H hpt ctx hctx _ g (isBlobPoly_blobOf g hd')]
  have hq := chg_quotient (τ := τ) hsame
  have hz : (cellDivisor k).eval τ ≠ 0 := by
    rw [cellDivisor_eval]
    exact divisor_ne fun j hj => hτ _ (by omega)
  constructor
  · intro hp
    rw [smul_left_injective Fr hP (toCompressed_inj hp), sub_self, mul_zero, eq_comm, sub_eq_zero] at hq
    rw [hq]
  · intro hp
    injection hp with hp
    rw [smul_left_injective Fr hP (toCompressed_inj hp), sub_self, mul_eq_zero, or_iff_right hz, sub_eq_zero] at hq
    rw [hq]

end

section
open Bls Embedded
variable {GT : Type} [AddCommGroup GT] [DecidableEq GT] [Pairing Bls.G1 Bls.G2 GT]

/-- C98 with the embedded setup: if one element of a blob changes, so do the commitment, all 64 cells of the extension, one cell of the
first half, and the proofs of the other 63. -/
theorem C98_embedded (points : SetupPoints Bls.G1 Bls.G2) (τ : Fr) (hs : Secret points τ) (lagrange : List (List UInt8))
    (ctx : DASContext Fp Bls.G1 Bls.G2) (hctx : (DASContext.ofTrustedSetup (Embedded.setup lagrange) .no : Outcome Error (DASContext Fp Bls.G1 Bls.G2)) = .ok ctx)
    (blob blob' : List UInt8) (hb : blob.length = 131072) (hb' : blob'.length = 131072) (i : Fin 4096) (hone : Spec.changed blob blob' = {i})
    (cells proofs cells' proofs' : List (List UInt8)) (h : ctx.computeCellsAndKzgProofs blob = .ok (cells, proofs))
    (h' : ctx.computeCellsAndKzgProofs blob' = .ok (cells', proofs')) :
    ctx.blobToKzgCommitment blob ≠ ctx.blobToKzgCommitment blob' ∧
    ∀ k < 128, (cells[k]? ≠ cells'[k]? ↔ (64 ≤ k ∨ k = i.val / 64)) ∧ (cells[k]? = cells'[k]? → proofs[k]? ≠ proofs'[k]?) := by
  rw [context_eq lagrange points hs.file] at hctx
  have hpt := hs.powers
  have hτ : ∀ i < 8192, τ ≠ Spec.point 13 i := fun i _ => (C80_secret points τ hs).2.2 i
  have h1 := hpt.length_g1
  obtain ⟨f, hfd, hf, -⟩ := wc_sent h1 hctx hb h
  obtain ⟨f', hfd', hf', -⟩ := wc_sent h1 hctx hb' h'
  have hcm := C98_one_commitment points .no τ generator generator_ne generator2 hpt
    (fun i hi => by rw [← point_13_12 i hi]; exact hτ i (by omega)) ctx hctx blob blob' hb hb' _ _ hf.2.2 hf'.2.2 i hone
  have hne : blob ≠ blob' := fun e => hcm (by rw [e])
  refine ⟨hcm, fun k hk => ⟨?_, fun hsame hp => hcm ?_⟩⟩
  · by_cases hk64 : k < 64
    · rw [(C98_one points .no h1 ctx hctx blob blob' hb hb' i hone cells proofs cells' proofs' h h').1 k hk64]
      omega
    · refine iff_of_true ?_ (Or.inl (by omega))
      exact C98_all_cells points .no h1 ctx hctx blob blob' hb hb' hne (by rw [hone, card_singleton]; norm_num) cells proofs cells' proofs'
        h h' k (by omega) hk
  · exact (C98_proofs points τ generator generator_ne generator2 hpt hτ ctx hctx blob blob' hb hb' cells proofs cells' proofs' h h' k hk
      hsame).1 hp

end

/-! ### Non-vacuity -/

open Toy in
/-- From the blob of a polynomial: a change to element 5 alone, after which the commitment is another one, and a change to the first two
elements that keeps the first element of the extension. -/
example : ∃ (ctx : DASContext Fr Fr Fr) (cells proofs : List (List UInt8)), (DASContext.new (setup 7) .no : Outcome Error _) = .ok ctx ∧
    ctx.computeCellsAndKzgProofs blob = .ok (cells, proofs) ∧
    (∃ (blob' : List UInt8) (cells' proofs' : List (List UInt8)), ctx.computeCellsAndKzgProofs blob' = .ok (cells', proofs') ∧
      Spec.changed blob blob' = {5} ∧ ctx.blobToKzgCommitment blob ≠ ctx.blobToKzgCommitment blob' ∧ proofs[1]? ≠ proofs'[1]? ∧
      cells[0]? ≠ cells'[0]? ∧ cells[1]? = cells'[1]? ∧ cells[100]? ≠ cells'[100]?) ∧
    ∃ (blob' : List UInt8) (cells' proofs' : List (List UInt8)), ctx.computeCellsAndKzgProofs blob' = .ok (cells', proofs') ∧
      Spec.changed blob blob' = {0, 1} ∧ Spec.kept cells cells' = {(0, 0)} := by
  obtain ⟨ctx, hctx⟩ := context 7
  have hb : blob.length = 131072 := blob_poly.2.1
  have h1 := length_g1 7
  obtain ⟨cells, proofs, h⟩ := C02_accepts (setup 7) h1 ctx hctx blob hb ((blobPoly_iff hb).1 ⟨_, blob_poly⟩)
  refine ⟨ctx, cells, proofs, hctx, h, ?_, ?_⟩
  · obtain ⟨blob', cells', proofs', hb', h', hone, -⟩ := C98_sharp (setup 7) h1 ctx hctx blob hb cells proofs h {5} ∅ (by simp)
    obtain ⟨f', hfd', hf', -⟩ := wc_sent h1 hctx hb' h'
    have hcm := C98_one_commitment (setup 7) .no 7 1 one_ne_zero 1 (powersOfTau 7)
      (fun i hi => by rw [← point_13_12 i hi]; exact seven_outside' i (by omega)) ctx hctx blob blob' hb hb' _ _ blob_poly.2.2 hf'.2.2 5 hone
    have hne : blob ≠ blob' := fun e => hcm (by rw [e])
    have hfirst := (C98_one (setup 7) .no h1 ctx hctx blob blob' hb hb' 5 hone cells proofs cells' proofs' h h').1
    have hsame : cells[1]? = cells'[1]? := by
      by_contra hc
      exact absurd ((hfirst 1 (by norm_num)).1 hc) (by decide)
    refine ⟨blob', cells', proofs', h', hone, hcm, fun hp => hcm ?_, (hfirst 0 (by norm_num)).2 (by decide), hsame, ?_⟩
    · exact (C98_proofs (setup 7) 7 1 one_ne_zero 1 (powersOfTau 7) seven_outside' ctx hctx blob blob' hb hb' cells proofs cells' proofs' h h'
        1 (by norm_num) hsame).1 hp
    · exact C98_all_cells (setup 7) .no h1 ctx hctx blob blob' hb hb' hne (by rw [hone, card_singleton]; norm_num) cells proofs cells' proofs'
        h h' 100 (by norm_num) (by norm_num)
  · obtain ⟨blob', cells', proofs', -, h', hA, hB⟩ := C98_sharp (setup 7) h1 ctx hctx blob hb cells proofs h {0, 1} {(0, 0)} (by
      rw [card_pair (by decide), card_singleton]; norm_num)
    exact ⟨blob', cells', proofs', h', hA, hB⟩

end Verif
