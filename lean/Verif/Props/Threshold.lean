import Verif.Lemmas.Threshold
import Verif.Props.EmbeddedSecret

set_option linter.unusedSectionVars false

/-! C93: fewer than half of the cells do not determine a blob, whatever else is published with them. -/
namespace Verif
open Polynomial Finset

section
variable {ε K G1 G2 GT : Type} [Field K] [DecidableEq K] [AddCommGroup G1] [Module Fr G1] [DecidableEq G1]
  [Curve K G1] [PointCodec G1] [AddCommGroup G2] [Module Fr G2] [AddCommGroup GT] [DecidableEq GT]
  [Pairing G1 G2 GT]

/-- what is published of the blobs that the library accepts -/
theorem published_iff {setup : SetupPoints G1 G2} (h1 : setup.g1Monomial.length = 4096)
    {ctx : DASContext K G1 G2} (hctx : (DASContext.new setup .no : Outcome Error (DASContext K G1 G2)) = .ok ctx)
    (blob : List UInt8) (cs ps : List (List UInt8)) :
    (blob.length = 131072 ∧ ctx.computeCellsAndKzgProofs blob = .ok (cs, ps)) ↔
      ∃ f : Fr[X], f.degree < 4096 ∧ blob = blobOf f ∧ cs = cellsOf f ∧ ps = proofsOf setup.g1Monomial f := by
  obtain ⟨M, hp, hM, -, -⟩ := context_fields setup .no h1 ctx hctx
  have run : ∀ f : Fr[X], f.degree < 4096 →
      ctx.computeCellsAndKzgProofs (blobOf f) = .ok (cellsOf f, proofsOf setup.g1Monomial f) := fun f hf => by
    rw [cells_of_blob hp (isBlobPoly_blobOf f hf), prove_exact _ h1 M (msmExact_no _ 6 6 M hM) f hf]
  constructor
  · rintro ⟨hl, hc⟩
    by_cases hex : ∃ f, Spec.IsBlobPoly blob f
    · obtain ⟨f, hf⟩ := hex
      obtain ⟨hd, hb⟩ := isBlobPoly_iff.1 hf
      rw [hb, run f hd] at hc
      injection hc with hc
      injection hc with e1 e2
      exact ⟨f, hd, hb, e1.symm, e2.symm⟩
    · obtain ⟨i, -, -, -, -, he⟩ := bad_blob (ctx := ctx) hl hex
      rw [he] at hc
      cases hc
  · rintro ⟨f, hd, hb, e1, e2⟩
    rw [hb, e1, e2]
    exact ⟨(isBlobPoly_blobOf f hd).2.1, run f hd⟩

theorem cellsOf_get (f : Fr[X]) (k : Fin 128) : (cellsOf f)[k.val]? = some (cellOf f k) := by
  rw [cellsOf_eq, List.getElem?_map, List.getElem?_range k.2]
  rfl

/-- the evaluation points of the cells in `I` -/
def columnPoint (p : Fin 128 × Fin 64) : Fr := Spec.point 13 (64 * p.1 + p.2)

theorem columnPoint_injective : Function.Injective columnPoint := by
  rintro ⟨k, j⟩ ⟨k', j'⟩ h
  have := point_inj (i := 64 * k + j) (j := 64 * k' + j') (by omega) (by omega) h
  have h1 : k = k' := by ext; omega
  have h2 : j = j' := by ext; omega
  rw [h1, h2]

/-- C93: however the contents of at most 64 different cells are chosen, the number of blobs that have these cells is a power of the
field's size: one for 64 cells, and `frOrder^64` times as many for each cell that is left out. -/
theorem C93_cells (setup : SetupPoints G1 G2) (h1 : setup.g1Monomial.length = 4096)
    (ctx : DASContext K G1 G2) (hctx : (DASContext.new setup .no : Outcome Error (DASContext K G1 G2)) = .ok ctx)
    (I : Finset (Fin 128)) (hI : I.card ≤ 64) (cells : Fin 128 → List UInt8) (hl : ∀ k ∈ I, (cells k).length = 2048)
    (hc : ∀ k ∈ I, Spec.Canonical 64 (cells k)) :
    {blob : List UInt8 | blob.length = 131072 ∧ ∃ cs ps, ctx.computeCellsAndKzgProofs blob = .ok (cs, ps) ∧
      ∀ k ∈ I, cs[k.val]? = some (cells k)}.ncard = frOrder ^ (4096 - 64 * I.card) := by
  have hv : ∀ k : Fin 128, ∃ v : Nat → Fr, k ∈ I → ∀ f : Fr[X], cellOf f k = cells k ↔
      ∀ j < 64, f.eval (Spec.point 13 (64 * k + j)) = v j := by
    intro k
    by_cases hk : k ∈ I
    · obtain ⟨v, hv⟩ := exists_cellOf k.val (hl k hk) (hc k hk)
      exact ⟨v, fun _ => hv⟩
    · exact ⟨fun _ => 0, fun h => absurd h hk⟩
  choose v hv using hv
  have e : {blob : List UInt8 | blob.length = 131072 ∧ ∃ cs ps, ctx.computeCellsAndKzgProofs blob = .ok (cs, ps) ∧
      ∀ k ∈ I, cs[k.val]? = some (cells k)} =
      blobOf '' {f : Fr[X] | f.degree < (4096 : Nat) ∧ ∀ p ∈ I ×ˢ (univ : Finset (Fin 64)), f.eval (columnPoint p) = v p.1 p.2} := by
    ext blob
    constructor
    · rintro ⟨hlen, cs, ps, hcs, h⟩
      obtain ⟨f, hd, hb, e1, -⟩ := (published_iff h1 hctx blob cs ps).1 ⟨hlen, hcs⟩
      refine ⟨f, ⟨hd, ?_⟩, hb.symm⟩
      rintro ⟨k, j⟩ hp
      have hk := (mem_product.1 hp).1
      have hk' := h k hk
      rw [e1, cellsOf_get] at hk'
      injection hk' with hk'
      exact (hv k hk f).1 hk' j j.2
    · rintro ⟨f, ⟨hd, h⟩, hb⟩
      obtain ⟨hlen, hcs⟩ := (published_iff h1 hctx blob _ _).2 ⟨f, hd, hb.symm, rfl, rfl⟩
      refine ⟨hlen, _, _, hcs, fun k hk => ?_⟩
      rw [cellsOf_get, (hv k hk f).2 (fun j hj => h (k, ⟨j, hj⟩) (mem_product.2 ⟨hk, mem_univ _⟩))]
  have hcard : (I ×ˢ (univ : Finset (Fin 64))).card = 64 * I.card := by rw [card_product, card_univ, Fintype.card_fin, mul_comm]
  rw [e, (blobOf_injOn.mono fun f hf => hf.1).ncard_image,
    ncard_interp _ columnPoint (columnPoint_injective.injOn) (fun p => v p.1 p.2) 4096 (by rw [hcard]; omega), hcard, card_fr]

/-- a blob, its commitment and those of its cells and proofs whose number is in `I` -/
def Publishes (ctx : DASContext K G1 G2) (I : Finset (Fin 128)) (cm : List UInt8) (cells proofs : Fin 128 → List UInt8)
    (blob : List UInt8) : Prop :=
  blob.length = 131072 ∧ ctx.blobToKzgCommitment blob = .ok cm ∧ ∃ cs ps, ctx.computeCellsAndKzgProofs blob = .ok (cs, ps) ∧
    ∀ k ∈ I, cs[k.val]? = some (cells k) ∧ ps[k.val]? = some (proofs k)

theorem toCompressed_inj [LawfulPointCodec G1 48] {P Q : G1} (h : toCompressed P = toCompressed Q) : P = Q := by
  have := congrArg (fun b => (fromCompressed b : Option G1)) h
  simpa [LawfulPointCodec.fromCompressed_toCompressed] using this

theorem proofsOf_get {setup : SetupPoints G1 G2} {τ : Fr} {P : G1} {H : G2}
    (hpt : Spec.PowersOfTau setup.g1Monomial setup.g2Monomial τ P H) {f : Fr[X]} (hf : f.degree < 4096) (k : Fin 128) :
    (proofsOf setup.g1Monomial f)[k.val]? = some (toCompressed ((f /ₘ cellDivisor k).eval τ • P)) := by
  unfold proofsOf
  rw [List.getElem?_map, List.getElem?_range k.2, Option.map_some, openingProof_eval hpt f hf]

/-- C93: the commitment and the proofs help little. For every commitment to a multiple of the generator and every choice of fewer than 64
different cells there is exactly one choice of proofs with which they can be published, and then `frOrder^(4095 - 64 n)` blobs fit, where
`n` is the number of cells. -/
theorem C93_published [LawfulPointCodec G1 48] (setup : SetupPoints G1 G2) (τ : Fr) (P : G1) (H : G2)
    (hpt : Spec.PowersOfTau setup.g1Monomial setup.g2Monomial τ P H) (hP : P ≠ 0) (hτ : ∀ i < 8192, τ ≠ Spec.point 13 i)
    (ctx : DASContext K G1 G2) (hctx : (DASContext.new setup .no : Outcome Error (DASContext K G1 G2)) = .ok ctx)
    (I : Finset (Fin 128)) (hI : I.card < 64) (c : Fr) (cells : Fin 128 → List UInt8) (hl : ∀ k ∈ I, (cells k).length = 2048)
    (hc : ∀ k ∈ I, Spec.Canonical 64 (cells k)) :
    ∃ proofs : Fin 128 → List UInt8, ∀ proofs' : Fin 128 → List UInt8,
      {blob | Publishes ctx I (toCompressed (c • P)) cells proofs' blob}.ncard =
        if ∀ k ∈ I, proofs' k = proofs k then frOrder ^ (4095 - 64 * I.card) else 0 := by
  have h1 := hpt.length_g1
  have hv : ∀ k : Fin 128, ∃ v : Nat → Fr, k ∈ I → ∀ f : Fr[X], cellOf f k = cells k ↔
      ∀ j < 64, f.eval (Spec.point 13 (64 * k + j)) = v j := by
    intro k
    by_cases hk : k ∈ I
    · obtain ⟨v, hv⟩ := exists_cellOf k.val (hl k hk) (hc k hk)
      exact ⟨v, fun _ => hv⟩
    · exact ⟨fun _ => 0, fun h => absurd h hk⟩
  choose v hv using hv
  obtain ⟨S, hS⟩ : ∃ S, S = {f : Fr[X] | f.degree < (4096 : Nat) ∧ ∀ o ∈ insertNone (I ×ˢ (univ : Finset (Fin 64))),
      f.eval (o.elim τ columnPoint) = o.elim c (fun p => v p.1 p.2)} := ⟨_, rfl⟩
  have hcard : (insertNone (I ×ˢ (univ : Finset (Fin 64)))).card = 64 * I.card + 1 := by
    rw [card_insertNone, card_product, card_univ, Fintype.card_fin, mul_comm]
  have count : S.ncard = frOrder ^ (4095 - 64 * I.card) := by
    rw [hS, ncard_interp _ _ ?_ _ 4096 (by rw [hcard]; omega), hcard, card_fr]
    · congr 1; omega
    · rintro (_ | ⟨k, j⟩) - (_ | ⟨k', j'⟩) - h
      · rfl
      · exact absurd h (hτ _ (by omega))
      · exact absurd h.symm (hτ _ (by omega))
      · rw [columnPoint_injective h]
  have mem : ∀ f, f ∈ S ↔ f.degree < 4096 ∧ f.eval τ = c ∧ ∀ k ∈ I, cellOf f k = cells k := by
    intro f
    rw [hS]
    constructor
    · rintro ⟨hd, h⟩
      refine ⟨hd, h none (by simp), fun k hk => (hv k hk f).2 fun j hj => ?_⟩
      exact h (some (k, ⟨j, hj⟩)) (by simp [hk])
    · rintro ⟨hd, h, h'⟩
      refine ⟨hd, ?_⟩
      rintro (_ | ⟨k, j⟩) ho
      · exact h
      · exact (hv k (by simpa using ho) f).1 (h' k (by simpa using ho)) j j.2
  have hpos : 0 < frOrder ^ (4095 - 64 * I.card) := pow_pos frOrder_prime.pos _
  obtain ⟨f₀, hf₀⟩ : S.Nonempty := by
    rw [Set.nonempty_iff_ne_empty]
    intro h
    rw [h, Set.ncard_empty] at count
    omega
  have hf₀' := (mem f₀).1 hf₀
  have same : ∀ f ∈ S, ∀ k ∈ I, (f /ₘ cellDivisor k).eval τ = (f₀ /ₘ cellDivisor k).eval τ := by
    intro f hf k hk
    obtain ⟨-, e1, e2⟩ := (mem f).1 hf
    refine quotient_eval_eq (by rw [e2 k hk, hf₀'.2.2 k hk]) (by rw [e1, hf₀'.2.1]) ?_
    rw [cellDivisor_eval]
    exact divisor_ne fun j hj => hτ _ (by omega)
  refine ⟨fun k => toCompressed ((f₀ /ₘ cellDivisor k).eval τ • P), fun proofs' => ?_⟩
  have pub : ∀ blob, Publishes ctx I (toCompressed (c • P)) cells proofs' blob ↔
      ∃ f ∈ S, blobOf f = blob ∧ ∀ k ∈ I, proofs' k = toCompressed ((f₀ /ₘ cellDivisor k).eval τ • P) := by
    intro blob
    constructor
    · rintro ⟨hlen, hcm, cs, ps, hcs, h⟩
      obtain ⟨f, hd, hb, e1, e2⟩ := (published_iff h1 hctx blob cs ps).1 ⟨hlen, hcs⟩
      rw [hb, C03_commitment setup .no τ P H hpt ctx hctx _ f (isBlobPoly_blobOf f hd)] at hcm
      injection hcm with hcm
      have hfc : f.eval τ = c := smul_left_injective Fr hP (toCompressed_inj hcm)
      have hf : f ∈ S := (mem f).2 ⟨hd, hfc, fun k hk => by
        have := (h k hk).1
        rw [e1, cellsOf_get] at this
        injection this⟩
      refine ⟨f, hf, hb.symm, fun k hk => ?_⟩
      have := (h k hk).2
      rw [e2, proofsOf_get hpt hd, same f hf k hk] at this
      injection this with this
      exact this.symm
    · rintro ⟨f, hf, hb, hpr⟩
      obtain ⟨hd, e1, e2⟩ := (mem f).1 hf
      obtain ⟨hlen, hcs⟩ := (published_iff h1 hctx blob _ _).2 ⟨f, hd, hb.symm, rfl, rfl⟩
      refine ⟨hlen, ?_, _, _, hcs, fun k hk => ⟨?_, ?_⟩⟩
      · rw [← hb, C03_commitment setup .no τ P H hpt ctx hctx _ f (isBlobPoly_blobOf f hd), e1]
      · rw [cellsOf_get, e2 k hk]
      · rw [proofsOf_get hpt hd, same f hf k hk, hpr k hk]
  split_ifs with hpr
  · rw [← count, ← (show Set.InjOn blobOf S from blobOf_injOn.mono fun f hf => ((mem f).1 hf).1).ncard_image]
    congr 1
    ext blob
    exact (pub blob).trans ⟨fun ⟨f, hf, hb, _⟩ => ⟨f, hf, hb⟩, fun ⟨f, hf, hb⟩ => ⟨f, hf, hb, hpr⟩⟩
  · rw [show {blob | Publishes ctx I (toCompressed (c • P)) cells proofs' blob} = ∅ from ?_, Set.ncard_empty]
    ext blob
    exact ⟨fun h => hpr ((pub blob).1 h).choose_spec.2.2, fun h => h.elim⟩

/-- C93: a receiver that has the commitment and the cells and proofs with the numbers in `I`, and uses them in any way whatever, gets
at most `frOrder^(64 n + 1)` of the `frOrder^4096` blobs right. -/
theorem C93_guess (setup : SetupPoints G1 G2) (τ : Fr) (P : G1) (H : G2)
    (hpt : Spec.PowersOfTau setup.g1Monomial setup.g2Monomial τ P H) (hτ : ∀ i < 8192, τ ≠ Spec.point 13 i)
    (ctx : DASContext K G1 G2) (hctx : (DASContext.new setup .no : Outcome Error (DASContext K G1 G2)) = .ok ctx)
    (I : Finset (Fin 128)) (guess : List UInt8 → (Fin 128 → Option (List UInt8 × List UInt8)) → List UInt8) :
    {blob | ∃ cm cells proofs, Publishes ctx I cm cells proofs blob ∧
      guess cm (fun k => if k ∈ I then some (cells k, proofs k) else none) = blob}.ncard ≤ frOrder ^ (64 * I.card + 1) := by
  have h1 := hpt.length_g1
  let J := insertNone (I ×ˢ (univ : Finset (Fin 64)))
  have hcard : J.card = 64 * I.card + 1 := by
    rw [card_insertNone, card_product, card_univ, Fintype.card_fin, mul_comm]
  obtain ⟨T, hT⟩ : ∃ T, T = {f : Fr[X] | f.degree < 4096 ∧ guess (toCompressed (f.eval τ • P)) (fun k => if k ∈ I then
      some (cellOf f k, toCompressed ((f /ₘ cellDivisor k).eval τ • P)) else none) = blobOf f} := ⟨_, rfl⟩
  have e : {blob | ∃ cm cells proofs, Publishes ctx I cm cells proofs blob ∧
      guess cm (fun k => if k ∈ I then some (cells k, proofs k) else none) = blob} ⊆ blobOf '' T := by
    rintro blob ⟨cm, cells, proofs, ⟨hlen, hcm, cs, ps, hcs, h⟩, hg⟩
    obtain ⟨f, hd, hb, e1, e2⟩ := (published_iff h1 hctx blob cs ps).1 ⟨hlen, hcs⟩
    rw [hb, C03_commitment setup .no τ P H hpt ctx hctx _ f (isBlobPoly_blobOf f hd)] at hcm
    injection hcm with hcm
    refine ⟨f, ?_, hb.symm⟩
    rw [hT]
    refine ⟨hd, ?_⟩
    rw [hcm, ← hb, ← hg]
    congr 1
    · funext k
      split_ifs with hk
      · have a := (h k hk).1
        have b := (h k hk).2
        rw [e1, cellsOf_get] at a
        rw [e2, proofsOf_get hpt hd] at b
        injection a with a
        injection b with b
        rw [a, b]
      · rfl
  have fin : T.Finite := by
    refine Set.Finite.subset (s := {f : Fr[X] | f.degree < (4096 : Nat)}) ?_ (by rw [hT]; exact fun f hf => hf.1)
    refine Set.finite_of_ncard_ne_zero ?_
    rw [ncard_degree_lt, card_fr]
    exact (pow_pos frOrder_prime.pos _).ne'
  refine (Set.ncard_le_ncard e (fin.image _)).trans ((Set.ncard_image_le fin).trans ?_)
  have inj : Set.InjOn (fun (f : Fr[X]) (o : J) => f.eval (o.1.elim τ columnPoint)) T := by
    intro f hf g hg hfg
    rw [hT] at hf hg
    have ev : ∀ o ∈ J, f.eval (o.elim τ columnPoint) = g.eval (o.elim τ columnPoint) := fun o ho => congrFun hfg ⟨o, ho⟩
    have eτ : f.eval τ = g.eval τ := ev none (by simp [J])
    have ec : ∀ k ∈ I, cellOf f k = cellOf g k := fun k hk => (cellOf_eq_iff).2 fun j hj =>
      ev (some (k, ⟨j, hj⟩)) (by simp [J, hk])
    have ep : ∀ k ∈ I, (f /ₘ cellDivisor k).eval τ = (g /ₘ cellDivisor k).eval τ := fun k hk =>
      quotient_eval_eq (ec k hk) eτ (by rw [cellDivisor_eval]; exact divisor_ne fun j hj => hτ _ (by omega))
    refine blobOf_injOn hf.1 hg.1 ?_
    rw [← hf.2, ← hg.2, eτ]
    congr 1
    funext k
    split_ifs with hk
    · rw [ec k hk, ep k hk]
    · rfl
  calc T.ncard = ((fun (f : Fr[X]) (o : J) => f.eval (o.1.elim τ columnPoint)) '' T).ncard := inj.ncard_image.symm
    _ ≤ (Set.univ : Set (J → Fr)).ncard := Set.ncard_le_ncard (Set.subset_univ _) Set.finite_univ
    _ = frOrder ^ (64 * I.card + 1) := by
      rw [Set.ncard_univ, Nat.card_fun, card_fr, Nat.card_eq_fintype_card, Fintype.card_coe, hcard]

end

section
open Bls Embedded
variable {GT : Type} [AddCommGroup GT] [DecidableEq GT] [Pairing Bls.G1 Bls.G2 GT]

/-- C93 with the embedded setup: cells alone. -/
theorem C93_embedded_cells (points : SetupPoints Bls.G1 Bls.G2) (τ : Fr) (h : Secret points τ) (lagrange : List (List UInt8))
    (ctx : DASContext Fp Bls.G1 Bls.G2) (hctx : (DASContext.ofTrustedSetup (Embedded.setup lagrange) .no : Outcome Error (DASContext Fp Bls.G1 Bls.G2)) = .ok ctx)
    (I : Finset (Fin 128)) (hI : I.card ≤ 64) (cells : Fin 128 → List UInt8) (hl : ∀ k ∈ I, (cells k).length = 2048)
    (hc : ∀ k ∈ I, Spec.Canonical 64 (cells k)) :
    {blob : List UInt8 | blob.length = 131072 ∧ ∃ cs ps, ctx.computeCellsAndKzgProofs blob = .ok (cs, ps) ∧
      ∀ k ∈ I, cs[k.val]? = some (cells k)}.ncard = frOrder ^ (4096 - 64 * I.card) := by
  rw [context_eq lagrange points h.file] at hctx
  exact C93_cells points h.powers.length_g1 ctx hctx I hI cells hl hc

/-- C93 with the embedded setup: cells, proofs and the commitment, which may be any point of the subgroup. -/
theorem C93_embedded_published (points : SetupPoints Bls.G1 Bls.G2) (τ : Fr) (h : Secret points τ) (lagrange : List (List UInt8))
    (ctx : DASContext Fp Bls.G1 Bls.G2) (hctx : (DASContext.ofTrustedSetup (Embedded.setup lagrange) .no : Outcome Error (DASContext Fp Bls.G1 Bls.G2)) = .ok ctx)
    (I : Finset (Fin 128)) (hI : I.card < 64) (c : Fr) (cells : Fin 128 → List UInt8) (hl : ∀ k ∈ I, (cells k).length = 2048)
    (hc : ∀ k ∈ I, Spec.Canonical 64 (cells k)) :
    ∃ proofs : Fin 128 → List UInt8, ∀ proofs' : Fin 128 → List UInt8,
      {blob | Publishes ctx I (toCompressed (c • generator)) cells proofs' blob}.ncard =
        if ∀ k ∈ I, proofs' k = proofs k then frOrder ^ (4095 - 64 * I.card) else 0 := by
  rw [context_eq lagrange points h.file] at hctx
  exact C93_published points τ generator generator2 h.powers generator_ne (fun i _ => (C80_secret points τ h).2.2 i) ctx hctx I hI c
    cells hl hc

/-- C93 with the embedded setup: guessing the blob. -/
theorem C93_embedded_guess (points : SetupPoints Bls.G1 Bls.G2) (τ : Fr) (h : Secret points τ) (lagrange : List (List UInt8))
    (ctx : DASContext Fp Bls.G1 Bls.G2) (hctx : (DASContext.ofTrustedSetup (Embedded.setup lagrange) .no : Outcome Error (DASContext Fp Bls.G1 Bls.G2)) = .ok ctx)
    (I : Finset (Fin 128)) (guess : List UInt8 → (Fin 128 → Option (List UInt8 × List UInt8)) → List UInt8) :
    {blob | ∃ cm cells proofs, Publishes ctx I cm cells proofs blob ∧
      guess cm (fun k => if k ∈ I then some (cells k, proofs k) else none) = blob}.ncard ≤ frOrder ^ (64 * I.card + 1) := by
  rw [context_eq lagrange points h.file] at hctx
  exact C93_guess points τ generator generator2 h.powers (fun i _ => (C80_secret points τ h).2.2 i) ctx hctx I guess

end

namespace Toy

theorem seven_outside' (i : Nat) (_ : i < 8192) : (7 : Fr) ≠ Spec.point 13 i := by
  have := seven_outside (i / 64) (i % 64) (Nat.mod_lt _ (by decide))
  rwa [Nat.div_add_mod] at this

theorem poly_cells (k : Fin 128) : (cellOf poly k).length = 2048 ∧ Spec.Canonical 64 (cellOf poly k) :=
  have h : Spec.IsCell poly k (cellOf poly k) := (isCell_iff _ _ _).2 rfl
  ⟨h.1, isCell_canonical h⟩

/-- the first `n` cells -/
def firstCells (n : Nat) (hn : n ≤ 128) : Finset (Fin 128) := univ.image (Fin.castLE hn)

theorem card_firstCells (n : Nat) (hn : n ≤ 128) : (firstCells n hn).card = n := by
  rw [firstCells, card_image_of_injective _ (Fin.castLE_injective hn), card_univ, Fintype.card_fin]

end Toy

open Toy in
/-- the first 64 cells of a polynomial determine the blob; the first 63 leave `frOrder^64` blobs, of which the commitment and the proofs
still leave `frOrder^63` -/
example : ∃ ctx : DASContext Fr Fr Fr, (DASContext.new (setup 7) .no : Outcome Error _) = .ok ctx ∧
    {blob : List UInt8 | blob.length = 131072 ∧ ∃ cs ps, ctx.computeCellsAndKzgProofs blob = .ok (cs, ps) ∧
      ∀ k ∈ firstCells 64 (by decide), cs[k.val]? = some (cellOf poly k)}.ncard = 1 ∧
    {blob : List UInt8 | blob.length = 131072 ∧ ∃ cs ps, ctx.computeCellsAndKzgProofs blob = .ok (cs, ps) ∧
      ∀ k ∈ firstCells 63 (by decide), cs[k.val]? = some (cellOf poly k)}.ncard = frOrder ^ 64 ∧
    (∃ proofs, {blob | Publishes ctx (firstCells 63 (by decide)) (toCompressed (26 : Fr)) (fun k => cellOf poly k) proofs blob}.ncard =
      frOrder ^ 63) ∧
    ∀ guess : List UInt8 → (Fin 128 → Option (List UInt8 × List UInt8)) → List UInt8,
      {blob | ∃ cm cells proofs, Publishes ctx (firstCells 63 (by decide)) cm cells proofs blob ∧
      guess cm (fun k => if k ∈ firstCells 63 (by decide) then some (cells k, proofs k) else none) = blob}.ncard ≤ frOrder ^ 4033 := by
  obtain ⟨ctx, hctx⟩ := context 7
  refine ⟨ctx, hctx, ?_, ?_, ?_, fun guess => ?_⟩
  · rw [C93_cells (setup 7) (length_g1 7) ctx hctx _ (by rw [card_firstCells]) (fun k => cellOf poly k)
      (fun k _ => (poly_cells k).1) (fun k _ => (poly_cells k).2), card_firstCells]
    rfl
  · rw [C93_cells (setup 7) (length_g1 7) ctx hctx _ (by rw [card_firstCells]; decide) (fun k => cellOf poly k)
      (fun k _ => (poly_cells k).1) (fun k _ => (poly_cells k).2), card_firstCells]
  · obtain ⟨proofs, h⟩ := C93_published (setup 7) 7 1 1 (powersOfTau 7) one_ne_zero seven_outside' ctx hctx
      (firstCells 63 (by decide)) (by rw [card_firstCells]; decide) 26 (fun k => cellOf poly k)
      (fun k _ => (poly_cells k).1) (fun k _ => (poly_cells k).2)
    refine ⟨proofs, ?_⟩
    have := h proofs
    rwa [if_pos (fun _ _ => rfl), card_firstCells, smul_eq_mul, mul_one] at this
  · have := C93_guess (setup 7) 7 1 1 (powersOfTau 7) seven_outside' ctx hctx (firstCells 63 (by decide)) guess
    rwa [card_firstCells] at this

end Verif
