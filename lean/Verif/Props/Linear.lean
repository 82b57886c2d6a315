import Verif.Props.Groupings
import Verif.Props.Binding
import Verif.Spec.Linear
import Verif.Props.Precomp
import Verif.Props.Toy

set_option linter.unusedSectionVars false

/-!
C90: commitments, cells, proofs, recovery and verification respect linear combinations.
-/
namespace Verif
open Polynomial Finset

theorem encodes_injective {b : List UInt8} {s t : Fr} (h : Spec.Encodes b s) (h' : Spec.Encodes b t) : s = t :=
  ZMod.val_injective _ (h.2.symm.trans h'.2)

theorem degree_C_mul_le (a : Fr) (f : Fr[X]) : (C a * f).degree ≤ f.degree := by
  rw [← smul_eq_C_mul]
  exact degree_smul_le a f

theorem exists_cell_interp (k : Nat) {c : List UInt8} (hcl : c.length = 2048) (hcan : Spec.Canonical 64 c) :
    ∃ I : Fr[X], I.degree < 64 ∧ Spec.IsCell I k c := by
  have hx : ∀ j, ∃ x : Fr, j < 64 → Spec.Encodes (Spec.block 32 j c) x := by
    intro j
    by_cases hj : j < 64
    · obtain ⟨x, hx⟩ := (exists_encodes_iff (length_block_of (n := 64) hcl hj)).2 (hcan j hj)
      exact ⟨x, fun _ => hx⟩
    · exact ⟨0, fun h => absurd h hj⟩
  choose x hx using hx
  obtain ⟨I, hI1, hI2⟩ := exists_Interp k ((List.range 64).map x)
  refine ⟨I, hI1, hcl, fun j hj => ?_⟩
  rw [hI2 j hj, (rep_map_range 64 x).getD 0 hj]
  exact hx j hj

theorem combined_blob {a b : Fr} {x y r : List UInt8} {f g : Fr[X]} (hf : Spec.IsBlobPoly x f) (hg : Spec.IsBlobPoly y g)
    (h : Spec.Combined 4096 a b x y r) : Spec.IsBlobPoly r (C a * f + C b * g) := by
  refine ⟨?_, h.1, fun i hi => ?_⟩
  · refine lt_of_le_of_lt (degree_add_le _ _) (max_lt ?_ ?_)
    · exact lt_of_le_of_lt (degree_C_mul_le _ _) hf.1
    · exact lt_of_le_of_lt (degree_C_mul_le _ _) hg.1
  · obtain ⟨s, t, hs, ht, he⟩ := h.2 i hi
    rw [encodes_injective hs (hf.2.2 i hi), encodes_injective ht (hg.2.2 i hi)] at he
    simpa using he

theorem combined_polys {a b : Fr} {x y r : List UInt8} (hx : x.length = 131072) (hy : y.length = 131072) (h : Spec.Combined 4096 a b x y r) :
    ∃ f g, Spec.IsBlobPoly x f ∧ Spec.IsBlobPoly y g := by
  obtain ⟨f, hf⟩ := (blobPoly_iff hx).2 fun i hi => by
    obtain ⟨s, t, hs, -, -⟩ := h.2 i hi
    rw [hs.2]
    exact ZMod.val_lt s
  obtain ⟨g, hg⟩ := (blobPoly_iff hy).2 fun i hi => by
    obtain ⟨s, t, -, ht, -⟩ := h.2 i hi
    rw [ht.2]
    exact ZMod.val_lt t
  exact ⟨f, g, hf, hg⟩

theorem combined_isCell {a b : Fr} {x y r : List UInt8} {f g : Fr[X]} {k : Nat} (hf : Spec.IsCell f k x) (hg : Spec.IsCell g k y)
    (h : Spec.Combined 64 a b x y r) : Spec.IsCell (C a * f + C b * g) k r := by
  refine ⟨h.1, fun i hi => ?_⟩
  obtain ⟨s, t, hs, ht, he⟩ := h.2 i hi
  rw [encodes_injective hs (hf.2 i hi), encodes_injective ht (hg.2 i hi)] at he
  simpa using he

theorem isCell_combined {a b : Fr} {x y r : List UInt8} {f g : Fr[X]} {k : Nat} (hf : Spec.IsCell f k x) (hg : Spec.IsCell g k y)
    (hr : Spec.IsCell (C a * f + C b * g) k r) : Spec.Combined 64 a b x y r := by
  refine ⟨hr.1, fun i hi => ⟨_, _, hf.2 i hi, hg.2 i hi, ?_⟩⟩
  simpa using hr.2 i hi

theorem combine_divByMonic {q : Fr[X]} (hq : q.Monic) (a b : Fr) (f g : Fr[X]) :
    (C a * f + C b * g) /ₘ q = C a * (f /ₘ q) + C b * (g /ₘ q) := by
  refine (div_modByMonic_unique _ (C a * (f %ₘ q) + C b * (g %ₘ q)) hq ⟨?_, ?_⟩).1
  · conv_rhs => rw [← modByMonic_add_div f q, ← modByMonic_add_div g q]
    ring
  · refine lt_of_le_of_lt (degree_add_le _ _) (max_lt ?_ ?_)
    · exact lt_of_le_of_lt (degree_C_mul_le _ _) (degree_modByMonic_lt f hq)
    · exact lt_of_le_of_lt (degree_C_mul_le _ _) (degree_modByMonic_lt g hq)

section
variable {K G1 G2 GT : Type} [Field K] [DecidableEq K] [AddCommGroup G1] [Module Fr G1] [DecidableEq G1] [Curve K G1] [PointCodec G1]
variable [AddCommGroup G2] [Module Fr G2] [AddCommGroup GT] [DecidableEq GT] [Pairing G1 G2 GT]
variable {ε : Type}

theorem commitment_combine (g : List G1) (a b : Fr) (f h : Fr[X]) :
    Spec.commitment g (C a * f + C b * h) = a • Spec.commitment g f + b • Spec.commitment g h := by
  rw [commitment_add, commitment_C_mul, commitment_C_mul]

theorem cells_combine (a b : Fr) (f g : Fr[X]) : Spec.CombinedCells a b (cellsOf f) (cellsOf g) (cellsOf (C a * f + C b * g)) := by
  rw [cellsOf_eq, cellsOf_eq, cellsOf_eq]
  refine ⟨by simp, by simp, fun k u v w hu hv hw => ?_⟩
  have hk : k < 128 := by simpa using (List.getElem?_eq_some_iff.1 hu).1
  rw [List.getElem?_map, List.getElem?_range hk, Option.map_some, Option.some.injEq] at hu hv hw
  exact isCell_combined ((isCell_iff _ _ _).2 hu.symm) ((isCell_iff _ _ _).2 hv.symm) ((isCell_iff _ _ _).2 hw.symm)

theorem proofs_combine [LawfulPointCodec G1 48] (g1 : List G1) (a b : Fr) (f g : Fr[X]) :
    Spec.CombinedPoints G1 a b (proofsOf g1 f) (proofsOf g1 g) (proofsOf g1 (C a * f + C b * g)) := by
  unfold proofsOf
  refine ⟨by simp, by simp, fun k u v w hu hv hw => ?_⟩
  have hk : k < 128 := by simpa using (List.getElem?_eq_some_iff.1 hu).1
  rw [List.getElem?_map, List.getElem?_range hk, Option.map_some, Option.some.injEq] at hu hv hw
  subst hu hv hw
  refine ⟨_, _, LawfulPointCodec.fromCompressed_toCompressed _, LawfulPointCodec.fromCompressed_toCompressed _, ?_⟩
  rw [LawfulPointCodec.fromCompressed_toCompressed]
  unfold Spec.openingProof
  rw [cellDivisor_eq, combine_divByMonic (cellDivisor_monic k), commitment_combine]

/-- C90: the commitment of a combination of two blobs is the combination of their commitments, with every setup and precomputation setting. -/
theorem C90_commitment [LawfulPointCodec G1 48] (setup : SetupPoints G1 G2) (up : UsePrecomp) (h1 : setup.g1Monomial.length = 4096)
    (ctx : DASContext K G1 G2) (hctx : (DASContext.new setup up : Outcome ε (DASContext K G1 G2)) = .ok ctx) (a b : Fr)
    (x y r : List UInt8) (hx : x.length = 131072) (hy : y.length = 131072) (h : Spec.Combined 4096 a b x y r) :
    ∃ cx cy cr, ctx.blobToKzgCommitment x = .ok cx ∧ ctx.blobToKzgCommitment y = .ok cy ∧ ctx.blobToKzgCommitment r = .ok cr ∧
      Spec.CombinedPoint G1 a b cx cy cr := by
  obtain ⟨f, g, hf, hg⟩ := combined_polys hx hy h
  obtain ⟨M, hp, -, -, -⟩ := context_fields setup up h1 ctx hctx
  refine ⟨_, _, _, commitment_of_blob h1 hp hf, commitment_of_blob h1 hp hg, commitment_of_blob h1 hp (combined_blob hf hg h), _, _,
    LawfulPointCodec.fromCompressed_toCompressed _, LawfulPointCodec.fromCompressed_toCompressed _, ?_⟩
  rw [LawfulPointCodec.fromCompressed_toCompressed, commitment_combine]

/-- C90: the cells and proofs of a combination of two blobs are the combinations of their cells and proofs, with every setup. -/
theorem C90_cells [LawfulPointCodec G1 48] (setup : SetupPoints G1 G2) (h1 : setup.g1Monomial.length = 4096)
    (ctx : DASContext K G1 G2) (hctx : (DASContext.new setup .no : Outcome Error (DASContext K G1 G2)) = .ok ctx) (a b : Fr)
    (x y r : List UInt8) (hx : x.length = 131072) (hy : y.length = 131072) (h : Spec.Combined 4096 a b x y r) :
    ∃ cx cy cr px py pr, ctx.computeCellsAndKzgProofs x = .ok (cx, px) ∧ ctx.computeCellsAndKzgProofs y = .ok (cy, py) ∧
      ctx.computeCellsAndKzgProofs r = .ok (cr, pr) ∧ cr.length = 128 ∧ pr.length = 128 ∧
      Spec.CombinedCells a b cx cy cr ∧ Spec.CombinedPoints G1 a b px py pr := by
  obtain ⟨f, g, hf, hg⟩ := combined_polys hx hy h
  obtain ⟨M, hp, hM, -, -⟩ := context_fields setup .no h1 ctx hctx
  have run : ∀ {z : List UInt8} {q : Fr[X]}, Spec.IsBlobPoly z q →
      ctx.computeCellsAndKzgProofs z = .ok (cellsOf q, proofsOf setup.g1Monomial q) := fun hz => by
    rw [cells_of_blob hp hz, prove_exact _ h1 M (msmExact_no _ 6 6 M hM) _ hz.1]
  exact ⟨_, _, _, _, _, _, run hf, run hg, run (combined_blob hf hg h), by simp [cellsOf], by simp [proofsOf], cells_combine a b f g,
    proofs_combine _ a b f g⟩

/-- C90: if recovery succeeds on two lists of cells with the same indices, it succeeds on their combination, and all results are the
combinations of the results. -/
theorem C90_recover [LawfulPointCodec G1 48] (setup : SetupPoints G1 G2) (h1 : setup.g1Monomial.length = 4096)
    (ctx : DASContext K G1 G2) (hctx : (DASContext.new setup .no : Outcome Error (DASContext K G1 G2)) = .ok ctx) (a b : Fr)
    (inds : List Nat) (x y r : List (List UInt8)) (hx : ∀ c ∈ x, c.length = 2048) (hy : ∀ c ∈ y, c.length = 2048)
    (h : Spec.CombinedCells a b x y r) (cx cy px py : List (List UInt8))
    (ex : ctx.recoverCellsAndKzgProofs inds x = .ok (cx, px)) (ey : ctx.recoverCellsAndKzgProofs inds y = .ok (cy, py)) :
    ∃ cr pr, ctx.recoverCellsAndKzgProofs inds r = .ok (cr, pr) ∧ cr.length = 128 ∧ pr.length = 128 ∧
      Spec.CombinedCells a b cx cy cr ∧ Spec.CombinedPoints G1 a b px py pr := by
  obtain ⟨M, hp, hM, hrs, -⟩ := context_fields setup .no h1 ctx hctx
  have run : ∀ {z : List (List UInt8)} {q : Fr[X]}, (∀ c ∈ z, c.length = 2048) → Spec.RecoveryWellFormed inds z → Spec.Consistent inds z q →
      ctx.recoverCellsAndKzgProofs inds z = .ok (cellsOf q, proofsOf setup.g1Monomial q) := by
    intro z q hz hw hq
    rcases recoverPolynomialCoeff_cases hw.1 hw.2 hz hw.3 hw.4 hw.5 with ⟨⟨g, hg, h⟩ | ⟨hne, -⟩, huniq⟩
    · rw [huniq g q hg hq] at h
      rw [recover_run hp hrs h, prove_exact _ h1 M (msmExact_no _ 6 6 M hM) q hq.1]
    · exact absurd ⟨q, hq⟩ hne
  obtain ⟨wx, ⟨f, hf, -⟩, -⟩ := C10_cells_unchanged setup .no h1 ctx hctx inds x hx cx px ex
  obtain ⟨wy, ⟨g, hg, -⟩, -⟩ := C10_cells_unchanged setup .no h1 ctx hctx inds y hy cy py ey
  rw [run hx wx hf, Outcome.ok.injEq, Prod.mk.injEq] at ex
  rw [run hy wy hg, Outcome.ok.injEq, Prod.mk.injEq] at ey
  obtain ⟨rfl, rfl⟩ := ex
  obtain ⟨rfl, rfl⟩ := ey
  obtain ⟨l1, l2, hcomb⟩ := h
  have entry : ∀ {i : Nat} (hi : i < r.length), Spec.Combined 64 a b (x[i]'(by omega)) (y[i]'(by omega)) r[i] := fun {i} hi =>
    hcomb i _ _ _ (List.getElem?_eq_getElem _) (List.getElem?_eq_getElem _) (List.getElem?_eq_getElem _)
  have hr : ∀ c ∈ r, c.length = 2048 := by
    intro c hc
    obtain ⟨i, hi, rfl⟩ := List.mem_iff_getElem.1 hc
    exact (entry hi).1
  refine ⟨_, _, run hr ⟨wx.1.trans l1, wx.2, wx.3, wx.4, ?_⟩ ⟨?_, ?_⟩, by simp [cellsOf], by simp [proofsOf], cells_combine a b f g,
    proofs_combine _ a b f g⟩
  · intro c hc j hj
    obtain ⟨i, hi, rfl⟩ := List.mem_iff_getElem.1 hc
    obtain ⟨s, t, -, -, he⟩ := (entry hi).2 j hj
    rw [he.2]
    exact ZMod.val_lt _
  · refine lt_of_le_of_lt (degree_add_le _ _) (max_lt ?_ ?_)
    · exact lt_of_le_of_lt (degree_C_mul_le _ _) hf.1
    · exact lt_of_le_of_lt (degree_C_mul_le _ _) hg.1
  · intro p hpm
    obtain ⟨i, hi, rfl⟩ := List.mem_iff_getElem.1 hpm
    have hi' : i < inds.length ∧ i < r.length := by simpa using hi
    rw [List.getElem_zip]
    have ax := hf.2 (inds[i]'hi'.1, x[i]'(by omega)) (List.mem_iff_getElem.2 ⟨i, by simp; omega, by rw [List.getElem_zip]⟩)
    have ay := hg.2 (inds[i]'hi'.1, y[i]'(by omega)) (List.mem_iff_getElem.2 ⟨i, by simp; omega, by rw [List.getElem_zip]⟩)
    exact combined_isCell ax ay (entry hi'.2)

/-- the combination of two openings -/
noncomputable def combineOpening (a b : Fr) (o p : Spec.Opening G1) : Spec.Opening G1 :=
  ⟨a • o.commitment + b • p.commitment, o.index, C a * o.interp + C b * p.interp, a • o.proof + b • p.proof⟩

theorem combine_defect (a b : Fr) (o p : Spec.Opening G1) (hi : p.index = o.index) (τ : Fr) (P : G1) :
    (combineOpening a b o p).defect τ P = a • o.defect τ P + b • p.defect τ P := by
  unfold combineOpening Spec.Opening.defect
  simp only [hi, eval_add, eval_mul, eval_C]
  module

theorem combined_openings {a b : Fr} {c d e : Spec.CellClaim} (h : Spec.CombinedClaim G1 a b c d e) (hk : e.index < 128) (hc : c.Sized)
    (hd : d.Sized) : ∃ o p : Spec.Opening G1, p.index = o.index ∧ c.Denotes o ∧ d.Denotes p ∧ e.Denotes (combineOpening a b o p) := by
  obtain ⟨⟨i1, i2⟩, ⟨C1, C2, c1, c2, c3⟩, hcell, ⟨π1, π2, p1, p2, p3⟩⟩ := h
  obtain ⟨I, hI, hIc⟩ := exists_cell_interp e.index hc.2.1 fun j hj => by
    obtain ⟨s, t, hs, -, -⟩ := hcell.2 j hj
    rw [hs.2]
    exact ZMod.val_lt s
  obtain ⟨J, hJ, hJc⟩ := exists_cell_interp e.index hd.2.1 fun j hj => by
    obtain ⟨s, t, -, ht, -⟩ := hcell.2 j hj
    rw [ht.2]
    exact ZMod.val_lt t
  refine ⟨⟨C1, e.index, I, π1⟩, ⟨C2, e.index, J, π2⟩, rfl, ⟨c1, ⟨i1, i1 ▸ hk⟩, ⟨hI, hIc⟩, p1⟩, ⟨c2, ⟨i2, i2 ▸ hk⟩, ⟨hJ, hJc⟩, p2⟩,
    c3, ⟨rfl, hk⟩, ⟨?_, combined_isCell hIc hJc hcell⟩, p3⟩
  refine lt_of_le_of_lt (degree_add_le _ _) (max_lt ?_ ?_)
  · exact lt_of_le_of_lt (degree_C_mul_le _ _) hI
  · exact lt_of_le_of_lt (degree_C_mul_le _ _) hJ

theorem denotes_unique {c : Spec.CellClaim} {o p : Spec.Opening G1} (h : c.Denotes o) (h' : c.Denotes p) : o = p := by
  obtain ⟨a1, ⟨a2, -⟩, ⟨a3, a4⟩, a5⟩ := h
  obtain ⟨b1, ⟨b2, -⟩, ⟨b3, b4⟩, b5⟩ := h'
  obtain ⟨oc, oi, of, op⟩ := o
  obtain ⟨pc, pi, pf, pp⟩ := p
  simp only at a1 a2 a3 a4 a5 b1 b2 b3 b4 b5
  obtain rfl : oc = pc := Option.some.inj (a1.symm.trans b1)
  obtain rfl : op = pp := Option.some.inj (a5.symm.trans b5)
  obtain rfl : oi = pi := a2.symm.trans b2
  rw [interp_unique a3 b3 a4 b4]

theorem denotes_valid {c : Spec.CellClaim} {o : Spec.Opening G1} (h : c.Denotes o) {τ : Fr} {P : G1} : c.IsTrue τ P ↔ o.defect τ P = 0 := by
  rw [← Spec.Opening.valid_iff]
  constructor
  · rintro ⟨p, hp, hv⟩
    rwa [denotes_unique h hp]
  · exact fun hv => ⟨o, h, hv⟩

/-- C90: if two claims about the same index are accepted, their combination is accepted, whatever the hash functions. -/
theorem C90_verify [LawfulPointCodec G1 48] [LawfulPairing G1 G2 GT] (setup : SetupPoints G1 G2) (up : UsePrecomp) (τ : Fr)
    (P : G1) (H : G2) (hpt : Spec.PowersOfTau setup.g1Monomial setup.g2Monomial τ P H)
    (hnd : ∀ a : G1, pair a H = (0 : GT) → a = 0)
    (ctx : DASContext K G1 G2) (hctx : (DASContext.new setup up : Outcome ε (DASContext K G1 G2)) = .ok ctx)
    (sha256 sha256' sha256'' : List UInt8 → List UInt8) (a b : Fr) (c d e : Spec.CellClaim) (hc : c.Sized) (hd : d.Sized) (he : e.Sized)
    (h : Spec.CombinedClaim G1 a b c d e) (vc : verdict ctx sha256 [c] = .ok ()) (vd : verdict ctx sha256' [d] = .ok ()) :
    verdict ctx sha256'' [e] = .ok () := by
  rw [C86_single setup up τ P H hpt hnd ctx hctx _ _ hc] at vc
  rw [C86_single setup up τ P H hpt hnd ctx hctx _ _ hd] at vd
  have hk : e.index < 128 := by
    obtain ⟨o, ho, -⟩ := vc
    rw [← h.index.1]
    exact ho.2.1.2
  obtain ⟨o, p, hi, ho, hp, hr⟩ := combined_openings h hk hc hd
  rw [C86_single setup up τ P H hpt hnd ctx hctx _ _ he, denotes_valid hr, combine_defect a b o p hi, (denotes_valid ho).1 vc,
    (denotes_valid hp).1 vd, smul_zero, smul_zero, add_zero]

/-- C90: if two independent combinations of two claims are accepted, both claims are: a false claim is not hidden by combining it with
another one, except for one ratio of the coefficients. -/
theorem C90_independent [LawfulPointCodec G1 48] [LawfulPairing G1 G2 GT] (setup : SetupPoints G1 G2) (up : UsePrecomp) (τ : Fr)
    (P : G1) (H : G2) (hpt : Spec.PowersOfTau setup.g1Monomial setup.g2Monomial τ P H)
    (hnd : ∀ a : G1, pair a H = (0 : GT) → a = 0)
    (ctx : DASContext K G1 G2) (hctx : (DASContext.new setup up : Outcome ε (DASContext K G1 G2)) = .ok ctx)
    (sha256 : List UInt8 → List UInt8) (a b a' b' : Fr) (hab : a * b' ≠ a' * b) (c d e e' : Spec.CellClaim) (hc : c.Sized) (hd : d.Sized)
    (he : e.Sized) (he' : e'.Sized) (h : Spec.CombinedClaim G1 a b c d e) (h' : Spec.CombinedClaim G1 a' b' c d e')
    (ve : verdict ctx sha256 [e] = .ok ()) (ve' : verdict ctx sha256 [e'] = .ok ()) :
    verdict ctx sha256 [c] = .ok () ∧ verdict ctx sha256 [d] = .ok () := by
  rw [C86_single setup up τ P H hpt hnd ctx hctx _ _ he] at ve
  rw [C86_single setup up τ P H hpt hnd ctx hctx _ _ he'] at ve'
  have hk : e.index < 128 := by
    obtain ⟨o, ho, -⟩ := ve
    exact ho.2.1.2
  have hk' : e'.index < 128 := by
    obtain ⟨o, ho, -⟩ := ve'
    exact ho.2.1.2
  obtain ⟨o, p, hi, ho, hp, hr⟩ := combined_openings h hk hc hd
  obtain ⟨o', p', -, ho', hp', hr'⟩ := combined_openings h' hk' hc hd
  obtain rfl := denotes_unique ho ho'
  obtain rfl := denotes_unique hp hp'
  rw [denotes_valid hr, combine_defect a b o p hi] at ve
  rw [denotes_valid hr', combine_defect a' b' o p hi] at ve'
  rw [C86_single setup up τ P H hpt hnd ctx hctx _ _ hc, C86_single setup up τ P H hpt hnd ctx hctx _ _ hd, denotes_valid ho, denotes_valid hp]
  have hne : a * b' - a' * b ≠ 0 := sub_ne_zero.2 hab
  constructor
  · have : (a * b' - a' * b) • o.defect τ P = b' • (a • o.defect τ P + b • p.defect τ P) - b • (a' • o.defect τ P + b' • p.defect τ P) := by
      module
    rw [ve, ve', smul_zero, smul_zero, sub_zero] at this
    exact (smul_eq_zero.1 this).resolve_left hne
  · have : (a * b' - a' * b) • p.defect τ P = a • (a' • o.defect τ P + b' • p.defect τ P) - a' • (a • o.defect τ P + b • p.defect τ P) := by
      module
    rw [ve, ve', smul_zero, smul_zero, sub_zero] at this
    exact (smul_eq_zero.1 this).resolve_left hne

/-- C90: a combination of an accepted claim and one that is not accepted is accepted only if the second has no part in it. -/
theorem C90_mixed [LawfulPointCodec G1 48] [LawfulPairing G1 G2 GT] (setup : SetupPoints G1 G2) (up : UsePrecomp) (τ : Fr)
    (P : G1) (H : G2) (hpt : Spec.PowersOfTau setup.g1Monomial setup.g2Monomial τ P H)
    (hnd : ∀ a : G1, pair a H = (0 : GT) → a = 0)
    (ctx : DASContext K G1 G2) (hctx : (DASContext.new setup up : Outcome ε (DASContext K G1 G2)) = .ok ctx)
    (sha256 : List UInt8 → List UInt8) (a b : Fr) (c d e : Spec.CellClaim) (hc : c.Sized) (hd : d.Sized) (he : e.Sized)
    (h : Spec.CombinedClaim G1 a b c d e) (vc : verdict ctx sha256 [c] = .ok ()) (vd : verdict ctx sha256 [d] ≠ .ok ()) :
    verdict ctx sha256 [e] = .ok () ↔ b = 0 := by
  rw [C86_single setup up τ P H hpt hnd ctx hctx _ _ hc] at vc
  rw [Ne, C86_single setup up τ P H hpt hnd ctx hctx _ _ hd] at vd
  have hk : e.index < 128 := by
    obtain ⟨o, ho, -⟩ := vc
    rw [← h.index.1]
    exact ho.2.1.2
  obtain ⟨o, p, hi, ho, hp, hr⟩ := combined_openings h hk hc hd
  rw [denotes_valid hp] at vd
  rw [C86_single setup up τ P H hpt hnd ctx hctx _ _ he, denotes_valid hr, combine_defect a b o p hi, (denotes_valid ho).1 vc, smul_zero,
    zero_add, smul_eq_zero, or_iff_left vd]

/-- C90: the same with precomputation, for cells, proofs and recovery, whenever the runs do not panic (C25 says how rarely they do). -/
theorem C90_precomp [LawfulPointCodec G1 48] [LawfulCurve K G1] (setup : SetupPoints G1 G2) (h1 : setup.g1Monomial.length = 4096)
    (w : Nat) (hw : 1 ≤ w) (hw' : w ≤ 24) (hn : Spec.NoIdentity setup.g1Monomial) (ctx ctx' : DASContext K G1 G2)
    (hctx : (DASContext.new setup .no : Outcome Error (DASContext K G1 G2)) = .ok ctx)
    (hctx' : (DASContext.new setup (.yes w) : Outcome Error (DASContext K G1 G2)) = .ok ctx') (a b : Fr) :
    (∀ x y r : List UInt8, x.length = 131072 → y.length = 131072 → Spec.Combined 4096 a b x y r →
      (∀ z ∈ [x, y, r], ctx'.computeCellsAndKzgProofs z ≠ .panic) →
      ∃ cx cy cr px py pr, ctx'.computeCellsAndKzgProofs x = .ok (cx, px) ∧ ctx'.computeCellsAndKzgProofs y = .ok (cy, py) ∧
        ctx'.computeCellsAndKzgProofs r = .ok (cr, pr) ∧ cr.length = 128 ∧ pr.length = 128 ∧
        Spec.CombinedCells a b cx cy cr ∧ Spec.CombinedPoints G1 a b px py pr) ∧
    ∀ (inds : List Nat) (x y r : List (List UInt8)), (∀ c ∈ x, c.length = 2048) → (∀ c ∈ y, c.length = 2048) →
      (∀ c ∈ r, c.length = 2048) → Spec.CombinedCells a b x y r → ∀ cx cy px py,
      ctx'.recoverCellsAndKzgProofs inds x = .ok (cx, px) → ctx'.recoverCellsAndKzgProofs inds y = .ok (cy, py) →
      ctx'.recoverCellsAndKzgProofs inds r = .panic ∨
      ∃ cr pr, ctx'.recoverCellsAndKzgProofs inds r = .ok (cr, pr) ∧ cr.length = 128 ∧ pr.length = 128 ∧
        Spec.CombinedCells a b cx cy cr ∧ Spec.CombinedPoints G1 a b px py pr := by
  obtain ⟨hc, hr⟩ := C25_same_or_panic setup h1 w hw hw' hn ctx ctx' hctx hctx'
  constructor
  · intro x y r hx hy h hp
    obtain ⟨cx, cy, cr, px, py, pr, ex, ey, er, rest⟩ := C90_cells setup h1 ctx hctx a b x y r hx hy h
    refine ⟨cx, cy, cr, px, py, pr, ?_, ?_, ?_, rest⟩
    · rw [(hc x hx).resolve_left (hp x (by simp)), ex]
    · rw [(hc y hy).resolve_left (hp y (by simp)), ey]
    · rw [(hc r h.1).resolve_left (hp r (by simp)), er]
  · intro inds x y r hx hy hr' h cx cy px py ex ey
    rw [(hr inds x hx).resolve_left (by rw [ex]; simp)] at ex
    rw [(hr inds y hy).resolve_left (by rw [ey]; simp)] at ey
    rcases hr inds r hr' with hp | he
    · exact .inl hp
    · rw [he]
      exact .inr (C90_recover setup h1 ctx hctx a b inds x y r hx hy h cx cy px py ex ey)

end

/-- C90: two blobs of canonical elements have exactly one combination. -/
theorem C90_unique (a b : Fr) (x y : List UInt8) (hx : x.length = 131072) (hy : y.length = 131072) (cx : Spec.Canonical 4096 x)
    (cy : Spec.Canonical 4096 y) : ∃! r, Spec.Combined 4096 a b x y r := by
  obtain ⟨f, hf⟩ := (blobPoly_iff hx).2 cx
  obtain ⟨g, hg⟩ := (blobPoly_iff hy).2 cy
  have hd : (C a * f + C b * g).degree < 4096 := by
    refine lt_of_le_of_lt (degree_add_le _ _) (max_lt ?_ ?_)
    · exact lt_of_le_of_lt (degree_C_mul_le _ _) hf.1
    · exact lt_of_le_of_lt (degree_C_mul_le _ _) hg.1
  have hb := isBlobPoly_blobOf _ hd
  refine ⟨blobOf (C a * f + C b * g), ⟨hb.2.1, fun i hi => ⟨_, _, hf.2.2 i hi, hg.2.2 i hi, by simpa using hb.2.2 i hi⟩⟩, fun r hr => ?_⟩
  have hp := combined_blob hf hg hr
  rw [← flatten_blocks 32 4096 r hp.2.1, ← flatten_blocks 32 4096 _ hb.2.1]
  refine congrArg List.flatten (List.map_congr_left fun i hi => ?_)
  rw [encodes_iff.1 (hp.2.2 i (List.mem_range.1 hi)), encodes_iff.1 (hb.2.2 i (List.mem_range.1 hi))]

section
open Toy

/-- the claim that a cell of zeros belongs to the commitment `x`, with zero as proof -/
noncomputable def Toy.zeroClaim (x : Fr) : Spec.CellClaim := ⟨toCompressed x, 5, zeroCell, toCompressed (0 : Fr)⟩

theorem Toy.zeroClaim_combined (a b x y : Fr) :
    Spec.CombinedClaim Fr a b (Toy.zeroClaim x) (Toy.zeroClaim y) (Toy.zeroClaim (a * x + b * y)) where
  index := ⟨rfl, rfl⟩
  commitment := ⟨x, y, LawfulPointCodec.fromCompressed_toCompressed _, LawfulPointCodec.fromCompressed_toCompressed _,
    LawfulPointCodec.fromCompressed_toCompressed _⟩
  cell := by
    obtain ⟨-, -, ⟨-, hz⟩, -⟩ := Toy.claims_denote.1
    have := isCell_combined (a := a) (b := b) hz hz (by simpa using hz)
    exact this
  proof := ⟨0, 0, LawfulPointCodec.fromCompressed_toCompressed _, LawfulPointCodec.fromCompressed_toCompressed _, by
    simp only [smul_zero, add_zero]
    exact LawfulPointCodec.fromCompressed_toCompressed _⟩

/-- C90: the hypotheses about claims: a true claim and a false one, two independent combinations, and what follows for them -/
example : ∃ ctx : DASContext Fr Fr Fr, (DASContext.new (setup 7) .no : Outcome Error _) = .ok ctx ∧ ∀ sha256,
    verdict ctx sha256 [Toy.zeroClaim 0] = .ok () ∧ verdict ctx sha256 [Toy.zeroClaim 1] ≠ .ok () ∧
    verdict ctx sha256 [Toy.zeroClaim (3 * 0 + 2 * 0)] = .ok () ∧ verdict ctx sha256 [Toy.zeroClaim (3 * 0 + 2 * 1)] ≠ .ok () ∧
    ¬ (verdict ctx sha256 [Toy.zeroClaim (1 * 0 + 1 * 1)] = .ok () ∧ verdict ctx sha256 [Toy.zeroClaim (1 * 0 + 2 * 1)] = .ok ()) := by
  obtain ⟨ctx, hctx⟩ := context 7
  obtain ⟨s1, s2, -⟩ := Toy.claims_sized
  have hs : ∀ x, (Toy.zeroClaim x).Sized := fun x => ⟨LawfulPointCodec.length_toCompressed x, s1.2⟩
  have ht : ∀ sha256, verdict ctx sha256 [Toy.zeroClaim 0] = .ok () := fun sha256 =>
    (C86_single (setup 7) .no 7 1 1 (powersOfTau 7) nondegenerate ctx hctx sha256 _ (hs 0)).2 Toy.trueClaim_true
  have hf : ∀ sha256, verdict ctx sha256 [Toy.zeroClaim 1] ≠ .ok () := fun sha256 h => by
    have := (C86_single (setup 7) .no 7 1 1 (powersOfTau 7) nondegenerate ctx hctx sha256 _ (hs 1)).1 h
    have := (denotes_valid (c := Toy.zeroClaim 1) Toy.claims_denote.2).1 this
    simp [Spec.Opening.defect] at this
  refine ⟨ctx, hctx, fun sha256 => ⟨ht _, hf _, ?_, ?_, ?_⟩⟩
  · exact C90_verify (setup 7) .no 7 1 1 (powersOfTau 7) nondegenerate ctx hctx sha256 sha256 sha256 3 2 _ _ _ (hs _) (hs _) (hs _)
      (Toy.zeroClaim_combined 3 2 0 0) (ht _) (ht _)
  · rw [Ne, C90_mixed (setup 7) .no 7 1 1 (powersOfTau 7) nondegenerate ctx hctx sha256 3 2 _ _ _ (hs _) (hs _) (hs _)
      (Toy.zeroClaim_combined 3 2 0 1) (ht _) (hf _)]
    decide +kernel
  · rintro ⟨h1, h2⟩
    exact hf sha256 (C90_independent (setup 7) .no 7 1 1 (powersOfTau 7) nondegenerate ctx hctx sha256 1 1 1 2 (by decide +kernel) _ _ _ _ (hs _)
      (hs _) (hs _) (hs _) (Toy.zeroClaim_combined 1 1 0 1) (Toy.zeroClaim_combined 1 2 0 1) h1 h2).2

/-- C90: the hypotheses about blobs -/
example : ∃ r, Spec.Combined 4096 3 2 blob blob' r ∧ blob.length = 131072 ∧ blob'.length = 131072 := by
  obtain ⟨r, hr, -⟩ := C90_unique 3 2 blob blob' blob_poly.2.1 blob_poly'.2.1 ((blobPoly_iff blob_poly.2.1).1 ⟨_, blob_poly⟩)
    ((blobPoly_iff blob_poly'.2.1).1 ⟨_, blob_poly'⟩)
  exact ⟨r, hr, blob_poly.2.1, blob_poly'.2.1⟩

/-- C90: the hypotheses with precomputation: some secret for which none of the three runs panics -/
example : ∃ (τ : Fr) (ctx ctx' : DASContext Fr Fr Fr) (r : List UInt8),
    (DASContext.new (setup τ) .no : Outcome Error _) = .ok ctx ∧ (DASContext.new (setup τ) (.yes 8) : Outcome Error _) = .ok ctx' ∧
    Spec.NoIdentity (setup τ).g1Monomial ∧ Spec.Combined 4096 3 2 blob blob' r ∧
    ∀ z ∈ [blob, blob', r], ctx'.computeCellsAndKzgProofs z ≠ .panic := by
  obtain ⟨r, hr, -⟩ := C90_unique 3 2 blob blob' blob_poly.2.1 blob_poly'.2.1 ((blobPoly_iff blob_poly.2.1).1 ⟨_, blob_poly⟩)
    ((blobPoly_iff blob_poly'.2.1).1 ⟨_, blob_poly'⟩)
  have hrp := combined_blob blob_poly blob_poly' hr
  obtain ⟨bad, hb, h⟩ := C25_few_secrets 8 (by norm_num) (by norm_num) _ blob_poly.1
  obtain ⟨bad', hb', h'⟩ := C25_few_secrets 8 (by norm_num) (by norm_num) _ blob_poly'.1
  obtain ⟨bad'', hb'', h''⟩ := C25_few_secrets 8 (by norm_num) (by norm_num) _ hrp.1
  have hroots : ((nthRoots 516096 (1 : Fr)).toFinset).card ≤ 516096 :=
    (Multiset.toFinset_card_le _).trans (card_nthRoots 516096 1)
  obtain ⟨τ, hτ⟩ : ∃ τ, τ ∉ bad ∪ bad' ∪ bad'' ∪ ({0} ∪ (nthRoots 516096 (1 : Fr)).toFinset) := by
    by_contra hne
    push Not at hne
    have : bad ∪ bad' ∪ bad'' ∪ ({0} ∪ (nthRoots 516096 (1 : Fr)).toFinset) = Finset.univ := Finset.eq_univ_iff_forall.2 hne
    have hc := Finset.card_union_le (bad ∪ bad' ∪ bad'') ({0} ∪ (nthRoots 516096 (1 : Fr)).toFinset)
    have hc' := Finset.card_union_le (bad ∪ bad') bad''
    have hc'' := Finset.card_union_le bad bad'
    have hc3 := Finset.card_union_le {(0 : Fr)} (nthRoots 516096 (1 : Fr)).toFinset
    rw [this, Finset.card_univ, ZMod.card] at hc
    rw [Finset.card_singleton] at hc3
    have : frOrder ≤ 2 ^ 40 := by omega
    exact absurd this (by norm_num [frOrder])
  simp only [Finset.mem_union, not_or, Finset.mem_singleton, Multiset.mem_toFinset, mem_nthRoots (Nat.succ_pos 516095)] at hτ
  obtain ⟨⟨⟨h1, h2⟩, h3⟩, h4, h5⟩ := hτ
  obtain ⟨ctx, hctx⟩ := context τ
  obtain ⟨ctx', hctx'⟩ := Toy.context_precomp τ 8 (by norm_num)
  refine ⟨τ, ctx, ctx', r, hctx, hctx', C25_condition (setup τ) τ 1 1 (powersOfTau τ) one_ne_zero h4 h5, hr, ?_⟩
  intro z hz
  have key : ∃ q, ctx'.computeCellsAndKzgProofs z = .ok q := by
    simp only [List.mem_cons, List.not_mem_nil, or_false] at hz
    rcases hz with e | e | e <;> rw [e]
    · exact ((h Fr Fr Fr τ h1 (setup τ) 1 1 one_ne_zero (powersOfTau τ) ctx ctx' hctx hctx').1 _ blob_poly).2
    · exact ((h' Fr Fr Fr τ h2 (setup τ) 1 1 one_ne_zero (powersOfTau τ) ctx ctx' hctx hctx').1 _ blob_poly').2
    · exact ((h'' Fr Fr Fr τ h3 (setup τ) 1 1 one_ne_zero (powersOfTau τ) ctx ctx' hctx hctx').1 _ hrp).2
  obtain ⟨q, hq⟩ := key
  rw [hq]
  simp

end
end Verif
