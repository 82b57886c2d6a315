import Verif.Lemmas.VectorA
import Verif.Lemmas.VectorB
import Verif.Lemmas.VectorC
import Verif.Lemmas.VectorD
import Verif.Lemmas.VectorQ
import Verif.Lemmas.VectorBytes
import Verif.Props.Embedded
import Verif.Props.Tests
import Verif.Props.Recovery
import Verif.Props.Codec

set_option linter.unusedSectionVars false
set_option exponentiation.threshold 800

/-!
C89: the model with the setup embedded in the library gives the outputs recorded in test_vectors. The recorded cases are finitely many;
they are evidence that model and code describe the same functions and do not replace the theorems about all inputs.
-/
namespace Verif
open Polynomial Bls TestVectors Tests Embedded Vectors

section
variable {GT : Type} [AddCommGroup GT] [DecidableEq GT] [Pairing G1 G2 GT]

theorem TestVectors.context {lagrange : List (List UInt8)} {points : SetupPoints G1 G2} (h : Points points) {up : UsePrecomp}
    {ctx : DASContext Fp G1 G2}
    (hctx : (DASContext.ofTrustedSetup (Embedded.setup lagrange) up : Outcome Error (DASContext Fp G1 G2)) = .ok ctx) :
    (DASContext.new points up : Outcome Error (DASContext Fp G1 G2)) = .ok ctx ∧ points.g1Monomial.length = 4096 := by
  obtain ⟨-, -, r1, r2⟩ := C76_read (ε := Error) lagrange .noCheck points h
  have hof : (DASContext.ofTrustedSetup (Embedded.setup lagrange) up : Outcome Error (DASContext Fp G1 G2)) =
      DASContext.new points up :=
    C38_context _ up _ _ (((C38_g1_points _ _).1 _).1 r1) (((C38_g2_points _ _).1 _).1 r2)
  exact ⟨hof ▸ hctx, by rw [← h.g1.length_eq, Embedded.length_g1]⟩

/-- C89: every blob of 4096 equal numbers, with every setup: the commitment is a multiple of the first point, all cells repeat the
number, and all proofs are the encoding of infinity. -/
theorem C89_constant (points : SetupPoints G1 G2) (h1 : points.g1Monomial.length = 4096) (P : G1)
    (hP : points.g1Monomial[0]? = some P) (up : UsePrecomp) (ctx : DASContext Fp G1 G2)
    (hctx : (DASContext.new points up : Outcome Error (DASContext Fp G1 G2)) = .ok ctx) (n : Nat) (hn : n < frOrder) :
    (∃ c, ctx.blobToKzgCommitment (constantBlob n) = .ok c ∧ Spec.EncodesG1 c (n • P : G1)) ∧
    (up = .no → ctx.computeCellsAndKzgProofs (constantBlob n) =
      .ok (List.replicate 128 (constantCell n), List.replicate 128 (192 :: List.replicate 47 0))) := by
  obtain ⟨M, hp, hM, -, -⟩ := context_fields points up h1 ctx hctx
  have e : ((n : Fr)).val = n := ZMod.val_cast_of_lt hn
  have hb := constant_isBlobPoly (n : Fr)
  rw [e] at hb
  refine ⟨⟨_, commitment_of_blob h1 hp hb, ?_⟩, ?_⟩
  · rw [commitment_constant hP, Nat.cast_smul_eq_nsmul]
    exact C53_encode _
  · rintro rfl
    rw [cells_of_blob hp hb, prove_exact _ h1 M (msmExact_no _ 6 6 M hM) _ hb.1, constant_cellsOf, constant_proofsOf,
      infinity_bytes, e]
    have : natToBE 48 (3 * 2 ^ 382) = 192 :: List.replicate 47 0 := by decide +kernel
    rw [this]

theorem TestVectors.not_blob_order : blobOrder.length = 131072 ∧ ¬ ∃ f, Spec.IsBlobPoly blobOrder f := by
  have hl : ∀ n, (List.replicate n (natToBE 32 0)).flatten.length = 32 * n := by
    intro n
    rw [List.length_flatten, List.map_replicate, length_natToBE, List.sum_replicate, smul_eq_mul, mul_comm]
  have h0 : blobOrder.length = 131072 := by
    unfold blobOrder
    rw [List.length_append, List.length_append, hl, hl, length_natToBE]
  refine ⟨h0, fun hf => ?_⟩
  have := (blobPoly_iff h0).1 hf 2111 (by decide)
  have hb : Spec.block 32 2111 blobOrder = natToBE 32 frOrder := by
    unfold Spec.block blobOrder
    rw [List.append_assoc, List.drop_left' (by rw [hl]), List.take_left' (length_natToBE _ _)]
  rw [hb, ← beToNat_eq, beToNat_natToBE] at this
  exact absurd this (by decide +kernel)

theorem TestVectors.not_blob_ones : blobOnes.length = 131072 ∧ ¬ ∃ f, Spec.IsBlobPoly blobOnes f := by
  have h0 : blobOnes.length = 131072 := List.length_replicate
  refine ⟨h0, fun hf => ?_⟩
  have := (blobPoly_iff h0).1 hf 0 (by decide)
  have hb : Spec.block 32 0 blobOnes = List.replicate 32 255 := by
    unfold Spec.block blobOnes
    rw [Nat.mul_zero, List.drop_zero, List.take_replicate]
    rfl
  rw [hb] at this
  exact absurd this (by decide +kernel)

/-- the polynomials of the four blobs, with their cells -/
theorem TestVectors.polyA : cellsOf (Spec.polyOf (coeffsA.flatten.map (Nat.cast : Nat → Fr))) = cellsA.map (natToBE 2048) ∧
    Spec.IsBlobPoly blobA (Spec.polyOf (coeffsA.flatten.map (Nat.cast : Nat → Fr))) := by
  have := cells_check coeffsA _ _ partsA lengthA smallA evalFirstA evalLastA
  rwa [← List.map_append, List.take_append_drop] at this

theorem TestVectors.polyB : cellsOf (Spec.polyOf (coeffsB.flatten.map (Nat.cast : Nat → Fr))) = cellsB.map (natToBE 2048) ∧
    Spec.IsBlobPoly blobB (Spec.polyOf (coeffsB.flatten.map (Nat.cast : Nat → Fr))) := by
  have := cells_check coeffsB _ _ partsB lengthB smallB evalFirstB evalLastB
  rwa [← List.map_append, List.take_append_drop] at this

theorem TestVectors.polyC : cellsOf (Spec.polyOf (coeffsC.flatten.map (Nat.cast : Nat → Fr))) = cellsC.map (natToBE 2048) ∧
    Spec.IsBlobPoly blobC (Spec.polyOf (coeffsC.flatten.map (Nat.cast : Nat → Fr))) := by
  have := cells_check coeffsC _ _ partsC lengthC smallC evalFirstC evalLastC
  rwa [← List.map_append, List.take_append_drop] at this

theorem TestVectors.polyD : cellsOf (Spec.polyOf (coeffsD.flatten.map (Nat.cast : Nat → Fr))) = cellsD.map (natToBE 2048) ∧
    Spec.IsBlobPoly blobD (Spec.polyOf (coeffsD.flatten.map (Nat.cast : Nat → Fr))) := by
  have := cells_check coeffsD _ _ partsD lengthD smallD evalFirstD evalLastD
  rwa [← List.map_append, List.take_append_drop] at this

theorem TestVectors.length_long : blobLong.length ≠ 131072 := by
  have h := polyD.2.2.1
  unfold blobLong
  rw [List.length_append, h, List.length_singleton]
  decide

theorem TestVectors.length_short : blobShort.length ≠ 131072 := by
  unfold blobShort
  rw [List.length_take]
  omega

theorem TestVectors.double : Spec.EncodesG1 (natToBE 48
    0xa572cbea904d67468808c8eb50a9450c9721db309128012543902d0ac358a62ae28f75bb8f1c7c42c39a8c5529bf0f4e) (2 • generator.1) := by
  obtain ⟨points, h, -, -, -, hP, -⟩ := C76_points
  obtain ⟨b, hb, he, -⟩ := forall₂_head h.g1 g1Numbers_head
  obtain rfl : generator = b := Option.some.inj (hP.symm.trans hb)
  refine multiple_check (m := 0x1a0111ea397fe69a4b1ba7b6434bacd764774b84f38512bf6730d2a0f6b0f6241eabfffeb153ffffb9feffffffffaaaa)
    (X := 0x34a6fce17d489676fb0a38892584cb4720682fe47c6dc2e058811e7ba4454300c078d0d7d8a147a294b8758ef846ccb)
    (Y := 0x14e4b429606d02bc3c604c0410e5fc01d6093a00bb3e2bc9395952af0b6a0dbd599a8782a1bea48a2aa4d8e1b1df7ca5)
    (Z := 0x1167e903c75541e3413c61dae83b15c9f9ebc12baba015ec01b63196580967dba0798e89451115c8195446528d8bcfc2)
    (y0 := 0x8b3f481e3aaa0f1a09e30ed741d8ae4fcf5e095d5d00af600db18cb2c04b3edd03cc744a2888ae40caa232946c5e7e1)
    (y := 0x166a9d8cabc673a322fda673779d8e3822ba3ecb8670e461f73bb9021d5fd76a4c56d9d4cd16bd1bba86881979749d28)
    he (by decide +kernel) (by decide +kernel) (by decide +kernel) (by decide +kernel) (by decide +kernel) (by decide +kernel)

theorem TestVectors.opposite : Spec.EncodesG1 (natToBE 48
    0xb7f1d3a73197d7942695638c4fa9ac0fc3688c4f9774b905a14e3a3f171bac586c55e83ff97a1aeffb3af00adb22c6bb) ((frOrder - 1) • generator.1) := by
  obtain ⟨points, h, -, -, -, hP, -⟩ := C76_points
  obtain ⟨b, hb, he, -⟩ := forall₂_head h.g1 g1Numbers_head
  obtain rfl : generator = b := Option.some.inj (hP.symm.trans hb)
  refine multiple_check (m := 0x1a0111ea397fe69a4b1ba7b6434bacd764774b84f38512bf6730d2a0f6b0f6241eabfffeb153ffffb9feffffffffaaaa)
    (X := 0x43ee4cc5de20491f73de6d403890a7cc58ee2b13afdb482ad1d6f91a2530909f56d0da9dfdf9a347ab8ac3ee2803b02)
    (Y := 0x11fd5d9b122bb8d320b06bd10cc16e3d57a4f1c9e4e03f21b0638f94eaf5f1e7ee4db7053fbb70a3157711531c50acb9)
    (Z := 0x153a5730c24900f03013e4f7fe5aaa5a99bf09b37c4ee11f0aa09de6d7f5bf833c083095b4f0e283f3c1681ab6d30c69)
    (y0 := 0x8b3f481e3aaa0f1a09e30ed741d8ae4fcf5e095d5d00af600db18cb2c04b3edd03cc744a2888ae40caa232946c5e7e1)
    (y := 0x114d1d6855d545a8aa7d76c8cf2e21f267816aef1db507c96655b9d5caac42364e6f38ba0ecb751bad54dcd6b939c2ca)
    he (by decide +kernel) (by decide +kernel) (by decide +kernel) (by decide +kernel) (by decide +kernel) (by decide +kernel)

/-- C89: all files of blob_to_kzg_commitment, with the setup embedded in the library and every choice of precomputation: the model
returns the recorded commitment or refuses as recorded, and the suite of the Rust tests passes. -/
theorem C89_commitments (lagrange : List (List UInt8)) (points : SetupPoints G1 G2) (h : Points points) (up : UsePrecomp)
    (ctx : DASContext Fp G1 G2)
    (hctx : (DASContext.ofTrustedSetup (Embedded.setup lagrange) up : Outcome Error (DASContext Fp G1 G2)) = .ok ctx) :
    (∀ v ∈ blobVectors, ∃ blob expected, Spec.HexString v.blob blob ∧ Spec.ExpectsBytes v.output expected ∧
      (blob.length ≠ 131072 → expected = none) ∧
      (blob.length = 131072 → Conforms (ctx.blobToKzgCommitment blob) expected)) ∧
    suite (rustCommit ctx.blobToKzgCommitment) blobVectors = true := by
  obtain ⟨hnew, h1⟩ := context h hctx
  obtain ⟨M, hp, hM, -, -⟩ := context_fields points up h1 ctx hnew
  have hg : List.Forall₂ (fun n (P : G1) => Spec.EncodesG1 (natToBE 48 n) P) Embedded.g1Parts.flatten points.g1Monomial :=
    h.g1.imp fun _ _ h => h.1
  obtain ⟨points', h', hu, -, -, hP, -⟩ := C76_points
  have hP : points.g1Monomial[0]? = some generator := by rw [hu points h]; exact hP
  have main : ∀ v ∈ blobVectors, ∃ blob expected, Spec.HexString v.blob blob ∧ Spec.ExpectsBytes v.output expected ∧
      (blob.length ≠ 131072 → expected = none) ∧
      (blob.length = 131072 → Conforms (ctx.blobToKzgCommitment blob) expected) := by
    have dense : ∀ {blob : List UInt8} {f : Fr[X]} {n : Nat}, Spec.IsBlobPoly blob f →
        Spec.EncodesG1 (natToBE 48 n) (Spec.commitment points.g1Monomial f : G1) →
        ∃ blob' expected, Spec.HexString (hex blob) blob' ∧ Spec.ExpectsBytes (some (hex (natToBE 48 n))) expected ∧
          (blob'.length ≠ 131072 → expected = none) ∧
          (blob'.length = 131072 → Conforms (ctx.blobToKzgCommitment blob') expected) := by
      intro blob f n hf he
      refine ⟨blob, some (natToBE 48 n), hex_spec _, .hex (hex_spec _), fun hl => absurd hf.2.1 hl, fun _ => .inl ⟨_, ?_, rfl⟩⟩
      rw [commitment_of_blob h1 hp hf, encodes_unique he]
    have const : ∀ {c n : Nat}, c < frOrder → Spec.EncodesG1 (natToBE 48 n) (c • generator : G1) →
        ∃ blob' expected, Spec.HexString (hex (constantBlob c)) blob' ∧ Spec.ExpectsBytes (some (hex (natToBE 48 n))) expected ∧
          (blob'.length ≠ 131072 → expected = none) ∧
          (blob'.length = 131072 → Conforms (ctx.blobToKzgCommitment blob') expected) := by
      intro c n hc he
      have hb := constant_isBlobPoly (c : Fr)
      rw [ZMod.val_cast_of_lt hc] at hb
      exact dense hb (by rw [commitment_constant hP, Nat.cast_smul_eq_nsmul]; exact he)
    have bad : ∀ {blob : List UInt8}, (blob.length = 131072 → ¬ ∃ f, Spec.IsBlobPoly blob f) →
        ∃ blob' expected, Spec.HexString (hex blob) blob' ∧ Spec.ExpectsBytes none expected ∧
          (blob'.length ≠ 131072 → expected = none) ∧
          (blob'.length = 131072 → Conforms (ctx.blobToKzgCommitment blob') expected) := by
      intro blob hb
      refine ⟨blob, none, hex_spec _, .null, fun _ => rfl, fun hl => .inr ?_⟩
      obtain ⟨i, -, -, -, e, -⟩ := bad_blob (ctx := ctx) hl (hb hl)
      exact ⟨_, e, rfl⟩
    unfold blobVectors
    refine List.forall_mem_cons.2 ⟨bad fun hl => absurd hl length_long, ?_⟩
    refine List.forall_mem_cons.2 ⟨bad fun hl => absurd hl length_short, ?_⟩
    refine List.forall_mem_cons.2 ⟨bad fun _ => not_blob_order.2, ?_⟩
    refine List.forall_mem_cons.2 ⟨bad fun _ => not_blob_ones.2, ?_⟩
    refine List.forall_mem_cons.2 ⟨const (by decide +kernel) ?_, ?_⟩
    · rw [zero_smul]
      exact infinity_encodes (by decide +kernel)
    refine List.forall_mem_cons.2 ⟨dense polyA.2 (commitmentA hg), ?_⟩
    refine List.forall_mem_cons.2 ⟨dense polyB.2 (commitmentB hg), ?_⟩
    refine List.forall_mem_cons.2 ⟨const (by decide +kernel) double, ?_⟩
    refine List.forall_mem_cons.2 ⟨dense polyC.2 (commitmentC hg), ?_⟩
    refine List.forall_mem_cons.2 ⟨const (by decide +kernel) opposite, ?_⟩
    refine List.forall_mem_cons.2 ⟨dense polyD.2 (commitmentD hg), ?_⟩
    exact fun v hv => absurd hv List.not_mem_nil
  refine ⟨main, (C85_suite _ _).2 ⟨by unfold blobVectors; exact List.cons_ne_nil _ _, fun v hv => ?_⟩⟩
  obtain ⟨blob, expected, h1, h2, h3, h4⟩ := main v hv
  rw [C85_rust_commitment _ v blob expected h1 h2]
  by_cases hl : blob.length = 131072
  · exact .inr ⟨hl, h4 hl⟩
  · exact .inl ⟨hl, h3 hl⟩

theorem TestVectors.hexes {α : Type} (f : α → List UInt8) : ∀ l : List α, Spec.HexStrings (l.map fun n => hex (f n)) (l.map f)
  | [] => .nil
  | _ :: l => .cons (hex_spec _) (hexes f l)

theorem TestVectors.hexes_replicate (n : Nat) (b : List UInt8) : Spec.HexStrings (List.replicate n (hex b)) (List.replicate n b) := by
  have := hexes id (List.replicate n b)
  rwa [List.map_replicate, List.map_id] at this

/-- a result of the library against the output of a file: refused as expected, or the expected cells and 128 proofs -/
def TestVectors.CellsConform (result : Outcome Error (List (List UInt8) × List (List UInt8)))
    (expected : Option (List (List UInt8) × List (List UInt8))) : Prop :=
  (expected = none → ∃ e, result = .err e) ∧
  ∀ cells proofs, expected = some (cells, proofs) → cells.length = 128 ∧ proofs.length = 128 ∧
    ∃ proofs', result = .ok (cells, proofs') ∧ proofs'.length = 128

/-- C89: the files of compute_cells_and_kzg_proofs, with the setup embedded in the library and no precomputation. The Rust test passes for
the files whose blobs are refused or constant: with all cells and all proofs. For the other files the cells are those of the file. -/
theorem C89_cells (lagrange : List (List UInt8)) (points : SetupPoints G1 G2) (h : Points points) (ctx : DASContext Fp G1 G2)
    (hctx : (DASContext.ofTrustedSetup (Embedded.setup lagrange) .no : Outcome Error (DASContext Fp G1 G2)) = .ok ctx) :
    (suite (rustCompute ctx.computeCellsAndKzgProofs) simpleVectors = true) ∧
    (∀ v ∈ denseVectors, ∃ blob expected, Spec.HexString v.blob blob ∧ Spec.ExpectsLists v.output expected ∧ expected ≠ none ∧
      blob.length = 131072 ∧ CellsConform (ctx.computeCellsAndKzgProofs blob) expected) := by
  obtain ⟨hnew, h1⟩ := context h hctx
  obtain ⟨M, hp, hM, -, -⟩ := context_fields points .no h1 ctx hnew
  obtain ⟨points', h', hu, -, -, hP, -⟩ := C76_points
  have hP : points.g1Monomial[0]? = some generator := by rw [hu points h]; exact hP
  have run : ∀ {blob : List UInt8} {f : Fr[X]}, Spec.IsBlobPoly blob f →
      ctx.computeCellsAndKzgProofs blob = .ok (cellsOf f, proofsOf points.g1Monomial f) := by
    intro blob f hf
    rw [cells_of_blob hp hf, prove_exact _ h1 M (msmExact_no _ 6 6 M hM) _ hf.1]
  refine ⟨(C85_suite _ _).2 ⟨by unfold simpleVectors; exact List.cons_ne_nil _ _, ?_⟩, ?_⟩
  · have bad : ∀ {blob : List UInt8}, (blob.length = 131072 → ¬ ∃ f, Spec.IsBlobPoly blob f) →
        rustCompute ctx.computeCellsAndKzgProofs ⟨hex blob, none⟩ = true := by
      intro blob hb
      refine (C85_rust_compute_prefix _ _ blob none (hex_spec _) .null).2 ?_
      by_cases hl : blob.length = 131072
      · obtain ⟨i, -, -, -, -, e⟩ := bad_blob (ctx := ctx) hl (hb hl)
        exact .inr ⟨hl, .inl ⟨_, e, rfl⟩⟩
      · exact .inl ⟨hl, rfl⟩
    have const : ∀ {c : Nat}, c < frOrder → rustCompute ctx.computeCellsAndKzgProofs ⟨hex (constantBlob c),
        some [List.replicate 128 (hex (constantCell c)), List.replicate 128 (hex (natToBE 48 (3 * 2 ^ 382)))]⟩ = true := by
      intro c hc
      refine (C85_rust_compute_prefix _ _ _ _ (hex_spec _) (.lists (hexes_replicate _ _) (hexes_replicate _ _))).2
        (.inr ⟨?_, .inr ⟨(List.replicate 128 (constantCell c), List.replicate 128 (natToBE 48 (3 * 2 ^ 382))), _, ?_, rfl, ?_⟩⟩)
      · have hb := constant_isBlobPoly (c : Fr)
        rw [ZMod.val_cast_of_lt hc] at hb
        exact hb.2.1
      · have hb := constant_isBlobPoly (c : Fr)
        have e := run hb
        rw [constant_cellsOf, constant_proofsOf, infinity_bytes, ZMod.val_cast_of_lt hc] at e
        exact e
      · refine ⟨List.prefix_refl _, ?_, List.take_prefix _ _⟩
        rw [List.length_replicate, List.length_replicate]
    unfold simpleVectors
    refine List.forall_mem_cons.2 ⟨bad fun _ => not_blob_ones.2, ?_⟩
    refine List.forall_mem_cons.2 ⟨bad fun hl => absurd hl length_long, ?_⟩
    refine List.forall_mem_cons.2 ⟨bad fun hl => absurd hl length_short, ?_⟩
    refine List.forall_mem_cons.2 ⟨bad fun _ => not_blob_order.2, ?_⟩
    refine List.forall_mem_cons.2 ⟨const (by decide +kernel), ?_⟩
    refine List.forall_mem_cons.2 ⟨const (by decide +kernel), ?_⟩
    refine List.forall_mem_cons.2 ⟨const (by decide +kernel), ?_⟩
    exact fun v hv => absurd hv List.not_mem_nil
  · have dense : ∀ {blob : List UInt8} {f : Fr[X]} {cells proofs : List Nat}, proofs.length = 128 →
        cellsOf f = cells.map (natToBE 2048) ∧ Spec.IsBlobPoly blob f →
        ∃ blob' expected, Spec.HexString (hex blob) blob' ∧
          Spec.ExpectsLists (some [cells.map fun n => hex (natToBE 2048 n), proofs.map fun n => hex (natToBE 48 n)]) expected ∧
          expected ≠ none ∧ blob'.length = 131072 ∧ CellsConform (ctx.computeCellsAndKzgProofs blob') expected := by
      intro blob f cells proofs hl hf
      refine ⟨blob, _, hex_spec _, .lists (hexes (natToBE 2048) cells) (hexes (natToBE 48) proofs), Option.some_ne_none _, hf.2.2.1,
        fun e => (Option.some_ne_none _ e).elim, ?_⟩
      intro cells' proofs' e
      rw [Option.some.injEq, Prod.mk.injEq] at e
      rw [← e.1, ← e.2, ← hf.1]
      refine ⟨by rw [cellsOf_eq, List.length_map, List.length_range], by rw [List.length_map, hl], _, run hf.2, ?_⟩
      unfold proofsOf
      rw [List.length_map, List.length_range]
    unfold denseVectors
    refine List.forall_mem_cons.2 ⟨dense (by decide +kernel) polyD, ?_⟩
    refine List.forall_mem_cons.2 ⟨dense (by decide +kernel) polyA, ?_⟩
    refine List.forall_mem_cons.2 ⟨dense (by decide +kernel) polyC, ?_⟩
    refine List.forall_mem_cons.2 ⟨dense (by decide +kernel) polyB, ?_⟩
    exact fun v hv => absurd hv List.not_mem_nil

/-- C89: proof 100 of compute_cells_and_kzg_proofs_case_valid_4aedd1a2a3933c3e. -/
theorem C89_proof (lagrange : List (List UInt8)) (points : SetupPoints G1 G2) (h : Points points) (ctx : DASContext Fp G1 G2)
    (hctx : (DASContext.ofTrustedSetup (Embedded.setup lagrange) .no : Outcome Error (DASContext Fp G1 G2)) = .ok ctx) :
    ∃ proofs, ctx.computeCellsAndKzgProofs blobD = .ok (cellsD.map (natToBE 2048), proofs) ∧
      proofs[100]? = (proofsD[100]?).map (natToBE 48) ∧ (proofsD[100]?).isSome := by
  obtain ⟨hnew, h1⟩ := context h hctx
  obtain ⟨M, hp, hM, -, -⟩ := context_fields points .no h1 ctx hnew
  have hg : List.Forall₂ (fun n (P : G1) => Spec.EncodesG1 (natToBE 48 n) P) Embedded.g1Parts.flatten points.g1Monomial :=
    h.g1.imp fun _ _ h => h.1
  refine ⟨proofsOf points.g1Monomial (Spec.polyOf (coeffsD.flatten.map (Nat.cast : Nat → Fr))), ?_, ?_, by decide +kernel⟩
  · rw [cells_of_blob hp polyD.2, prove_exact _ h1 M (msmExact_no _ 6 6 M hM) _ polyD.2.1, polyD.1]
  · have e : proofsD[100]? = some 0x8e8055ace63ce48067a6aa357a420af43f90bf92acf0819642d9995e77879433ed9459bdb6a9c6a04d13b04fdd5aadbc := by decide +kernel
    rw [e, Option.map_some]
    unfold proofsOf
    rw [List.getElem?_map, List.getElem?_range (by decide), Option.map_some, Spec.openingProof,
      quotient_check shiftQ_eq _ _ flatQ quotientQ topQ, encodes_unique (commitmentQ hg)]

theorem TestVectors.hexes_map (l : List (List UInt8)) : Spec.HexStrings (l.map hex) l := by
  have := hexes id l
  rwa [List.map_id] at this

theorem TestVectors.bytes_sized {l : List Nat} : ∀ c ∈ bytes l, c.length = 2048 := by
  intro c hc
  obtain ⟨n, -, rfl⟩ := List.mem_map.1 hc
  exact length_natToBE _ _

theorem TestVectors.constantCell_length (n : Nat) : (constantCell n).length = 2048 := by
  unfold constantCell
  rw [List.length_flatten, List.map_replicate, length_natToBE, List.sum_replicate, smul_eq_mul]

theorem TestVectors.replicate_sized (k n : Nat) : ∀ c ∈ List.replicate k (constantCell n), c.length = 2048 := by
  intro c hc
  rw [(List.mem_replicate.1 hc).2, constantCell_length]

theorem TestVectors.bytes_length (l : List Nat) : (bytes l).length = l.length := List.length_map _

theorem TestVectors.cellOrder_spec : cellOrder.length = 2048 ∧ frOrder ≤ Spec.beValue (Spec.block 32 7 cellOrder) := by
  have hl : ∀ n, (List.replicate n (natToBE 32 0)).flatten.length = 32 * n := by
    intro n
    rw [List.length_flatten, List.map_replicate, length_natToBE, List.sum_replicate, smul_eq_mul, mul_comm]
  refine ⟨?_, ?_⟩
  · unfold cellOrder
    rw [List.length_append, List.length_append, hl, hl, length_natToBE]
  · have hb : Spec.block 32 7 cellOrder = natToBE 32 frOrder := by
      unfold Spec.block cellOrder
      rw [List.append_assoc, List.drop_left' (by rw [hl]), List.take_left' (length_natToBE _ _)]
    rw [hb, ← beToNat_eq, beToNat_natToBE]
    decide +kernel

theorem TestVectors.cellOnes_spec : frOrder ≤ Spec.beValue (Spec.block 32 0 (List.replicate 2048 255)) := by
  have hb : Spec.block 32 0 (List.replicate 2048 (255 : UInt8)) = List.replicate 32 255 := by
    unfold Spec.block
    rw [Nat.mul_zero, List.drop_zero, List.take_replicate]
    rfl
  rw [hb]
  decide +kernel

theorem TestVectors.lengths : cellsA.length = 128 ∧ cellsB.length = 128 ∧ cellsC.length = 128 ∧ cellsD.length = 128 := by
  decide +kernel

/-- every file that expects an error is refused: a cell has another size, or the library returns an error -/
theorem TestVectors.refused (points : SetupPoints G1 G2) (h1 : points.g1Monomial.length = 4096) (up : UsePrecomp) (ctx : DASContext Fp G1 G2)
    (hctx : (DASContext.new points up : Outcome Error (DASContext Fp G1 G2)) = .ok ctx) :
    ∀ v ∈ recoverRefused, (∀ c ∈ v.2, c.length = 2048) → ∃ e, ctx.recoverCellsAndKzgProofs v.1 v.2 = .err e := by
  have hdef : ∀ {inds cells e}, Spec.RecoveryDefect inds cells e → (∀ c ∈ cells, c.length = 2048) →
      ∃ e, ctx.recoverCellsAndKzgProofs inds cells = .err e :=
    fun hd hc => ⟨_, (C12_validation points up h1 ctx hctx _ _ hc).2.1 _ hd⟩
  obtain ⟨lA, lB, lC, lD⟩ := lengths
  have one : ∀ {l : List Nat}, l.length = 128 → ∃ n, l.take 1 = [n] := fun hl =>
    List.length_eq_one_iff.1 (by rw [List.length_take, hl]; rfl)
  unfold recoverRefused
  refine List.forall_mem_cons.2 ⟨fun hc => hdef (.tooFew rfl (fun i hi => absurd hi List.not_mem_nil) List.nodup_nil (by decide)) hc, ?_⟩
  refine List.forall_mem_cons.2 ⟨fun hc => ?_, ?_⟩
  · obtain ⟨n, hn⟩ := one lD
    have := hc ((natToBE 2048 n).take 2047) (by
      rw [hn]
      exact List.mem_append_left _ List.mem_cons_self)
    rw [List.length_take, length_natToBE] at this
    exact absurd this (by decide)
  refine List.forall_mem_cons.2 ⟨fun hc => ?_, ?_⟩
  · exact (C17_recover_cell points up h1 ctx hctx _ _ hc _ List.mem_cons_self 0 (by decide) cellOnes_spec).1
  refine List.forall_mem_cons.2 ⟨fun hc => ?_, ?_⟩
  · exact (C17_recover_cell points up h1 ctx hctx _ _ hc _ List.mem_cons_self 7 (by decide) cellOrder_spec.2).1
  refine List.forall_mem_cons.2 ⟨fun hc => ?_, ?_⟩
  · obtain ⟨n, hn⟩ := one lC
    have := hc (natToBE 2048 n ++ [0]) (by
      rw [hn]
      exact List.mem_append_left _ List.mem_cons_self)
    rw [List.length_append, length_natToBE] at this
    exact absurd this (by decide)
  refine List.forall_mem_cons.2 ⟨fun hc => ?_, ?_⟩
  · exact hdef (.range (by rw [bytes_length, List.length_take, lA]; decide) [] _ 128 rfl (fun j hj => absurd hj List.not_mem_nil) le_rfl) hc
  refine List.forall_mem_cons.2 ⟨fun hc => ?_, ?_⟩
  · exact hdef (.duplicate (by rw [bytes_length, List.length_take, lD]; decide) (by decide +kernel) (by decide +kernel)) hc
  refine List.forall_mem_cons.2 ⟨fun hc => ?_, ?_⟩
  · exact hdef (.lengths (by rw [List.length_replicate]; decide)) hc
  refine List.forall_mem_cons.2 ⟨fun hc => ?_, ?_⟩
  · exact hdef (.lengths (by rw [List.length_append, List.length_replicate, bytes_length, List.length_take, lD]; decide)) hc
  refine List.forall_mem_cons.2 ⟨fun hc => ?_, ?_⟩
  · exact hdef (.duplicate (by rw [List.length_replicate]; decide +kernel) (by decide +kernel) (by decide +kernel)) hc
  refine List.forall_mem_cons.2 ⟨fun hc => ?_, ?_⟩
  · exact hdef (.tooFew (by rw [bytes_length, List.length_take, lB]; decide) (by decide +kernel) (by decide +kernel) (by decide +kernel)) hc
  exact fun v hv => absurd hv List.not_mem_nil

theorem TestVectors.take_cells {f : Fr[X]} {inds : List Nat} {cells : List (List UInt8)}
    (h : inds.map (fun i => (cellsOf f)[i]?) = cells.map some) : List.Forall₂ (fun i c => (cellsOf f)[i]? = some c) inds cells := by
  have := List.forall₂_eq_eq_eq.symm ▸ h
  rwa [List.forall₂_map_left_iff, List.forall₂_map_right_iff] at this

/-- C89: all files of recover_cells_and_kzg_proofs, with the setup embedded in the library and no precomputation. The Rust test passes for
the files that expect an error and for those with cells of a constant blob: with all cells and all proofs. For the other files the library
returns the 128 cells of the file. -/
theorem C89_recover (lagrange : List (List UInt8)) (points : SetupPoints G1 G2) (h : Points points) (ctx : DASContext Fp G1 G2)
    (hctx : (DASContext.ofTrustedSetup (Embedded.setup lagrange) .no : Outcome Error (DASContext Fp G1 G2)) = .ok ctx) :
    suite (rustRecover ctx.recoverCellsAndKzgProofs) recoverSimple = true ∧
    (∀ v ∈ recoverDense, Spec.Sized 2048 v.2.1 ∧ v.2.2.1.length = 128 ∧
      ∃ proofs, ctx.recoverCellsAndKzgProofs v.1 v.2.1 = .ok (v.2.2.1, proofs) ∧ proofs.length = 128) := by
  obtain ⟨hnew, h1⟩ := context h hctx
  obtain ⟨M, hp, hM, -, -⟩ := context_fields points .no h1 ctx hnew
  have again : ∀ {blob : List UInt8} {f : Fr[X]}, Spec.IsBlobPoly blob f → ∀ (inds : List Nat) (cells : List (List UInt8)),
      (∀ i ∈ inds, i < 128) → inds.Nodup → 64 ≤ inds.length → List.Forall₂ (fun i c => (cellsOf f)[i]? = some c) inds cells →
      ctx.recoverCellsAndKzgProofs inds cells = .ok (cellsOf f, proofsOf points.g1Monomial f) := by
    intro blob f hf inds cells hr hd hn hs
    refine C09_recovers_original points .no h1 ctx hnew blob hf.2.1 _ _ ?_ inds cells hr hd hn hs
    rw [cells_of_blob hp hf, prove_exact _ h1 M (msmExact_no _ 6 6 M hM) _ hf.1]
  refine ⟨(C85_suite _ _).2 ⟨by unfold recoverSimple recoverRefused; exact List.cons_ne_nil _ _, fun v hv => ?_⟩, ?_⟩
  · replace hv := List.mem_append.1 hv
    rcases hv with hv | hv
    · obtain ⟨w, hw, rfl⟩ := List.mem_map.1 hv
      refine (C85_rust_recover_prefix _ _ w.2 none (hexes_map _) .null).2 ?_
      by_cases hs : Spec.Sized 2048 w.2
      · obtain ⟨e, he⟩ := refused points h1 .no ctx hnew w hw hs
        exact .inr ⟨hs, .inl ⟨e, he, rfl⟩⟩
      · exact .inl ⟨hs, rfl⟩
    · obtain ⟨w, hw, rfl⟩ := List.mem_map.1 hv
      have const : ∀ {c k : Nat} {inds : List Nat}, c < frOrder → inds.length = k → (∀ i ∈ inds, i < 128) → inds.Nodup → 64 ≤ k →
          rustRecover ctx.recoverCellsAndKzgProofs (recoverFile inds (List.replicate k (constantCell c))
            (some (List.replicate 128 (constantCell c), infinities))) = true := by
        intro c k inds hc hk hr hd hn
        refine (C85_rust_recover_prefix _ _ (List.replicate k (constantCell c)) (some (List.replicate 128 (constantCell c), infinities))
          (hexes_map _) (.lists (hexes_map _) (hexes_map _))).2 (.inr ⟨replicate_sized _ _, .inr
            ⟨(List.replicate 128 (constantCell c), infinities), _, ?_, rfl, ?_⟩⟩)
        · have e := again (constant_isBlobPoly (c : Fr)) inds (List.replicate k (constantCell c)) hr hd (hk ▸ hn) (by
            rw [constant_cellsOf, ZMod.val_cast_of_lt hc, List.forall₂_iff_zip]
            refine ⟨by rw [hk, List.length_replicate], fun {a b} hab => ?_⟩
            have ha := hr a (List.of_mem_zip hab).1
            rw [List.getElem?_replicate, if_pos ha, (List.mem_replicate.1 (List.of_mem_zip hab).2).2])
          rw [constant_cellsOf, constant_proofsOf, infinity_bytes, ZMod.val_cast_of_lt hc] at e
          exact e
        · refine ⟨List.prefix_refl _, ?_, List.take_prefix _ _⟩
          unfold infinities
          rw [List.length_replicate, List.length_replicate]
      suffices hw' : ∀ w ∈ recoverConstant, rustRecover ctx.recoverCellsAndKzgProofs
          (recoverFile w.1 w.2.1 (some (w.2.2.1, w.2.2.2))) = true from hw' w hw
      unfold recoverConstant
      refine List.forall_mem_cons.2 ⟨const (by decide +kernel) (by decide +kernel) (by decide +kernel) (by decide +kernel) (by decide), ?_⟩
      refine List.forall_mem_cons.2 ⟨const (by decide +kernel) (by decide +kernel) (by decide +kernel) (by decide +kernel) (by decide), ?_⟩
      exact fun v hv => absurd hv List.not_mem_nil
  · obtain ⟨lA, lB, lC, lD⟩ := lengths
    have dense : ∀ {blob : List UInt8} {f : Fr[X]} {all : List Nat}, cellsOf f = all.map (natToBE 2048) ∧ Spec.IsBlobPoly blob f →
        all.length = 128 → ∀ (inds : List Nat) (cells : List Nat), (∀ i ∈ inds, i < 128) → inds.Nodup → 64 ≤ inds.length →
        inds.map (fun i => all[i]?) = cells.map some →
        Spec.Sized 2048 (bytes cells) ∧ (bytes all).length = 128 ∧
          ∃ proofs, ctx.recoverCellsAndKzgProofs inds (bytes cells) = .ok (bytes all, proofs) ∧ proofs.length = 128 := by
      intro blob f all hf hl inds cells hr hd hn hs
      refine ⟨bytes_sized, by rw [bytes_length, hl], proofsOf points.g1Monomial f, ?_, ?_⟩
      · rw [show bytes all = cellsOf f from hf.1.symm]
        refine again hf.2 inds _ hr hd hn (take_cells ?_)
        have := congrArg (List.map (Option.map (natToBE 2048))) hs
        rw [List.map_map, List.map_map] at this
        rw [hf.1]
        unfold bytes
        rw [List.map_map]
        refine Eq.trans (List.map_congr_left fun i _ => ?_) this
        rw [List.getElem?_map]
        rfl
      · unfold proofsOf
        rw [List.length_map, List.length_range]
    unfold recoverDense
    refine List.forall_mem_cons.2 ⟨dense polyD lD _ _ (by decide +kernel) (by decide +kernel) (by decide +kernel) (by decide +kernel), ?_⟩
    refine List.forall_mem_cons.2 ⟨dense polyC lC _ _ (by decide +kernel) (by decide +kernel) (by decide +kernel) (by decide +kernel), ?_⟩
    exact fun v hv => absurd hv List.not_mem_nil

/-- the hypotheses of C89 hold: the setup embedded in the library is read, and a context is made from it -/
example [LawfulPairing G1 G2 GT] (lagrange : List (List UInt8)) : ∃ points : SetupPoints G1 G2, Points points ∧
    ∃ ctx, (DASContext.ofTrustedSetup (Embedded.setup lagrange) .no : Outcome Error (DASContext Fp G1 G2)) = .ok ctx ∧
      suite (rustRecover ctx.recoverCellsAndKzgProofs) recoverSimple = true := by
  obtain ⟨points, h, -⟩ := C76_points
  obtain ⟨ctx, hctx, -⟩ := C76_default lagrange points h
  exact ⟨points, h, ctx, hctx, (C89_recover lagrange points h ctx hctx).1⟩

end
end Verif
