import Verif.Props.Recovery
import Verif.Props.Transcript

set_option linter.unusedSectionVars false

/-! C17 (canonical field elements) and C18 (no panics). -/
namespace Verif
open Polynomial Finset

/-- C17: a 32-byte string decodes iff its big-endian value is below the group order; the result is this value. -/
theorem C17_decode_iff (b : List UInt8) (hb : b.length = 32) :
    ((∃ s, deserializeBytesToScalar b = .ok s) ↔ Spec.beValue b < frOrder) ∧
    (∀ s, deserializeBytesToScalar b = .ok s → s.val = Spec.beValue b) ∧
    (frOrder ≤ Spec.beValue b → deserializeBytesToScalar b = .err (.CouldNotDeserializeScalar b)) := by
  refine ⟨?_, ?_, ?_⟩
  · rw [← exists_encodes_iff hb]
    simp only [deserializeBytesToScalar_ok hb]
  · intro s hs
    exact ((deserializeBytesToScalar_ok hb).1 hs).2.symm
  · intro h
    exact (deserializeBytesToScalar_err hb).2 ⟨h, rfl⟩

/-- C17: decoding inverts encoding. -/
theorem C17_decode_encode (s : Fr) : deserializeBytesToScalar (scalarToBytesBE s) = .ok s :=
  (deserializeBytesToScalar_ok (length_scalarToBytesBE s)).2 (encodes_scalarToBytesBE s)

/-- C17: encoding inverts decoding. -/
theorem C17_encode_decode (b : List UInt8) (hb : b.length = 32) (s : Fr) (h : deserializeBytesToScalar b = .ok s) :
    scalarToBytesBE s = b := (encodes_iff.1 ((deserializeBytesToScalar_ok hb).1 h)).symm

/-- C17: the length is tested before anything is decoded: a blob of any other length is refused with its own length, and so is
a point. Only a string of the right length whose blocks are all canonical is accepted. -/
theorem C17_lengths {G1 : Type} [PointCodec G1] :
    (∀ blob : List UInt8, blob.length ≠ 131072 →
      deserializeBlobToScalars blob = .err (.BlobHasInvalidLength blob blob.length)) ∧
    (∀ blob : List UInt8, (∃ xs, deserializeBlobToScalars blob = .ok xs) ↔
      blob.length = 131072 ∧ ∀ k < 4096, Spec.beValue (Spec.block 32 k blob) < frOrder) ∧
    (∀ b : List UInt8, b.length ≠ 48 →
      (deserializeCompressedG1 b : SerOutcome G1) = .err (.G1PointHasInvalidLength b b.length)) ∧
    (∀ b : List UInt8, b.length = 48 → (fromCompressed b : Option G1) = none →
      (deserializeCompressedG1 b : SerOutcome G1) = .err (.CouldNotDeserializeG1Point b)) ∧
    (∀ (b : List UInt8) (p : G1), deserializeCompressedG1 b = .ok p ↔ b.length = 48 ∧ fromCompressed b = some p) := by
  have hB : BYTES_PER_BLOB = 131072 := by decide +kernel
  refine ⟨fun blob h => ?_, fun blob => ?_, fun b h => ?_, fun b h e => ?_, fun b p => ?_⟩
  · rw [deserializeBlobToScalars, if_pos (by rw [hB]; exact h)]
  · by_cases h : blob.length = 131072
    · rw [deserializeBlobToScalars, if_neg (by rw [hB]; exact not_not.2 h)]
      have hl : blob.length = 32 * 4096 := h
      rcases deserializeBytesToScalars_cases hl with ⟨xs, hx, hk⟩ | ⟨i, hi, hb, -, he⟩
      · exact ⟨fun _ => ⟨h, hk⟩, fun _ => ⟨xs, hx⟩⟩
      · rw [he]
        constructor
        · rintro ⟨xs, hx⟩
          exact absurd hx (by simp)
        · rintro ⟨-, hk⟩
          exact absurd (hk i hi) (not_lt.2 hb)
    · rw [deserializeBlobToScalars, if_pos (by rw [hB]; exact h)]
      simp [h]
  · rw [deserializeCompressedG1, if_pos h]
  · rw [deserializeCompressedG1, if_neg (not_not.2 h), e]
  · unfold deserializeCompressedG1
    split
    · rename_i h
      simp [h]
    · rename_i h
      rw [not_not] at h
      cases e : (fromCompressed b : Option G1) <;> simp [h]

/-- C17: no two accepted strings of field elements of the same length denote the same elements. -/
theorem C17_not_malleable (n : Nat) (b c : List UInt8) (hb : b.length = 32 * n) (hc : c.length = 32 * n) (xs : List Fr)
    (h : deserializeBytesToScalars b = .ok xs) (h' : deserializeBytesToScalars c = .ok xs) : b = c := by
  rw [deserializeBytesToScalars_ok hb] at h
  rw [deserializeBytesToScalars_ok hc] at h'
  rw [← flatten_blocks 32 n b hb, ← flatten_blocks 32 n c hc]
  congr 1
  apply List.map_congr_left
  intro i hi
  have hi := List.mem_range.1 hi
  rw [encodes_iff.1 (h.2 i hi), encodes_iff.1 (h'.2 i hi)]

/-- C17: a cell decodes to the elements it was made from. -/
theorem C17_cell_roundtrip (xs : List Fr) (hx : xs.length = 64) :
    ∃ c, (serializeScalarsToCell xs : Outcome SerializationError (List UInt8)) = .ok c ∧ c.length = 2048 ∧
      deserializeBytesToScalars c = .ok xs := by
  refine ⟨_, serializeScalarsToCell_eq hx, length_cellBytes hx, ?_⟩
  rw [deserializeBytesToScalars_ok (n := 64) (by rw [length_cellBytes hx])]
  refine ⟨hx, ?_⟩
  intro i hi
  rw [block_flatten (w := 32) (by
    intro l hl
    obtain ⟨s, -, rfl⟩ := List.mem_map.1 hl
    exact length_scalarToBytesBE s) (by rw [List.length_map, hx]; exact hi)]
  rw [List.getElem_map, List.getD_eq_getElem _ _ (by rw [hx]; exact hi)]
  exact encodes_scalarToBytesBE _

section
variable {ε K G1 G2 GT : Type} [Field K] [DecidableEq K] [AddCommGroup G1] [Module Fr G1] [DecidableEq G1]
  [Curve K G1] [PointCodec G1] [AddCommGroup G2] [Module Fr G2] [AddCommGroup GT] [DecidableEq GT]
  [Pairing G1 G2 GT]

/-- C17: a blob with a field element that is not reduced is rejected, with the first such element, by both prover functions. -/
theorem C17_blob (ctx : DASContext K G1 G2) (blob : List UInt8) (hb : blob.length = 131072) (k : Nat) (hk : k < 4096)
    (hbad : frOrder ≤ Spec.beValue (Spec.block 32 k blob)) :
    ∃ i ≤ k, frOrder ≤ Spec.beValue (Spec.block 32 i blob) ∧ (∀ j < i, Spec.beValue (Spec.block 32 j blob) < frOrder) ∧
      ctx.blobToKzgCommitment blob = .err (.Serialization (.CouldNotDeserializeScalar (Spec.block 32 i blob))) ∧
      ctx.computeCellsAndKzgProofs blob = .err (.Serialization (.CouldNotDeserializeScalar (Spec.block 32 i blob))) := by
  have hne : ¬ ∃ f, Spec.IsBlobPoly blob f := by
    rw [blobPoly_iff hb]
    intro h
    have := h k hk
    omega
  obtain ⟨i, hi, h1, h2, h3, h4⟩ := bad_blob (ctx := ctx) hb hne
  refine ⟨i, ?_, h1, h2, h3, h4⟩
  by_contra hc
  have := h2 k (by omega)
  omega

/-- C17: a batch with a cell that is not canonical is rejected by verification, and with the serialization error of a field
element of such a cell if lengths, indices, commitments and proofs are in order. -/
theorem C17_verify_cell (ctx : DASContext K G1 G2) (sha256 : List UInt8 → List UInt8)
    (commitments : List (List UInt8)) (inds : List Nat) (cells proofs : List (List UInt8))
    (hc : ∀ c ∈ cells, c.length = 2048) (hcm : ∀ c ∈ commitments, c.length = 48) (hpf : ∀ c ∈ proofs, c.length = 48)
    (c : List UInt8) (hcc : c ∈ cells) (k : Nat) (hk : k < 64) (hbad : frOrder ≤ Spec.beValue (Spec.block 32 k c)) :
    (∃ e, ctx.verifyCellKzgProofBatch sha256 commitments inds cells proofs = .err e ∧ e.invalidProof = false) ∧
    (commitments.length = inds.length → commitments.length = cells.length → commitments.length = proofs.length →
      (∀ i ∈ inds, i < 128) → (∀ b ∈ commitments, ∃ p : G1, fromCompressed b = some p) →
      (∀ b ∈ proofs, ∃ p : G1, fromCompressed b = some p) → ∃ d ∈ cells, ∃ i < 64, frOrder ≤ Spec.beValue (Spec.block 32 i d) ∧
        ctx.verifyCellKzgProofBatch sha256 commitments inds cells proofs =
          .err (.Serialization (.CouldNotDeserializeScalar (Spec.block 32 i d)))) := by
  rcases C13_validation ctx sha256 commitments inds cells proofs hc hcm hpf with ⟨hw, -⟩ | ⟨-, e, he, h⟩
  · have := hw.cells c hcc k hk
    omega
  · refine ⟨⟨e, h, by cases he <;> rfl⟩, ?_⟩
    intro l1 l2 l3 hr hcd hpd
    cases he with
    | lengths hl => exact absurd ⟨l1, l2, l3⟩ hl
    | range _ pre post k hs _ hk => have := hr k (by rw [hs]; simp); omega
    | commitment _ _ pre post b hs _ hb =>
      obtain ⟨p, hp⟩ := hcd b (by rw [hs]; simp)
      rw [hb] at hp; cases hp
    | proof _ _ _ pre post b hs _ hb =>
      obtain ⟨p, hp⟩ := hpd b (by rw [hs]; simp)
      rw [hb] at hp; cases hp
    | cell _ _ _ _ pre post d i hs _ hi _ hb => exact ⟨d, by rw [hs]; simp, i, hi, hb, h⟩

/-- C17: the same for recovery. -/
theorem C17_recover_cell (setup : SetupPoints G1 G2) (up : UsePrecomp) (h1 : setup.g1Monomial.length = 4096)
    (ctx : DASContext K G1 G2) (hctx : (DASContext.new setup up : Outcome ε (DASContext K G1 G2)) = .ok ctx)
    (inds : List Nat) (cells : List (List UInt8)) (hc : ∀ c ∈ cells, c.length = 2048)
    (c : List UInt8) (hcc : c ∈ cells) (k : Nat) (hk : k < 64) (hbad : frOrder ≤ Spec.beValue (Spec.block 32 k c)) :
    (∃ e, ctx.recoverCellsAndKzgProofs inds cells = .err e) ∧
    (inds.length = cells.length → (∀ i ∈ inds, i < 128) → inds.Nodup → 64 ≤ inds.length →
      ∃ d ∈ cells, ∃ i < 64, frOrder ≤ Spec.beValue (Spec.block 32 i d) ∧
        ctx.recoverCellsAndKzgProofs inds cells = .err (.Serialization (.CouldNotDeserializeScalar (Spec.block 32 i d)))) := by
  obtain ⟨hor, hdef, -⟩ := C12_validation setup up h1 ctx hctx inds cells hc
  rcases hor with hw | ⟨e, he⟩
  · have := hw.canonical c hcc k hk
    omega
  · refine ⟨⟨e, hdef e he⟩, ?_⟩
    intro l1 hr hd hn
    have h := hdef e he
    cases he with
    | lengths hl => exact absurd l1 hl
    | range _ pre post k hs _ hk => have := hr k (by rw [hs]; simp); omega
    | duplicate _ _ hd' => exact absurd hd hd'
    | tooFew _ _ _ hlt => omega
    | scalar _ _ _ _ pre post d i hs _ hi _ hb => exact ⟨d, by rw [hs]; simp, i, hi, hb, h⟩

/-! ### C18 -/

/-- C18: a context is built from every setup of the right size, and none of the four entry points panics on any arguments of
the declared types. -/
theorem C18_no_panic [LawfulPointCodec G1 48] (setup : SetupPoints G1 G2) (h1 : setup.g1Monomial.length = 4096)
    (h2 : 65 ≤ setup.g2Monomial.length) (h3 : setup.g2Monomial.length ≤ 4096) :
    ∃ ctx : DASContext K G1 G2, (DASContext.new setup .no : Outcome Error (DASContext K G1 G2)) = .ok ctx ∧
    (∀ blob : List UInt8, blob.length = 131072 →
      ctx.blobToKzgCommitment blob ≠ .panic ∧ ctx.computeCellsAndKzgProofs blob ≠ .panic) ∧
    (∀ (sha256 : List UInt8 → List UInt8) (commitments : List (List UInt8)) (inds : List Nat) (cells proofs : List (List UInt8)),
      (∀ c ∈ commitments, c.length = 48) → (∀ c ∈ cells, c.length = 2048) → (∀ c ∈ proofs, c.length = 48) →
      ctx.verifyCellKzgProofBatch sha256 commitments inds cells proofs ≠ .panic) ∧
    (∀ (inds : List Nat) (cells : List (List UInt8)), (∀ c ∈ cells, c.length = 2048) →
      ctx.recoverCellsAndKzgProofs inds cells ≠ .panic) := by
  obtain ⟨ctx, hctx⟩ := context_exists (ε := Error) (K := K) setup h1 h2 h3
  refine ⟨ctx, hctx, ?_, ?_, ?_⟩
  · intro blob hb
    obtain ⟨M, hp, hM, -, -⟩ := context_fields setup .no h1 ctx hctx
    by_cases hex : ∃ f, Spec.IsBlobPoly blob f
    · obtain ⟨f, hf⟩ := hex
      rw [commitment_of_blob h1 hp hf, cells_of_blob hp hf, prove_exact _ h1 M (msmExact_no _ 6 6 M hM) f hf.1]
      exact ⟨fun h => (by cases h), fun h => by cases h⟩
    · obtain ⟨i, -, -, -, ha, hb⟩ := bad_blob (ctx := ctx) hb hex
      rw [ha, hb]
      exact ⟨fun h => (by cases h), fun h => by cases h⟩
  · intro sha256 commitments inds cells proofs hcm hc hpf
    rcases C13_validation ctx sha256 commitments inds cells proofs hc hcm hpf with ⟨hw, -⟩ | ⟨-, e, he, h⟩
    · rcases C13_wellFormed setup .no h1 ctx hctx sha256 commitments inds cells proofs hc hcm hpf hw with h | h <;>
        rw [h] <;> exact fun h => by cases h
    · rw [h]; exact fun h => by cases h
  · intro inds cells hc
    obtain ⟨M, hp, hM, hrs, -⟩ := context_fields setup .no h1 ctx hctx
    rcases recovery_wellFormed_or_defect inds cells hc with hw | ⟨e, he⟩
    · rcases recoverPolynomialCoeff_cases hw.1 hw.2 hc hw.3 hw.4 hw.5 with ⟨⟨f, hf, h⟩ | ⟨hne, h⟩, -⟩
      · rw [recover_run hp hrs h, prove_exact _ h1 M (msmExact_no _ 6 6 M hM) f hf.1]
        exact fun h => by cases h
      · rw [recover_err hrs h]; exact fun h => by cases h
    · rw [recover_err hrs (recoverPolynomialCoeff_defect hc he _)]
      exact fun h => by cases h

/-- C18, remaining functions of the context with precomputation: the commitment and the verification never panic. -/
theorem C18_precomp [LawfulPointCodec G1 48] (setup : SetupPoints G1 G2) (up : UsePrecomp) (h1 : setup.g1Monomial.length = 4096)
    (ctx : DASContext K G1 G2) (hctx : (DASContext.new setup up : Outcome ε (DASContext K G1 G2)) = .ok ctx) :
    (∀ blob : List UInt8, blob.length = 131072 → ctx.blobToKzgCommitment blob ≠ .panic) ∧
    (∀ (sha256 : List UInt8 → List UInt8) (commitments : List (List UInt8)) (inds : List Nat) (cells proofs : List (List UInt8)),
      (∀ c ∈ commitments, c.length = 48) → (∀ c ∈ cells, c.length = 2048) → (∀ c ∈ proofs, c.length = 48) →
      ctx.verifyCellKzgProofBatch sha256 commitments inds cells proofs ≠ .panic) := by
  refine ⟨?_, ?_⟩
  · intro blob hb
    obtain ⟨M, hp, hM, -, -⟩ := context_fields setup up h1 ctx hctx
    by_cases hex : ∃ f, Spec.IsBlobPoly blob f
    · obtain ⟨f, hf⟩ := hex
      rw [commitment_of_blob h1 hp hf]
      exact fun h => by cases h
    · obtain ⟨i, -, -, -, ha, hb⟩ := bad_blob (ctx := ctx) hb hex
      rw [ha]
      exact fun h => by cases h
  · intro sha256 commitments inds cells proofs hcm hc hpf
    rcases C13_validation ctx sha256 commitments inds cells proofs hc hcm hpf with ⟨hw, -⟩ | ⟨-, e, he, h⟩
    · rcases C13_wellFormed setup up h1 ctx hctx sha256 commitments inds cells proofs hc hcm hpf hw with h | h <;>
        rw [h] <;> exact fun h => by cases h
    · rw [h]; exact fun h => by cases h

end

/-! Non-vacuity. -/
section
open Toy

/-- the string with value `r`, the smallest that is not canonical -/
def orderBytes : List UInt8 := natToBE 32 frOrder

theorem beValue_orderBytes : Spec.beValue orderBytes = frOrder := by
  rw [← beToNat_eq, orderBytes, beToNat_natToBE]
  exact Nat.mod_eq_of_lt (by unfold frOrder; norm_num)

example : deserializeBytesToScalar orderBytes = .err (.CouldNotDeserializeScalar orderBytes) :=
  (C17_decode_iff orderBytes (length_natToBE _ _)).2.2 (le_of_eq beValue_orderBytes.symm)

example : deserializeBytesToScalar (natToBE 32 (frOrder - 1)) = .ok (-1) := by decide +kernel

/-- A blob with one bad element. -/
def badBlob : List UInt8 := List.replicate 32 0 ++ (orderBytes ++ List.replicate (4094 * 32) 0)

theorem block_pair {a b c : List UInt8} (ha : a.length = 32) (hb : b.length = 32) :
    Spec.block 32 0 (a ++ (b ++ c)) = a ∧ Spec.block 32 1 (a ++ (b ++ c)) = b := by
  unfold Spec.block
  constructor
  · rw [mul_zero, List.drop_zero, ← ha, List.take_left']
    rfl
  · rw [mul_one, List.drop_left' ha, List.take_left' hb]

theorem length_badBlob : badBlob.length = 131072 := by
  unfold badBlob orderBytes
  rw [List.length_append, List.length_append, List.length_replicate, List.length_replicate, length_natToBE]

theorem badBlob_rejected {K G1 G2 GT : Type} [Field K] [DecidableEq K] [AddCommGroup G1] [Module Fr G1] [DecidableEq G1]
    [Curve K G1] [PointCodec G1] [AddCommGroup G2] [Module Fr G2] [AddCommGroup GT] [DecidableEq GT]
    [Pairing G1 G2 GT] (ctx : DASContext K G1 G2) :
    ctx.blobToKzgCommitment badBlob = .err (.Serialization (.CouldNotDeserializeScalar orderBytes)) := by
  have hb1 : Spec.block 32 1 badBlob = orderBytes := (block_pair List.length_replicate (length_natToBE _ _)).2
  have hb0 : Spec.block 32 0 badBlob = List.replicate 32 0 := (block_pair List.length_replicate (length_natToBE _ _)).1
  obtain ⟨i, hi, h1, h2, h3, -⟩ := C17_blob ctx badBlob length_badBlob 1 (by norm_num)
    (by rw [hb1, beValue_orderBytes])
  have : i = 1 := by
    by_contra hne
    have : i = 0 := by omega
    subst this
    rw [hb0] at h1
    have hz : Spec.beValue (List.replicate 32 0) = 0 := by decide
    rw [hz] at h1
    exact absurd h1 (by unfold frOrder; norm_num)
  rw [h3, this, hb1]

example : ∃ ctx : DASContext Fr Fr Fr, (DASContext.new (setup 7) .no : Outcome Error _) = .ok ctx ∧
    ctx.computeCellsAndKzgProofs badBlob ≠ .panic ∧ ctx.recoverCellsAndKzgProofs [2 ^ 64 - 1, 0] [] ≠ .panic := by
  obtain ⟨ctx, h, h1, -, h3⟩ := C18_no_panic (K := Fr) (GT := Fr) (setup 7) (length_g1 7) (by rw [length_g2])
    (by rw [length_g2]; norm_num)
  exact ⟨ctx, h, (h1 badBlob length_badBlob).2, h3 _ _ (by simp)⟩
end
end Verif
