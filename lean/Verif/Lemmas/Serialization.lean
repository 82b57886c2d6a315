import Mathlib.Data.List.GetD
import Verif.Model.Serialization
import Verif.Lemmas.Bytes

/-! Lemmas on (de)serialisation. -/
namespace Verif

theorem deserializeBytesToScalar_ok {b : List UInt8} (hl : b.length = 32) {s : Fr} :
    deserializeBytesToScalar b = .ok s ↔ Spec.Encodes b s := by
  rw [← scalarFromBytesBE_eq_some hl]
  unfold deserializeBytesToScalar
  rw [assertP_true hl, Outcome.ok_bind]
  cases scalarFromBytesBE b <;> simp

theorem deserializeBytesToScalar_err {b : List UInt8} (hl : b.length = 32) {e : SerializationError} :
    deserializeBytesToScalar b = .err e ↔ frOrder ≤ Spec.beValue b ∧ e = .CouldNotDeserializeScalar b := by
  rw [← scalarFromBytesBE_eq_none]
  unfold deserializeBytesToScalar
  rw [assertP_true hl, Outcome.ok_bind]
  cases scalarFromBytesBE b <;> simp [eq_comm]

theorem deserializeBytesToScalar_ne_panic {b : List UInt8} (hl : b.length = 32) :
    deserializeBytesToScalar b ≠ .panic := by
  unfold deserializeBytesToScalar
  rw [assertP_true hl, Outcome.ok_bind]
  cases scalarFromBytesBE b <;> simp

theorem deserializeBytesToScalars_eq {bytes : List UInt8} {n : Nat} (hl : bytes.length = 32 * n) :
    deserializeBytesToScalars bytes =
      ((List.range n).map (fun i => Spec.block 32 i bytes)).mapM deserializeBytesToScalar := by
  unfold deserializeBytesToScalars
  rw [if_neg (by simp [hl, BYTES_PER_FIELD_ELEMENT]), chunksExact_eq]
  simp [hl, BYTES_PER_FIELD_ELEMENT]

theorem length_block_of {n : Nat} {bytes : List UInt8} (hl : bytes.length = 32 * n) {i : Nat} (hi : i < n) :
    (Spec.block 32 i bytes).length = 32 := block_length (by omega)

theorem deserializeBytesToScalars_ok {bytes : List UInt8} {n : Nat} (hl : bytes.length = 32 * n) {xs : List Fr} :
    deserializeBytesToScalars bytes = .ok xs ↔
      xs.length = n ∧ ∀ i, i < n → Spec.Encodes (Spec.block 32 i bytes) (xs.getD i 0) := by
  rw [deserializeBytesToScalars_eq hl, mapM_eq_ok_iff, List.forall₂_iff_get]
  simp only [List.length_map, List.length_range, List.get_eq_getElem, List.getElem_map, List.getElem_range]
  constructor
  · rintro ⟨h1, h2⟩
    refine ⟨h1.symm, fun i hi => ?_⟩
    have := (deserializeBytesToScalar_ok (length_block_of hl hi)).1 (h2 i hi (h1 ▸ hi))
    rwa [List.getD_eq_getElem _ _ (h1 ▸ hi)]
  · rintro ⟨h1, h2⟩
    refine ⟨h1.symm, fun i hi hi' => ?_⟩
    rw [deserializeBytesToScalar_ok (length_block_of hl hi)]
    have := h2 i hi
    rwa [List.getD_eq_getElem _ _ hi'] at this

/-- Decoding fails exactly if some block is not canonical, with the first such block. -/
theorem deserializeBytesToScalars_cases {bytes : List UInt8} {n : Nat} (hl : bytes.length = 32 * n) :
    (∃ xs, deserializeBytesToScalars bytes = .ok xs ∧ ∀ i, i < n → Spec.beValue (Spec.block 32 i bytes) < frOrder) ∨
    ∃ i, i < n ∧ frOrder ≤ Spec.beValue (Spec.block 32 i bytes) ∧
      (∀ j, j < i → Spec.beValue (Spec.block 32 j bytes) < frOrder) ∧
      deserializeBytesToScalars bytes = .err (.CouldNotDeserializeScalar (Spec.block 32 i bytes)) := by
  by_cases h : ∀ i, i < n → Spec.beValue (Spec.block 32 i bytes) < frOrder
  · left
    have hex : ∀ i, ∃ s, i < n → Spec.Encodes (Spec.block 32 i bytes) s := by
      intro i
      by_cases hi : i < n
      · obtain ⟨s, hs⟩ := (exists_encodes_iff (length_block_of hl hi)).2 (h i hi)
        exact ⟨s, fun _ => hs⟩
      · exact ⟨0, fun h => absurd h hi⟩
    choose g hg using hex
    refine ⟨(List.range n).map g, (deserializeBytesToScalars_ok hl).2 ⟨by simp, fun i hi => ?_⟩, h⟩
    have : ((List.range n).map g).getD i 0 = g i := by simp [List.getD, hi]
    rw [this]; exact hg i hi
  · right
    push Not at h
    classical
    let P : Nat → Prop := fun i => i < n ∧ frOrder ≤ Spec.beValue (Spec.block 32 i bytes)
    have hP : ∃ i, P i := h
    obtain ⟨i, ⟨hi, hb⟩, hmin⟩ : ∃ i, P i ∧ ∀ j, j < i → ¬ P j :=
      ⟨Nat.find hP, Nat.find_spec hP, fun j hj => Nat.find_min hP hj⟩
    have hmin' : ∀ j, j < i → Spec.beValue (Spec.block 32 j bytes) < frOrder := by
      intro j hj
      by_contra hc
      exact hmin j hj ⟨by omega, by omega⟩
    refine ⟨i, hi, hb, hmin', ?_⟩
    rw [deserializeBytesToScalars_eq hl]
    have hsplit : List.range n = List.range i ++ i :: (List.range (n - i - 1)).map (fun j => i + 1 + j) := by
      have : n = i + (1 + (n - i - 1)) := by omega
      conv_lhs => rw [this, List.range_add, List.range_add]
      simp [Nat.add_assoc, Function.comp_def]
    rw [hsplit, List.map_append, List.map_cons]
    apply mapM_err
    · intro y hy
      obtain ⟨j, hj, rfl⟩ := List.mem_map.1 hy
      have hj : j < i := List.mem_range.1 hj
      obtain ⟨s, hs⟩ := (exists_encodes_iff (length_block_of hl (i := j) (by omega))).2 (hmin' j hj)
      exact ⟨s, (deserializeBytesToScalar_ok (length_block_of hl (by omega))).2 hs⟩
    · rw [deserializeBytesToScalar_err (length_block_of hl hi)]
      exact ⟨hb, rfl⟩

theorem deserializeBytesToScalars_ne_panic {bytes : List UInt8} {n : Nat} (hl : bytes.length = 32 * n) :
    deserializeBytesToScalars bytes ≠ .panic := by
  rcases deserializeBytesToScalars_cases hl with ⟨xs, h, -⟩ | ⟨i, -, -, -, h⟩ <;> simp [h]

theorem deserializeBlobToScalars_eq {blob : List UInt8} (hl : blob.length = 131072) :
    deserializeBlobToScalars blob = deserializeBytesToScalars blob := by
  simp [deserializeBlobToScalars, hl, BYTES_PER_BLOB, BYTES_PER_FIELD_ELEMENT, FIELD_ELEMENTS_PER_BLOB]

theorem foldl_append_flatten {α β : Type} (f : α → List β) (l : List α) (acc : List β) :
    l.foldl (fun b s => b ++ f s) acc = acc ++ (l.map f).flatten := by
  induction l generalizing acc with
  | nil => simp
  | cons a l ih => simp [ih]

theorem serializeScalarsToCell_eq {ε : Type} {xs : List Fr} (h : xs.length = 64) :
    (serializeScalarsToCell xs : Outcome ε (List UInt8)) = .ok (xs.map scalarToBytesBE).flatten := by
  unfold serializeScalarsToCell
  rw [assertP_true (by simp [h, FIELD_ELEMENTS_PER_CELL]), Outcome.ok_bind, foldl_append_flatten]
  simp

theorem length_scalarToBytesBE (s : Fr) : (scalarToBytesBE s).length = 32 := by simp [scalarToBytesBE]

theorem length_cellBytes {xs : List Fr} (h : xs.length = 64) :
    (xs.map scalarToBytesBE).flatten.length = 2048 := by
  rw [length_flatten_const (w := 32)]
  · simp [h]
  · intro l hl
    obtain ⟨s, -, rfl⟩ := List.mem_map.1 hl
    exact length_scalarToBytesBE s

theorem cosetEvaluationsToCells_eq {ε : Type} {ev : List (List Fr)} (h : ev.length = 128)
    (h2 : ∀ e ∈ ev, e.length = 64) :
    (cosetEvaluationsToCells ev : Outcome ε _) = .ok (ev.map (fun e => (e.map scalarToBytesBE).flatten)) := by
  unfold cosetEvaluationsToCells
  rw [mapM_ok (g := fun e => (e.map scalarToBytesBE).flatten)]
  · simp only [Outcome.ok_bind]
    rw [assertP_true (by rw [List.length_map]; exact h)]
    simp
  · intro e he
    rw [serializeScalarsToCell_eq (h2 e he)]
    simp only [Outcome.ok_bind]
    rw [assertP_true (by rw [length_cellBytes (h2 e he)]; rfl)]
    simp

theorem serializeCellsAndProofs_eq {ε G1 : Type} [PointCodec G1] {ev : List (List Fr)} {proofs : List G1}
    (h : ev.length = 128) (h2 : ∀ e ∈ ev, e.length = 64) (hp : proofs.length = 128) :
    (serializeCellsAndProofs ev proofs : Outcome ε _) =
      .ok (ev.map (fun e => (e.map scalarToBytesBE).flatten), proofs.map toCompressed) := by
  unfold serializeCellsAndProofs
  rw [cosetEvaluationsToCells_eq h h2]
  simp only [Outcome.ok_bind]
  rw [assertP_true (by rw [List.length_map]; exact hp)]
  simp [serializeG1Compressed]

theorem deserializeCompressedG1_ne_panic {G1 : Type} [PointCodec G1] (b : List UInt8) :
    (deserializeCompressedG1 b : SerOutcome G1) ≠ .panic := by
  unfold deserializeCompressedG1
  split_ifs
  · simp
  · cases (fromCompressed b : Option G1) <;> simp

end Verif
