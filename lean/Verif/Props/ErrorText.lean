import Verif.Lemmas.Debug
import Verif.Lemmas.CBinding
import Verif.Lemmas.DebugText
import Verif.Spec.ErrorText

/-! C44: the text of an error. -/
namespace Verif

/-- C44: two errors with the same text are the same error, with the same numbers and bytes. -/
theorem C44_text_identifies_error (e e' : Error) (h : e.debug = e'.debug) : e = e' := Error.debug_injective h

/-- C44: the text consists of printable ASCII characters, so it is a valid C string and valid UTF-8. -/
theorem C44_text_is_printable (e : Error) : e.debug ≠ [] ∧ ∀ b ∈ e.debug, 32 ≤ b ∧ b ≤ 126 := by
  refine ⟨?_, Error.debug_printable e⟩
  cases e <;> simp [Error.debug, debugTuple, ascii]

/-- C44: the text is exactly the one described by the declarations of the enums. -/
theorem C44_text (e : Error) : e.debug = (Spec.errorText e).toList.map (fun c => UInt8.ofNat c.toNat) := by
  show e.debug = ascii (Spec.errorText e)
  have hs : ∀ s : String, toString s = s := fun _ => rfl
  have hn : ∀ n : Nat, ascii (toString n) = debugNat n := fun n => (debugNat_toString n).symm
  have hb : ∀ b : List UInt8, ascii (toString b) = debugBytes b := fun b => (debugBytes_toString b).symm
  have hr : ∀ e : RSError, ascii (Spec.rsText e) = e.debug := by
    intro e
    cases e <;> unfold Spec.rsText RSError.debug <;> dsimp only <;>
      simp only [debugStruct, commaSeparated, List.map_cons, List.map_nil, hs, ascii_append, hn, List.append_assoc] <;> simp [ascii]
  have hc : ∀ e : RecoveryError, ascii (Spec.recoveryText e) = e.debug := by
    intro e
    cases e <;> unfold Spec.recoveryText RecoveryError.debug <;> dsimp only <;>
      simp only [debugStruct, debugTuple, commaSeparated, List.map_cons, List.map_nil, hs, ascii_append, hn, hr, List.append_assoc] <;> simp [ascii]
  have hv : ∀ e : VerifierError, ascii (Spec.verifierText e) = e.debug := by
    intro e
    cases e <;> unfold Spec.verifierText VerifierError.debug <;> dsimp only <;>
      simp only [FK20VerifierError.debug, debugStruct, debugTuple, commaSeparated, List.map_cons, List.map_nil, hs, ascii_append, hn,
        List.append_assoc] <;> simp [ascii]
  have hz : ∀ e : SerializationError, ascii (Spec.serializationText e) = e.debug := by
    intro e
    cases e <;> unfold Spec.serializationText SerializationError.debug <;> dsimp only <;>
      simp only [debugStruct, commaSeparated, List.map_cons, List.map_nil, hs, ascii_append, hn, hb, List.append_assoc] <;> simp [ascii]
  symm
  rcases e with ⟨e⟩ | e | e | e <;> unfold Spec.errorText Error.debug <;> dsimp only [ProverError.debug] <;>
    simp only [debugTuple, hs, ascii_append, hc, hv, hz, List.append_assoc] <;> simp [ascii]

example : Spec.errorText (.Recovery (.NotEnoughCellsToReconstruct 3 64)) =
    "Recovery(NotEnoughCellsToReconstruct { num_cells_received: 3, min_cells_needed: 64 })" := by decide +kernel

/-- The texts of errors that differ in one byte of the rejected data, or in one number, differ. -/
example : (Error.Serialization (.CouldNotDeserializeScalar [1, 23])).debug ≠ (Error.Serialization (.CouldNotDeserializeScalar [12, 3])).debug :=
  fun h => by
    have := C44_text_identifies_error _ _ h
    simp at this

example : (Error.Recovery (.ReedSolomon (.InvalidBlockIndex 1 64))).debug = ascii "Recovery(ReedSolomon(InvalidBlockIndex { block_index: 1, block_size: 64 }))" := by
  decide +kernel

end Verif
