import Verif.Model.Api
import Verif.Spec.InPlace

/-! Model of the methods of `DASContext` when other threads write the arguments during the call. The C bindings, and with them those of C#,
Go and Nim, hand over references to the memory of the caller, and so do the asynchronous methods of the Node bindings. `Model/Api` assumes
that the bytes do not change.

Rust gives no meaning to such programs; the model takes every read in the source as a read of memory at that moment. The history `H`
gives the memory at each look, one look for each byte. Assumptions: `Scalar::from_bytes_be` and `G1Affine::from_compressed` (not in the
repository) read each byte once; so do a comparison and a hash of an array, which may in fact stop early. `to_vec` for the text of an
error is a second look. The other arguments (numbers, lists of references) are owned by the method and do not change. -/
namespace Verif

/-- a computation that looks at memory; the state is the number of looks -/
abbrev LookM := StateT Nat (Outcome Error)

/-- a computation that does not look at memory -/
def noLook {α : Type} (x : Outcome Error α) : LookM α := StateT.lift x

section
variable (H : MemHistory)

/-- one look -/
def lookByte (p : Nat) : LookM UInt8 := fun t => .ok (H t p, t + 1)

/-- looks at `n` bytes -/
def lookBytes (n p : Nat) : LookM (List UInt8) := (List.range n).mapM (fun j => lookByte H (p + j))

/-- `deserialize_bytes_to_scalar`, serialization.rs:47-60, on 32 bytes at `p` -/
def deserializeBytesToScalarP (p : Nat) : LookM Fr := do
  let bytes32 ← lookBytes H 32 p
  match scalarFromBytesBE bytes32 with
  | some scalar => pure scalar
  | none => do
    let bytes ← lookBytes H 32 p
    noLook (.err (.Serialization (.CouldNotDeserializeScalar bytes)))

/-- `deserialize_bytes_to_scalars`, serialization.rs:12-28, on `n` times 32 bytes at `p` -/
def deserializeBytesToScalarsP (n p : Nat) : LookM (List Fr) :=
  (List.range n).mapM (fun k => deserializeBytesToScalarP H (p + 32 * k))

/-- `deserialize_blob_to_scalars`, serialization.rs:30-40. The length is that of the type. -/
def deserializeBlobToScalarsP (p : Nat) : LookM (List Fr) := deserializeBytesToScalarsP H 4096 p

/-- `deserialize_cells`, serialization.rs:105-113 -/
def deserializeCellsP (cells : List Nat) : LookM (List (List Fr)) := cells.mapM (deserializeBytesToScalarsP H 64)

/-- `deserialize_compressed_g1`, serialization.rs:62-77, on 48 bytes at `p` -/
def deserializeCompressedG1P {G1 : Type} [PointCodec G1] (p : Nat) : LookM G1 := do
  let pointBytes ← lookBytes H 48 p
  match (fromCompressed pointBytes : Option G1) with
  | some g => pure g
  | none => do
    let bytes ← lookBytes H 48 p
    noLook (.err (.Serialization (.CouldNotDeserializeG1Point bytes)))

/-- `deserialize_compressed_g1_points`, serialization.rs:82-89 -/
def deserializeCompressedG1PointsP {G1 : Type} [PointCodec G1] (points : List Nat) : LookM (List G1) :=
  points.mapM (deserializeCompressedG1P H)

/-! ### the hash map of `deduplicate_with_indices` -/

/-- the choices of the implementation of `HashMap`: the hash of a key; whether a lookup of a hash comes across an entry that was
stored with another hash (an entry with the same hash is always found); whether the table is enlarged before an insertion into a map
with `n` entries, which computes the hashes of all keys anew -/
structure HashChoices where
  hash : List UInt8 → Nat
  probes : Nat → Nat → Bool
  probes_self : ∀ h, probes h h = true
  grows : Nat → Bool

/-- an entry of the map: the hash with which it is stored, the key (a reference) and the value -/
structure MapEntry where
  hash : Nat
  key : Nat
  value : Nat

variable (M : HashChoices)

/-- the hash of the 48 bytes behind a reference -/
def hashP (p : Nat) : LookM Nat := do
  let b ← lookBytes H 48 p
  pure (M.hash b)

/-- equality of the 48 bytes behind two references -/
def eqP (p q : Nat) : LookM Bool := do
  let a ← lookBytes H 48 p
  let b ← lookBytes H 48 q
  pure (decide (a = b))

/-- whether a lookup takes an entry: it compares the keys if it comes across the entry -/
def entryMatches (h item : Nat) (e : MapEntry) : LookM Bool :=
  if M.probes h e.hash then eqP H e.key item else pure false

/-- the position of the first entry that a lookup finds. The order in which it meets the entries is that of the list. -/
def findEntry (h item : Nat) : List MapEntry → LookM (Option Nat)
  | [] => pure none
  | e :: es => do
    let same ← entryMatches H M h item e
    if same then pure (some 0) else do
      let i ← findEntry h item es
      pure (i.map (· + 1))

/-- `HashMap::get` -/
def mapGet (entries : List MapEntry) (item : Nat) : LookM (Option Nat) :=
  if entries.isEmpty then pure none else do
    let h ← hashP H M item
    let i ← findEntry H M h item entries
    pure (i.bind (fun i => (entries[i]?).map MapEntry.value))

/-- the table before an insertion: if it is enlarged, the hashes are computed anew -/
def reserve (entries : List MapEntry) : LookM (List MapEntry) :=
  if M.grows entries.length then entries.mapM (fun e => do
    let h ← hashP H M e.key
    pure { e with hash := h })
  else pure entries

/-- `HashMap::insert`: an entry whose key is equal keeps its key and gets the new value -/
def mapInsert (entries : List MapEntry) (item value : Nat) : LookM (List MapEntry) := do
  let h ← hashP H M item
  let entries ← reserve H M entries
  match ← findEntry H M h item entries with
  | some i => pure (entries.modify i (fun e => { e with value := value }))
  | none => pure (⟨h, item, value⟩ :: entries)

/-- `deduplicate_with_indices`, verifier.rs:49-68 -/
def deduplicateWithIndicesP (input : List Nat) : LookM (List Nat × List Nat) := do
  let st ← input.foldlM (fun (st : List Nat × List MapEntry × List Nat) item => do
    match ← mapGet H M st.2.1 item with
    | some index => pure (st.1, st.2.1, st.2.2 ++ [index])
    | none => do
      let newIndex := st.1.length
      let indexMap ← mapInsert H M st.2.1 item newIndex
      pure (st.1 ++ [item], indexMap, st.2.2 ++ [newIndex])) ([], [], [])
  pure (st.1, st.2.2)

/-! ### the methods -/

/-- placeholders for slices of which only the length is used -/
def sliceOfLength (n : Nat) (ps : List Nat) : List (List UInt8) := ps.map (fun _ => List.replicate n 0)

variable {K G1 G2 GT : Type} [Field K] [DecidableEq K] [AddCommGroup G1] [Module Fr G1] [DecidableEq G1]
  [Curve K G1] [PointCodec G1] [AddCommGroup G2] [Module Fr G2] [AddCommGroup GT] [DecidableEq GT]
  [Pairing G1 G2 GT]

/-- `blob_to_kzg_commitment`, prover.rs:77-91 -/
def blobToKzgCommitmentP (ctx : DASContext K G1 G2) (blob : Nat) : LookM (List UInt8) := do
  let scalars ← deserializeBlobToScalarsP H blob
  noLook (do
    let commitment ← ctx.proverCtx.kzgMultipointProver.commit (.data scalars)
    pure (serializeG1Compressed commitment))

/-- `compute_cells_and_kzg_proofs`, prover.rs:96-114 -/
def computeCellsAndKzgProofsP (ctx : DASContext K G1 G2) (blob : Nat) : LookM (List (List UInt8) × List (List UInt8)) := do
  let scalars ← deserializeBlobToScalarsP H blob
  noLook (do
    let (proofs, cells) ← ctx.proverCtx.kzgMultipointProver.computeMultiOpeningProofs (.data scalars)
    serializeCellsAndProofs cells proofs)

/-- `recover_cells_and_kzg_proofs`, prover.rs:122-141, with `recover_polynomial_coeff`, recovery.rs:14-62. The validation looks at the
lengths only. -/
def recoverCellsAndKzgProofsP (ctx : DASContext K G1 G2) (cellIndices : List Nat) (cells : List Nat) :
    LookM (List (List UInt8) × List (List UInt8)) := do
  noLook ((validateRecover cellIndices (sliceOfLength 2048 cells)).mapErr Error.Recovery)
  let cosetEvaluations ← deserializeCellsP H cells
  noLook (do
    let res ← recoverEvaluationsInDomainOrder FIELD_ELEMENTS_PER_EXT_BLOB cellIndices cosetEvaluations
    let (cellIndicesNormalOrder, flattened) ← expect res
    let missing := findMissingCellIndices cellIndicesNormalOrder
    let polyCoeff ← (ctx.proverCtx.rs.recoverPolynomialCoefficient flattened missing).mapErr (fun e => Error.Recovery (.ReedSolomon e))
    let (proofs, cosetEvaluations) ← ctx.proverCtx.kzgMultipointProver.computeMultiOpeningProofs (.polyCoeff polyCoeff)
    serializeCellsAndProofs cosetEvaluations proofs)

/-- `verify_cell_kzg_proof_batch`, verifier.rs:75-121. The validation looks at the lengths only. -/
def verifyCellKzgProofBatchP (sha256 : List UInt8 → List UInt8) (ctx : DASContext K G1 G2) (commitments cellIndices cells proofsBytes : List Nat) :
    LookM Unit := do
  let (deduplicatedCommitments, rowIndices) ← deduplicateWithIndicesP H M commitments
  noLook ((validateVerify (sliceOfLength 48 deduplicatedCommitments) rowIndices cellIndices (sliceOfLength 2048 cells)
    (sliceOfLength 48 proofsBytes)).mapErr Error.Verifier)
  if cells.isEmpty then pure ()
  else do
    let rowCommitments : List G1 ← deserializeCompressedG1PointsP H deduplicatedCommitments
    let proofs : List G1 ← deserializeCompressedG1PointsP H proofsBytes
    let cosetEvals ← deserializeCellsP H cells
    noLook ((ctx.verifierCtx.kzgMultipointVerifier.verifyMultiOpening sha256 rowCommitments rowIndices cellIndices cosetEvals proofs).mapErr
      (fun e => Error.Verifier (.FK20 e)))

end
end Verif
