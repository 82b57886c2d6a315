import Verif.Lemmas.Bindings
import Verif.Props.Verification

set_option linter.unusedSectionVars false

/-! C33 (cell indices in the Java and Node bindings) and C34 (sizes in the Java and Node bindings). -/
namespace Verif
open Spec (Sized FirstWrong JavaByte JavaBytes)

section
variable {K G1 G2 GT : Type} [Field K] [DecidableEq K] [AddCommGroup G1] [Module Fr G1] [DecidableEq G1]
  [Curve K G1] [PointCodec G1] [AddCommGroup G2] [Module Fr G2] [AddCommGroup GT] [DecidableEq GT]
  [Pairing G1 G2 GT]
variable (s : CState (DASContext K G1 G2)) (jniDebug : List UInt8) (sha256 : List UInt8 → List UInt8)

/-- the message of a Java exception for an item of the wrong size -/
def javaSizeMessage (function name expected : String) (got : Nat) : List UInt8 :=
  ascii ("function " ++ function ++ " has thrown an exception, with reason: " ++ name ++ " is not the correct size. expected: " ++
    expected ++ "\ngot: ") ++ debugNat got

/-- the message of a Java exception for an error of the library -/
def javaErrorMessage (function : String) (e : Error) : List UInt8 :=
  ascii ("function " ++ function ++ " has thrown an exception, with reason: ") ++ e.debug

theorem throw_size (function name : String) (n : Nat) (ns : String) (h : debugNat n = ascii ns) (got : Nat) :
    throwOnErrorJ jniDebug (.IncorrectSize n got name) function = .illegalArgument (javaSizeMessage function name ns got) := by
  unfold throwOnErrorJ javaSizeMessage
  simp only [h, ascii, String.toList_append, List.map_append, List.append_assoc]

theorem throw_error (function : String) (e : Error) :
    throwOnErrorJ jniDebug (.Cryptography e) function = .illegalArgument (javaErrorMessage function e) := by
  unfold throwOnErrorJ javaErrorMessage
  simp only [ascii, String.toList_append, List.map_append, List.append_assoc]

theorem debugNat_blob : debugNat BYTES_PER_BLOB = ascii "131072" := by decide +kernel
theorem debugNat_cell : debugNat BYTES_PER_CELL = ascii "2048" := by decide +kernel
theorem debugNat_commitment : debugNat BYTES_PER_COMMITMENT = ascii "48" := by decide +kernel

/-- C34 (Java): `blobToKZGCommitment` reports the size of a blob that has not 131072 bytes, and otherwise gives the result of the
library for these bytes. -/
theorem C34_java_blob_to_kzg_commitment (self : LibEthKZG) (ctx : DASContext K G1 G2) (h0 : self.contextPtr ≠ 0)
    (hctx : s.ctxs self.contextPtr = some ctx) (blob : List Int8) (blobBytes : List UInt8) (hb : JavaBytes blob blobBytes) :
    (blob.length ≠ 131072 → self.blobToKZGCommitment jniDebug (some blob) s =
      .err (.illegalArgument (javaSizeMessage "blobToKZGCommitment" "blob" "131072" blob.length)) s) ∧
    (blob.length = 131072 →
      (∀ c, ctx.blobToKzgCommitment blobBytes = .ok c →
        ∃ r, self.blobToKZGCommitment jniDebug (some blob) s = .ok r s ∧ JavaBytes r c) ∧
      (∀ e, ctx.blobToKzgCommitment blobBytes = .err e → self.blobToKZGCommitment jniDebug (some blob) s =
        .err (.illegalArgument (javaErrorMessage "blobToKZGCommitment" e)) s) ∧
      (ctx.blobToKzgCommitment blobBytes = .panic → self.blobToKZGCommitment jniDebug (some blob) s = .panic)) := by
  have hl := javaBytes_length hb
  rw [javaBytes_iff] at hb
  unfold LibEthKZG.blobToKZGCommitment
  simp only [nativeJ_eq h0 hctx, blobToKzgCommitmentJ, convert_some, Outcome.ok_bind, hb, sliceToArrayRefJ]
  constructor
  · intro hne
    rw [if_neg (by rw [← hl]; exact hne), Outcome.err_bind, ← hl]
    simp only [throw_size jniDebug _ _ _ _ debugNat_blob]
  · intro he
    rw [if_pos (by rw [← hl]; exact he)]
    simp only [Outcome.ok_bind]
    refine ⟨fun c hc => ?_, fun e he => ?_, fun hp => ?_⟩
    · rw [hc]
      exact ⟨_, rfl, javaBytes_toInt8 c⟩
    · rw [he]
      simp only [Outcome.mapErr_err, Outcome.err_bind, throw_error]
    · rw [hp]
      rfl

/-- C34 (Java): `computeCellsAndKZGProofs`. -/
theorem C34_java_compute_cells_and_kzg_proofs (self : LibEthKZG) (ctx : DASContext K G1 G2) (h0 : self.contextPtr ≠ 0)
    (hctx : s.ctxs self.contextPtr = some ctx) (blob : List Int8) (blobBytes : List UInt8) (hb : JavaBytes blob blobBytes) :
    (blob.length ≠ 131072 → self.computeCellsAndKZGProofs jniDebug (some blob) s =
      .err (.illegalArgument (javaSizeMessage "computeCellsAndKZGProofs" "blob" "131072" blob.length)) s) ∧
    (blob.length = 131072 →
      (∀ cells proofs, ctx.computeCellsAndKzgProofs blobBytes = .ok (cells, proofs) →
        ∃ c p, self.computeCellsAndKZGProofs jniDebug (some blob) s = .ok (c, p) s ∧
          List.Forall₂ JavaBytes c cells ∧ List.Forall₂ JavaBytes p proofs) ∧
      (∀ e, ctx.computeCellsAndKzgProofs blobBytes = .err e → self.computeCellsAndKZGProofs jniDebug (some blob) s =
        .err (.illegalArgument (javaErrorMessage "computeCellsAndKZGProofs" e)) s) ∧
      (ctx.computeCellsAndKzgProofs blobBytes = .panic → self.computeCellsAndKZGProofs jniDebug (some blob) s = .panic)) := by
  have hl := javaBytes_length hb
  rw [javaBytes_iff] at hb
  unfold LibEthKZG.computeCellsAndKZGProofs
  simp only [nativeJ_eq h0 hctx, computeCellsAndKzgProofsJ, convert_some, Outcome.ok_bind, hb, sliceToArrayRefJ]
  constructor
  · intro hne
    rw [if_neg (by rw [← hl]; exact hne), Outcome.err_bind, ← hl]
    simp only [throw_size jniDebug _ _ _ _ debugNat_blob]
  · intro he
    rw [if_pos (by rw [← hl]; exact he)]
    simp only [Outcome.ok_bind]
    refine ⟨fun c p hc => ?_, fun e he => ?_, fun hp => ?_⟩
    · rw [hc]
      exact ⟨_, _, rfl, forall₂_byteArrayFromSlice c, forall₂_byteArrayFromSlice p⟩
    · rw [he]
      simp only [Outcome.mapErr_err, Outcome.err_bind, throw_error]
    · rw [hp]
      rfl

/-- C34 (Java): `verifyCellKZGProofBatch` reports the first cell of the wrong size, then the first commitment, then the first proof.
If all sizes are right it gives the result of the library for these bytes: true, false for an invalid proof, an exception for any
other error. -/
theorem C34_java_verify_cell_kzg_proof_batch (self : LibEthKZG) (ctx : DASContext K G1 G2) (h0 : self.contextPtr ≠ 0)
    (hctx : s.ctxs self.contextPtr = some ctx) (commitments cells proofs : List (List Int8)) (inds : List Int64)
    (commitmentBytes cellBytes proofBytes : List (List UInt8)) (indices : List Nat)
    (hcm : List.Forall₂ JavaBytes commitments commitmentBytes) (hcl : List.Forall₂ JavaBytes cells cellBytes)
    (hpf : List.Forall₂ JavaBytes proofs proofBytes)
    (hi : List.Forall₂ (fun (x : Int64) (i : Nat) => (i : Int) = x.toInt % 2 ^ 64) inds indices)
    (call : COut (DASContext K G1 G2) JException Bool)
    (hcall : call = self.verifyCellKZGProofBatch jniDebug sha256 (some (commitments.map some)) (some inds) (some (cells.map some))
      (some (proofs.map some)) s)
    (lib : Outcome Error Unit) (hlib : lib = ctx.verifyCellKzgProofBatch sha256 commitmentBytes indices cellBytes proofBytes) :
    (∀ got, FirstWrong 2048 got cells →
      call = .err (.illegalArgument (javaSizeMessage "verifyCellKZGProofBatch" "cell" "2048" got)) s) ∧
    (Sized 2048 cells → ∀ got, FirstWrong 48 got commitments →
      call = .err (.illegalArgument (javaSizeMessage "verifyCellKZGProofBatch" "commitment" "48" got)) s) ∧
    (Sized 2048 cells → Sized 48 commitments → ∀ got, FirstWrong 48 got proofs →
      call = .err (.illegalArgument (javaSizeMessage "verifyCellKZGProofBatch" "proof" "48" got)) s) ∧
    (Sized 2048 cells → Sized 48 commitments → Sized 48 proofs →
      (lib = .ok () → call = .ok true s) ∧ (∀ e, lib = .err (.Verifier (.FK20 e)) → call = .ok false s) ∧
      (∀ e, lib = .err e → (∀ e', e ≠ .Verifier (.FK20 e')) →
        call = .err (.illegalArgument (javaErrorMessage "verifyCellKZGProofBatch" e)) s) ∧
      (lib = .panic → call = .panic)) := by
  rw [forall₂_javaBytes_iff] at hcm hcl hpf
  have hii := indices_eq hi
  unfold LibEthKZG.verifyCellKZGProofBatch at hcall
  rw [nativeJ_eq h0 hctx] at hcall
  simp only [verifyCellKzgProofBatchJ, jobjectArray_some, jlongarrayToVecU64, Outcome.ok_bind, hcm, hcl, hpf, hii] at hcall
  refine ⟨fun got hw => ?_, fun hs1 got hw => ?_, fun hs1 hs2 got hw => ?_, fun hs1 hs2 hs3 => ?_⟩
  · have hw' : FirstWrong BYTES_PER_CELL got cellBytes := by rw [← hcl]; exact firstWrong_map hw
    rw [firstWrongJ hw', Outcome.err_bind] at hcall
    rw [hcall]
    simp only [throw_size jniDebug _ _ _ _ debugNat_cell]
  all_goals
    have hs1' : Sized BYTES_PER_CELL cellBytes := by rw [← hcl]; exact sized_map.2 hs1
    rw [sizedJ hs1', Outcome.ok_bind] at hcall
  · have hw' : FirstWrong BYTES_PER_COMMITMENT got commitmentBytes := by rw [← hcm]; exact firstWrong_map hw
    rw [firstWrongJ hw', Outcome.err_bind] at hcall
    rw [hcall]
    simp only [throw_size jniDebug _ _ _ _ debugNat_commitment]
  all_goals
    have hs2' : Sized BYTES_PER_COMMITMENT commitmentBytes := by rw [← hcm]; exact sized_map.2 hs2
    rw [sizedJ hs2', Outcome.ok_bind] at hcall
  · have hw' : FirstWrong BYTES_PER_COMMITMENT got proofBytes := by rw [← hpf]; exact firstWrong_map hw
    rw [firstWrongJ hw', Outcome.err_bind] at hcall
    rw [hcall]
    simp only [throw_size jniDebug _ _ _ _ debugNat_commitment]
  · have hs3' : Sized BYTES_PER_COMMITMENT proofBytes := by rw [← hpf]; exact sized_map.2 hs3
    rw [sizedJ hs3', Outcome.ok_bind, ← hlib] at hcall
    refine ⟨fun h => ?_, fun e h => ?_, fun e h hne => ?_, fun h => ?_⟩
    · rw [hcall, h]; rfl
    · rw [hcall, h]; rfl
    · rw [hcall, h]
      simp only [not_invalidProof hne, Bool.false_eq_true, if_false, throw_error]
    · rw [hcall, h]

/-- C34 (Java): `recoverCellsAndKZGProofs` reports the first cell of the wrong size. -/
theorem C34_java_recover_cells_and_kzg_proofs (self : LibEthKZG) (ctx : DASContext K G1 G2) (h0 : self.contextPtr ≠ 0)
    (hctx : s.ctxs self.contextPtr = some ctx) (cells : List (List Int8)) (inds : List Int64)
    (cellBytes : List (List UInt8)) (indices : List Nat) (hcl : List.Forall₂ JavaBytes cells cellBytes)
    (hi : List.Forall₂ (fun (x : Int64) (i : Nat) => (i : Int) = x.toInt % 2 ^ 64) inds indices)
    (call : COut (DASContext K G1 G2) JException (List (List Int8) × List (List Int8)))
    (hcall : call = self.recoverCellsAndKZGProofs jniDebug (some inds) (some (cells.map some)) s) :
    (∀ got, FirstWrong 2048 got cells →
      call = .err (.illegalArgument (javaSizeMessage "recoverCellsAndKZGProofs" "cell" "2048" got)) s) ∧
    (Sized 2048 cells →
      (∀ c p, ctx.recoverCellsAndKzgProofs indices cellBytes = .ok (c, p) →
        ∃ cj pj, call = .ok (cj, pj) s ∧ List.Forall₂ JavaBytes cj c ∧ List.Forall₂ JavaBytes pj p) ∧
      (∀ e, ctx.recoverCellsAndKzgProofs indices cellBytes = .err e →
        call = .err (.illegalArgument (javaErrorMessage "recoverCellsAndKZGProofs" e)) s) ∧
      (ctx.recoverCellsAndKzgProofs indices cellBytes = .panic → call = .panic)) := by
  rw [forall₂_javaBytes_iff] at hcl
  have hii := indices_eq hi
  unfold LibEthKZG.recoverCellsAndKZGProofs at hcall
  rw [nativeJ_eq h0 hctx] at hcall
  simp only [recoverCellsAndKzgProofsJ, jobjectArray_some, jlongarrayToVecU64, Outcome.ok_bind, hcl, hii] at hcall
  refine ⟨fun got hw => ?_, fun hs1 => ?_⟩
  · have hw' : FirstWrong BYTES_PER_CELL got cellBytes := by rw [← hcl]; exact firstWrong_map hw
    rw [firstWrongJ hw', Outcome.err_bind] at hcall
    rw [hcall]
    simp only [throw_size jniDebug _ _ _ _ debugNat_cell]
  · have hs1' : Sized BYTES_PER_CELL cellBytes := by rw [← hcl]; exact sized_map.2 hs1
    rw [sizedJ hs1', Outcome.ok_bind] at hcall
    refine ⟨fun c p h => ?_, fun e h => ?_, fun h => ?_⟩
    · rw [hcall, h]
      exact ⟨_, _, rfl, forall₂_byteArrayFromSlice c, forall₂_byteArrayFromSlice p⟩
    · rw [hcall, h]
      simp only [Outcome.mapErr_err, Outcome.err_bind, throw_error]
    · rw [hcall, h]; rfl

/-- C33 (Java): the library gets exactly the numbers the caller passed if none is negative. -/
theorem C33_java_unchanged (inds : List Int64) (h : ∀ x ∈ inds, 0 ≤ x.toInt) :
    ∃ indices, jlongarrayToVecU64 (some inds) = .ok indices ∧ List.Forall₂ (fun (x : Int64) (i : Nat) => (i : Int) = x.toInt) inds indices := by
  refine ⟨_, rfl, ?_⟩
  rw [List.forall₂_map_right_iff, List.forall₂_same]
  intro x hx
  rw [toUInt64_toNat]
  have := int64_bounds x
  exact Int.emod_eq_of_lt (h x hx) (by omega)

/-- C33 (Java): a negative index is rejected with an exception, by both methods that take indices, whatever the other arguments. -/
theorem C33_java_negative (self : LibEthKZG) (ctx : DASContext K G1 G2) (hctx : self.contextPtr ≠ 0 → s.ctxs self.contextPtr = some ctx)
    (inds : List Int64) (h : ∃ x ∈ inds, x.toInt < 0) (commitments cells proofs : JObjectArray) :
    (∃ e, self.verifyCellKZGProofBatch jniDebug sha256 commitments (some inds) cells proofs s = .err e s) ∧
    (∃ e, self.recoverCellsAndKZGProofs jniDebug (some inds) cells s = .err e s) := by
  by_cases h0 : self.contextPtr = 0
  · constructor <;> refine ⟨.illegalState (ascii "KZG context context has been destroyed"), ?_⟩
    · unfold LibEthKZG.verifyCellKZGProofBatch LibEthKZG.checkContextHasNotBeenFreed; rw [if_pos h0]; rfl
    · unfold LibEthKZG.recoverCellsAndKZGProofs LibEthKZG.checkContextHasNotBeenFreed; rw [if_pos h0]; rfl
  have hl : ∃ i ∈ inds.map (fun x => x.toUInt64.toNat), 128 ≤ i := by
    obtain ⟨x, hx, hneg⟩ := h
    refine ⟨_, List.mem_map_of_mem hx, ?_⟩
    have h1 := toUInt64_toNat x
    have h2 := int64_bounds x
    omega
  constructor
  · unfold LibEthKZG.verifyCellKZGProofBatch
    rw [nativeJ_eq h0 (hctx h0)]
    obtain ⟨e, he⟩ : ∃ e, verifyCellKzgProofBatchJ sha256 commitments (some inds) cells proofs ctx = .err e := by
      unfold verifyCellKzgProofBatchJ
      refine err_or_bind (noPanic_objects _) fun cb _ => ?_
      rw [jlongarrayToVecU64, Outcome.ok_bind]
      refine err_or_bind (noPanic_objects _) fun cl _ => ?_
      refine err_or_bind (noPanic_objects _) fun pf _ => ?_
      refine err_or_bind (noPanic_sizes _ _ _) fun cl' _ => ?_
      refine err_or_bind (noPanic_sizes _ _ _) fun cb' _ => ?_
      refine err_or_bind (noPanic_sizes _ _ _) fun pf' _ => ?_
      obtain ⟨e, he, hi⟩ := verify_large sha256 ctx cb' cl' pf' hl
      rw [he]
      simp only [hi]
      exact ⟨_, rfl⟩
    rw [he]
    exact ⟨_, rfl⟩
  · unfold LibEthKZG.recoverCellsAndKZGProofs
    rw [nativeJ_eq h0 (hctx h0)]
    obtain ⟨e, he⟩ : ∃ e, recoverCellsAndKzgProofsJ (some inds) cells ctx = .err e := by
      unfold recoverCellsAndKzgProofsJ
      rw [jlongarrayToVecU64, Outcome.ok_bind]
      refine err_or_bind (noPanic_objects _) fun cl _ => ?_
      refine err_or_bind (noPanic_sizes _ _ _) fun cl' _ => ?_
      obtain ⟨e, he⟩ := recover_large ctx cl' hl
      rw [he]
      exact ⟨_, rfl⟩
    rw [he]
    exact ⟨_, rfl⟩

/-- C34 (Java): `verifyCellKZGProofBatch` rejects a null argument or a null item with an exception. -/
theorem C34_java_null (self : LibEthKZG) (ctx : DASContext K G1 G2) (h0 : self.contextPtr ≠ 0)
    (hctx : s.ctxs self.contextPtr = some ctx) (commitments cells proofs : JObjectArray) (inds : JLongArray)
    (h : inds = none ∨ ∃ a, (a = commitments ∨ a = cells ∨ a = proofs) ∧ (a = none ∨ ∃ l, a = some l ∧ none ∈ l)) :
    (∃ e, self.verifyCellKZGProofBatch jniDebug sha256 commitments inds cells proofs s = .err (.illegalArgument e) s) := by
  unfold LibEthKZG.verifyCellKZGProofBatch
  rw [nativeJ_eq h0 hctx]
  have hnull : ∀ a : JObjectArray, (a = none ∨ ∃ l, a = some l ∧ none ∈ l) → jobjectArrayTo2dByteArray a = .err .Jni := by
    rintro a (rfl | ⟨l, rfl, hl⟩)
    · rfl
    · exact jobjectArray_null hl
  have : verifyCellKzgProofBatchJ sha256 commitments inds cells proofs ctx = .err .Jni := by
    unfold verifyCellKzgProofBatchJ
    have hor : ∀ a, jobjectArrayTo2dByteArray a = .err .Jni ∨ ∃ b, jobjectArrayTo2dByteArray a = .ok b := by
      intro a
      cases a with
      | none => exact .inl rfl
      | some l =>
        by_cases hl : none ∈ l
        · exact .inl (jobjectArray_null hl)
        · refine .inr ⟨_, mapM_ok (g := fun a => (a.getD []).map Int8.toUInt8) ?_⟩
          intro a ha
          cases a with
          | none => exact absurd ha hl
          | some x => rfl
    have hi : jlongarrayToVecU64 inds = .err .Jni ∨ ∃ b, jlongarrayToVecU64 inds = .ok b := by
      cases inds with
      | none => exact .inl rfl
      | some l => exact .inr ⟨_, rfl⟩
    rcases hor commitments with h1 | ⟨b1, h1⟩
    · rw [h1]; rfl
    rw [h1, Outcome.ok_bind]
    rcases hi with h2 | ⟨b2, h2⟩
    · rw [h2]; rfl
    rw [h2, Outcome.ok_bind]
    rcases hor cells with h3 | ⟨b3, h3⟩
    · rw [h3]; rfl
    rw [h3, Outcome.ok_bind]
    rcases hor proofs with h4 | ⟨b4, h4⟩
    · rw [h4]; rfl
    exfalso
    rcases h with rfl | ⟨a, ha, hn⟩
    · simp [jlongarrayToVecU64] at h2
    · have := hnull a hn
      rcases ha with rfl | rfl | rfl
      · rw [h1] at this; cases this
      · rw [h3] at this; cases this
      · rw [h4] at this; cases this
  rw [this]
  exact ⟨_, rfl⟩

/-- the message of a Node exception for an item of the wrong size -/
def nodeSizeMessage (name expected : String) (got : Nat) : List UInt8 :=
  ascii (name ++ " must have size " ++ expected ++ ", found size ") ++ debugNat got ++
    ascii "\n err:could not convert slice to array"

theorem node_size (name : String) (n : Nat) (ns : String) (h : debugNat n = ascii ns) (got : Nat) :
    ascii name ++ ascii " must have size " ++ debugNat n ++ ascii ", found size " ++ debugNat got ++
      ascii "\n err:could not convert slice to array" = nodeSizeMessage name ns got := by
  unfold nodeSizeMessage
  simp only [h, ascii, String.toList_append, List.map_append, List.append_assoc]

variable (ctx : DASContext K G1 G2)

/-- C34 (Node): the three methods that take a blob. -/
theorem C34_node_blob (blob : List UInt8) :
    (blob.length ≠ 131072 →
      blobToKzgCommitmentN ctx blob = .err (nodeSizeMessage "blob" "131072" blob.length) ∧
      computeCellsAndKzgProofsN ctx blob = .err (nodeSizeMessage "blob" "131072" blob.length) ∧
      computeCellsN ctx blob = .err (nodeSizeMessage "blob" "131072" blob.length)) ∧
    (blob.length = 131072 →
      blobToKzgCommitmentN ctx blob = (ctx.blobToKzgCommitment blob).mapErr
        (fun e => ascii "failed to compute blob_to_kzg_commitment: " ++ e.debug) ∧
      computeCellsAndKzgProofsN ctx blob = (ctx.computeCellsAndKzgProofs blob).mapErr
        (fun e => ascii "failed to compute compute_cells_and_kzg_proofs: " ++ e.debug) ∧
      (∀ cells proofs, ctx.computeCellsAndKzgProofs blob = .ok (cells, proofs) → computeCellsN ctx blob = .ok cells)) := by
  constructor
  · intro h
    have hs : sliceToArrayRefN BYTES_PER_BLOB blob "blob" = .err (nodeSizeMessage "blob" "131072" blob.length) := by
      unfold sliceToArrayRefN
      rw [if_neg (show ¬ blob.length = BYTES_PER_BLOB from h), node_size _ _ _ debugNat_blob]
    unfold computeCellsN blobToKzgCommitmentN computeCellsAndKzgProofsN
    rw [hs]
    exact ⟨rfl, rfl, rfl⟩
  · intro h
    have hs : sliceToArrayRefN BYTES_PER_BLOB blob "blob" = .ok blob := by
      unfold sliceToArrayRefN
      rw [if_pos (show blob.length = BYTES_PER_BLOB from h)]
    unfold computeCellsN blobToKzgCommitmentN computeCellsAndKzgProofsN
    rw [hs]
    refine ⟨rfl, rfl, fun cells proofs hc => ?_⟩
    rw [Outcome.ok_bind, hc]
    rfl

/-- C34 (Node): `verify_cell_kzg_proof_batch` with indices that are not negative reports the first commitment of the wrong size, then
the first cell, then the first proof. If all sizes are right it gives the result of the library. -/
theorem C34_node_verify_cell_kzg_proof_batch (commitments cells proofs : List (List UInt8)) (inds : List Int)
    (indices : List Nat) (hi : List.Forall₂ (fun (x : Int) (i : Nat) => 0 ≤ x ∧ (i : Int) = x % 2 ^ 64) inds indices)
    (call : Outcome NodeError Bool) (hcall : call = verifyCellKzgProofBatchN sha256 ctx commitments inds cells proofs)
    (lib : Outcome Error Unit) (hlib : lib = ctx.verifyCellKzgProofBatch sha256 commitments indices cells proofs) :
    (∀ got, FirstWrong 48 got commitments → call = .err (nodeSizeMessage "commitment" "48" got)) ∧
    (Sized 48 commitments → ∀ got, FirstWrong 2048 got cells → call = .err (nodeSizeMessage "cell" "2048" got)) ∧
    (Sized 48 commitments → Sized 2048 cells → ∀ got, FirstWrong 48 got proofs →
      call = .err (nodeSizeMessage "proof" "48" got)) ∧
    (Sized 48 commitments → Sized 2048 cells → Sized 48 proofs →
      (lib = .ok () → call = .ok true) ∧ (∀ e, lib = .err (.Verifier (.FK20 e)) → call = .ok false) ∧
      (∀ e, lib = .err e → (∀ e', e ≠ .Verifier (.FK20 e')) →
        call = .err (ascii "failed to compute verify_cell_kzg_proof_batch: " ++ e.debug)) ∧
      (lib = .panic → call = .panic)) := by
  obtain ⟨hnn, hii⟩ := bigint_indices hi
  unfold verifyCellKzgProofBatchN at hcall
  rw [bigints_ok hnn, Outcome.ok_bind, hii] at hcall
  refine ⟨fun got hw => ?_, fun hs1 got hw => ?_, fun hs1 hs2 got hw => ?_, fun hs1 hs2 hs3 => ?_⟩
  · rw [firstWrongN (n := BYTES_PER_COMMITMENT) hw, Outcome.err_bind, node_size _ _ _ debugNat_commitment] at hcall
    exact hcall
  all_goals rw [sizedN (n := BYTES_PER_COMMITMENT) hs1, Outcome.ok_bind] at hcall
  · rw [firstWrongN (n := BYTES_PER_CELL) hw, Outcome.err_bind, node_size _ _ _ debugNat_cell] at hcall
    exact hcall
  all_goals rw [sizedN (n := BYTES_PER_CELL) hs2, Outcome.ok_bind] at hcall
  · rw [firstWrongN (n := BYTES_PER_COMMITMENT) hw, Outcome.err_bind, node_size _ _ _ debugNat_commitment] at hcall
    exact hcall
  · rw [sizedN (n := BYTES_PER_COMMITMENT) hs3, Outcome.ok_bind, ← hlib] at hcall
    refine ⟨fun h => ?_, fun e h => ?_, fun e h hne => ?_, fun h => ?_⟩
    · rw [hcall, h]; rfl
    · rw [hcall, h]; rfl
    · rw [hcall, h]
      simp only [not_invalidProof hne, Bool.false_eq_true, if_false]
    · rw [hcall, h]

/-- C34 (Node): `recover_cells_and_kzg_proofs` with indices that are not negative. -/
theorem C34_node_recover_cells_and_kzg_proofs (cells : List (List UInt8)) (inds : List Int)
    (indices : List Nat) (hi : List.Forall₂ (fun (x : Int) (i : Nat) => 0 ≤ x ∧ (i : Int) = x % 2 ^ 64) inds indices) :
    (∀ got, FirstWrong 2048 got cells → recoverCellsAndKzgProofsN ctx inds cells = .err (nodeSizeMessage "cell" "2048" got)) ∧
    (Sized 2048 cells → recoverCellsAndKzgProofsN ctx inds cells = (ctx.recoverCellsAndKzgProofs indices cells).mapErr
      (fun e => ascii "failed to compute recover_cells_and_kzg_proofs: " ++ e.debug)) := by
  obtain ⟨hnn, hii⟩ := bigint_indices hi
  unfold recoverCellsAndKzgProofsN
  rw [bigints_ok hnn, Outcome.ok_bind, hii]
  refine ⟨fun got hw => ?_, fun hs => ?_⟩
  · rw [firstWrongN (n := BYTES_PER_CELL) hw, Outcome.err_bind, node_size _ _ _ debugNat_cell]
  · rw [sizedN (n := BYTES_PER_CELL) hs, Outcome.ok_bind]

/-- C33 (Node): a BigInt from 0 to 2^64 - 1 reaches the library unchanged, and a negative one does not reach it (the assertion in
`bigint_to_u64` panics, in both methods that take indices, whatever the other arguments). -/
theorem C33_node_below :
    (∀ v : Int, 0 ≤ v → v < 2 ^ 64 → ∃ i, bigintToU64 v = .ok i ∧ (i : Int) = v) ∧
    (∀ (inds : List Int) (commitments cells proofs : List (List UInt8)), (∃ v ∈ inds, v < 0) →
      verifyCellKzgProofBatchN sha256 ctx commitments inds cells proofs = .panic ∧
      recoverCellsAndKzgProofsN ctx inds cells = .panic) := by
  constructor
  · intro v h0 h1
    refine ⟨_, bigint_ok h0, ?_⟩
    omega
  · intro inds commitments cells proofs h
    unfold verifyCellKzgProofBatchN recoverCellsAndKzgProofsN
    rw [bigints_negative h]
    exact ⟨rfl, rfl⟩

/-- C33 (Node): adding a multiple of 2^64 to BigInts changes nothing: such an index is taken for a small one. -/
theorem C33_node_aliases (inds inds' : List Int)
    (h : List.Forall₂ (fun (v v' : Int) => 0 ≤ v ∧ ∃ m : Nat, v' = v + m * 2 ^ 64) inds inds') (commitments cells proofs : List (List UInt8)) :
    verifyCellKzgProofBatchN sha256 ctx commitments inds' cells proofs =
      verifyCellKzgProofBatchN sha256 ctx commitments inds cells proofs ∧
    recoverCellsAndKzgProofsN ctx inds' cells = recoverCellsAndKzgProofsN ctx inds cells := by
  have : inds'.mapM bigintToU64 = inds.mapM bigintToU64 := by
    induction h with
    | nil => rfl
    | @cons v v' l l' hv _ ih =>
      obtain ⟨h0, m, rfl⟩ := hv
      rw [List.mapM_cons, List.mapM_cons, ih, bigint_ok h0, bigint_ok (by positivity)]
      congr 2
      omega
  unfold verifyCellKzgProofBatchN recoverCellsAndKzgProofsN
  rw [this]
  exact ⟨rfl, rfl⟩

end

open Toy in
/-- C33 (Node): "an index is used unchanged or rejected" is false. The cell index 2^64 + 5, which is no cell index, is accepted
together with a cell and a proof for index 5. -/
theorem C33_node_refuted : ∃ (ctx : DASContext Fr Fr Fr) (v : Int) (commitment cell proof : List UInt8), 128 ≤ v ∧
    (DASContext.new (setup 7) .no : Outcome Error (DASContext Fr Fr Fr)) = .ok ctx ∧
    ∀ sha256, verifyCellKzgProofBatchN sha256 ctx [commitment] [v] [cell] [proof] = .ok true := by
  obtain ⟨ctx, hctx⟩ := Toy.context 7
  refine ⟨ctx, 2 ^ 64 + 5, toCompressed (0 : Fr), zeroCell, toCompressed (0 : Fr), by norm_num, hctx, fun sha256 => ?_⟩
  have hl : (toCompressed (0 : Fr)).length = 48 := LawfulPointCodec.length_toCompressed (size := 48) (0 : Fr)
  have hz : zeroCell.length = 2048 := isCell_zero.1
  have hd : fromCompressed (toCompressed (0 : Fr)) = some (0 : Fr) :=
    LawfulPointCodec.fromCompressed_toCompressed (size := 48) (0 : Fr)
  refine ((C34_node_verify_cell_kzg_proof_batch sha256 ctx [toCompressed (0 : Fr)] [zeroCell] [toCompressed (0 : Fr)] [2 ^ 64 + 5] [5]
    (.cons ⟨by norm_num, by norm_num⟩ .nil) _ rfl _ rfl).2.2.2 (by simpa [Sized] using hl) (by simpa [Sized] using hz)
    (by simpa [Sized] using hl)).1 ?_
  exact (C06_single (setup 7) .no 7 1 1 (powersOfTau 7) nondegenerate ctx hctx sha256 (toCompressed (0 : Fr)) 5 zeroCell
    (toCompressed (0 : Fr)) hl hl 0 0 0 hd (by norm_num) (by rw [Polynomial.degree_zero]; exact WithBot.bot_lt_coe _)
    isCell_zero hd).2 (by simp)

open Toy in
/-- A Java object with a live context, and Java arguments with one cell of 3 bytes: the hypotheses of the Java theorems are met, and the
exception names the cell. -/
example (ctx : DASContext Fr Fr Fr) (sha256 : List UInt8 → List UInt8) :
    LibEthKZG.verifyCellKZGProofBatch [] sha256 ⟨16⟩ (some [some [1]]) (some [-1]) (some [some [1, -1, 0]]) (some [])
        (⟨fun _ => none, fun a => if a = 16 then some ctx else none, fun _ => none⟩ : CState (DASContext Fr Fr Fr)) =
      .err (.illegalArgument (ascii
        "function verifyCellKZGProofBatch has thrown an exception, with reason: cell is not the correct size. expected: 2048\ngot: 3"))
        ⟨fun _ => none, fun a => if a = 16 then some ctx else none, fun _ => none⟩ := by
  refine ((C34_java_verify_cell_kzg_proof_batch _ [] sha256 ⟨16⟩ ctx (by decide) (by simp) [[1]] [[1, -1, 0]] [] [-1] [[1]]
    [[1, 255, 0]] [] [18446744073709551615] ((forall₂_javaBytes_iff _ _).2 (by decide))
    ((forall₂_javaBytes_iff _ _).2 (by decide)) .nil (.cons (by decide) .nil) _ rfl _ rfl).1 3
    ⟨[], [1, -1, 0], [], rfl, by simp [Sized], rfl, by decide⟩).trans ?_
  have : javaSizeMessage "verifyCellKZGProofBatch" "cell" "2048" 3 = ascii
    "function verifyCellKZGProofBatch has thrown an exception, with reason: cell is not the correct size. expected: 2048\ngot: 3" := by
    decide +kernel
  rw [this]

open Toy in
/-- A negative Java index, and a Java object whose context was destroyed. -/
example (ctx : DASContext Fr Fr Fr) (sha256 : List UInt8 → List UInt8) (s : CState (DASContext Fr Fr Fr)) (h : s.ctxs 16 = some ctx) :
    ∃ e, LibEthKZG.verifyCellKZGProofBatch [] sha256 ⟨16⟩ none (some [3, -5]) none none s = .err e s :=
  (C33_java_negative s [] sha256 ⟨16⟩ ctx (fun _ => h) [3, -5] ⟨-5, by simp, by decide⟩ none none none).1

end Verif
