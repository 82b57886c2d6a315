import Verif.Lemmas.JniMarks
import Verif.Spec.JavaCalls
import Verif.Props.Bindings

set_option linter.unusedSectionVars false

/-! C70: the native methods of the Java bindings and the rules of the Java Native Interface. -/
namespace Verif
open Spec Jni

section
variable {K G1 G2 GT : Type} [Field K] [DecidableEq K] [AddCommGroup G1] [Module Fr G1] [DecidableEq G1]
  [Curve K G1] [PointCodec G1] [LawfulPointCodec G1 48] [AddCommGroup G2] [Module Fr G2] [AddCommGroup GT] [DecidableEq GT]
  [Pairing G1 G2 GT]
variable (vm : Jvm) (jniDebug : List UInt8) (sha256 : List UInt8 → List UInt8)

namespace Jni

/-- the name of the method, in messages -/
def funcName : JavaCall → String
  | .blobToKZGCommitment _ => "blobToKZGCommitment"
  | .computeCellsAndKZGProofs _ => "computeCellsAndKZGProofs"
  | .verifyCellKZGProofBatch _ _ _ _ => "verifyCellKZGProofBatch"
  | .recoverCellsAndKZGProofs _ _ => "recoverCellsAndKZGProofs"

/-- the body of the method in the model of values -/
def bodyJ (ctx : DASContext K G1 G2) : (call : JavaCall) → Outcome JError call.Result
  | .blobToKZGCommitment blob => blobToKzgCommitmentJ blob ctx
  | .computeCellsAndKZGProofs blob => computeCellsAndKzgProofsJ blob ctx
  | .verifyCellKZGProofBatch a b c d => verifyCellKzgProofBatchJ sha256 a b c d ctx
  | .recoverCellsAndKZGProofs a b => recoverCellsAndKzgProofsJ a b ctx

/-- the body of the method in the model with calls -/
def bodyJni (ctx : DASContext K G1 G2) : (call : JavaCall) → JniM call.Result
  | .blobToKZGCommitment blob => blobToKzgCommitmentJni vm blob ctx
  | .computeCellsAndKZGProofs blob => computeCellsAndKzgProofsJni vm blob ctx
  | .verifyCellKZGProofBatch a b c d => verifyCellKzgProofBatchJni vm sha256 a b c d ctx
  | .recoverCellsAndKZGProofs a b => recoverCellsAndKzgProofsJni vm a b ctx

/-- the references that a successful call creates -/
def refs : JavaCall → Nat
  | .blobToKZGCommitment _ => 1
  | .computeCellsAndKZGProofs _ => 264
  | .verifyCellKZGProofBatch a _ c d => items a + items c + items d
  | .recoverCellsAndKZGProofs _ b => items b + 264

theorem runs_body (ctx : DASContext K G1 G2) (call : JavaCall) :
    Runs vm (bodyJni vm sha256 ctx call) (bodyJ sha256 ctx call) (refs call) := by
  cases call with
  | blobToKZGCommitment blob => exact runs_commitment vm blob ctx
  | computeCellsAndKZGProofs blob => exact runs_compute vm blob ctx
  | verifyCellKZGProofBatch a b c d => exact runs_verify vm sha256 a b c d ctx
  | recoverCellsAndKZGProofs a b => exact runs_recover vm a b ctx

theorem native_eq (ctx : DASContext K G1 G2) (call : JavaCall) :
    call.native vm jniDebug sha256 ctx = nativeJni vm jniDebug (funcName call) (bodyJni vm sha256 ctx call) := by
  cases call <;> rfl

theorem method_eq (ctx : DASContext K G1 G2) (self : LibEthKZG) (s : CState (DASContext K G1 G2)) (h0 : self.contextPtr ≠ 0)
    (hctx : s.ctxs self.contextPtr = some ctx) (call : JavaCall) :
    SameEnd s (endOf jniDebug (funcName call) (bodyJ sha256 ctx call)) (call.method jniDebug sha256 self s) := by
  have key : ∀ {α : Type} (name : String) (f : DASContext K G1 G2 → Outcome JError α),
      SameEnd s (endOf jniDebug name (f ctx)) ((do self.checkContextHasNotBeenFreed; nativeJ jniDebug self.contextPtr name f) s) := by
    intro α name f
    unfold LibEthKZG.checkContextHasNotBeenFreed
    rw [if_neg h0]
    show SameEnd s _ (nativeJ jniDebug self.contextPtr name f s)
    unfold nativeJ
    rw [CM.bind_apply]
    unfold derefCtx
    simp only [hctx]
    cases f ctx <;> rfl
  cases call with
  | blobToKZGCommitment blob => exact key "blobToKZGCommitment" (blobToKzgCommitmentJ blob)
  | computeCellsAndKZGProofs blob => exact key "computeCellsAndKZGProofs" (computeCellsAndKzgProofsJ blob)
  | verifyCellKZGProofBatch a b c d => exact key "verifyCellKZGProofBatch" (verifyCellKzgProofBatchJ sha256 a b c d)
  | recoverCellsAndKZGProofs a b => exact key "recoverCellsAndKZGProofs" (recoverCellsAndKzgProofsJ a b)

end Jni

/-- C70: if no call to the virtual machine fails, every method does exactly what the model of values says; it makes every call with no
exception pending; and an exception is pending at the end exactly if the method throws. -/
theorem C70_no_failure (hvm : ∀ k, vm.raises k = false) (ctx : DASContext K G1 G2) (self : LibEthKZG)
    (s : CState (DASContext K G1 G2)) (h0 : self.contextPtr ≠ 0) (hctx : s.ctxs self.contextPtr = some ctx) (call : JavaCall) :
    SameEnd s (call.native vm jniDebug sha256 ctx).1 (call.method jniDebug sha256 self s) ∧
      Disciplined (call.native vm jniDebug sha256 ctx).2.trace ∧
      (∀ a, (call.native vm jniDebug sha256 ctx).1 = .returned a → (call.native vm jniDebug sha256 ctx).2.pending = false) ∧
      (∀ e, (call.native vm jniDebug sha256 ctx).1 = .threw e → (call.native vm jniDebug sha256 ctx).2.pending = true) := by
  have h := native_runs vm (runs_body vm sha256 ctx call) jniDebug (funcName call) _ rfl
  rw [← native_eq] at h
  have hf : ∀ c ∈ (call.native vm jniDebug sha256 ctx).2.trace, c.failed = false := by
    intro c hc
    by_contra hcf
    obtain ⟨-, k, hk⟩ := h.2.1 ⟨c, hc, by simpa using hcf⟩
    rw [hvm k] at hk
    cases hk
  refine ⟨?_, ?_, fun a ha => (h.2.2.2.2.1 a ha).1, h.2.2.2.2.2⟩
  · rw [h.1 hf]
    exact method_eq jniDebug sha256 ctx self s h0 hctx call
  · rw [h.2.2.1]
    intro c hc hcf
    rw [hf c hc] at hcf
    cases hcf

/-- C70: whatever the virtual machine does, a method that does not abort the process does what the model of values says, and it aborts
the process exactly if the library panics or one of its calls to the virtual machine raises an exception. In particular such an exception
never reaches the Java caller. -/
theorem C70_ends (ctx : DASContext K G1 G2) (self : LibEthKZG) (s : CState (DASContext K G1 G2)) (h0 : self.contextPtr ≠ 0)
    (hctx : s.ctxs self.contextPtr = some ctx) (call : JavaCall) :
    (SameEnd s (call.native vm jniDebug sha256 ctx).1 (call.method jniDebug sha256 self s) ∨
      (call.native vm jniDebug sha256 ctx).1 = .aborted) ∧
    ((call.native vm jniDebug sha256 ctx).1 = .aborted ↔
      call.method jniDebug sha256 self s = .panic ∨ ∃ c ∈ (call.native vm jniDebug sha256 ctx).2.trace, c.failed = true) := by
  have h := native_runs vm (runs_body vm sha256 ctx call) jniDebug (funcName call) _ rfl
  rw [← native_eq] at h
  have hm := method_eq jniDebug sha256 ctx self s h0 hctx call
  by_cases hf : ∃ c ∈ (call.native vm jniDebug sha256 ctx).2.trace, c.failed = true
  · exact ⟨.inr (h.2.1 hf).1, fun _ => .inr hf, fun _ => (h.2.1 hf).1⟩
  · have hf' : ∀ c ∈ (call.native vm jniDebug sha256 ctx).2.trace, c.failed = false := by
      intro c hc
      by_contra hcf
      exact hf ⟨c, hc, by simpa using hcf⟩
    rw [h.1 hf']
    refine ⟨.inl hm, ?_⟩
    constructor
    · intro ha
      rw [ha] at hm
      exact .inl hm
    · rintro (hp | hp)
      · rw [hp] at hm
        cases hb : bodyJ sha256 ctx call with
        | ok a => rw [hb] at hm; cases hm
        | err e => rw [hb] at hm; cases hm
        | panic => rfl
      · exact absurd hp hf

/-- C70: every call can fail that the JNI specification allows to. If the machine raises an exception in any such call that a method
makes, the process is aborted. -/
theorem C70_failure_at (ctx : DASContext K G1 G2) (call : JavaCall) (k : Nat) (c : JniCall)
    (hc : (call.native vm jniDebug sha256 ctx).2.trace[k]? = some c) (hr : Raising c.fn) (hk : vm.raises k = true) :
    (call.native vm jniDebug sha256 ctx).1 = .aborted := by
  have hf := native_call_marked vm jniDebug sha256 ctx call k c hc hr hk
  have h := native_runs vm (runs_body vm sha256 ctx call) jniDebug (funcName call) _ rfl
  rw [← native_eq] at h
  exact (h.2.1 ⟨c, List.mem_of_getElem? hc, hf⟩).1

/-- C70: a method breaks the rule on pending exceptions exactly if a call fails other than the two with which it throws its own
exception: it then looks up the class of its exception with the other one still pending. -/
theorem C70_disciplined_iff (ctx : DASContext K G1 G2) (call : JavaCall) :
    Disciplined (call.native vm jniDebug sha256 ctx).2.trace ↔
      ∀ c ∈ (call.native vm jniDebug sha256 ctx).2.trace, c.failed = true →
        c.fn = .FindClass "java/lang/IllegalArgumentException" ∨ c.fn = .ThrowNew := by
  have h := native_runs vm (runs_body vm sha256 ctx call) jniDebug (funcName call) _ rfl
  rw [← native_eq] at h
  rw [h.2.2.1]
  refine forall_congr' fun c => forall_congr' fun _ => forall_congr' fun _ => ?_
  unfold OfBody
  tauto

/-- C70: the property that every exception of the virtual machine reaches the caller is false. For every blob with a commitment there is a
virtual machine with one failing allocation for which `blobToKZGCommitment` aborts the process, after a call that is not allowed while an
exception is pending. -/
theorem C70_failure_aborts (ctx : DASContext K G1 G2) (blob : List Int8) (commitment : List Int8)
    (hb : blobToKzgCommitmentJ (some blob) ctx = .ok commitment) :
    ∃ vm : Jvm, (∃! k, vm.raises k = true) ∧
      ((JavaCall.blobToKZGCommitment (some blob)).native vm jniDebug sha256 ctx).1 = .aborted ∧
      ¬ Disciplined ((JavaCall.blobToKZGCommitment (some blob)).native vm jniDebug sha256 ctx).2.trace := by
  refine ⟨⟨fun k => k == 2⟩, ⟨2, rfl, fun k hk => by simpa using hk⟩, ?_⟩
  unfold blobToKzgCommitmentJ at hb
  rw [bind_eq_ok] at hb
  obtain ⟨b, h1, hb⟩ := hb
  rw [bind_eq_ok] at hb
  obtain ⟨b', h2, hb⟩ := hb
  rw [bind_eq_ok] at hb
  obtain ⟨c, h3, -⟩ := hb
  have hbody : ∃ s, blobToKzgCommitmentJni ⟨fun k => k == 2⟩ (some blob) ctx .entry = (.err .Jni, s) ∧ s.pending = true := by
    have hcv : convertByteArrayJni ⟨fun k => k == 2⟩ (some blob) .entry =
        (.ok b, ⟨[⟨.GetArrayLength, false, false, 0⟩, ⟨.GetByteArrayRegion, false, false, 0⟩], 0, false⟩) := by
      cases h1
      unfold convertByteArrayJni getArrayLength getByteArrayRegion
      simp [nonNull, bind, JniM.bind, jniCall, JniFn.mayFail, JniState.entry, pure]
    refine ⟨⟨[⟨.GetArrayLength, false, false, 0⟩, ⟨.GetByteArrayRegion, false, false, 0⟩, ⟨.NewByteArray, false, true, 0⟩], 0, true⟩,
      ?_, rfl⟩
    show JniM.bind (convertByteArrayJni ⟨fun k => k == 2⟩ (some blob)) _ .entry = _
    unfold JniM.bind
    rw [hcv]
    simp only
    show JniM.bind (JniM.lift (sliceToArrayRefJ BYTES_PER_BLOB b "blob")) _ _ = _
    unfold JniM.bind JniM.lift
    rw [h2]
    simp only
    show JniM.bind (JniM.lift ((ctx.blobToKzgCommitment b').mapErr .Cryptography)) _ _ = _
    unfold JniM.bind JniM.lift
    rw [h3]
    simp [byteArrayFromSliceJni, newByteArray, bind, JniM.bind, jniCall, JniFn.mayFail]
  obtain ⟨s, h4, h5⟩ := hbody
  obtain ⟨d, g1, g2, g3, g4⟩ := throwNew_pending ⟨fun k => k == 2⟩ s h5
  have hn : (JavaCall.blobToKZGCommitment (some blob)).native ⟨fun k => k == 2⟩ jniDebug sha256 ctx =
      (.aborted, ⟨s.trace ++ [d], s.locals, true⟩) := by
    show nativeJni _ jniDebug _ (blobToKzgCommitmentJni _ (some blob) ctx) = _
    unfold nativeJni
    rw [h4]
    simp only [g1]
    rfl
  rw [hn]
  refine ⟨rfl, fun hd => ?_⟩
  have := hd d (by simp) g3
  rw [g2] at this
  exact this

/-- C70: the local references that the methods hold. `blobToKZGCommitment` always stays within the guaranteed 16; a verification does
with at most 15 items in total. -/
theorem C70_within_capacity (ctx : DASContext K G1 G2) :
    (∀ blob, WithinCapacity ((JavaCall.blobToKZGCommitment blob).native vm jniDebug sha256 ctx).2.trace) ∧
    (∀ commitments cellIndices cells proofs a b c, Whole commitments a → Whole cells b → Whole proofs c → a + b + c ≤ 15 →
      WithinCapacity ((JavaCall.verifyCellKZGProofBatch commitments cellIndices cells proofs).native vm jniDebug sha256 ctx).2.trace) := by
  refine ⟨fun blob => ?_, fun commitments cellIndices cells proofs a b c ha hb hc habc => ?_⟩
  · have h := native_runs vm (runs_body vm sha256 ctx (.blobToKZGCommitment blob)) jniDebug "blobToKZGCommitment" _ rfl
    intro c hc
    have := h.2.2.2.1 c hc
    have hr : refs (.blobToKZGCommitment blob) = 1 := rfl
    rw [hr] at this
    unfold localCapacity
    omega
  · obtain ⟨la, rfl, rfl⟩ := ha
    obtain ⟨lb, rfl, rfl⟩ := hb
    obtain ⟨lc, rfl, rfl⟩ := hc
    have h := native_runs vm (runs_body vm sha256 ctx (.verifyCellKZGProofBatch (some (la.map some)) cellIndices (some (lb.map some))
      (some (lc.map some)))) jniDebug "verifyCellKZGProofBatch" _ rfl
    intro c hc
    have := h.2.2.2.1 c hc
    have hr : refs (.verifyCellKZGProofBatch (some (la.map some)) cellIndices (some (lb.map some)) (some (lc.map some))) =
        la.length + lb.length + lc.length := by simp [refs, items]
    rw [hr] at this
    unfold localCapacity
    omega

/-- C70: every successful computation of cells and proofs, and every successful recovery, holds more local references than the 16 that
a virtual machine must grant: 264, and 264 and the number of cells. -/
theorem C70_results_exceed_capacity (ctx : DASContext K G1 G2) :
    (∀ blob r, ((JavaCall.computeCellsAndKZGProofs blob).native vm jniDebug sha256 ctx).1 = .returned r →
      (∃ c ∈ ((JavaCall.computeCellsAndKZGProofs blob).native vm jniDebug sha256 ctx).2.trace, c.locals = 264) ∧
      ¬ WithinCapacity ((JavaCall.computeCellsAndKZGProofs blob).native vm jniDebug sha256 ctx).2.trace) ∧
    (∀ cellIDs cells n r, Whole cells n → ((JavaCall.recoverCellsAndKZGProofs cellIDs cells).native vm jniDebug sha256 ctx).1 = .returned r →
      (∃ c ∈ ((JavaCall.recoverCellsAndKZGProofs cellIDs cells).native vm jniDebug sha256 ctx).2.trace, c.locals = n + 264) ∧
      ¬ WithinCapacity ((JavaCall.recoverCellsAndKZGProofs cellIDs cells).native vm jniDebug sha256 ctx).2.trace) := by
  have key : ∀ (call : JavaCall) n r, refs call = n + 264 → (call.native vm jniDebug sha256 ctx).1 = .returned r →
      (∃ c ∈ (call.native vm jniDebug sha256 ctx).2.trace, c.locals = n + 264) ∧
      ¬ WithinCapacity (call.native vm jniDebug sha256 ctx).2.trace := by
    intro call n r hn hr
    have h := native_runs vm (runs_body vm sha256 ctx call) jniDebug (funcName call) _ rfl
    rw [← native_eq, hn] at h
    obtain ⟨-, -, h1 | ⟨c, hc, h1⟩⟩ := h.2.2.2.2.1 r hr
    · omega
    · refine ⟨⟨c, hc, h1⟩, fun hw => ?_⟩
      have := hw c hc
      unfold localCapacity at this
      omega
  refine ⟨fun blob r hr => key _ 0 r rfl hr, fun cellIDs cells n r hw hr => key _ n r ?_ hr⟩
  obtain ⟨l, rfl, rfl⟩ := hw
  simp [refs, items]

/-- C70: a verification of more than 16 commitments, cells and proofs together holds more local references than a virtual machine must
grant, whatever the arrays contain and whatever the method answers: the number grows with the batch. -/
theorem C70_verification_exceeds_capacity (ctx : DASContext K G1 G2) (commitments cells proofs : JObjectArray) (indices : List Int64)
    (a b c : Nat) (ha : Whole commitments a) (hb : Whole cells b) (hc : Whole proofs c) (h : 16 < a + b + c) :
    (∃ d ∈ ((JavaCall.verifyCellKZGProofBatch commitments (some indices) cells proofs).native vm jniDebug sha256 ctx).2.trace,
      d.locals = a + b + c) ∧
    ¬ WithinCapacity ((JavaCall.verifyCellKZGProofBatch commitments (some indices) cells proofs).native vm jniDebug sha256 ctx).2.trace := by
  obtain ⟨la, rfl, rfl⟩ := ha
  obtain ⟨lb, rfl, rfl⟩ := hb
  obtain ⟨lc, rfl, rfl⟩ := hc
  have hw : ∀ l : List (List Int8), ∃ b, jobjectArrayTo2dByteArray (some (l.map some)) = .ok b := fun l =>
    ⟨l.map (fun x => x.map Int8.toUInt8), by
      show (l.map some).mapM convertByteArray = _
      rw [List.mapM_map]
      exact mapM_ok (g := fun x : List Int8 => x.map Int8.toUInt8) (fun x _ => rfl)⟩
  obtain ⟨ba, hba⟩ := hw la
  obtain ⟨bb, hbb⟩ := hw lb
  obtain ⟨bc, hbc⟩ := hw lc
  have hread : Runs ⟨fun _ => false⟩ (do
      let a ← jobjectArrayTo2dByteArrayJni vm (some (la.map some))
      let i ← jlongarrayToVecU64Jni vm (some indices)
      let b ← jobjectArrayTo2dByteArrayJni vm (some (lb.map some))
      let c ← jobjectArrayTo2dByteArrayJni vm (some (lc.map some))
      pure (a, i, b, c)) (.ok (ba, indices.map (fun x => x.toUInt64.toNat), bb, bc)) (la.length + lb.length + lc.length) := by
    simp only [read_quiet vm ⟨fun _ => false⟩, read_quiet_long vm ⟨fun _ => false⟩]
    refine (runs_bind (runs_jobjectArrayTo2dByteArray _ _) fun a _ => runs_bind (runs_jlongarrayToVecU64 _ _) fun i _ =>
      runs_bind (runs_jobjectArrayTo2dByteArray _ _) fun b _ => runs_bind (runs_jobjectArrayTo2dByteArray _ _) fun c _ =>
      runs_pure (a, i, b, c)).cast ?_ (by simp [items]; ring)
    rw [hba, hbb, hbc]
    rfl
  have hd := native_prefix vm (α := Bool) (k := fun r : List (List UInt8) × List Nat × List (List UInt8) × List (List UInt8) => do
      let cells ← JniM.lift (r.2.2.1.mapM (fun cell => sliceToArrayRefJ BYTES_PER_CELL cell "cell"))
      let commitments ← JniM.lift
        (r.1.mapM (fun commitment => sliceToArrayRefJ BYTES_PER_COMMITMENT commitment "commitment"))
      let proofs ← JniM.lift (r.2.2.2.mapM (fun proof => sliceToArrayRefJ BYTES_PER_COMMITMENT proof "proof"))
      JniM.lift (match ctx.verifyCellKzgProofBatch sha256 commitments r.2.1 cells proofs with
        | .ok _ => pure true
        | .err x => if x.invalidProof then pure false else .err (.Cryptography x)
        | .panic => .panic)) hread (fun _ => rfl)
    (runs_bind (runs_lift _) fun e _ => runs_bind (runs_lift _) fun f _ => runs_bind (runs_lift _) fun g _ => runs_lift _)
    (by omega) jniDebug "verifyCellKZGProofBatch"
  simp only [bind_assoc, pure_bind] at hd
  refine ⟨hd, fun hw => ?_⟩
  obtain ⟨d, h1, h2⟩ := hd
  have := hw d h1
  unfold localCapacity at this
  omega

end

/-! ### The hypotheses can be met -/

open Toy

/-- the process with the context at address 16 -/
def Jni.proc (ctx : DASContext Fr Fr Fr) : CState (DASContext Fr Fr Fr) :=
  ⟨fun _ => none, fun a => if a = 16 then some ctx else none, fun _ => none⟩

/-- C70: a blob with a commitment; one failing allocation aborts the process -/
example (sha256 : List UInt8 → List UInt8) : ∃ (ctx : DASContext Fr Fr Fr) (vm : Jvm), (∃! k, vm.raises k = true) ∧
    ((JavaCall.blobToKZGCommitment (some (byteArrayFromSlice Toy.blob))).native vm [] sha256 ctx).1 = .aborted := by
  obtain ⟨ctx, hctx⟩ := context 7
  have h1 := C03_commitment (setup 7) .no 7 1 1 (powersOfTau 7) ctx hctx blob poly blob_poly
  obtain ⟨vm, h2, h3, -⟩ := C70_failure_aborts [] sha256 ctx (byteArrayFromSlice Toy.blob)
    (byteArrayFromSlice (toCompressed (poly.eval 7 • (1 : Fr)))) (by
      have hc : convertByteArray (some (byteArrayFromSlice Toy.blob)) = .ok Toy.blob := by
        show Outcome.ok _ = _
        rw [(javaBytes_iff _ _).1 (javaBytes_toInt8 Toy.blob)]
      unfold blobToKzgCommitmentJ
      rw [hc, Outcome.ok_bind]
      unfold sliceToArrayRefJ
      rw [if_pos (show Toy.blob.length = BYTES_PER_BLOB from blob_poly.2.1), Outcome.ok_bind, h1]
      rfl)
  exact ⟨ctx, vm, h2, h3⟩

theorem Jni.returned_of (vm : Jvm) (hvm : ∀ k, vm.raises k = false) (sha256 : List UInt8 → List UInt8) (ctx : DASContext Fr Fr Fr)
    (call : JavaCall) (r : call.Result) (h : call.method [] sha256 ⟨16⟩ (Jni.proc ctx) = .ok r (Jni.proc ctx)) :
    (call.native vm [] sha256 ctx).1 = .returned r := by
  obtain ⟨h1, -⟩ := C70_no_failure vm [] sha256 hvm ctx ⟨16⟩ (Jni.proc ctx) (by decide) (by simp [Jni.proc]) call
  rw [h] at h1
  rcases hn : (call.native vm [] sha256 ctx).1 with a | e | _
  · rw [hn] at h1
    cases h1
    rfl
  · rw [hn] at h1; cases h1
  · rw [hn] at h1; cases h1

/-- C70: a machine that always raises; the first call that may raise is the lookup of the exception for a blob of the wrong length -/
example (sha256 : List UInt8 → List UInt8) (ctx : DASContext Fr Fr Fr) :
    (JavaCall.blobToKZGCommitment (some [])).native ⟨fun _ => true⟩ [] sha256 ctx = (.aborted,
      ⟨[⟨.GetArrayLength, false, false, 0⟩, ⟨.GetByteArrayRegion, false, false, 0⟩,
        ⟨.FindClass "java/lang/IllegalArgumentException", false, true, 0⟩], 0, true⟩) := rfl

/-- C70: a machine that never fails, and a blob whose cells and proofs are computed: the method returns them, and holds 264 references -/
example (vm : Jvm) (hvm : ∀ k, vm.raises k = false) (sha256 : List UInt8 → List UInt8) :
    ∃ (ctx : DASContext Fr Fr Fr) (blob : JByteArray) (r : List (List Int8) × List (List Int8)),
      ((JavaCall.computeCellsAndKZGProofs blob).native vm [] sha256 ctx).1 = .returned r ∧ r.1.length = 128 ∧
      ∃ c ∈ ((JavaCall.computeCellsAndKZGProofs blob).native vm [] sha256 ctx).2.trace, c.locals = 264 := by
  obtain ⟨ctx, hctx⟩ := context 7
  obtain ⟨cells, proofs, h, hl, -⟩ := C04_proofs (setup 7) 7 1 1 (powersOfTau 7) ctx hctx Toy.blob Toy.poly Toy.blob_poly
  have hb : Toy.blob.length = 131072 := Toy.blob_poly.2.1
  generalize Toy.blob = blob at h hb
  obtain ⟨c, p, hr, hc, -⟩ := ((C34_java_compute_cells_and_kzg_proofs (Jni.proc ctx) [] ⟨16⟩ ctx (by decide) (by simp [Jni.proc])
    (byteArrayFromSlice blob) blob (javaBytes_toInt8 _)).2 (by simp [byteArrayFromSlice, hb])).1 cells proofs h
  have hret := Jni.returned_of vm hvm sha256 ctx (.computeCellsAndKZGProofs (some (byteArrayFromSlice blob))) (c, p) hr
  exact ⟨ctx, _, (c, p), hret, by rw [hc.length_eq, hl], ((C70_results_exceed_capacity vm [] sha256 ctx).1 _ _ hret).1⟩

/-- C70: six cells with their commitments and proofs make 18 items -/
example (ctx : DASContext Fr Fr Fr) (vm : Jvm) (sha256 : List UInt8 → List UInt8) :
    ¬ WithinCapacity ((JavaCall.verifyCellKZGProofBatch (some (List.replicate 6 (some []))) (some []) (some (List.replicate 6 (some [])))
      (some (List.replicate 6 (some [])))).native vm [] sha256 ctx).2.trace := by
  have h : Whole (some (List.replicate 6 (some []))) 6 := ⟨List.replicate 6 [], by simp, by simp⟩
  exact (C70_verification_exceeds_capacity vm [] sha256 ctx _ _ _ [] 6 6 6 h h h (by norm_num)).2

/-- C70: five cells with their commitments and proofs make 15 items -/
example (ctx : DASContext Fr Fr Fr) (vm : Jvm) (sha256 : List UInt8 → List UInt8) :
    WithinCapacity ((JavaCall.verifyCellKZGProofBatch (some (List.replicate 5 (some []))) (some []) (some (List.replicate 5 (some [])))
      (some (List.replicate 5 (some [])))).native vm [] sha256 ctx).2.trace := by
  have h : Whole (some (List.replicate 5 (some []))) 5 := ⟨List.replicate 5 [], by simp, by simp⟩
  exact (C70_within_capacity vm [] sha256 ctx).2 _ _ _ _ 5 5 5 h h h (by norm_num)

end Verif
