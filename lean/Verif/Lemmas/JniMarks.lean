import Verif.Lemmas.Jni
import Verif.Spec.JavaCalls

set_option linter.unusedSectionVars false

/-! The calls that a virtual machine makes fail are recorded as failed. -/
namespace Verif.Jni
open Spec

/-- every recorded call of a function that can raise failed, if the machine raises at its position -/
def Marked (vm : Jvm) (s : JniState) : Prop :=
  ∀ (k : Nat) (c : JniCall), s.trace[k]? = some c → Raising c.fn → vm.raises k = true → c.failed = true

def Keeps {α : Type} (vm : Jvm) (m : JniM α) : Prop := ∀ s, Marked vm s → Marked vm (m s).2

variable {α β : Type} {vm : Jvm}

theorem marked_append {s : JniState} (h : Marked vm s) (c : JniCall) (l : Nat) (p : Bool)
    (hc : Raising c.fn → vm.raises s.trace.length = true → c.failed = true) : Marked vm ⟨s.trace ++ [c], l, p⟩ := by
  intro k d hd hr hk
  rcases Nat.lt_trichotomy k s.trace.length with hlt | heq | hgt
  · exact h k d (by simpa [List.getElem?_append_left hlt] using hd) hr hk
  · subst heq
    simp at hd
    subst hd
    exact hc hr hk
  · rw [List.getElem?_eq_none (by simp; omega)] at hd
    cases hd

theorem mayFail_of_raising {fn : JniFn} (h : Raising fn) : fn.mayFail = true := by
  cases fn <;> first | rfl | exact absurd h id

theorem keeps_lift (x : Outcome JError α) : Keeps vm (JniM.lift x) := fun _ h => h

theorem keeps_pure (a : α) : Keeps vm (pure a) := fun _ h => h

theorem keeps_bind {m : JniM α} {f : α → JniM β} (hm : Keeps vm m) (hf : ∀ a, Keeps vm (f a)) : Keeps vm (m >>= f) := by
  intro s hs
  have h := hm s hs
  show Marked vm (JniM.bind m f s).2
  unfold JniM.bind
  rcases hr : m s with ⟨r, s'⟩
  rw [hr] at h
  cases r with
  | ok a => exact hf a s' h
  | err e => exact h
  | panic => exact h

theorem keeps_call (fn : JniFn) (legal : Bool) (n : Nat) : Keeps vm (jniCall vm fn legal n) := by
  intro s hs
  unfold jniCall
  refine marked_append hs _ _ _ ?_
  intro hr hk
  simp only [mayFail_of_raising hr, hk, Bool.and_self, Bool.or_true]

theorem keeps_nonNull (a : Option α) : Keeps vm (nonNull a) := by cases a <;> exact fun _ h => h

theorem keeps_mapM (xs : List α) {f : α → JniM β} (h : ∀ x, Keeps vm (f x)) : Keeps vm (xs.mapM f) := by
  induction xs with
  | nil => exact keeps_pure _
  | cons x xs ih =>
    rw [List.mapM_cons]
    exact keeps_bind (h x) fun _ => keeps_bind ih fun _ => keeps_pure _

theorem keeps_foldlM {σ : Type} (xs : List α) {f : σ → α → JniM σ} (h : ∀ a x, Keeps vm (f a x)) (a : σ) :
    Keeps vm (xs.foldlM f a) := by
  induction xs generalizing a with
  | nil => exact keeps_pure _
  | cons x xs ih =>
    rw [List.foldlM_cons]
    exact keeps_bind (h a x) ih

section
variable (vm : Jvm)

theorem keeps_getArrayLength (a : Option (List α)) : Keeps vm (getArrayLength vm a) :=
  keeps_bind (keeps_nonNull a) fun _ => keeps_bind (keeps_call _ _ _) fun _ => keeps_pure _

theorem keeps_getByteArrayRegion (a : JByteArray) (i n : Nat) : Keeps vm (getByteArrayRegion vm a i n) :=
  keeps_bind (keeps_nonNull a) fun _ => keeps_bind (keeps_call _ _ _) fun _ => keeps_pure _

theorem keeps_getLongArrayRegion (a : JLongArray) (i n : Nat) : Keeps vm (getLongArrayRegion vm a i n) :=
  keeps_bind (keeps_nonNull a) fun _ => keeps_bind (keeps_call _ _ _) fun _ => keeps_pure _

theorem keeps_getObjectArrayElement (a : JObjectArray) (i : Nat) : Keeps vm (getObjectArrayElement vm a i) := by
  refine keeps_bind (keeps_nonNull a) fun l => ?_
  split
  · exact keeps_bind (keeps_call _ _ _) fun _ => keeps_pure _
  · exact keeps_bind (keeps_call _ _ _) fun _ => keeps_pure _

theorem keeps_newByteArray (n : Nat) : Keeps vm (newByteArray vm n) := keeps_bind (keeps_call _ _ _) fun _ => keeps_pure _

theorem keeps_byteArrayFromSlice (b : List UInt8) : Keeps vm (byteArrayFromSliceJni vm b) :=
  keeps_bind (keeps_newByteArray vm _) fun _ => keeps_bind (keeps_call _ _ _) fun _ => keeps_pure _

theorem keeps_convertByteArray (a : JByteArray) : Keeps vm (convertByteArrayJni vm a) :=
  keeps_bind (keeps_getArrayLength vm a) fun _ => keeps_bind (keeps_getByteArrayRegion vm a _ _) fun _ => keeps_pure _

theorem keeps_jlongarrayToVecU64 (a : JLongArray) : Keeps vm (jlongarrayToVecU64Jni vm a) :=
  keeps_bind (keeps_getArrayLength vm a) fun _ => keeps_bind (keeps_getLongArrayRegion vm a _ _) fun _ => keeps_pure _

theorem keeps_jobjectArrayTo2dByteArray (a : JObjectArray) : Keeps vm (jobjectArrayTo2dByteArrayJni vm a) :=
  keeps_bind (keeps_getArrayLength vm a) fun _ => keeps_mapM _ fun i => keeps_bind (keeps_getObjectArrayElement vm a i) fun b =>
    keeps_bind (keeps_getArrayLength vm b) fun _ => keeps_bind (keeps_getByteArrayRegion vm b _ _) fun _ => keeps_pure _

theorem keeps_fillObjectArray (a : List (List Int8)) (values : List (List UInt8)) : Keeps vm (fillObjectArray vm a values) :=
  keeps_foldlM _ (fun _ _ => keeps_bind (keeps_byteArrayFromSlice vm _) fun _ => keeps_bind (keeps_call _ _ _) fun _ => keeps_pure _) _

theorem keeps_newObjectArray (n : Nat) (x : List Int8) : Keeps vm (newObjectArray vm n x) :=
  keeps_bind (keeps_call _ _ _) fun _ => keeps_pure _

theorem keeps_cellsAndProofsToJobject (cells proofs : List (List UInt8)) : Keeps vm (cellsAndProofsToJobjectJni vm cells proofs) :=
  keeps_bind (keeps_call _ _ _) fun _ => keeps_bind (keeps_call _ _ _) fun _ => keeps_bind (keeps_call _ _ _) fun _ =>
    keeps_bind (keeps_newByteArray vm _) fun _ => keeps_bind (keeps_newObjectArray vm _ _) fun _ =>
    keeps_bind (keeps_fillObjectArray vm _ _) fun _ => keeps_bind (keeps_newByteArray vm _) fun _ =>
    keeps_bind (keeps_newObjectArray vm _ _) fun _ => keeps_bind (keeps_fillObjectArray vm _ _) fun _ =>
    keeps_bind (keeps_call _ _ _) fun _ => keeps_bind (keeps_call _ _ _) fun _ => keeps_pure _

theorem keeps_throwNew (cls : String) : Keeps vm (throwNew vm cls) := by
  refine keeps_bind (keeps_call _ _ _) fun _ => keeps_bind ?_ fun failed => keeps_bind ?_ fun _ => ?_
  · intro s hs
    refine marked_append hs _ _ _ fun hr hk => ?_
    simp only [mayFail_of_raising hr, hk, Bool.and_self]
  · intro s hs
    exact marked_append hs _ _ _ fun hr => absurd hr id
  · cases failed
    · exact keeps_pure _
    · exact keeps_lift _

theorem native_marked {m : JniM α} (h : Keeps vm m) (jniDebug : List UInt8) (name : String) :
    Marked vm (nativeJni vm jniDebug name m).2 := by
  have h0 : Marked vm (m .entry).2 := h _ (by intro k c hc; simp [JniState.entry] at hc)
  unfold nativeJni
  rcases hr : m .entry with ⟨r, s⟩
  rw [hr] at h0
  cases r with
  | ok a => exact h0
  | panic => exact h0
  | err e =>
    have h1 := keeps_throwNew vm "java/lang/IllegalArgumentException" s h0
    simp only
    rcases ht : throwNew vm "java/lang/IllegalArgumentException" s with ⟨r', s'⟩
    rw [ht] at h1
    cases r' <;> exact h1

variable {K G1 G2 GT : Type} [Field K] [DecidableEq K] [AddCommGroup G1] [Module Fr G1] [DecidableEq G1]
  [Curve K G1] [PointCodec G1] [AddCommGroup G2] [Module Fr G2] [AddCommGroup GT] [DecidableEq GT]
  [Pairing G1 G2 GT]

theorem native_call_marked (jniDebug : List UInt8) (sha256 : List UInt8 → List UInt8) (ctx : DASContext K G1 G2) (call : JavaCall) :
    Marked vm (call.native vm jniDebug sha256 ctx).2 := by
  cases call with
  | blobToKZGCommitment blob =>
    exact native_marked vm (keeps_bind (keeps_convertByteArray vm _) fun _ => keeps_bind (keeps_lift _) fun _ =>
      keeps_bind (keeps_lift _) fun _ => keeps_byteArrayFromSlice vm _) _ _
  | computeCellsAndKZGProofs blob =>
    exact native_marked vm (keeps_bind (keeps_convertByteArray vm _) fun _ => keeps_bind (keeps_lift _) fun _ =>
      keeps_bind (keeps_lift _) fun _ => keeps_cellsAndProofsToJobject vm _ _) _ _
  | verifyCellKZGProofBatch a b c d =>
    exact native_marked vm (keeps_bind (keeps_jobjectArrayTo2dByteArray vm _) fun _ =>
      keeps_bind (keeps_jlongarrayToVecU64 vm _) fun _ => keeps_bind (keeps_jobjectArrayTo2dByteArray vm _) fun _ =>
      keeps_bind (keeps_jobjectArrayTo2dByteArray vm _) fun _ => keeps_bind (keeps_lift _) fun _ => keeps_bind (keeps_lift _) fun _ =>
      keeps_bind (keeps_lift _) fun _ => keeps_lift _) _ _
  | recoverCellsAndKZGProofs a b =>
    exact native_marked vm (keeps_bind (keeps_jlongarrayToVecU64 vm _) fun _ =>
      keeps_bind (keeps_jobjectArrayTo2dByteArray vm _) fun _ => keeps_bind (keeps_lift _) fun _ =>
      keeps_bind (keeps_lift _) fun _ => keeps_cellsAndProofsToJobject vm _ _) _ _

end
end Verif.Jni
