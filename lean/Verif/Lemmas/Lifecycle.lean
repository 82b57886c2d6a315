import Verif.Lemmas.Managed
import Verif.Spec.Lifecycle
import Verif.Model.JavaThreads
import Verif.Model.GoBinding

set_option linter.unusedSectionVars false

/-! Lemmas about the life of contexts. -/
namespace Verif

section
variable {Ctx ε α β : Type}

/-- the computation does not create or free contexts -/
def KeepsContexts (x : CM Ctx ε α) : Prop :=
  ∀ s, (∀ a s', x s = .ok a s' → s'.ctxs = s.ctxs) ∧ ∀ e s', x s = .err e s' → s'.ctxs = s.ctxs

namespace KeepsContexts

theorem pure (a : α) : KeepsContexts (pure a : CM Ctx ε α) := fun s =>
  ⟨fun _ _ h => by cases h; rfl, fun _ _ h => by cases h⟩

theorem bind {x : CM Ctx ε α} {f : α → CM Ctx ε β} (hx : KeepsContexts x) (hf : ∀ a, KeepsContexts (f a)) : KeepsContexts (x >>= f) := by
  intro s
  rw [CM.bind_apply]
  rcases h : x s with ⟨a, s'⟩ | ⟨e, s'⟩ | _ | _
  · have h1 := (hx s).1 a s' h
    refine ⟨fun b s'' h' => ?_, fun e s'' h' => ?_⟩
    · rw [(hf a s').1 b s'' h', h1]
    · rw [(hf a s').2 e s'' h', h1]
  · refine ⟨fun b s'' h' => (by cases h'), fun e' s'' h' => ?_⟩
    cases h'
    exact (hx s).2 e s' h
  · exact ⟨fun _ _ h' => (by cases h'), fun _ _ h' => (by cases h')⟩
  · exact ⟨fun _ _ h' => (by cases h'), fun _ _ h' => (by cases h')⟩

theorem fault : KeepsContexts (CM.fault : CM Ctx ε α) := fun _ => ⟨fun _ _ h => (by cases h), fun _ _ h => (by cases h)⟩
theorem panic : KeepsContexts (CM.panic : CM Ctx ε α) := fun _ => ⟨fun _ _ h => (by cases h), fun _ _ h => (by cases h)⟩
theorem throw (e : ε) : KeepsContexts (CM.throw e : CM Ctx ε α) := fun _ => ⟨fun _ _ h => (by cases h), fun _ _ h => (by cases h; rfl)⟩

theorem assert (b : Prop) [Decidable b] : KeepsContexts (CM.assert b : CM Ctx ε Unit) := by
  unfold CM.assert
  split_ifs
  · exact pure ()
  · exact panic

theorem require (b : Prop) [Decidable b] : KeepsContexts (CM.require b : CM Ctx ε Unit) := by
  unfold CM.require
  split_ifs
  · exact pure ()
  · exact fault

theorem mapM {f : α → CM Ctx ε β} (hf : ∀ a, KeepsContexts (f a)) (l : List α) : KeepsContexts (l.mapM f) := by
  induction l with
  | nil => exact pure []
  | cons a l ih =>
    rw [List.mapM_cons]
    exact bind (hf a) fun b => bind ih fun bs => pure _

theorem forM {f : α → CM Ctx ε PUnit} (hf : ∀ a, KeepsContexts (f a)) (l : List α) : KeepsContexts (l.forM f) := by
  induction l with
  | nil => exact pure _
  | cons a l ih =>
    exact bind (hf a) fun _ => ih

theorem readByte (p : Nat) : KeepsContexts (readByte p : CM Ctx ε UInt8) := by
  intro s
  unfold Verif.readByte
  split
  · exact ⟨fun _ _ h => (by cases h; rfl), fun _ _ h => (by cases h)⟩
  · exact ⟨fun _ _ h => (by cases h), fun _ _ h => (by cases h)⟩

theorem writeByte (p : Nat) (b : UInt8) : KeepsContexts (writeByte p b : CM Ctx ε Unit) := by
  intro s
  unfold Verif.writeByte
  split
  · exact ⟨fun _ _ h => (by cases h; rfl), fun _ _ h => (by cases h)⟩
  · exact ⟨fun _ _ h => (by cases h), fun _ _ h => (by cases h)⟩

theorem readBytes (p n : Nat) : KeepsContexts (readBytes p n : CM Ctx ε (List UInt8)) := mapM (fun _ => readByte _) _

theorem readU64 (p : Nat) : KeepsContexts (readU64 p : CM Ctx ε Nat) := bind (readBytes p 8) fun _ => pure _

theorem createSliceView (p n : Nat) : KeepsContexts (createSliceView p n : CM Ctx ε (List UInt8)) := by
  unfold Verif.createSliceView
  split_ifs
  · exact pure _
  · exact bind (require _) fun _ => readBytes _ _

theorem createSliceViewU64 (p n : Nat) : KeepsContexts (createSliceViewU64 p n : CM Ctx ε (List Nat)) := by
  unfold Verif.createSliceViewU64
  split_ifs
  · exact pure _
  · exact bind (require _) fun _ => bind (require _) fun _ => mapM (fun _ => readU64 _) _

theorem createArrayRef (n p : Nat) : KeepsContexts (createArrayRef n p : CM Ctx ε (List UInt8)) :=
  bind (createSliceView p n) fun _ => bind (assert _) fun _ => pure _

theorem ptrPtr (n p m : Nat) : KeepsContexts (ptrPtrToVecSliceConst n p m : CM Ctx ε (List (List UInt8))) := by
  unfold ptrPtrToVecSliceConst
  split_ifs
  · exact pure _
  · exact bind (createSliceViewU64 _ _) fun _ => mapM (fun _ => createArrayRef _ _) _

theorem writeToSlice (p : Nat) (data : List UInt8) : KeepsContexts (writeToSlice p data : CM Ctx ε Unit) :=
  bind (require _) fun _ => forM (fun _ => writeByte _ _) _

theorem writeTo2dSlice (p : Nat) (data : List (List UInt8)) : KeepsContexts (writeTo2dSlice p data : CM Ctx ε Unit) := by
  unfold Verif.writeTo2dSlice
  split_ifs
  · exact pure _
  · exact bind (require _) fun _ => bind (require _) fun _ => forM (fun _ => bind (readU64 _) fun _ => writeToSlice _ _) _

theorem derefCtx (p : Nat) : KeepsContexts (derefCtx p : CM Ctx ε Ctx) := by
  intro s
  unfold Verif.derefCtx
  split
  · exact ⟨fun _ _ h => (by cases h; rfl), fun _ _ h => (by cases h)⟩
  · exact ⟨fun _ _ h => (by cases h), fun _ _ h => (by cases h)⟩

theorem derefMut (p : Nat) : KeepsContexts (derefMut p : CM Ctx ε Nat) :=
  bind (require _) fun _ => bind (readByte p) fun _ => pure _

theorem withError (A : Allocator Ctx) (msg : List UInt8) : KeepsContexts (CResult.withError A msg : CM Ctx ε CResult) := by
  refine bind (assert _) fun _ => bind ?_ fun _ => pure _
  intro s
  unfold allocString
  split
  · exact ⟨fun _ _ h => (by cases h; rfl), fun _ _ h => (by cases h)⟩
  · exact ⟨fun _ _ h => (by cases h), fun _ _ h => (by cases h)⟩

theorem tryRust (A : Allocator Ctx) (x : Outcome Error α) : KeepsContexts (tryRust A x : CM Ctx CResult α) := by
  unfold Verif.tryRust
  split
  · exact pure _
  · exact bind (withError A _) fun _ => throw _
  · exact panic

theorem cResult {x : CM Ctx CResult Unit} (hx : KeepsContexts x) : KeepsContexts (cResult x) := by
  intro s
  unfold Verif.cResult
  rcases h : x s with ⟨a, s'⟩ | ⟨e, s'⟩ | _ | _
  · exact ⟨fun _ _ h' => (by cases h'; exact (hx s).1 _ _ h), fun _ _ h' => (by cases h')⟩
  · exact ⟨fun _ _ h' => (by cases h'; exact (hx s).2 _ _ h), fun _ _ h' => (by cases h')⟩
  · exact ⟨fun _ _ h' => (by cases h'), fun _ _ h' => (by cases h')⟩
  · exact ⟨fun _ _ h' => (by cases h'), fun _ _ h' => (by cases h')⟩

end KeepsContexts
end

section
variable {K G1 G2 GT : Type} [Field K] [DecidableEq K] [AddCommGroup G1] [Module Fr G1] [DecidableEq G1]
  [Curve K G1] [PointCodec G1] [AddCommGroup G2] [Module Fr G2] [AddCommGroup GT] [DecidableEq GT]
  [Pairing G1 G2 GT]
variable {A : Allocator (DASContext K G1 G2)} {sha256 : List UInt8 → List UInt8}

theorem keepsContexts_of_uses {p : Nat} {call : CM (DASContext K G1 G2) Empty CResult} (h : Spec.UsesContext A sha256 p call) :
    KeepsContexts call := by
  cases h with
  | commitment =>
    exact .cResult (.bind (.assert _) fun _ => .bind (.derefCtx _) fun _ => .bind (.createArrayRef _ _) fun _ =>
      .bind (.tryRust _ _) fun _ => .bind (.assert _) fun _ => .writeToSlice _ _)
  | cells =>
    exact .cResult (.bind (.assert _) fun _ => .bind (.derefCtx _) fun _ => .bind (.createArrayRef _ _) fun _ =>
      .bind (.tryRust _ _) fun _ => .bind (.writeTo2dSlice _ _) fun _ => .writeTo2dSlice _ _)
  | recover =>
    exact .cResult (.bind (.assert _) fun _ => .bind (.derefCtx _) fun _ => .bind (.ptrPtr _ _ _) fun _ =>
      .bind (.createSliceViewU64 _ _) fun _ => .bind (.tryRust _ _) fun _ => .bind (.writeTo2dSlice _ _) fun _ => .writeTo2dSlice _ _)
  | verify =>
    refine .cResult (.bind (.assert _) fun _ => .bind (.derefCtx _) fun _ => .bind (.ptrPtr _ _ _) fun _ =>
      .bind (.createSliceViewU64 _ _) fun _ => .bind (.ptrPtr _ _ _) fun _ => .bind (.ptrPtr _ _ _) fun _ => .bind (.derefMut _) fun _ =>
      .bind ?_ fun _ => .writeByte _ _)
    unfold verificationResultToBoolCResult
    split
    · exact .pure _
    · split_ifs
      · exact .pure _
      · exact .bind (.withError _ _) fun _ => .throw _
    · exact .panic

theorem CM.bind_fault {Ctx ε α β : Type} {x : CM Ctx ε α} {f : α → CM Ctx ε β} {s : CState Ctx} (h : x s = .fault) :
    (x >>= f) s = .fault := by rw [CM.bind_apply, h]

omit [AddCommGroup GT] [DecidableEq GT] [Pairing G1 G2 GT] in
theorem fault_of_deref {p : Nat} (h0 : p ≠ 0) {s : CState (DASContext K G1 G2)} (hs : s.ctxs p = none)
    (g : DASContext K G1 G2 → CM (DASContext K G1 G2) CResult Unit) :
    cResult (CM.assert (p ≠ 0) >>= fun _ => derefCtx p >>= g) s = .fault := by
  unfold cResult
  rw [CM.assert_true h0, CM.bind_ok (CM.pure_apply () s), CM.bind_fault (by simp [derefCtx, hs])]

/-- using an address that is not null and where no context is -/
theorem fault_of_uses {p : Nat} {call : CM (DASContext K G1 G2) Empty CResult} (h : Spec.UsesContext A sha256 p call)
    (h0 : p ≠ 0) {s : CState (DASContext K G1 G2)} (hs : s.ctxs p = none) : call s = .fault := by
  cases h <;> exact fault_of_deref h0 hs _

end
end Verif
