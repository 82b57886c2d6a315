import Verif.Lemmas.Managed
import Verif.Spec.ErrorMessages

set_option linter.unusedSectionVars false

/-! Which computations change the error messages. -/
namespace Verif
open Spec (Owes Ends)

variable {Ctx ε α β : Type}

/-- the messages are the same at the end -/
def Keeps (x : CM Ctx ε α) : Prop := ∀ s s', Ends x s s' → s'.strings = s.strings

namespace Keeps

theorem pure (a : α) : Keeps (Pure.pure a : CM Ctx ε α) := by
  rintro s s' (⟨b, h⟩ | ⟨e, h⟩) <;> cases h
  rfl

theorem throw (e : ε) : Keeps (CM.throw e : CM Ctx ε α) := by
  rintro s s' (⟨b, h⟩ | ⟨e, h⟩) <;> cases h
  rfl

theorem panic : Keeps (CM.panic : CM Ctx ε α) := by
  rintro s s' (⟨b, h⟩ | ⟨e, h⟩) <;> cases h

theorem fault : Keeps (CM.fault : CM Ctx ε α) := by
  rintro s s' (⟨b, h⟩ | ⟨e, h⟩) <;> cases h

theorem bind {x : CM Ctx ε α} {f : α → CM Ctx ε β} (hx : Keeps x) (hf : ∀ a, Keeps (f a)) : Keeps (x >>= f) := by
  intro s s' h
  unfold Ends at h
  rw [CM.bind_apply] at h
  rcases hs : x s with ⟨a, t⟩ | ⟨e, t⟩ | _ | _ <;> simp only [hs] at h
  · rw [hf a t s' h]
    exact hx s t (.inl ⟨a, hs⟩)
  · rcases h with ⟨b, h⟩ | ⟨e, h⟩ <;> cases h
    exact hx s _ (.inr ⟨_, hs⟩)
  · rcases h with ⟨b, h⟩ | ⟨e, h⟩ <;> cases h
  · rcases h with ⟨b, h⟩ | ⟨e, h⟩ <;> cases h

theorem ite {c : Prop} [Decidable c] {x y : CM Ctx ε α} (hx : Keeps x) (hy : Keeps y) : Keeps (if c then x else y) := by
  split <;> assumption

theorem assert (b : Prop) [Decidable b] : Keeps (CM.assert b : CM Ctx ε Unit) := ite (pure _) panic

theorem require (b : Prop) [Decidable b] : Keeps (CM.require b : CM Ctx ε Unit) := ite (pure _) fault

theorem mapM {f : α → CM Ctx ε β} (h : ∀ a, Keeps (f a)) (l : List α) : Keeps (l.mapM f) := by
  induction l with
  | nil => exact pure _
  | cons a l ih =>
    rw [List.mapM_cons]
    exact (h a).bind fun _ => ih.bind fun _ => pure _

theorem forM {f : α → CM Ctx ε PUnit} (h : ∀ a, Keeps (f a)) (l : List α) : Keeps (l.forM f) := by
  induction l with
  | nil => exact pure _
  | cons a l ih =>
    rw [List.forM_eq_forM, List.forM_cons]
    exact (h a).bind fun _ => ih

theorem readByte (p : Nat) : Keeps (readByte p : CM Ctx ε UInt8) := by
  intro s s' h
  unfold Ends Verif.readByte at h
  rcases hm : s.mem p with _ | b <;> simp only [hm] at h
  · rcases h with ⟨b, h⟩ | ⟨e, h⟩ <;> cases h
  · rcases h with ⟨b, h⟩ | ⟨e, h⟩ <;> cases h
    rfl

theorem writeByte (p : Nat) (b : UInt8) : Keeps (writeByte p b : CM Ctx ε Unit) := by
  intro s s' h
  unfold Ends Verif.writeByte at h
  rcases hm : s.mem p with _ | b <;> simp only [hm] at h
  · rcases h with ⟨b, h⟩ | ⟨e, h⟩ <;> cases h
  · rcases h with ⟨b, h⟩ | ⟨e, h⟩ <;> cases h
    rfl

theorem readBytes (p n : Nat) : Keeps (readBytes p n : CM Ctx ε (List UInt8)) := mapM (fun _ => readByte _) _

theorem readU64 (p : Nat) : Keeps (readU64 p : CM Ctx ε Nat) := (readBytes p 8).bind fun _ => pure _

theorem createSliceView (p n : Nat) : Keeps (createSliceView p n : CM Ctx ε (List UInt8)) :=
  ite (pure _) ((require _).bind fun _ => readBytes _ _)

theorem createSliceViewU64 (p n : Nat) : Keeps (createSliceViewU64 p n : CM Ctx ε (List Nat)) :=
  ite (pure _) ((require _).bind fun _ => (require _).bind fun _ => mapM (fun _ => readU64 _) _)

theorem createArrayRef (n p : Nat) : Keeps (createArrayRef n p : CM Ctx ε (List UInt8)) :=
  (createSliceView _ _).bind fun _ => (assert _).bind fun _ => pure _

theorem ptrPtrToVecSliceConst (n p m : Nat) : Keeps (ptrPtrToVecSliceConst n p m : CM Ctx ε (List (List UInt8))) :=
  ite (pure _) ((createSliceViewU64 _ _).bind fun _ => mapM (fun _ => createArrayRef _ _) _)

theorem writeToSlice (p : Nat) (d : List UInt8) : Keeps (writeToSlice p d : CM Ctx ε Unit) :=
  (require _).bind fun _ => forM (fun _ => writeByte _ _) _

theorem writeTo2dSlice (p : Nat) (d : List (List UInt8)) : Keeps (writeTo2dSlice p d : CM Ctx ε Unit) :=
  ite (pure _) ((require _).bind fun _ => (require _).bind fun _ => forM (fun _ => (readU64 _).bind fun _ => writeToSlice _ _) _)

theorem derefCtx (p : Nat) : Keeps (derefCtx p : CM Ctx ε Ctx) := by
  intro s s' h
  unfold Ends Verif.derefCtx at h
  rcases hm : s.ctxs p with _ | b <;> simp only [hm] at h
  · rcases h with ⟨b, h⟩ | ⟨e, h⟩ <;> cases h
  · rcases h with ⟨b, h⟩ | ⟨e, h⟩ <;> cases h
    rfl

theorem derefMut (p : Nat) : Keeps (derefMut p : CM Ctx ε Nat) :=
  (require _).bind fun _ => (readByte _).bind fun _ => pure _

theorem newArray (H : Heap Ctx) (b : List UInt8) : Keeps (newArray H b : CM Ctx ε Nat) := by
  intro s s' h
  unfold Ends Verif.newArray at h
  rcases hm : H.place s b.length with _ | p <;> simp only [hm] at h
  · rcases h with ⟨b, h⟩ | ⟨e, h⟩ <;> cases h
  · rcases h with ⟨b, h⟩ | ⟨e, h⟩ <;> cases h
    rfl

theorem newBytes (H : Heap Ctx) (n : Nat) : Keeps (newBytes H n : CM Ctx ε Nat) := newArray _ _

theorem newPointers (H : Heap Ctx) (l : List Nat) : Keeps (newPointers H l : CM Ctx ε Nat) := newArray _ _

theorem collect (gc : Gc Ctx) (hgc : ∀ t l, (gc t l).1.strings = t.strings) (l : List Nat) :
    Keeps (collect gc l : CM Ctx ε (List Nat)) := by
  rintro s s' (⟨b, h⟩ | ⟨e, h⟩) <;> cases h
  exact hgc _ _

end Keeps

/-- What the body of a function of the C API does: it ends normally without touching the messages, or with an error result that owns
one new message. -/
def Owing (x : CM Ctx CResult α) : Prop :=
  (∀ s a s', x s = .ok a s' → s'.strings = s.strings) ∧
  ∀ s r s', x s = .err r s' → r.status = .Err ∧ r.errorMsg ≠ 0 ∧ s.strings r.errorMsg = none ∧
    ∃ msg, Spec.CString s'.mem r.errorMsg msg ∧ r.errorMsg + (msg.length + 1) ≤ 2 ^ 64 ∧
      s'.strings = fun a => if a = r.errorMsg then some (msg.length + 1) else s.strings a

/-- computations that raise nothing -/
def Quiet (x : CM Ctx ε α) : Prop := ∀ s e s', x s ≠ .err e s'

namespace Quiet

theorem pure (a : α) : Quiet (Pure.pure a : CM Ctx ε α) := fun _ _ _ h => by cases h
theorem panic : Quiet (CM.panic : CM Ctx ε α) := fun _ _ _ h => by cases h
theorem fault : Quiet (CM.fault : CM Ctx ε α) := fun _ _ _ h => by cases h

theorem bind {x : CM Ctx ε α} {f : α → CM Ctx ε β} (hx : Quiet x) (hf : ∀ a, Quiet (f a)) : Quiet (x >>= f) := by
  intro s e s' h
  rw [CM.bind_apply] at h
  rcases hs : x s with ⟨a, t⟩ | ⟨e, t⟩ | _ | _ <;> simp only [hs] at h
  · exact hf a t e s' h
  · exact hx s _ _ hs
  · cases h
  · cases h

theorem ite {c : Prop} [Decidable c] {x y : CM Ctx ε α} (hx : Quiet x) (hy : Quiet y) : Quiet (if c then x else y) := by
  split <;> assumption

theorem assert (b : Prop) [Decidable b] : Quiet (CM.assert b : CM Ctx ε Unit) := ite (pure _) panic
theorem require (b : Prop) [Decidable b] : Quiet (CM.require b : CM Ctx ε Unit) := ite (pure _) fault

theorem mapM {f : α → CM Ctx ε β} (h : ∀ a, Quiet (f a)) (l : List α) : Quiet (l.mapM f) := by
  induction l with
  | nil => exact pure _
  | cons a l ih =>
    rw [List.mapM_cons]
    exact (h a).bind fun _ => ih.bind fun _ => pure _

theorem forM {f : α → CM Ctx ε PUnit} (h : ∀ a, Quiet (f a)) (l : List α) : Quiet (l.forM f) := by
  induction l with
  | nil => exact pure _
  | cons a l ih =>
    rw [List.forM_eq_forM, List.forM_cons]
    exact (h a).bind fun _ => ih

theorem readByte (p : Nat) : Quiet (readByte p : CM Ctx ε UInt8) := by
  intro s e s' h
  unfold Verif.readByte at h
  split at h <;> cases h

theorem writeByte (p : Nat) (b : UInt8) : Quiet (writeByte p b : CM Ctx ε Unit) := by
  intro s e s' h
  unfold Verif.writeByte at h
  split at h <;> cases h

theorem readBytes (p n : Nat) : Quiet (readBytes p n : CM Ctx ε (List UInt8)) := mapM (fun _ => readByte _) _
theorem readU64 (p : Nat) : Quiet (readU64 p : CM Ctx ε Nat) := (readBytes p 8).bind fun _ => pure _

theorem createSliceView (p n : Nat) : Quiet (createSliceView p n : CM Ctx ε (List UInt8)) :=
  ite (pure _) ((require _).bind fun _ => readBytes _ _)

theorem createSliceViewU64 (p n : Nat) : Quiet (createSliceViewU64 p n : CM Ctx ε (List Nat)) :=
  ite (pure _) ((require _).bind fun _ => (require _).bind fun _ => mapM (fun _ => readU64 _) _)

theorem createArrayRef (n p : Nat) : Quiet (createArrayRef n p : CM Ctx ε (List UInt8)) :=
  (createSliceView _ _).bind fun _ => (assert _).bind fun _ => pure _

theorem ptrPtrToVecSliceConst (n p m : Nat) : Quiet (ptrPtrToVecSliceConst n p m : CM Ctx ε (List (List UInt8))) :=
  ite (pure _) ((createSliceViewU64 _ _).bind fun _ => mapM (fun _ => createArrayRef _ _) _)

theorem writeToSlice (p : Nat) (d : List UInt8) : Quiet (writeToSlice p d : CM Ctx ε Unit) :=
  (require _).bind fun _ => forM (fun _ => writeByte _ _) _

theorem writeTo2dSlice (p : Nat) (d : List (List UInt8)) : Quiet (writeTo2dSlice p d : CM Ctx ε Unit) :=
  ite (pure _) ((require _).bind fun _ => (require _).bind fun _ => forM (fun _ => (readU64 _).bind fun _ => writeToSlice _ _) _)

theorem derefCtx (p : Nat) : Quiet (derefCtx p : CM Ctx ε Ctx) := by
  intro s e s' h
  unfold Verif.derefCtx at h
  split at h <;> cases h

theorem derefMut (p : Nat) : Quiet (derefMut p : CM Ctx ε Nat) :=
  (require _).bind fun _ => (readByte _).bind fun _ => pure _

end Quiet

namespace Owing

theorem of_quiet {x : CM Ctx CResult α} (hk : Keeps x) (hq : Quiet x) : Owing x :=
  ⟨fun s a s' h => hk s s' (.inl ⟨a, h⟩), fun s r s' h => absurd h (hq s r s')⟩

/-- a step that raises nothing, then one that may -/
theorem bind {x : CM Ctx CResult α} {f : α → CM Ctx CResult β} (hk : Keeps x) (hq : Quiet x) (hf : ∀ a, Owing (f a)) :
    Owing (x >>= f) := by
  constructor
  · intro s b s' h
    rw [CM.bind_apply] at h
    rcases hs : x s with ⟨a, t⟩ | ⟨e, t⟩ | _ | _ <;> simp only [hs] at h
    · rw [(hf a).1 t b s' h]
      exact hk s t (.inl ⟨a, hs⟩)
    all_goals cases h
  · intro s r s' h
    rw [CM.bind_apply] at h
    rcases hs : x s with ⟨a, t⟩ | ⟨e, t⟩ | _ | _ <;> simp only [hs] at h
    · have := (hf a).2 t r s' h
      rwa [hk s t (.inl ⟨a, hs⟩)] at this
    · exact absurd hs (hq s _ _)
    all_goals cases h

/-- a step that may raise, then only steps that do not -/
theorem bind_quiet {x : CM Ctx CResult α} {f : α → CM Ctx CResult β} (hx : Owing x) (hk : ∀ a, Keeps (f a)) (hq : ∀ a, Quiet (f a)) :
    Owing (x >>= f) := by
  constructor
  · intro s b s' h
    rw [CM.bind_apply] at h
    rcases hs : x s with ⟨a, t⟩ | ⟨e, t⟩ | _ | _ <;> simp only [hs] at h
    · rw [hk a t s' (.inl ⟨b, h⟩)]
      exact hx.1 s a t hs
    all_goals cases h
  · intro s r s' h
    rw [CM.bind_apply] at h
    rcases hs : x s with ⟨a, t⟩ | ⟨e, t⟩ | _ | _ <;> simp only [hs] at h
    · exact absurd h (hq a t r s')
    · cases h
      exact hx.2 s r s' hs
    all_goals cases h

/-- the error of a library function as a C result -/
theorem fail (A : Allocator Ctx) (e : Error) : Owing (do let r ← CResult.withError A e.debug; CM.throw r : CM Ctx CResult α) := by
  constructor
  · intro s a s' h
    rw [CM.bind_apply] at h
    rcases hs : (CResult.withError A e.debug : CM Ctx CResult CResult) s with ⟨a, t⟩ | ⟨e, t⟩ | _ | _ <;> simp only [hs] at h <;> cases h
  · intro s r s' h
    rcases withError_ok (ε := CResult) A s e.debug (Error.debug_no_zero e) with ⟨-, h2⟩ | ⟨p, t, h1, hp, hne, h64, hc, hst, -, -, hoth, -⟩
    · rw [CM.bind_panic h2] at h
      cases h
    · rw [CM.bind_ok h1] at h
      cases h
      refine ⟨rfl, hne, (A.fresh s _ p hp).2.2.1, e.debug, hc, h64, ?_⟩
      funext a
      by_cases ha : a = p
      · subst ha
        rw [if_pos rfl, hst]
      · rw [if_neg ha, hoth a ha]

theorem tryRust (A : Allocator Ctx) (x : Outcome Error α) : Owing (tryRust A x) := by
  rcases x with a | e | _
  · exact of_quiet (.pure a) (.pure a)
  · exact fail A e
  · exact of_quiet .panic .panic

/-- from the body to the function -/
theorem owes {x : CM Ctx CResult Unit} (h : Owing x) : Owes (cResult x) := by
  intro s r s' hr
  unfold cResult at hr
  rcases hs : x s with ⟨a, t⟩ | ⟨e, t⟩ | _ | _ <;> simp only [hs] at hr <;> cases hr
  · exact .inl ⟨rfl, h.1 s _ _ hs⟩
  · exact .inr (h.2 s _ _ hs)

end Owing

/-- freeing the message of a failed call gives the messages before the call -/
theorem free_owed {s s' : CState Ctx} {p n : Nat} (hp : p ≠ 0) (hn : s.strings p = none)
    (hs : s'.strings = fun a => if a = p then some n else s.strings a) :
    ∃ t, ethKzgFreeErrorMessage p s' = .ok () t ∧ t.strings = s.strings := by
  unfold ethKzgFreeErrorMessage
  rw [if_neg hp, show s'.strings p = some n by rw [hs]; exact if_pos rfl]
  refine ⟨_, rfl, ?_⟩
  funext a
  simp only [hs]
  by_cases ha : a = p
  · rw [if_pos ha, ha, hn]
  · rw [if_neg ha, if_neg ha]

/-- after a C function, `ThrowOnError` reads and frees the message, or there is none -/
theorem throwOnErrorCs_owed {call : CM Ctx Empty CResult} (h : Owes call) {s s' : CState Ctx} {r : CResult} (hc : call s = .ok r s') :
    (r.status = .Ok ∧ throwOnErrorCs r s' = .ok () s' ∧ s'.strings = s.strings) ∨
    ∃ text t, r.status = .Err ∧ throwOnErrorCs r s' = .err (.argument text) t ∧ t.strings = s.strings := by
  rcases h s r s' hc with ⟨rfl, hs⟩ | ⟨h1, h2, h3, msg, h4, h5, h6⟩
  · exact .inl ⟨rfl, rfl, hs⟩
  · right
    obtain ⟨t, ht, hts⟩ := free_owed h2 h3 h6
    refine ⟨ascii "an error occurred from the bindings: " ++ msg, t, h1, ?_, hts⟩
    unfold throwOnErrorCs
    rw [h1]
    simp only [ne_eq, h2, not_false_eq_true, if_true]
    exact (CM.bind_ok (readCString_ok h5 h4)).trans ((CM.bind_ok (callC_ok ht)).trans rfl)

/-- after a C function, `verify_result` frees the message, or there is none -/
theorem verifyResultNim_owed (dollar : CResult → List UInt8) {call : CM Ctx Empty CResult} (h : Owes call) {s s' : CState Ctx} {r : CResult}
    (hc : call s = .ok r s') :
    (r.status = .Ok ∧ verifyResultNim dollar r s' = .ok () s' ∧ s'.strings = s.strings) ∨
    ∃ text t, r.status = .Err ∧ verifyResultNim dollar r s' = .err text t ∧ t.strings = s.strings := by
  rcases h s r s' hc with ⟨rfl, hs⟩ | ⟨h1, h2, h3, msg, h4, h5, h6⟩
  · exact .inl ⟨rfl, rfl, hs⟩
  · right
    obtain ⟨t, ht, hts⟩ := free_owed h2 h3 h6
    refine ⟨dollar r, t, h1, ?_, hts⟩
    unfold verifyResultNim
    rw [if_pos (by rw [h1]; exact fun h => by cases h)]
    exact (CM.bind_ok (callC_ok ht)).trans rfl

/-- a C call followed by a check that settles what the call owes -/
theorem Keeps.checked {call : CM Ctx Empty CResult} {check : CResult → CM Ctx ε Unit} {f : Unit → CM Ctx ε β}
    (h : ∀ s r s', call s = .ok r s' → (check r s' = .ok () s' ∧ s'.strings = s.strings) ∨
      ∃ e t, check r s' = .err e t ∧ t.strings = s.strings) (hf : ∀ a, Keeps (f a)) :
    Keeps (callC call >>= fun r => check r >>= f) := by
  intro s s' hE
  unfold Ends at hE
  rw [CM.bind_apply] at hE
  unfold callC at hE
  rcases hs : call s with ⟨r, t⟩ | ⟨e, t⟩ | _ | _ <;> simp only [hs] at hE
  · rcases h s r t hs with ⟨h1, h2⟩ | ⟨e, u, h1, h2⟩
    · rw [CM.bind_ok h1] at hE
      rw [hf () t s' hE, h2]
    · rw [CM.bind_err h1] at hE
      rcases hE with ⟨b, hE⟩ | ⟨e, hE⟩ <;> cases hE
      exact h2
  · cases e
  · rcases hE with ⟨b, hE⟩ | ⟨e, hE⟩ <;> cases hE
  · rcases hE with ⟨b, hE⟩ | ⟨e, hE⟩ <;> cases hE

theorem Keeps.raise {x : CM Ctx CsException α} (h : Keeps x) : Keeps (raise x) := by
  intro s s' hE
  unfold Ends Verif.raise at hE
  rcases hs : x s with ⟨r, t⟩ | ⟨e, t⟩ | _ | _ <;> simp only [hs] at hE <;> rcases hE with ⟨b, hE⟩ | ⟨e, hE⟩ <;> cases hE
  · exact h s _ (.inl ⟨_, hs⟩)
  · exact h s _ (.inr ⟨_, hs⟩)

theorem Keeps.checkedCs {call : CM Ctx Empty CResult} (h : Owes call) {f : Unit → CM Ctx CsException β} (hf : ∀ a, Keeps (f a)) :
    Keeps (callC call >>= fun r => throwOnErrorCs r >>= f) :=
  Keeps.checked (fun s r s' hc => by
    rcases throwOnErrorCs_owed h hc with ⟨-, h1, h2⟩ | ⟨text, t, -, h1, h2⟩
    · exact .inl ⟨h1, h2⟩
    · exact .inr ⟨_, t, h1, h2⟩) hf

theorem Keeps.checkedArgs {call : CM Ctx Empty CResult} (h : Owes call) {f : Unit → CM Ctx CsFailure β} (hf : ∀ a, Keeps (f a)) :
    Keeps (callC call >>= fun r => Verif.raise (throwOnErrorCs r) >>= f) :=
  Keeps.checked (fun s r s' hc => by
    rcases throwOnErrorCs_owed h hc with ⟨-, h1, h2⟩ | ⟨text, t, -, h1, h2⟩
    · exact .inl ⟨by unfold Verif.raise; rw [h1], h2⟩
    · exact .inr ⟨_, t, by unfold Verif.raise; rw [h1], h2⟩) hf

theorem Keeps.checkedNim (dollar : CResult → List UInt8) {call : CM Ctx Empty CResult} (h : Owes call) {f : Unit → CM Ctx NimError β}
    (hf : ∀ a, Keeps (f a)) : Keeps (callC call >>= fun r => verifyResultNim dollar r >>= f) :=
  Keeps.checked (fun s r s' hc => by
    rcases verifyResultNim_owed dollar h hc with ⟨-, h1, h2⟩ | ⟨text, t, -, h1, h2⟩
    · exact .inl ⟨h1, h2⟩
    · exact .inr ⟨_, t, h1, h2⟩) hf

end Verif
