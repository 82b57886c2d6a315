import Verif.Model.Jni
import Verif.Lemmas.CBinding

set_option linter.unusedSectionVars false

/-! How the computations of `Model/Jni` run: the calls that they make, and their results when no call fails. -/
namespace Verif
namespace Jni

instance : LawfulMonad JniM := LawfulMonad.mk'
  (id_map := by
    intro α x
    funext s
    show JniM.bind x _ s = x s
    unfold JniM.bind
    rcases x s with ⟨_ | _ | _, _⟩ <;> rfl)
  (pure_bind := by intros; rfl)
  (bind_assoc := by
    intro α β γ x f g
    funext s
    show JniM.bind (JniM.bind x f) g s = JniM.bind x (fun a => JniM.bind (f a) g) s
    unfold JniM.bind
    rcases x s with ⟨_ | _ | _, _⟩ <;> rfl)

/-- the calls of the methods proper, as opposed to those of `throw_new` -/
def OfBody (fn : JniFn) : Prop := fn ≠ .FindClass "java/lang/IllegalArgumentException" ∧ fn ≠ .ThrowNew

/-- From a state with no pending exception, `m` makes its calls with no exception pending and creates at most `n` references. Either no
call fails, and the result is `v`, with exactly `n` references if that is a success; or one fails, and `m` reports an error. -/
def Runs {α : Type} (vm : Jvm) (m : JniM α) (v : Outcome JError α) (n : Nat) : Prop :=
  ∀ s : JniState, s.pending = false → ∃ new, (m s).2.trace = s.trace ++ new ∧
    (∀ c ∈ new, c.pending = false ∧ c.locals ≤ s.locals + n) ∧ (m s).2.locals ≤ s.locals + n ∧
    (((∀ c ∈ new, c.failed = false) ∧ (m s).1 = v ∧ (m s).2.pending = false ∧
        ∀ a, v = .ok a → (m s).2.locals = s.locals + n ∧ (n = 0 ∨ ∃ c ∈ new, c.locals = s.locals + n)) ∨
      ((m s).1 = .err .Jni ∧ (m s).2.pending = true ∧
        ∃ c ∈ new, c.failed = true ∧ OfBody c.fn ∧ ∃ k, vm.raises k = true))

variable {α β : Type} {vm : Jvm}

theorem runs_lift (x : Outcome JError α) : Runs vm (JniM.lift x) x 0 := by
  intro s hs
  exact ⟨[], by simp [JniM.lift], by simp, by simp [JniM.lift], .inl ⟨by simp, rfl, hs, by simp [JniM.lift]⟩⟩

theorem runs_pure (a : α) : Runs vm (pure a) (.ok a) 0 := runs_lift (.ok a)

theorem runs_call {fn : JniFn} (h : OfBody fn) (n : Nat) : Runs vm (jniCall vm fn true n) (.ok ()) n := by
  intro s hs
  unfold jniCall
  simp only [Bool.not_true, Bool.false_or, hs]
  rcases hf : (fn.mayFail && vm.raises s.trace.length) with _ | _
  · exact ⟨_, rfl, by simp, by simp, .inl ⟨by simp, by simp, rfl, by simp⟩⟩
  · refine ⟨_, rfl, by simp, by simp, .inr ⟨by simp, rfl, ?_⟩⟩
    simp only [Bool.and_eq_true] at hf
    exact ⟨_, List.mem_singleton_self _, rfl, h, _, hf.2⟩

theorem runs_bind {m : JniM α} {v : Outcome JError α} {k : α → JniM β} {w : α → Outcome JError β} {n n' : Nat}
    (hm : Runs vm m v n) (hk : ∀ a, v = .ok a → Runs vm (k a) (w a) n') : Runs vm (m >>= k) (v >>= w) (n + n') := by
  intro s hs
  obtain ⟨new, h1, h2, h3, h4⟩ := hm s hs
  show ∃ new, (JniM.bind m k s).2.trace = _ ∧ _ ∧ (JniM.bind m k s).2.locals ≤ _ ∧
    ((_ ∧ (JniM.bind m k s).1 = _ ∧ (JniM.bind m k s).2.pending = _ ∧ ∀ a, _ → (JniM.bind m k s).2.locals = _ ∧ _) ∨
      ((JniM.bind m k s).1 = _ ∧ (JniM.bind m k s).2.pending = _ ∧ _))
  unfold JniM.bind
  rcases hr : m s with ⟨r, s'⟩
  rw [hr] at h1 h3 h4
  simp only at h1 h3 h4
  rcases h4 with ⟨h4, h5, h6, h7⟩ | ⟨h5, h6, h7⟩
  · subst h5
    cases r with
    | ok a =>
      obtain ⟨new', g1, g2, g3, g4⟩ := hk a rfl s' h6
      obtain ⟨h7, h8⟩ := h7 a rfl
      simp only [Outcome.ok_bind]
      refine ⟨new ++ new', by rw [g1, h1, List.append_assoc], ?_, by omega, ?_⟩
      · intro c hc
        rcases List.mem_append.1 hc with hc | hc
        · exact ⟨(h2 c hc).1, by have := (h2 c hc).2; omega⟩
        · exact ⟨(g2 c hc).1, by have := (g2 c hc).2; omega⟩
      · rcases g4 with ⟨g4, g5, g6, g7⟩ | ⟨g5, g6, c, hc, g7⟩
        · refine .inl ⟨?_, g5, g6, fun b hb => ?_⟩
          · intro c hc
            rcases List.mem_append.1 hc with hc | hc
            · exact h4 c hc
            · exact g4 c hc
          · obtain ⟨g8, g9⟩ := g7 b hb
            refine ⟨by omega, ?_⟩
            rcases g9 with g9 | ⟨c, hc, g9⟩
            · rcases h8 with h8 | ⟨c, hc, h8⟩
              · exact .inl (by omega)
              · exact .inr ⟨c, List.mem_append_left _ hc, by omega⟩
            · exact .inr ⟨c, List.mem_append_right _ hc, by omega⟩
        · exact .inr ⟨g5, g6, c, List.mem_append_right _ hc, g7⟩
    | err e =>
      exact ⟨new, h1, fun c hc => ⟨(h2 c hc).1, by have := (h2 c hc).2; omega⟩, by simp only; omega,
        .inl ⟨h4, rfl, h6, by intro a h; simp at h⟩⟩
    | panic =>
      exact ⟨new, h1, fun c hc => ⟨(h2 c hc).1, by have := (h2 c hc).2; omega⟩, by simp only; omega,
        .inl ⟨h4, rfl, h6, by intro a h; simp at h⟩⟩
  · subst h5
    exact ⟨new, h1, fun c hc => ⟨(h2 c hc).1, by have := (h2 c hc).2; omega⟩, by simp only; omega, .inr ⟨rfl, h6, h7⟩⟩

/-- a step with an empty result -/
theorem runs_then {m : JniM Unit} {k : JniM β} {w : Outcome JError β} {n n' : Nat} (hm : Runs vm m (.ok ()) n)
    (hk : Runs vm k w n') : Runs vm (do m; k) w (n + n') :=
  runs_bind (w := fun _ => w) hm (fun _ _ => hk)

theorem Runs.cast {m : JniM α} {v v' : Outcome JError α} {n n' : Nat} (h : Runs vm m v n) (hv : v = v') (hn : n = n') :
    Runs vm m v' n' := hv ▸ hn ▸ h

/-- more references than are created may be assumed if the result is no success -/
theorem runs_err (e : JError) (n : Nat) : Runs vm (JniM.lift (.err e) : JniM α) (.err e) n := by
  intro s hs
  exact ⟨[], by simp [JniM.lift], by simp, by simp [JniM.lift], .inl ⟨by simp, rfl, hs, by simp⟩⟩

theorem runs_mapM {xs : List α} {f : α → JniM β} {g : α → Outcome JError β} {n : Nat}
    (h : ∀ x ∈ xs, Runs vm (f x) (g x) n) : Runs vm (xs.mapM f) (xs.mapM g) (n * xs.length) := by
  induction xs with
  | nil => exact (runs_pure []).cast rfl (by simp)
  | cons x xs ih =>
    rw [List.mapM_cons, List.mapM_cons]
    refine (runs_bind (h x (by simp)) (fun b _ => runs_bind (ih (fun y hy => h y (by simp [hy])))
      (fun bs _ => runs_pure (b :: bs)))).cast rfl ?_
    rw [List.length_cons]; ring

theorem runs_foldlM {σ : Type} {xs : List α} {f : σ → α → JniM σ} {g : σ → α → σ} {n : Nat} (P : σ → Prop) (init : σ) (h0 : P init)
    (h : ∀ a, P a → ∀ x ∈ xs, P (g a x) ∧ Runs vm (f a x) (.ok (g a x)) n) :
    Runs vm (xs.foldlM f init) (.ok (xs.foldl g init)) (n * xs.length) := by
  induction xs generalizing init with
  | nil => exact (runs_pure init).cast rfl (by simp)
  | cons x xs ih =>
    rw [List.foldlM_cons, List.foldl_cons]
    obtain ⟨h1, h2⟩ := h init h0 x (by simp)
    refine (runs_bind (w := fun a => .ok (xs.foldl g a)) h2 ?_).cast rfl (by rw [List.length_cons]; ring : n + n * xs.length = _)
    rintro a ⟨⟩
    exact ih _ h1 (fun a ha y hy => h a ha y (by simp [hy]))

section
variable (vm : Jvm)

theorem runs_getArrayLength (l : List α) : Runs vm (getArrayLength vm (some l)) (.ok l.length) 0 :=
  runs_then (runs_call (by simp [OfBody]) 0) (runs_pure _)

theorem runs_getByteArrayRegion (l : List Int8) : Runs vm (getByteArrayRegion vm (some l) 0 l.length) (.ok l) 0 := by
  have : getByteArrayRegion vm (some l) 0 l.length = (do jniCall vm .GetByteArrayRegion true 0; pure l) := by
    unfold getByteArrayRegion; simp [nonNull]
  rw [this]
  exact runs_then (runs_call (by simp [OfBody]) 0) (runs_pure _)

theorem runs_getLongArrayRegion (l : List Int64) : Runs vm (getLongArrayRegion vm (some l) 0 l.length) (.ok l) 0 := by
  have : getLongArrayRegion vm (some l) 0 l.length = (do jniCall vm .GetLongArrayRegion true 0; pure l) := by
    unfold getLongArrayRegion; simp [nonNull]
  rw [this]
  exact runs_then (runs_call (by simp [OfBody]) 0) (runs_pure _)

theorem runs_convertByteArray (a : JByteArray) : Runs vm (convertByteArrayJni vm a) (convertByteArray a) 0 := by
  cases a with
  | none => exact runs_err _ _
  | some l =>
    unfold convertByteArrayJni
    refine runs_bind (v := .ok l.length) (w := fun _ => .ok (l.map Int8.toUInt8)) (n' := 0) (runs_getArrayLength vm l) ?_
    rintro _ ⟨⟩
    exact runs_bind (v := .ok l) (w := fun l => .ok (l.map Int8.toUInt8)) (runs_getByteArrayRegion vm l) (fun v _ => runs_pure _)

theorem runs_jlongarrayToVecU64 (a : JLongArray) : Runs vm (jlongarrayToVecU64Jni vm a) (jlongarrayToVecU64 a) 0 := by
  cases a with
  | none => exact runs_err _ _
  | some l =>
    unfold jlongarrayToVecU64Jni
    refine runs_bind (v := .ok l.length) (w := fun _ => .ok (l.map (fun x => x.toUInt64.toNat))) (n' := 0)
      (runs_getArrayLength vm l) ?_
    rintro _ ⟨⟩
    exact runs_bind (v := .ok l) (w := fun l => .ok (l.map (fun x => x.toUInt64.toNat))) (runs_getLongArrayRegion vm l)
      (fun v _ => runs_pure _)

/-- the number of items of an array of arrays -/
def items (a : JObjectArray) : Nat := match a with | some l => l.length | none => 0

/-- one round of the loop of `jobject_array_to_2d_byte_array` -/
theorem runs_item (l : List JByteArray) (i : Nat) (x : JByteArray) (hx : l[i]? = some x) :
    Runs vm (do
      let innerArray ← getObjectArrayElement vm (some l) i
      let innerLen ← getArrayLength vm innerArray
      let buf ← getByteArrayRegion vm innerArray 0 innerLen
      pure (buf.map Int8.toUInt8)) (convertByteArray x) 1 := by
  have h : getObjectArrayElement vm (some l) i = (do
      jniCall vm .GetObjectArrayElement true (if x.isSome then 1 else 0)
      pure x) := by
    unfold getObjectArrayElement
    simp [nonNull, hx]
  rw [h, bind_assoc]
  cases x with
  | none =>
    refine (runs_then (runs_call (by simp [OfBody]) _) ?_).cast rfl (show 0 + 1 = 1 by rfl)
    exact runs_err _ _
  | some b =>
    refine (runs_then (runs_call (by simp [OfBody]) _) ?_).cast rfl (show 1 + 0 = 1 by rfl)
    exact runs_convertByteArray vm (some b)

theorem runs_jobjectArrayTo2dByteArray (a : JObjectArray) :
    Runs vm (jobjectArrayTo2dByteArrayJni vm a) (jobjectArrayTo2dByteArray a) (items a) := by
  cases a with
  | none => exact runs_err _ _
  | some l =>
    have hv : l.mapM convertByteArray = (List.range l.length).mapM (fun i => convertByteArray (l[i]?.getD none)) := by
      conv_lhs => rw [show l = (List.range l.length).map (fun i => l[i]?.getD none) from by
        apply List.ext_getElem (by simp)
        intro i h1 h2
        simp [h1]]
      rw [List.mapM_map]
      rfl
    refine (runs_bind (v := .ok l.length) (w := fun _ => l.mapM convertByteArray) (n' := l.length) (runs_getArrayLength vm l) ?_).cast
      rfl (by simp [items])
    rintro _ ⟨⟩
    rw [hv]
    refine (runs_mapM (n := 1) (fun i hi => ?_)).cast rfl (by simp)
    have hi := List.mem_range.1 hi
    exact runs_item vm l i _ (by simp [hi])

theorem runs_findClass {name : String} (h : name ∈ jvmClasses) (hn : name ≠ "java/lang/IllegalArgumentException") :
    Runs vm (findClass vm name) (.ok ()) 1 := by
  unfold findClass
  rw [decide_eq_true h]
  exact runs_call (by simp [OfBody, hn]) 1

theorem runs_newByteArray (n : Nat) : Runs vm (newByteArray vm n) (.ok (List.replicate n 0)) 1 :=
  runs_then (runs_call (by simp [OfBody]) 1) (runs_pure _)

theorem runs_byteArrayFromSlice (b : List UInt8) : Runs vm (byteArrayFromSliceJni vm b) (.ok (byteArrayFromSlice b)) 1 := by
  refine runs_bind (v := .ok (List.replicate b.length 0)) (w := fun _ => .ok (byteArrayFromSlice b)) (n' := 0)
    (runs_newByteArray vm _) ?_
  rintro _ ⟨⟩
  have : (do
      jniCall vm .SetByteArrayRegion (decide (b.length ≤ (List.replicate b.length (0 : Int8)).length)) 0
      pure (b.map UInt8.toInt8 ++ (List.replicate b.length 0).drop b.length)) =
      (do jniCall vm .SetByteArrayRegion true 0; pure (byteArrayFromSlice b)) := by
    simp [byteArrayFromSlice]
  rw [this]
  exact runs_then (runs_call (by simp [OfBody]) 0) (runs_pure _)

theorem foldl_set (values : List (List UInt8)) (done rest : List (List Int8)) (h : rest.length = values.length) :
    (values.zipIdx done.length).foldl (fun a (p : List UInt8 × Nat) => a.set p.2 (byteArrayFromSlice p.1)) (done ++ rest) =
      done ++ values.map byteArrayFromSlice := by
  induction values generalizing done rest with
  | nil => simp at h; simp [h]
  | cons v values ih =>
    cases rest with
    | nil => simp at h
    | cons r rest =>
      have := ih (done ++ [byteArrayFromSlice v]) rest (by simpa using h)
      simp only [List.zipIdx_cons, List.foldl_cons]
      simpa using this

theorem runs_fillObjectArray (a : List (List Int8)) (values : List (List UInt8)) (h : a.length = values.length) :
    Runs vm (fillObjectArray vm a values) (.ok (values.map byteArrayFromSlice)) values.length := by
  have h1 := foldl_set values [] a h
  simp only [List.nil_append, List.length_nil] at h1
  rw [← h1]
  unfold fillObjectArray
  refine (runs_foldlM (n := 1) (fun b => b.length = values.length) a h ?_).cast rfl (by simp)
  rintro b hb ⟨v, i⟩ hx
  refine ⟨by simpa using hb, ?_⟩
  refine runs_bind (v := .ok (byteArrayFromSlice v)) (w := fun x => .ok (b.set i x)) (n' := 0) (runs_byteArrayFromSlice vm v) ?_
  intro x _
  have hi : i < b.length := by
    have := List.mem_zipIdx hx
    omega
  unfold setObjectArrayElement
  rw [decide_eq_true hi]
  exact runs_then (runs_call (by simp [OfBody]) 0) (runs_pure _)

theorem runs_newObjectArray (n : Nat) (x : List Int8) : Runs vm (newObjectArray vm n x) (.ok (List.replicate n x)) 1 :=
  runs_then (runs_call (by simp [OfBody]) 1) (runs_pure _)

theorem runs_newCellsAndProofs (c p : List (List Int8)) : Runs vm (newCellsAndProofs vm "([[B[[B)V" c p) (.ok (c, p)) 1 := by
  unfold newCellsAndProofs
  rw [decide_eq_true (show "([[B[[B)V" ∈ cellsAndProofsConstructors from by decide)]
  exact (runs_then (runs_call (by simp [OfBody]) 0) (runs_then (runs_call (by simp [OfBody]) 1) (runs_pure _))).cast rfl rfl

theorem runs_cellsAndProofsToJobject (cells proofs : List (List UInt8)) :
    Runs vm (cellsAndProofsToJobjectJni vm cells proofs) (.ok (cellsAndProofsToJobject cells proofs))
      (8 + cells.length + proofs.length) := by
  unfold cellsAndProofsToJobjectJni
  refine (runs_then (runs_findClass vm (by decide) (by decide)) (runs_then (runs_findClass vm (by decide) (by decide))
    (runs_then (runs_findClass vm (by decide) (by decide))
      (runs_bind (runs_newByteArray vm 0) (w := fun _ => .ok (cellsAndProofsToJobject cells proofs)) fun x _ => 
        (runs_bind (runs_newObjectArray vm _ _) (w := fun _ => .ok (cellsAndProofsToJobject cells proofs)) fun a ha =>
        (runs_bind (runs_fillObjectArray vm a cells (by cases ha; simp)) (w := fun a => .ok (a, proofs.map byteArrayFromSlice))
          fun ca _ =>
        (runs_bind (runs_newByteArray vm 0) (w := fun _ => .ok (ca, proofs.map byteArrayFromSlice)) fun y _ =>
        (runs_bind (runs_newObjectArray vm _ _) (w := fun _ => .ok (ca, proofs.map byteArrayFromSlice)) fun b hb =>
        (runs_bind (runs_fillObjectArray vm b proofs (by cases hb; simp)) (w := fun b => .ok (ca, b)) fun pa _ =>
          runs_newCellsAndProofs vm ca pa))))))))).cast rfl (by ring)

/-- `throw_new` with an exception pending -/
theorem throwNew_pending (s : JniState) (hs : s.pending = true) :
    ∃ c, throwNew vm "java/lang/IllegalArgumentException" s = (.err .Jni, ⟨s.trace ++ [c], s.locals, true⟩) ∧
      c.fn = .FindClass "java/lang/IllegalArgumentException" ∧ c.pending = true ∧ c.locals = s.locals := by
  refine ⟨⟨.FindClass "java/lang/IllegalArgumentException", true, vm.raises s.trace.length, s.locals⟩, ?_, rfl, rfl, rfl⟩
  show JniM.bind (findClass vm _) _ s = _
  unfold JniM.bind findClass jniCall
  rw [decide_eq_true (show "java/lang/IllegalArgumentException" ∈ jvmClasses by decide)]
  simp [hs, JniFn.mayFail]

/-- `throw_new` with no exception pending -/
theorem throwNew_clear (s : JniState) (hs : s.pending = false) :
    ∃ new, (throwNew vm "java/lang/IllegalArgumentException" s).2.trace = s.trace ++ new ∧
      (∀ c ∈ new, (c.pending = true → c.fn.allowedWhilePending) ∧ (c.failed = true → ¬ OfBody c.fn) ∧ c.locals ≤ s.locals + 1) ∧
      (((throwNew vm "java/lang/IllegalArgumentException" s).1 = .ok () ∧
          (throwNew vm "java/lang/IllegalArgumentException" s).2.pending = true ∧
          (throwNew vm "java/lang/IllegalArgumentException" s).2.locals = s.locals ∧ ∀ c ∈ new, c.failed = false) ∨
        ((throwNew vm "java/lang/IllegalArgumentException" s).1 = .err .Jni ∧
          ∃ c ∈ new, c.failed = true ∧ ∃ k, vm.raises k = true)) := by
  have hfc : findClass vm "java/lang/IllegalArgumentException" = jniCall vm (.FindClass "java/lang/IllegalArgumentException") true 1 := by
    unfold findClass
    rw [decide_eq_true (show "java/lang/IllegalArgumentException" ∈ jvmClasses by decide)]
  unfold throwNew
  rw [hfc]
  rcases h1 : vm.raises s.trace.length with _ | _
  · have hcall : jniCall vm (.FindClass "java/lang/IllegalArgumentException") true 1 s =
        (.ok (), ⟨s.trace ++ [⟨.FindClass "java/lang/IllegalArgumentException", false, false, s.locals + 1⟩], s.locals + 1, false⟩) := by
      simp [jniCall, JniFn.mayFail, h1, hs]
    rcases h2 : vm.raises (s.trace.length + 1) with _ | _
    · refine ⟨[⟨.FindClass "java/lang/IllegalArgumentException", false, false, s.locals + 1⟩, ⟨.ThrowNew, false, false, s.locals + 1⟩,
        ⟨.DeleteLocalRef, true, false, s.locals⟩], ?_, ?_, .inl ⟨?_, ?_, ?_, ?_⟩⟩
      · show (JniM.bind _ _ s).2.trace = _
        unfold JniM.bind
        rw [hcall]
        simp [bind, JniM.bind, JniFn.mayFail, h2, pure]
      · simp [JniFn.allowedWhilePending]
      · show (JniM.bind _ _ s).1 = _
        unfold JniM.bind
        rw [hcall]
        simp [bind, JniM.bind, JniFn.mayFail, h2, pure]
      · show (JniM.bind _ _ s).2.pending = _
        unfold JniM.bind
        rw [hcall]
        simp [bind, JniM.bind, JniFn.mayFail, h2, pure]
      · show (JniM.bind _ _ s).2.locals = _
        unfold JniM.bind
        rw [hcall]
        simp [bind, JniM.bind, JniFn.mayFail, h2, pure]
      · simp
    · refine ⟨[⟨.FindClass "java/lang/IllegalArgumentException", false, false, s.locals + 1⟩, ⟨.ThrowNew, false, true, s.locals + 1⟩,
        ⟨.DeleteLocalRef, true, false, s.locals⟩], ?_, ?_, .inr ⟨?_, ?_⟩⟩
      · show (JniM.bind _ _ s).2.trace = _
        unfold JniM.bind
        rw [hcall]
        simp [bind, JniM.bind, JniFn.mayFail, h2, JniM.lift]
      · simp [JniFn.allowedWhilePending, OfBody]
      · show (JniM.bind _ _ s).1 = _
        unfold JniM.bind
        rw [hcall]
        simp [bind, JniM.bind, JniFn.mayFail, h2, JniM.lift]
      · exact ⟨⟨.ThrowNew, false, true, s.locals + 1⟩, by simp, rfl, _, h2⟩
  · have hcall : jniCall vm (.FindClass "java/lang/IllegalArgumentException") true 1 s =
        (.err .Jni, ⟨s.trace ++ [⟨.FindClass "java/lang/IllegalArgumentException", false, true, s.locals⟩], s.locals, true⟩) := by
      simp [jniCall, JniFn.mayFail, h1, hs]
    refine ⟨[⟨.FindClass "java/lang/IllegalArgumentException", false, true, s.locals⟩], ?_, ?_, .inr ⟨?_, ?_⟩⟩
    · show (JniM.bind _ _ s).2.trace = _
      unfold JniM.bind
      rw [hcall]
    · simp [OfBody]
    · show (JniM.bind _ _ s).1 = _
      unfold JniM.bind
      rw [hcall]
    · exact ⟨_, List.mem_singleton_self _, rfl, _, h1⟩

/-- the calls of the body are among those of the method -/
theorem native_trace (m : JniM α) (jniDebug : List UInt8) (funcName : String) {c : JniCall} (hc : c ∈ (m .entry).2.trace) :
    c ∈ (nativeJni vm jniDebug funcName m).2.trace := by
  unfold nativeJni
  rcases hr : m .entry with ⟨r, s⟩
  rw [hr] at hc
  cases r with
  | ok a => exact hc
  | panic => exact hc
  | err e =>
    simp only
    have : ∃ new, (throwNew vm "java/lang/IllegalArgumentException" s).2.trace = s.trace ++ new := by
      rcases hp : s.pending with _ | _
      · obtain ⟨new, h, -⟩ := throwNew_clear vm s hp
        exact ⟨new, h⟩
      · obtain ⟨d, h, -⟩ := throwNew_pending vm s hp
        exact ⟨[d], by rw [h]⟩
    obtain ⟨new, h⟩ := this
    rcases ht : throwNew vm "java/lang/IllegalArgumentException" s with ⟨r, s'⟩
    rw [ht] at h
    simp only at h
    have hm : c ∈ s'.trace := by rw [h]; exact List.mem_append_left _ hc
    cases r <;> exact hm

/-- the references that the first part of a method creates, if that part cannot fail -/
theorem native_prefix {γ : Type} {m : JniM γ} {x : γ} {k : γ → JniM α} {w : Outcome JError α} {n n' : Nat} {vm' : Jvm}
    (hm : Runs vm' m (.ok x) n) (hq : ∀ k, vm'.raises k = false) (hk : Runs vm (k x) w n') (hn : 0 < n) (jniDebug : List UInt8)
    (funcName : String) : ∃ c ∈ (nativeJni vm jniDebug funcName (m >>= k)).2.trace, c.locals = n := by
  obtain ⟨new, h1, -, -, h4⟩ := hm .entry rfl
  rcases h4 with ⟨-, h5, h6, h7⟩ | ⟨-, -, _, -, -, -, j, hj⟩
  · obtain ⟨h7, h8 | ⟨c, hc, h8⟩⟩ := h7 x rfl
    · omega
    · refine ⟨c, native_trace vm _ _ _ ?_, by rw [h8]; exact Nat.zero_add n⟩
      show c ∈ (JniM.bind m k .entry).2.trace
      unfold JniM.bind
      rcases hr : m .entry with ⟨r, s⟩
      rw [hr] at h1 h5 h6
      simp only at h1 h5 h6
      subst h5
      obtain ⟨new', g1, -⟩ := hk s h6
      simp only
      rw [g1, h1]
      exact List.mem_append_left _ (List.mem_append_right _ hc)
  · rw [hq j] at hj; cases hj

/-- reading the arguments does not depend on the virtual machine -/
theorem read_quiet (vm' : Jvm) (a : JObjectArray) : jobjectArrayTo2dByteArrayJni vm a = jobjectArrayTo2dByteArrayJni vm' a := rfl

theorem read_quiet_long (vm' : Jvm) (a : JLongArray) : jlongarrayToVecU64Jni vm a = jlongarrayToVecU64Jni vm' a := rfl

/-- how a native method ends, from the result of its body when no call fails -/
def endOf {α : Type} (jniDebug : List UInt8) (funcName : String) : Outcome JError α → NativeEnd JException α
  | .ok a => .returned a
  | .err e => .threw (throwOnErrorJ jniDebug e funcName)
  | .panic => .aborted

theorem native_runs {m : JniM α} {v : Outcome JError α} {n : Nat} (h : Runs vm m v n) (jniDebug : List UInt8) (funcName : String)
    (E : NativeEnd JException α × JniState) (hE : nativeJni vm jniDebug funcName m = E) :
    ((∀ c ∈ E.2.trace, c.failed = false) → E.1 = endOf jniDebug funcName v) ∧
    ((∃ c ∈ E.2.trace, c.failed = true) → E.1 = .aborted ∧ ∃ k, vm.raises k = true) ∧
    (Disciplined E.2.trace ↔ ∀ c ∈ E.2.trace, c.failed = true → ¬ OfBody c.fn) ∧
    (∀ c ∈ E.2.trace, c.locals ≤ n + 1) ∧
    (∀ a, E.1 = .returned a → E.2.pending = false ∧ (∀ c ∈ E.2.trace, c.locals ≤ n) ∧ (n = 0 ∨ ∃ c ∈ E.2.trace, c.locals = n)) ∧
    (∀ e, E.1 = .threw e → E.2.pending = true) := by
  obtain ⟨new, h1, h2, h3, h4⟩ := h .entry rfl
  have h0 : JniState.entry.trace = [] := rfl
  have hl : JniState.entry.locals = 0 := rfl
  rw [h0, List.nil_append] at h1
  simp only [hl, Nat.zero_add] at h2 h3 h4
  unfold nativeJni at hE
  rcases hr : m .entry with ⟨r, s⟩
  rw [hr] at hE h1 h3 h4
  simp only at hE h1 h3 h4
  rcases h4 with ⟨h4, h5, h6, h7⟩ | ⟨h5, h6, c, hc, h7, h8, h9⟩
  · subst h5
    cases r with
    | ok a =>
      subst hE
      simp only [h1]
      refine ⟨fun _ => rfl, ?_, ?_, fun c hc => by have := (h2 c hc).2; omega, ?_, by simp⟩
      · rintro ⟨c, hc, hf⟩; rw [h4 c hc] at hf; cases hf
      · exact ⟨fun _ c hc hf => (by rw [h4 c hc] at hf; cases hf), fun _ c hc hp => (by rw [(h2 c hc).1] at hp; cases hp)⟩
      · intro b _
        exact ⟨h6, fun c hc => (h2 c hc).2, (h7 a rfl).2⟩
    | err e =>
      obtain ⟨new', g1, g2, g3⟩ := throwNew_clear vm s h6
      simp only at hE
      rcases ht : throwNew vm "java/lang/IllegalArgumentException" s with ⟨r, s'⟩
      rw [ht] at hE g1 g3
      simp only at hE g1 g3
      have hmem : ∀ c ∈ s'.trace, (c.pending = true → c.fn.allowedWhilePending) ∧ (c.failed = true → ¬ OfBody c.fn) ∧
          c.locals ≤ n + 1 := by
        intro c hc
        rw [g1, h1] at hc
        rcases List.mem_append.1 hc with hc | hc
        · refine ⟨fun hp => ?_, fun hf => ?_, by have := (h2 c hc).2; omega⟩
          · rw [(h2 c hc).1] at hp; cases hp
          · rw [h4 c hc] at hf; cases hf
        · exact ⟨(g2 c hc).1, (g2 c hc).2.1, by have := (g2 c hc).2.2; omega⟩
      rcases g3 with ⟨g3, g4, -, g5⟩ | ⟨g3, c, hc, g4, g5⟩
      · subst g3
        subst hE
        refine ⟨fun _ => rfl, ?_, ⟨fun _ c hc => (hmem c hc).2.1, fun _ c hc => (hmem c hc).1⟩, fun c hc => (hmem c hc).2.2,
          by simp, fun _ _ => g4⟩
        rintro ⟨c, hc, hf⟩
        rw [g1, h1] at hc
        rcases List.mem_append.1 hc with hc | hc
        · rw [h4 c hc] at hf; cases hf
        · rw [g5 c hc] at hf; cases hf
      · subst g3
        subst hE
        refine ⟨?_, fun _ => ⟨rfl, g5⟩, ⟨fun _ c hc => (hmem c hc).2.1, fun _ c hc => (hmem c hc).1⟩, fun c hc => (hmem c hc).2.2,
          by simp, by simp⟩
        intro hall
        have := hall c (by simp only [g1]; exact List.mem_append_right _ hc)
        rw [g4] at this; cases this
    | panic =>
      subst hE
      simp only [h1]
      refine ⟨fun _ => rfl, ?_, ?_, fun c hc => by have := (h2 c hc).2; omega, by simp, by simp⟩
      · rintro ⟨c, hc, hf⟩; rw [h4 c hc] at hf; cases hf
      · exact ⟨fun _ c hc hf => (by rw [h4 c hc] at hf; cases hf), fun _ c hc hp => (by rw [(h2 c hc).1] at hp; cases hp)⟩
  · subst h5
    obtain ⟨d, g1, g2, g3, g4⟩ := throwNew_pending vm s h6
    simp only [g1] at hE
    subst hE
    simp only [h1]
    refine ⟨?_, fun _ => ⟨trivial, h9⟩, ?_, ?_, by simp, by simp⟩
    · intro hall
      have := hall c (List.mem_append_left _ hc)
      rw [h7] at this; cases this
    · constructor
      · intro hd
        have := hd d (by simp) g3
        rw [g2] at this
        exact this.elim
      · intro hd
        exact absurd h8 (hd c (List.mem_append_left _ hc) h7)
    · intro c hc
      rcases List.mem_append.1 hc with hc | hc
      · have := (h2 c hc).2; omega
      · rw [List.mem_singleton.1 hc, g4]; omega

end

section
variable (vm : Jvm) {K G1 G2 GT : Type} [Field K] [DecidableEq K] [AddCommGroup G1] [Module Fr G1] [DecidableEq G1]
  [Curve K G1] [PointCodec G1] [LawfulPointCodec G1 48] [AddCommGroup G2] [Module Fr G2] [AddCommGroup GT] [DecidableEq GT]
  [Pairing G1 G2 GT]

theorem mapErr_eq_ok {ε ε' : Type} {f : ε → ε'} {x : Outcome ε α} {a : α} : x.mapErr f = .ok a ↔ x = .ok a := by
  cases x <;> simp

theorem runs_commitment (blob : JByteArray) (ctx : DASContext K G1 G2) :
    Runs vm (blobToKzgCommitmentJni vm blob ctx) (blobToKzgCommitmentJ blob ctx) 1 := by
  unfold blobToKzgCommitmentJni blobToKzgCommitmentJ
  exact (runs_bind (runs_convertByteArray vm blob) fun b _ => runs_bind (runs_lift _) fun b _ =>
    runs_bind (runs_lift _) fun c _ => runs_byteArrayFromSlice vm c).cast rfl rfl

theorem runs_compute (blob : JByteArray) (ctx : DASContext K G1 G2) :
    Runs vm (computeCellsAndKzgProofsJni vm blob ctx) (computeCellsAndKzgProofsJ blob ctx) 264 := by
  unfold computeCellsAndKzgProofsJni computeCellsAndKzgProofsJ
  refine (runs_bind (runs_convertByteArray vm blob) fun b _ => runs_bind (runs_lift _) fun b _ =>
    runs_bind (runs_lift _) fun r hr => ?_).cast rfl (show 0 + (0 + (0 + 264)) = 264 by rfl)
  obtain ⟨cells, proofs⟩ := r
  rw [mapErr_eq_ok] at hr
  obtain ⟨h1, -, h2, -⟩ := computeCellsAndKzgProofs_sizes hr
  exact (runs_cellsAndProofsToJobject vm cells proofs).cast rfl (by rw [h1, h2])

theorem runs_recover (cellIds : JLongArray) (cells : JObjectArray) (ctx : DASContext K G1 G2) :
    Runs vm (recoverCellsAndKzgProofsJni vm cellIds cells ctx) (recoverCellsAndKzgProofsJ cellIds cells ctx) (items cells + 264) := by
  unfold recoverCellsAndKzgProofsJni recoverCellsAndKzgProofsJ
  refine (runs_bind (runs_jlongarrayToVecU64 vm cellIds) fun b _ => runs_bind (runs_jobjectArrayTo2dByteArray vm cells) fun b _ =>
    runs_bind (runs_lift _) fun c _ => runs_bind (runs_lift _) fun r hr => ?_).cast rfl
    (show 0 + (items cells + (0 + (0 + 264))) = items cells + 264 by omega)
  obtain ⟨cells, proofs⟩ := r
  rw [mapErr_eq_ok] at hr
  obtain ⟨h1, -, h2, -⟩ := recoverCellsAndKzgProofs_sizes hr
  exact (runs_cellsAndProofsToJobject vm cells proofs).cast rfl (by rw [h1, h2])

theorem runs_verify (sha256 : List UInt8 → List UInt8) (commitments : JObjectArray) (cellIndices : JLongArray)
    (cells proofs : JObjectArray) (ctx : DASContext K G1 G2) :
    Runs vm (verifyCellKzgProofBatchJni vm sha256 commitments cellIndices cells proofs ctx)
      (verifyCellKzgProofBatchJ sha256 commitments cellIndices cells proofs ctx) (items commitments + items cells + items proofs) := by
  unfold verifyCellKzgProofBatchJni verifyCellKzgProofBatchJ
  exact (runs_bind (runs_jobjectArrayTo2dByteArray vm commitments) fun a _ => runs_bind (runs_jlongarrayToVecU64 vm cellIndices) fun b _ =>
    runs_bind (runs_jobjectArrayTo2dByteArray vm cells) fun c _ => runs_bind (runs_jobjectArrayTo2dByteArray vm proofs) fun d _ =>
    runs_bind (runs_lift _) fun e _ => runs_bind (runs_lift _) fun f _ => runs_bind (runs_lift _) fun g _ => runs_lift _).cast rfl
    (by ring)

end
end Jni
end Verif
