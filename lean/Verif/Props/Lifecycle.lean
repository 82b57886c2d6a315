import Verif.Lemmas.Lifecycle
import Verif.Props.Go
import Verif.Props.Bindings
import Verif.Model.JavaThreads

set_option linter.unusedSectionVars false

/-! C45, C46 and C47: the life of contexts in C, Java, C# and Go. -/
namespace Verif
open Spec (UsesContext Program JavaMethod JavaObject NimObject Busy OneAtATime SequentialReach)

section
variable {K G1 G2 GT : Type} [Field K] [DecidableEq K] [AddCommGroup G1] [Module Fr G1] [DecidableEq G1]
  [Curve K G1] [PointCodec G1] [AddCommGroup G2] [Module Fr G2] [AddCommGroup GT] [DecidableEq GT]
  [Pairing G1 G2 GT]
variable (A : Allocator (DASContext K G1 G2)) (setup : SetupPoints G1 G2) (sha256 : List UInt8 → List UInt8) (jniDebug : List UInt8)

/-- C45 (C): at any time in any program the live contexts are exactly those that were created and not freed yet, each still the context that
was created; freeing one of them works and frees nothing else; any other address but null is caught as undefined behaviour when it is freed
or used. -/
theorem C45_c_contexts {s : CState (DASContext K G1 G2)} {live : Nat → Option Bool} (h : Program A setup sha256 s live) :
    (∀ p, live p = none → s.ctxs p = none) ∧
    (∀ p up, live p = some up → p ≠ 0 ∧ ∃ ctx, s.ctxs p = some ctx ∧
      (DASContext.new setup (if up then .yes RECOMMENDED_PRECOMP_WIDTH else .no) : Outcome Empty (DASContext K G1 G2)) = .ok ctx) ∧
    (∀ p, live p ≠ none → ethKzgDasContextFree p s = .ok () { s with ctxs := fun a => if a = p then none else s.ctxs a }) ∧
    ethKzgDasContextFree 0 s = .ok () s ∧
    (∀ p, p ≠ 0 → live p = none → ethKzgDasContextFree p s = .fault ∧ ∀ call, UsesContext A sha256 p call → call s = .fault) ∧
    ∀ up p s', ethKzgDasContextNew A setup up s = .ok p s' → live p = none := by
  have inv : (∀ p, live p = none → s.ctxs p = none) ∧
      (∀ p up, live p = some up → p ≠ 0 ∧ ∃ ctx, s.ctxs p = some ctx ∧
        (DASContext.new setup (if up then .yes RECOMMENDED_PRECOMP_WIDTH else .no) : Outcome Empty (DASContext K G1 G2)) = .ok ctx) := by
    induction h with
    | start h => exact ⟨fun p _ => h p, fun p up h' => by cases h'⟩
    | @new s live up q s' _ hnew ih =>
      unfold ethKzgDasContextNew at hnew
      split at hnew
      · rename_i ctx hctx
        split at hnew
        · rename_i q' hq
          cases hnew
          obtain ⟨h0, -, -⟩ := A.freshCtx _ _ hq
          refine ⟨fun p hp => ?_, fun p up' hp => ?_⟩
          · by_cases hpq : p = q
            · simp [hpq] at hp
            · simp only [hpq, if_false] at hp ⊢
              exact ih.1 p hp
          · by_cases hpq : p = q
            · simp only [hpq, if_true, Option.some.injEq] at hp ⊢
              subst hp
              exact ⟨h0, ctx, rfl, hctx⟩
            · simp only [hpq, if_false] at hp ⊢
              exact ih.2 p up' hp
        · cases hnew
      · cases hnew
    | @free s live q s' _ hlive hfree ih =>
      obtain ⟨up, hup⟩ := Option.ne_none_iff_exists'.1 hlive
      obtain ⟨h0, ctx, hctx, -⟩ := ih.2 q up hup
      simp only [ethKzgDasContextFree, h0, if_false, hctx] at hfree
      cases hfree
      refine ⟨fun p hp => ?_, fun p up' hp => ?_⟩
      · by_cases hpq : p = q
        · simp [hpq]
        · simp only [hpq, if_false] at hp ⊢
          exact ih.1 p hp
      · by_cases hpq : p = q
        · simp [hpq] at hp
        · simp only [hpq, if_false] at hp ⊢
          exact ih.2 p up' hp
    | @call s live q call r s' _ huse hcall ih =>
      rw [(keepsContexts_of_uses huse s).1 r s' hcall]
      exact ih
    | @freeMessage s live q s' _ hfree ih =>
      unfold ethKzgFreeErrorMessage at hfree
      split_ifs at hfree
      · cases hfree
        exact ih
      · split at hfree
        · cases hfree
          exact ih
        · cases hfree
    | write mem _ ih => exact ih
  refine ⟨inv.1, inv.2, fun p hp => ?_, rfl, fun p h0 hp => ⟨?_, fun call hu => fault_of_uses hu h0 (inv.1 p hp)⟩, ?_⟩
  · obtain ⟨up, hup⟩ := Option.ne_none_iff_exists'.1 hp
    obtain ⟨h0, ctx, hctx, -⟩ := inv.2 p up hup
    simp only [ethKzgDasContextFree, h0, if_false, hctx]
  · simp only [ethKzgDasContextFree, h0, if_false, inv.1 p hp]
  · intro up p s' hnew
    unfold ethKzgDasContextNew at hnew
    split at hnew
    · split at hnew
      · rename_i hq
        cases hnew
        obtain ⟨-, -, hn⟩ := A.freshCtx _ _ hq
        by_contra hne
        obtain ⟨up, hup⟩ := Option.ne_none_iff_exists'.1 hne
        obtain ⟨-, ctx, hctx, -⟩ := inv.2 p up hup
        rw [hn] at hctx
        cases hctx
      · cases hnew
    · cases hnew

theorem javaMethod_closed {m : CM (DASContext K G1 G2) JException Unit} (hm : JavaMethod sha256 jniDebug ⟨0⟩ m)
    (s : CState (DASContext K G1 G2)) : m s = .err (.illegalState (ascii "KZG context context has been destroyed")) s := by
  cases hm <;> rfl

theorem nativeJ_cases {α : Type} {p : Nat} {ctx : DASContext K G1 G2} {s : CState (DASContext K G1 G2)} (h : s.ctxs p = some ctx) (name : String)
    (f : DASContext K G1 G2 → Outcome JError α) :
    (∃ a, nativeJ jniDebug p name f s = .ok a s) ∨ (∃ e, nativeJ jniDebug p name f s = .err e s) ∨ nativeJ jniDebug p name f s = .panic := by
  unfold nativeJ
  rw [CM.bind_ok (a := ctx) (s' := s) (by simp [derefCtx, h])]
  rcases f ctx with a | e | _
  · exact .inl ⟨a, rfl⟩
  · exact .inr (.inl ⟨_, rfl⟩)
  · exact .inr (.inr rfl)

theorem javaMethod_open {self : LibEthKZG} (h0 : self.contextPtr ≠ 0) {ctx : DASContext K G1 G2} {s : CState (DASContext K G1 G2)}
    (h : s.ctxs self.contextPtr = some ctx) {m : CM (DASContext K G1 G2) JException Unit} (hm : JavaMethod sha256 jniDebug self m) :
    m s = .ok () s ∨ (∃ e, m s = .err e s) ∨ m s = .panic := by
  have key : ∀ {α : Type} (name : String) (f : DASContext K G1 G2 → Outcome JError α) (x : CM (DASContext K G1 G2) JException Unit),
      x = ((self.checkContextHasNotBeenFreed >>= fun _ => nativeJ jniDebug self.contextPtr name f) >>= fun _ => pure ()) →
      x s = .ok () s ∨ (∃ e, x s = .err e s) ∨ x s = .panic := by
    rintro α name f x rfl
    unfold LibEthKZG.checkContextHasNotBeenFreed
    rw [if_neg h0, pure_bind]
    rcases nativeJ_cases jniDebug h name f with ⟨a, ha⟩ | ⟨e, he⟩ | hp
    · exact .inl (by rw [CM.bind_ok ha]; rfl)
    · exact .inr (.inl ⟨e, CM.bind_err he⟩)
    · exact .inr (.inr (CM.bind_panic hp))
  cases hm with
  | commitment => exact key _ _ _ rfl
  | cells => exact key _ _ _ rfl
  | verify => exact key _ _ _ rfl
  | recover => exact key _ _ _ rfl

/-- C45 (Java): whatever methods of an object were called in one thread, in any order and with any arguments, `destroy` can be called again
and leaves the process as it was before the object was created: the context is freed exactly once. After `destroy` every method throws
`IllegalStateException`. Before, the context is live and no method has undefined behaviour. -/
theorem C45_java_object {s₀ s : CState (DASContext K G1 G2)} {up closed : Bool} {self : LibEthKZG}
    (h : JavaObject A setup sha256 jniDebug s₀ up self s closed) :
    self.destroy s = .ok ⟨0⟩ s₀ ∧
    (closed = true → s = s₀ ∧ ∀ m, JavaMethod sha256 jniDebug self m →
      m s = .err (.illegalState (ascii "KZG context context has been destroyed")) s) ∧
    (closed = false → self.contextPtr ≠ 0 ∧
      (∃ ctx, s.ctxs self.contextPtr = some ctx ∧
        (DASContext.new setup (if up then .yes RECOMMENDED_PRECOMP_WIDTH else .no) : Outcome Empty (DASContext K G1 G2)) = .ok ctx) ∧
      ∀ m, JavaMethod sha256 jniDebug self m → m s ≠ .fault) := by
  have inv : (closed = true ∧ self = ⟨0⟩ ∧ s = s₀) ∨ (closed = false ∧ self.contextPtr ≠ 0 ∧ s₀.ctxs self.contextPtr = none ∧
      ∃ ctx, s = { s₀ with ctxs := fun a => if a = self.contextPtr then some ctx else s₀.ctxs a } ∧
        (DASContext.new setup (if up then .yes RECOMMENDED_PRECOMP_WIDTH else .no) : Outcome Empty (DASContext K G1 G2)) = .ok ctx) := by
    have open_state : ∀ {p : Nat} {s : CState (DASContext K G1 G2)} {ok : DASContext K G1 G2 → Prop},
        (∃ ctx, s = { s₀ with ctxs := fun a => if a = p then some ctx else s₀.ctxs a } ∧ ok ctx) → ∃ ctx, s.ctxs p = some ctx := by
      rintro p s ok ⟨ctx, rfl, -⟩
      exact ⟨ctx, by simp⟩
    induction h with
    | @new self s h =>
      right
      unfold LibEthKZG.new at h
      rw [CM.bind_apply] at h
      unfold ethKzgDasContextNew at h
      rcases hc : (DASContext.new setup (if up then .yes RECOMMENDED_PRECOMP_WIDTH else .no) : Outcome Empty (DASContext K G1 G2))
        with ctx | e | _ <;> simp only [hc] at h
      · rcases hp : A.placeCtx s₀ with _ | p <;> simp only [hp] at h
        · cases h
        · cases h
          obtain ⟨h0, -, hn⟩ := A.freshCtx _ _ hp
          exact ⟨rfl, h0, hn, ctx, rfl, rfl⟩
      · cases h
      · cases h
    | @destroy self s closed self' s' _ hd ih =>
      left
      rcases ih with ⟨-, rfl, rfl⟩ | ⟨-, h0, hn, ctx, rfl, -⟩
      · cases hd
        exact ⟨rfl, rfl, rfl⟩
      · unfold LibEthKZG.destroy at hd
        rw [if_pos h0, CM.bind_apply] at hd
        simp only [ethKzgDasContextFree, h0, if_false, if_true] at hd
        cases hd
        refine ⟨rfl, rfl, ?_⟩
        cases s₀
        congr
        funext a
        by_cases ha : a = self.contextPtr
        · simp only [ha, if_true]; exact hn.symm
        · simp [ha]
    | @returns self s closed m s' _ hm hr ih =>
      rcases ih with ⟨h1, rfl, h3⟩ | ⟨h1, h0, hn, hs⟩
      · rw [javaMethod_closed sha256 jniDebug hm s] at hr
        cases hr
      · obtain ⟨ctx, hctx⟩ := open_state hs
        rcases javaMethod_open sha256 jniDebug h0 hctx hm with h' | ⟨e, h'⟩ | h' <;> rw [h'] at hr <;> cases hr
        exact .inr ⟨h1, h0, hn, hs⟩
    | @throws self s closed m e s' _ hm hr ih =>
      rcases ih with ⟨h1, rfl, h3⟩ | ⟨h1, h0, hn, hs⟩
      · rw [javaMethod_closed sha256 jniDebug hm s] at hr
        cases hr
        exact .inl ⟨h1, rfl, h3⟩
      · obtain ⟨ctx, hctx⟩ := open_state hs
        rcases javaMethod_open sha256 jniDebug h0 hctx hm with h' | ⟨e', h'⟩ | h' <;> rw [h'] at hr <;> cases hr
        exact .inr ⟨h1, h0, hn, hs⟩
  rcases inv with ⟨rfl, rfl, rfl⟩ | ⟨rfl, h0, hn, ctx, rfl, hctx⟩
  · exact ⟨rfl, fun _ => ⟨rfl, fun m hm => javaMethod_closed sha256 jniDebug hm _⟩, fun h => by cases h⟩
  · refine ⟨?_, fun h => (by cases h), fun _ => ⟨h0, ⟨ctx, by simp, hctx⟩, fun m hm => ?_⟩⟩
    · unfold LibEthKZG.destroy
      rw [if_pos h0, CM.bind_apply]
      simp only [ethKzgDasContextFree, h0, if_false, if_true]
      show COut.ok _ _ = _
      congr
      cases s₀
      funext a
      by_cases ha : a = self.contextPtr
      · simp only [ha, if_true]; exact hn.symm
      · simp [ha]
    · rcases javaMethod_open sha256 jniDebug h0 (ctx := ctx)
        (s := { s₀ with ctxs := fun a => if a = self.contextPtr then some ctx else s₀.ctxs a }) (by simp) hm with h' | ⟨e', h'⟩ | h' <;> rw [h'] <;> exact fun h => by cases h

/-- C45 (C#): after `Dispose` the process is as before the object was created and `Dispose` can be called again; but the methods do not check
that the object was disposed: `BlobToKzgCommitment` with a blob of the right length ends the process instead of throwing an exception. -/
theorem C45_csharp_object (H : Heap (DASContext K G1 G2)) {s₀ s : CState (DASContext K G1 G2)} {up : Bool} {self : EthKZGCs}
    (h : EthKZGCs.new A setup up s₀ = .ok self s) :
    self.dispose s = .ok ⟨0⟩ s₀ ∧ (∀ t : CState (DASContext K G1 G2), EthKZGCs.dispose ⟨0⟩ t = .ok ⟨0⟩ t) ∧
    ∀ (blob : CsArray) (t : CState (DASContext K G1 G2)), blob.length = 131072 → csBlobToKzgCommitment H A 0 blob t = .panic := by
  refine ⟨?_, fun t => rfl, fun blob t hb => ?_⟩
  · unfold EthKZGCs.new at h
    rw [CM.bind_apply] at h
    unfold ethKzgDasContextNew at h
    rcases hc : (DASContext.new setup (if up then .yes RECOMMENDED_PRECOMP_WIDTH else .no) : Outcome Empty (DASContext K G1 G2))
      with ctx | e | _ <;> simp only [hc] at h
    · rcases hp : A.placeCtx s₀ with _ | p <;> simp only [hp] at h
      · cases h
      · cases h
        obtain ⟨h0, -, hn⟩ := A.freshCtx _ _ hp
        unfold EthKZGCs.dispose
        rw [if_pos h0, CM.bind_apply]
        simp only [ethKzgDasContextFree, h0, if_false, if_true]
        show COut.ok _ _ = _
        congr
        cases s₀
        funext a
        by_cases ha : a = p
        · simp only [ha, if_true]; exact hn.symm
        · simp [ha]
    · cases h
    · cases h
  · unfold csBlobToKzgCommitment
    rw [if_neg (show ¬ blob.length ≠ BYTES_PER_BLOB from fun hn => hn hb), CM.bind_apply]
    unfold newBytes newArray
    rcases H.place t _ with _ | p
    · rfl
    · rfl

/-- C45 (Nim): as long as there is a reference to an object, however references are copied and dropped, its context is live and still the
one that was created, and its destructor works; when the last reference is gone the contexts of the process are those from before the
object was created. -/
theorem C45_nim_object {s₀ s : CState (DASContext K G1 G2)} {up : Bool} {self : KZGCtx} {refs : Nat}
    (h : NimObject A setup sha256 s₀ up self s refs) :
    (refs = 0 → s.ctxs = s₀.ctxs) ∧
    (0 < refs → self.ctxPtr ≠ 0 ∧ s₀.ctxs self.ctxPtr = none ∧ (∃ ctx, s.ctxs self.ctxPtr = some ctx ∧
        (DASContext.new setup (if up then .yes RECOMMENDED_PRECOMP_WIDTH else .no) : Outcome Empty (DASContext K G1 G2)) = .ok ctx) ∧
      ∃ s', self.destroy s = .ok () s' ∧ s'.ctxs = s₀.ctxs) := by
  have inv : (refs = 0 ∧ s.ctxs = s₀.ctxs) ∨ (0 < refs ∧ self.ctxPtr ≠ 0 ∧ s₀.ctxs self.ctxPtr = none ∧
      ∃ ctx, s.ctxs = (fun a => if a = self.ctxPtr then some ctx else s₀.ctxs a) ∧
        (DASContext.new setup (if up then .yes RECOMMENDED_PRECOMP_WIDTH else .no) : Outcome Empty (DASContext K G1 G2)) = .ok ctx) := by
    induction h with
    | @new s h =>
      right
      unfold newKZGCtx at h
      rw [CM.bind_apply] at h
      unfold ethKzgDasContextNew at h
      rcases hc : (DASContext.new setup (if up then .yes RECOMMENDED_PRECOMP_WIDTH else .no) : Outcome Empty (DASContext K G1 G2))
        with ctx | e | _ <;> simp only [hc] at h
      · rcases hp : A.placeCtx s₀ with _ | p <;> simp only [hp] at h
        · cases h
        · cases h
          obtain ⟨h0, -, hn⟩ := A.freshCtx _ _ hp
          exact ⟨by norm_num, h0, hn, ctx, rfl, rfl⟩
      · cases h
      · cases h
    | copy _ ih => exact .inr ⟨by omega, (ih.resolve_left (by simp)).2⟩
    | drop _ ih => exact .inr ⟨by omega, (ih.resolve_left (by simp)).2⟩
    | @dropLast s s' _ hd ih =>
      left
      obtain ⟨-, h0, hn, ctx, hs, -⟩ := ih.resolve_left (by simp)
      unfold KZGCtx.destroy at hd
      rw [if_pos h0] at hd
      simp only [ethKzgDasContextFree, h0, if_false, hs, if_true] at hd
      cases hd
      refine ⟨rfl, ?_⟩
      funext a
      by_cases ha : a = self.ctxPtr
      · simp only [ha, if_true]; exact hn.symm
      · simp [ha]
    | @call s refs call r s' _ huse hcall ih =>
      rw [(keepsContexts_of_uses huse s).1 r s' hcall]
      exact ih
    | write mem _ ih => exact ih
  rcases inv with ⟨rfl, hs⟩ | ⟨hr, h0, hn, ctx, hs, hctx⟩
  · exact ⟨fun _ => hs, fun h => absurd h (by norm_num)⟩
  · refine ⟨fun h => absurd h (by omega), fun _ => ⟨h0, hn, ⟨ctx, by rw [hs]; simp, hctx⟩, ?_⟩⟩
    unfold KZGCtx.destroy
    rw [if_pos h0]
    simp only [ethKzgDasContextFree, h0, if_false, hs, if_true]
    refine ⟨_, rfl, ?_⟩
    funext a
    by_cases ha : a = self.ctxPtr
    · simp only [ha, if_true]; exact hn.symm
    · simp [ha]

/-- C46: undefined behaviour can happen when two threads use one Java object: a thread that is in a method, or about to enter the native
method, while another calls `destroy`; and two threads that both call `destroy`. -/
theorem C46_java_threads_refuted (ctx : DASContext K G1 G2) (mem : Nat → Option UInt8) :
    JReach (⟨16, ⟨mem, fun a => if a = 16 then some ctx else none, fun _ => none⟩, [.start .call, .start .destroy]⟩ : JWorld K G1 G2) none ∧
    JReach (⟨16, ⟨mem, fun a => if a = 16 then some ctx else none, fun _ => none⟩, [.inside 16, .start .destroy]⟩ : JWorld K G1 G2) none ∧
    JReach (⟨16, ⟨mem, fun a => if a = 16 then some ctx else none, fun _ => none⟩, [.start .destroy, .start .destroy]⟩ : JWorld K G1 G2) none := by
  have hfree : ∀ f : Nat → Option (DASContext K G1 G2), f 16 = some ctx →
      ethKzgDasContextFree 16 (⟨mem, f, fun _ => none⟩ : CState (DASContext K G1 G2)) =
        .ok () ⟨mem, fun a => if a = 16 then none else f a, fun _ => none⟩ := by
    intro f hf
    simp [ethKzgDasContextFree, hf]
  refine ⟨?_, ?_, ?_⟩
  · refine .step (.step (.step (.step (.step (.step .refl (.step (i := 0) rfl (.check (show (16 : Nat) ≠ 0 by decide)))) (.step (i := 0) rfl .load))
      (.step (i := 1) rfl (.check (show (16 : Nat) ≠ 0 by decide)))) (.step (i := 1) rfl .load)) (.step (i := 1) rfl (.free (hfree _ (by simp))))) ?_
    exact .bad (i := 0) rfl (.badEnter (by simp))
  · refine .step (.step (.step (.step .refl (.step (i := 1) rfl (.check (show (16 : Nat) ≠ 0 by decide)))) (.step (i := 1) rfl .load))
      (.step (i := 1) rfl (.free (hfree _ (by simp))))) ?_
    exact .bad (i := 0) rfl (.badRun (by simp))
  · refine .step (.step (.step (.step (.step (.step .refl (.step (i := 0) rfl (.check (show (16 : Nat) ≠ 0 by decide)))) (.step (i := 0) rfl .load))
      (.step (i := 1) rfl (.check (show (16 : Nat) ≠ 0 by decide)))) (.step (i := 1) rfl .load)) (.step (i := 1) rfl (.free (hfree _ (by simp))))) ?_
    exact .bad (i := 0) rfl (.badFree (by simp [ethKzgDasContextFree]))

/-- C46, the part that holds: any number of threads can call the other methods at the same time, as long as none calls `destroy`; the
field and the process stay as they are. -/
theorem C46_java_threads_partial {w : JWorld K G1 G2} (hw : ∃ ctx, w.s.ctxs w.contextPtr = some ctx)
    (ht : ∀ pc ∈ w.threads, pc = .start .call) :
    ¬ JReach w none ∧ ∀ w', JReach w (some w') → w'.contextPtr = w.contextPtr ∧ w'.s = w.s ∧ w'.threads.length = w.threads.length := by
  obtain ⟨ctx, hctx⟩ := hw
  have ok : ∀ r, JReach w r → ∃ w', r = some w' ∧ w'.contextPtr = w.contextPtr ∧ w'.s = w.s ∧ w'.threads.length = w.threads.length ∧
      ∀ pc ∈ w'.threads, pc = .start .call ∨ pc = .checked .call ∨ pc = .loaded .call w.contextPtr ∨ pc = .inside w.contextPtr ∨
        pc = .done := by
    intro r h
    induction h with
    | refl => exact ⟨w, rfl, rfl, rfl, rfl, fun pc h => .inl (ht pc h)⟩
    | @step w₁ w₂ _ hstep ih =>
      obtain ⟨w', hw', h1, h2, h3, h4⟩ := ih
      cases hw'
      cases hstep with
      | @step i pc pc' f s hpc hs =>
        have hpc' := h4 pc (List.mem_of_getElem? hpc)
        rw [h1, h2] at hs
        have key : f = w.contextPtr ∧ s = w.s ∧ (pc' = .start .call ∨ pc' = .checked .call ∨ pc' = .loaded .call w.contextPtr ∨
            pc' = .inside w.contextPtr ∨ pc' = .done) := by
          generalize w.contextPtr = c at hs hpc' ⊢
          cases hs <;> simp_all
        refine ⟨_, rfl, key.1, key.2.1, by simpa using h3, fun q hq => ?_⟩
        rcases List.mem_or_eq_of_mem_set hq with hq | rfl
        · exact h4 q hq
        · exact key.2.2
      | @bad i pc hpc hs =>
        have hpc' := h4 pc (List.mem_of_getElem? hpc)
        rw [h1, h2] at hs
        exfalso
        generalize hc : w.contextPtr = c at hs hpc' hctx
        cases hs <;> simp_all
  refine ⟨fun h => ?_, fun w' h => ?_⟩
  · obtain ⟨w', hw', -⟩ := ok _ h
    cases hw'
  · obtain ⟨w'', hw', h1, h2, h3, -⟩ := ok _ h
    cases hw'
    exact ⟨h1, h2, h3⟩

/-- C46, another part that holds: if the methods do not overlap, any number of threads can call any of them, `destroy` included, in any
order, without undefined behaviour; between the calls the object has its context, as it was, or it has none and the context is freed. -/
theorem C46_java_sequential_partial {w : JWorld K G1 G2} (h0 : w.contextPtr ≠ 0) (hw : ∃ ctx, w.s.ctxs w.contextPtr = some ctx)
    (ht : ∀ pc ∈ w.threads, ∃ t, pc = .start t) :
    ¬ SequentialReach w none ∧ ∀ w', SequentialReach w (some w') → (∀ pc ∈ w'.threads, ¬ Busy pc) →
      (w'.contextPtr = w.contextPtr ∧ w'.s = w.s) ∨
      (w'.contextPtr = 0 ∧ w'.s = { w.s with ctxs := fun a => if a = w.contextPtr then none else w.s.ctxs a }) := by
  obtain ⟨ctx, hctx⟩ := hw
  have ok : ∀ r, SequentialReach w r → ∃ w', r = some w' ∧ OneAtATime w' ∧
      ((w'.contextPtr = w.contextPtr ∧ w'.s = w.s ∧ ∀ pc ∈ w'.threads, Busy pc →
          (∃ t, pc = .checked t) ∨ (∃ t, pc = .loaded t w.contextPtr) ∨ pc = .inside w.contextPtr) ∨
        (w'.contextPtr = w.contextPtr ∧ w'.s = { w.s with ctxs := fun a => if a = w.contextPtr then none else w.s.ctxs a } ∧
          .freed ∈ w'.threads) ∨
        (w'.contextPtr = 0 ∧ w'.s = { w.s with ctxs := fun a => if a = w.contextPtr then none else w.s.ctxs a } ∧
          ∀ pc ∈ w'.threads, ¬ Busy pc)) := by
    intro r h
    induction h with
    | refl =>
      refine ⟨w, rfl, ?_, .inl ⟨rfl, rfl, ?_⟩⟩
      · intro i j pc pc' h1 _ hb
        obtain ⟨t, rfl⟩ := ht pc (List.mem_of_getElem? h1)
        exact absurd rfl (hb.2 t)
      · intro pc h hb
        obtain ⟨t, rfl⟩ := ht pc h
        exact absurd rfl (hb.2 t)
    | @step w₁ w₂ _ hstep hone ih =>
      obtain ⟨w', hw', h1, h2⟩ := ih
      cases hw'
      cases hstep with
      | @step i pc pc' f s hpc hs =>
        have hone' := hone _ rfl
        refine ⟨_, rfl, hone', ?_⟩
        have hm := List.mem_of_getElem? hpc
        obtain ⟨hi, -⟩ := List.getElem?_eq_some_iff.1 hpc
        have hset : (w₁.threads.set i pc')[i]? = some pc' := by simp [hi]
        -- if the thread is busy before or after the step, no other thread is
        have others : Busy pc → ∀ q ∈ w₁.threads.set i pc', Busy q → q = pc' := by
          intro hb q hq hbq
          obtain ⟨j, hj⟩ := List.mem_iff_getElem?.1 hq
          by_cases hij : i = j
          · subst hij
            rw [hset] at hj
            exact (Option.some.inj hj).symm
          · rw [List.getElem?_set_ne hij] at hj
            exact absurd (h1 i j pc q hpc hj hb hbq) hij
        rcases h2 with ⟨e1, e2, e3⟩ | ⟨e1, e2, e3⟩ | ⟨e1, e2, e3⟩
        · have hpc' := e3 pc hm
          have keep : ∀ q ∈ w₁.threads.set i pc', Busy q → q = pc' ∨ ((∃ t, q = .checked t) ∨ (∃ t, q = .loaded t w.contextPtr) ∨
              q = .inside w.contextPtr) := by
            intro q hq hb
            rcases List.mem_or_eq_of_mem_set hq with hq | rfl
            · exact .inr (e3 q hq hb)
            · exact .inl rfl
          rw [e1, e2] at hs
          generalize hc : w.contextPtr = c at *
          cases hs with
          | noContext => exact absurd rfl h0
          | check =>
            refine .inl ⟨rfl, rfl, fun q hq hb => ?_⟩
            rcases keep q hq hb with rfl | h
            · exact .inl ⟨_, rfl⟩
            · exact h
          | load =>
            refine .inl ⟨rfl, rfl, fun q hq hb => ?_⟩
            rcases keep q hq hb with rfl | h
            · exact .inr (.inl ⟨_, rfl⟩)
            · exact h
          | @free _ _ p s' hfree =>
            obtain ⟨t, ht⟩ | ⟨t, ht⟩ | ht := hpc' ⟨by simp, by simp⟩
            · cases ht
            · cases ht
              refine .inr (.inl ⟨rfl, ?_, List.mem_of_getElem? hset⟩)
              simp only [ethKzgDasContextFree, h0, if_false, hctx] at hfree
              cases hfree
              rfl
            · cases ht
          | clear =>
            obtain ⟨t, ht⟩ | ⟨t, ht⟩ | ht := hpc' ⟨by simp, by simp⟩ <;> cases ht
          | enter =>
            obtain ⟨t, ht⟩ | ⟨t, ht⟩ | ht := hpc' ⟨by simp, by simp⟩
            · cases ht
            · cases ht
              refine .inl ⟨rfl, rfl, fun q hq hb => ?_⟩
              rcases keep q hq hb with rfl | h
              · exact .inr (.inr rfl)
              · exact h
            · cases ht
          | run =>
            refine .inl ⟨rfl, rfl, fun q hq hb => ?_⟩
            rcases keep q hq hb with rfl | h
            · exact hpc' ⟨by simp, by simp⟩
            · exact h
          | leave =>
            refine .inl ⟨rfl, rfl, fun q hq hb => ?_⟩
            rcases keep q hq hb with rfl | h
            · exact absurd rfl hb.1
            · exact h
        · obtain ⟨j, hj⟩ := List.mem_iff_getElem?.1 e3
          have hfb : Busy .freed := ⟨by simp, by simp⟩
          by_cases hij : i = j
          · subst hij
            rw [hpc] at hj
            cases hj
            generalize w₁.contextPtr = c at hs
            cases hs with
            | clear =>
              refine .inr (.inr ⟨rfl, e2, fun q hq hb => ?_⟩)
              have := others hfb q hq hb
              rw [this] at hb
              exact hb.1 rfl
          · have hpcb : ¬ Busy pc := fun hb => hij (h1 i j pc .freed hpc hj hb hfb)
            have hfm : (w₁.threads.set i pc')[j]? = some .freed := by rw [List.getElem?_set_ne hij]; exact hj
            have hpcb' : ¬ Busy pc' := fun hb => hij (hone' i j pc' .freed hset hfm hb hfb)
            refine .inr (.inl ?_)
            generalize w₁.contextPtr = c at hs e1
            cases hs with
            | noContext => exact ⟨e1, e2, List.mem_of_getElem? hfm⟩
            | check => exact absurd ⟨by simp, by simp⟩ hpcb'
            | load => exact absurd ⟨by simp, by simp⟩ hpcb
            | free => exact absurd ⟨by simp, by simp⟩ hpcb
            | clear => exact absurd ⟨by simp, by simp⟩ hpcb
            | enter => exact absurd ⟨by simp, by simp⟩ hpcb
            | run => exact absurd ⟨by simp, by simp⟩ hpcb
            | leave => exact absurd ⟨by simp, by simp⟩ hpcb
        · have hpcb := e3 pc hm
          have idle : ∀ q ∈ w₁.threads.set i .done, ¬ Busy q := by
            intro q hq
            rcases List.mem_or_eq_of_mem_set hq with hq | rfl
            · exact e3 q hq
            · exact fun hb => hb.1 rfl
          generalize w₁.contextPtr = c at hs e1
          cases hs with
          | noContext => exact .inr (.inr ⟨e1, e2, idle⟩)
          | check hne => exact absurd e1 hne
          | load => exact absurd ⟨by simp, by simp⟩ hpcb
          | free => exact absurd ⟨by simp, by simp⟩ hpcb
          | clear => exact absurd ⟨by simp, by simp⟩ hpcb
          | enter => exact absurd ⟨by simp, by simp⟩ hpcb
          | run => exact absurd ⟨by simp, by simp⟩ hpcb
          | leave => exact absurd ⟨by simp, by simp⟩ hpcb
      | @bad i pc hpc hs =>
        exfalso
        have hm := List.mem_of_getElem? hpc
        have hb : Busy pc := by generalize w₁.contextPtr = c at hs; cases hs <;> exact ⟨by simp, by simp⟩
        rcases h2 with ⟨e1, e2, e3⟩ | ⟨e1, e2, e3⟩ | ⟨e1, e2, e3⟩
        · have hpc' := e3 pc hm hb
          rw [e1, e2] at hs
          generalize hc : w.contextPtr = c at *
          cases hs with
          | badFree h =>
            obtain ⟨t, ht⟩ | ⟨t, ht⟩ | ht := hpc' <;> cases ht
            simp only [ethKzgDasContextFree, h0, if_false, hctx] at h
            cases h
          | badEnter h =>
            obtain ⟨t, ht⟩ | ⟨t, ht⟩ | ht := hpc' <;> cases ht
            rw [hctx] at h; cases h
          | badRun h =>
            obtain ⟨t, ht⟩ | ⟨t, ht⟩ | ht := hpc' <;> cases ht
            rw [hctx] at h; cases h
        · obtain ⟨j, hj⟩ := List.mem_iff_getElem?.1 e3
          have hij := h1 i j pc .freed hpc hj hb ⟨by simp, by simp⟩
          subst hij
          rw [hpc] at hj
          cases hj
          generalize w₁.contextPtr = c at hs
          cases hs
        · exact e3 pc hm hb
  refine ⟨fun h => ?_, fun w' h hidle => ?_⟩
  · obtain ⟨w', hw', -⟩ := ok _ h
    cases hw'
  · obtain ⟨w'', hw', -, h⟩ := ok _ h
    cases hw'
    rcases h with ⟨e1, e2, -⟩ | ⟨-, -, hf⟩ | ⟨e1, e2, -⟩
    · exact .inl ⟨e1, e2⟩
    · exact absurd ⟨by simp, by simp⟩ (hidle _ hf)
    · exact .inr ⟨e1, e2⟩

/-- C47: if the caller does not use the object after the call, a garbage collection before the C function starts frees the context that the
C function then uses. -/
theorem C47_go_refuted (H : Heap (DASContext K G1 G2)) {s : CState (DASContext K G1 G2)} {inner blob out : Nat}
    {ctx : DASContext K G1 G2} (h0 : inner ≠ 0) (hctx : s.ctxs inner = some ctx) (hp : H.place s 48 = some out) :
    goBlobToKZGCommitmentGc H A false inner blob 131072 s = .fault := by
  unfold goBlobToKZGCommitmentGc
  rw [if_neg (show ¬ 131072 ≠ BYTES_PER_BLOB from fun hn => hn rfl)]
  rw [CM.bind_ok (a := out) (s' := { s with mem := overwrite s.mem out (List.replicate 48 0) })
    (by simp [newBytes, newArray, hp])]
  simp only [Bool.false_eq_true, if_false]
  rw [CM.bind_ok (a := ()) (s' := { s with mem := overwrite s.mem out (List.replicate 48 0), ctxs := fun a => if a = inner then none else s.ctxs a })
    (by simp [goFinalizer, ethKzgDasContextFree, h0, hctx])]
  exact CM.bind_fault (fault_of_deref h0 (by simp) _)

/-- C47, the part that holds: a garbage collection does not matter if the caller uses the object later. -/
theorem C47_go_partial (H : Heap (DASContext K G1 G2)) (inner blob len : Nat) :
    goBlobToKZGCommitmentGc H A true inner blob len = goBlobToKZGCommitment H A inner blob len := by
  unfold goBlobToKZGCommitmentGc goBlobToKZGCommitment
  simp

end

section
open Toy

/-- a process without contexts, messages or memory -/
def nothing : CState (DASContext Fr Fr Fr) := ⟨fun _ => none, fun _ => none, fun _ => none⟩

theorem created_of (setup : SetupPoints Fr Fr) {ctx : DASContext Fr Fr Fr} (h : (DASContext.new setup .no : Outcome Empty _) = .ok ctx) :
    ethKzgDasContextNew (ToyHeap.allocator (DASContext Fr Fr Fr)) setup false nothing =
      .ok 16 ⟨fun _ => none, fun a => if a = 16 then some ctx else none, fun _ => none⟩ := by
  unfold ethKzgDasContextNew
  simp only [Bool.false_eq_true, if_false]
  rw [h]
  rfl

theorem created : ∃ ctx, ethKzgDasContextNew (ToyHeap.allocator (DASContext Fr Fr Fr)) (setup 7) false nothing =
    .ok 16 ⟨fun _ => none, fun a => if a = 16 then some ctx else none, fun _ => none⟩ := by
  obtain ⟨ctx, h⟩ := context_exists (ε := Empty) (setup 7) (length_g1 7) (by rw [length_g2]) (by rw [length_g2]; norm_num)
  exact ⟨ctx, created_of _ h⟩

/-- A program that creates a context, and frees it: each step can be taken, and freeing again is undefined behaviour. -/
example (sha256 : List UInt8 → List UInt8) : ∃ s₁ s₂ : CState (DASContext Fr Fr Fr),
    Program (ToyHeap.allocator (DASContext Fr Fr Fr)) (setup 7) sha256 s₁ (fun a => if a = 16 then some false else none) ∧
    ethKzgDasContextFree 16 s₁ = .ok () s₂ ∧ ethKzgDasContextFree 16 s₂ = .fault := by
  obtain ⟨ctx, h⟩ := created
  have p1 := Program.new (sha256 := sha256) (.start (by intro p; rfl)) h
  obtain ⟨-, -, hf, -⟩ := C45_c_contexts _ _ _ p1
  have hf16 := hf 16 (by simp)
  have p2 := Program.free p1 (by simp) hf16
  obtain ⟨-, -, -, -, hu, -⟩ := C45_c_contexts _ _ _ p2
  exact ⟨_, _, p1, hf16, (hu 16 (by decide) (by simp)).1⟩

theorem object_of (setup : SetupPoints Fr Fr) (sha256 : List UInt8 → List UInt8) {s s' : CState (DASContext Fr Fr Fr)}
    (h : ethKzgDasContextNew (ToyHeap.allocator (DASContext Fr Fr Fr)) setup false s = .ok 16 s') :
    JavaObject (ToyHeap.allocator (DASContext Fr Fr Fr)) setup sha256 [] s false ⟨16⟩ s' false := by
  refine .new ?_
  unfold LibEthKZG.new
  rw [CM.bind_ok h]
  rfl

/-- A Java object that was created, used with a wrong argument, and destroyed. -/
example (sha256 : List UInt8 → List UInt8) :
    JavaObject (ToyHeap.allocator (DASContext Fr Fr Fr)) (setup 7) sha256 [] nothing false ⟨0⟩ nothing true := by
  obtain ⟨ctx, h⟩ := created
  have p1 := object_of _ sha256 h
  have p2 := JavaObject.throws p1 (.commitment (some [1, 2]))
    (CM.bind_err ((C34_java_blob_to_kzg_commitment _ [] ⟨16⟩ ctx (by decide) (by simp) [1, 2] [1, 2]
      ((javaBytes_iff _ _).2 (by decide))).1 (by decide)))
  exact .destroy p2 (C45_java_object _ _ _ _ p2).1

theorem csObject_of (setup : SetupPoints Fr Fr) {s s' : CState (DASContext Fr Fr Fr)}
    (h : ethKzgDasContextNew (ToyHeap.allocator (DASContext Fr Fr Fr)) setup false s = .ok 16 s') :
    EthKZGCs.new (ToyHeap.allocator (DASContext Fr Fr Fr)) setup false s = .ok ⟨16⟩ s' := by
  unfold EthKZGCs.new
  rw [CM.bind_ok h]
  rfl

/-- A C# object that was created and disposed. -/
example : ∃ s, EthKZGCs.new (ToyHeap.allocator (DASContext Fr Fr Fr)) (setup 7) false nothing = .ok ⟨16⟩ s ∧
    EthKZGCs.dispose ⟨16⟩ s = .ok ⟨0⟩ nothing := by
  obtain ⟨ctx, h⟩ := created
  exact ⟨_, csObject_of _ h, (C45_csharp_object _ _ (ToyHeap.heap _) (csObject_of _ h)).1⟩

theorem nimObject_of (setup : SetupPoints Fr Fr) {s s' : CState (DASContext Fr Fr Fr)}
    (h : ethKzgDasContextNew (ToyHeap.allocator (DASContext Fr Fr Fr)) setup false s = .ok 16 s') :
    newKZGCtx (ToyHeap.allocator (DASContext Fr Fr Fr)) setup false s = .ok ⟨16⟩ s' := by
  unfold newKZGCtx
  rw [CM.bind_ok h]
  rfl

/-- A Nim object with a reference that is copied, of which both copies are dropped. -/
example (sha256 : List UInt8 → List UInt8) : ∃ s, NimObject (ToyHeap.allocator (DASContext Fr Fr Fr)) (setup 7) sha256 nothing false ⟨16⟩ s 0 ∧
    s.ctxs = fun _ => none := by
  obtain ⟨ctx, h⟩ := created
  have p := NimObject.drop (NimObject.copy (NimObject.new (sha256 := sha256) (nimObject_of _ h)))
  obtain ⟨-, -, -, s', hd, hs⟩ := (C45_nim_object _ _ _ p).2 (by norm_num)
  exact ⟨s', .dropLast p hd, hs⟩

/-- Two threads in two different methods of one object. -/
example (ctx : DASContext Fr Fr Fr) : ¬ JReach (⟨16, ToyHeap.start ctx [], [.start .call, .start .call]⟩ : JWorld Fr Fr Fr) none :=
  (C46_java_threads_partial ⟨ctx, by simp [ToyHeap.start]⟩ (by simp)).1

/-- One thread calls a method while another waits to destroy the object. -/
example (ctx : DASContext Fr Fr Fr) :
    ¬ SequentialReach (⟨16, ToyHeap.start ctx [], [.start .call, .start .destroy, .start .destroy]⟩ : JWorld Fr Fr Fr) none :=
  (C46_java_sequential_partial (by simp) ⟨ctx, by simp [ToyHeap.start]⟩ (by simp)).1

/-- the allocation in the Go method can succeed -/
example (ctx : DASContext Fr Fr Fr) (blob : Nat) : goBlobToKZGCommitmentGc (ToyHeap.heap _) (ToyHeap.allocator _) false 16 blob 131072
    (ToyHeap.start ctx [1, 2, 3]) = .fault := by
  obtain ⟨p, hp, -⟩ := ToyHeap.bump_ok (n := 48) (ToyHeap.start_top ctx [1, 2, 3]) (by norm_num)
  exact C47_go_refuted _ _ (by decide) (ctx := ctx) (by simp [ToyHeap.start]) hp

end
end Verif
