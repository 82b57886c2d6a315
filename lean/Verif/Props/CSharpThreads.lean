import Verif.Spec.CSharpThreads

/-! C67: several threads and one C# object. -/
namespace Verif
open Spec (CsBusy Disposing DisposeAlone DisciplinedReach)

section
variable {K G1 G2 : Type}

/-- C67: undefined behaviour can happen when a thread calls `Dispose` while another is in a method, is about to enter the native function,
or calls `Dispose` as well; and a call that starts after `Dispose` ends the process. -/
theorem C67_csharp_threads_refuted (ctx : DASContext K G1 G2) (mem : Nat → Option UInt8) :
    CsReach (⟨16, ⟨mem, fun a => if a = 16 then some ctx else none, fun _ => none⟩, [.start .call, .start .dispose]⟩ : CsWorld K G1 G2) .undefined ∧
    CsReach (⟨16, ⟨mem, fun a => if a = 16 then some ctx else none, fun _ => none⟩, [.inside 16, .start .dispose]⟩ : CsWorld K G1 G2) .undefined ∧
    CsReach (⟨16, ⟨mem, fun a => if a = 16 then some ctx else none, fun _ => none⟩, [.start .dispose, .start .dispose]⟩ : CsWorld K G1 G2) .undefined ∧
    DisciplinedReach (⟨16, ⟨mem, fun a => if a = 16 then some ctx else none, fun _ => none⟩, [.start .call, .start .dispose]⟩ : CsWorld K G1 G2)
      .aborted := by
  have hfree : ∀ f : Nat → Option (DASContext K G1 G2), f 16 = some ctx →
      ethKzgDasContextFree 16 (⟨mem, f, fun _ => none⟩ : CState (DASContext K G1 G2)) =
        .ok () ⟨mem, fun a => if a = 16 then none else f a, fun _ => none⟩ := by
    intro f hf
    simp [ethKzgDasContextFree, hf]
  have h16 : (16 : Nat) ≠ 0 := by decide
  refine ⟨?_, ?_, ?_, ?_⟩
  · refine .step (.step (.step (.step (.step .refl (.on (i := 0) rfl .load)) (.on (i := 1) rfl (.test h16))) (.on (i := 1) rfl .loadDispose))
      (.on (i := 1) rfl (.free (hfree _ (by simp))))) ?_
    exact .undefined (i := 0) rfl (.badEnter h16 (by simp))
  · refine .step (.step (.step (.step .refl (.on (i := 1) rfl (.test h16))) (.on (i := 1) rfl .loadDispose))
      (.on (i := 1) rfl (.free (hfree _ (by simp))))) ?_
    exact .undefined (i := 0) rfl (.badRun (by simp))
  · refine .step (.step (.step (.step (.step (.step .refl (.on (i := 0) rfl (.test h16))) (.on (i := 0) rfl .loadDispose))
      (.on (i := 1) rfl (.test h16))) (.on (i := 1) rfl .loadDispose)) (.on (i := 1) rfl (.free (hfree _ (by simp))))) ?_
    exact .undefined (i := 0) rfl (.badFree (by simp [ethKzgDasContextFree]))
  · have alone : ∀ (f : Nat) (s : CState (DASContext K G1 G2)) (a b : CsPc), (¬ CsBusy a) → DisposeAlone (⟨f, s, [a, b]⟩ : CsWorld K G1 G2) := by
      intro f s a b ha i j pc pc' h1 h2 hd hb
      rcases i with _ | _ | i <;> rcases j with _ | _ | j <;> simp at h1 h2
      · rfl
      · subst h1 h2
        exact absurd ⟨by rintro rfl; exact hd, by rintro t rfl; exact hd⟩ ha
      · subst h1 h2
        exact absurd hb ha
      · rfl
    have hs : ¬ CsBusy (.start .call) := fun h => h.2 _ rfl
    have alone' : ∀ (f : Nat) (s : CState (DASContext K G1 G2)) (a : CsPc), DisposeAlone (⟨f, s, [a, .done]⟩ : CsWorld K G1 G2) := by
      intro f s a i j pc pc' h1 h2 hd hb
      rcases i with _ | _ | i <;> rcases j with _ | _ | j <;> simp at h1 h2
      · rfl
      · subst h1 h2
        exact absurd rfl hb.1
      · subst h1 h2
        exact hd.elim
      · rfl
    refine .step (.step (.step (.step (.step (.step .refl (.on (i := 1) rfl (.test h16)) ?_) (.on (i := 1) rfl .loadDispose) ?_)
      (.on (i := 1) rfl (.free (hfree _ (by simp)))) ?_) (.on (i := 1) rfl .clear) ?_) (.on (i := 0) rfl .load) ?_)
      (.aborted (i := 0) rfl .null) ?_
    all_goals
      intro v hv
      cases hv
    · exact alone _ _ _ _ hs
    · exact alone _ _ _ _ hs
    · exact alone _ _ _ _ hs
    · exact alone _ _ _ _ hs
    · exact alone' _ _ _

/-- C67, the part that holds: as long as no other thread is in a method while one is in `Dispose`, any number of threads can call any of the
methods, any number of calls at the same time, without undefined behaviour. Between the calls the object has its context, as it was, or it
has none and the context is freed, once. The process is aborted only by a call that starts after the context was freed. Missing for the
property: overlapping calls of `Dispose`, for which it is false. -/
theorem C67_csharp_threads_partial {w : CsWorld K G1 G2} (h0 : w.context ≠ 0) (hw : ∃ ctx, w.s.ctxs w.context = some ctx)
    (ht : ∀ pc ∈ w.threads, ∃ t, pc = .start t) :
    ¬ DisciplinedReach w .undefined ∧
    (DisciplinedReach w .aborted → ∃ w', DisciplinedReach w (.on w') ∧ w'.context = 0 ∧ w'.s.ctxs w.context = none ∧
      .start .dispose ∈ w.threads) ∧
    ∀ w', DisciplinedReach w (.on w') → (∀ pc ∈ w'.threads, ¬ CsBusy pc) →
      (w'.context = w.context ∧ w'.s = w.s) ∨
      (w'.context = 0 ∧ w'.s = { w.s with ctxs := fun a => if a = w.context then none else w.s.ctxs a }) := by
  obtain ⟨ctx, hctx⟩ := hw
  have hfree : ethKzgDasContextFree w.context w.s = .ok () { w.s with ctxs := fun a => if a = w.context then none else w.s.ctxs a } := by
    simp only [ethKzgDasContextFree, h0, if_false, hctx]
  generalize hc : w.context = c at *
  generalize hs' : ({ w.s with ctxs := fun a => if a = c then none else w.s.ctxs a } : CState (DASContext K G1 G2)) = s' at *
  -- the three phases: before, in the middle of, and after the call of `Dispose` that frees the context
  let Inv (v : CsWorld K G1 G2) : Prop :=
    DisposeAlone v ∧ (∀ (i : Nat) pc, v.threads[i]? = some pc → Disposing pc ∨ pc = .start .dispose → CsPc.start .dispose ∈ w.threads) ∧
    ((v.context = c ∧ v.s = w.s ∧ ∀ pc ∈ v.threads, CsBusy pc → pc = .tested ∨ (∃ t, pc = .loaded t c) ∨ pc = .inside c) ∨
      (v.context = c ∧ v.s = s' ∧ .freed ∈ v.threads) ∨
      (v.context = 0 ∧ v.s = s' ∧ CsPc.start .dispose ∈ w.threads ∧ ∀ pc ∈ v.threads, CsBusy pc → pc = .loaded .call 0))
  have key : ∀ v r, Inv v → CsStep v r → (∀ u, r = .on u → DisposeAlone u) →
      (∀ u, r = .on u → Inv u) ∧ r ≠ .undefined ∧ (r = .aborted → v.context = 0 ∧ v.s = s' ∧ CsPc.start .dispose ∈ w.threads) := by
    rintro ⟨f₀, s₀, th⟩ r ⟨hal, hdis, hinv⟩ hstep hr
    simp only at hdis hinv
    cases hstep with
    | @on i pc pc' f s hpc hst =>
      refine ⟨?_, by simp, by simp⟩
      rintro u hu
      have hal' := hr u hu
      cases hu
      simp only at hpc hst
      have hm := List.mem_of_getElem? hpc
      obtain ⟨hi, -⟩ := List.getElem?_eq_some_iff.1 hpc
      have hset : (th.set i pc')[i]? = some pc' := by simp [hi]
      refine ⟨hal', ?_, ?_⟩
      · intro j q hq hd
        by_cases hij : i = j
        · subst hij
          simp only [hset] at hq
          cases hq
          refine hdis i pc hpc ?_
          cases hst <;> simp_all [Disposing]
        · simp only [List.getElem?_set_ne hij] at hq
          exact hdis j q hq hd
      · rcases hinv with ⟨rfl, rfl, e3⟩ | ⟨rfl, rfl, e3⟩ | ⟨rfl, rfl, e4, e3⟩
        · have hpc' := e3 pc hm
          have keep : (CsBusy pc' → pc' = .tested ∨ (∃ t, pc' = .loaded t f₀) ∨ pc' = .inside f₀) →
              ∀ q ∈ th.set i pc', CsBusy q → q = .tested ∨ (∃ t, q = .loaded t f₀) ∨ q = .inside f₀ := by
            intro h q hq hb
            rcases List.mem_or_eq_of_mem_set hq with hq | rfl
            · exact e3 q hq hb
            · exact h hb
          cases hst with
          | noContext => exact absurd rfl h0
          | test => exact .inl ⟨rfl, rfl, keep fun _ => .inl rfl⟩
          | loadDispose => exact .inl ⟨rfl, rfl, keep fun _ => .inr (.inl ⟨_, rfl⟩)⟩
          | @free _ _ p s' hf =>
            obtain h | ⟨t, h⟩ | h := hpc' ⟨by simp, by simp⟩ <;> cases h
            rw [hfree] at hf
            cases hf
            exact .inr (.inl ⟨rfl, rfl, List.mem_of_getElem? hset⟩)
          | clear => obtain h | ⟨t, h⟩ | h := hpc' ⟨by simp, by simp⟩ <;> cases h
          | throw => exact .inl ⟨rfl, rfl, keep fun h => absurd rfl h.1⟩
          | load => exact .inl ⟨rfl, rfl, keep fun _ => .inr (.inl ⟨_, rfl⟩)⟩
          | enter =>
            obtain h | ⟨t, h⟩ | h := hpc' ⟨by simp, by simp⟩ <;> cases h
            exact .inl ⟨rfl, rfl, keep fun _ => .inr (.inr rfl)⟩
          | run => exact .inl ⟨rfl, rfl, keep fun _ => hpc' ⟨by simp, by simp⟩⟩
          | leave => exact .inl ⟨rfl, rfl, keep fun h => absurd rfl h.1⟩
        · obtain ⟨j, hj⟩ := List.mem_iff_getElem?.1 e3
          have other : ∀ k q, th[k]? = some q → CsBusy q → j = k := fun k q hk hb => hal j k .freed q hj hk trivial hb
          by_cases hij : i = j
          · subst hij
            rw [hj] at hpc
            cases hpc
            cases hst
            refine .inr (.inr ⟨rfl, rfl, hdis i _ hj (.inl trivial), ?_⟩)
            intro q hq hb
            obtain ⟨k, hk⟩ := List.mem_iff_getElem?.1 hq
            by_cases hik : i = k
            · subst hik
              rw [hset] at hk
              cases hk
              exact absurd rfl hb.1
            · rw [List.getElem?_set_ne hik] at hk
              exact absurd (other k q hk hb) hik
          · have hnb : ¬ CsBusy pc := fun hb => hij (other i pc hpc hb).symm
            have hj' : (th.set i pc')[j]? = some .freed := by rw [List.getElem?_set_ne hij]; exact hj
            have hnb' : ¬ CsBusy pc' := fun hb => hij (hal' j i .freed pc' hj' hset trivial hb).symm
            cases hst with
            | noContext => exact absurd rfl h0
            | test => exact absurd ⟨by simp, by simp⟩ hnb'
            | load => exact absurd ⟨by simp, by simp⟩ hnb'
            | throw => exact .inr (.inl ⟨rfl, rfl, List.mem_of_getElem? hj'⟩)
            | _ => exact absurd ⟨by simp, by simp⟩ hnb
        · have hpc' := e3 pc hm
          have keep : (CsBusy pc' → pc' = .loaded .call 0) → ∀ q ∈ th.set i pc', CsBusy q → q = .loaded .call 0 := by
            intro h q hq hb
            rcases List.mem_or_eq_of_mem_set hq with hq | rfl
            · exact e3 q hq hb
            · exact h hb
          cases hst with
          | noContext => exact .inr (.inr ⟨rfl, rfl, e4, keep fun h => absurd rfl h.1⟩)
          | test h => exact absurd rfl h
          | throw => exact .inr (.inr ⟨rfl, rfl, e4, keep fun h => absurd rfl h.1⟩)
          | load => exact .inr (.inr ⟨rfl, rfl, e4, keep fun _ => rfl⟩)
          | enter h => 
            cases hpc' ⟨by simp, by simp⟩
            exact absurd rfl h
          | _ => cases hpc' ⟨by simp, by simp⟩
    | @aborted i pc hpc hst =>
      refine ⟨by simp, by simp, fun _ => ?_⟩
      simp only at hpc hst ⊢
      have hm := List.mem_of_getElem? hpc
      cases hst
      rcases hinv with ⟨rfl, rfl, e3⟩ | ⟨rfl, rfl, e3⟩ | ⟨rfl, rfl, e4, e3⟩
      · obtain h | ⟨t, h⟩ | h := e3 _ hm ⟨by simp, by simp⟩ <;> cases h
        exact absurd rfl h0
      · obtain ⟨j, hj⟩ := List.mem_iff_getElem?.1 e3
        cases hal j i .freed _ hj hpc trivial ⟨by simp, by simp⟩
        rw [hj] at hpc
        cases hpc
      · exact ⟨rfl, rfl, e4⟩
    | @undefined i pc hpc hst =>
      exfalso
      simp only at hpc hst
      have hm := List.mem_of_getElem? hpc
      have hb : CsBusy pc := by cases hst <;> exact ⟨by simp, by simp⟩
      rcases hinv with ⟨rfl, rfl, e3⟩ | ⟨rfl, rfl, e3⟩ | ⟨rfl, rfl, e4, e3⟩
      · have hp := e3 pc hm hb
        cases hst with
        | badFree hf =>
          obtain h | ⟨t, h⟩ | h := hp <;> cases h
          rw [hfree] at hf
          cases hf
        | badEnter _ hn =>
          obtain h | ⟨t, h⟩ | h := hp <;> cases h
          rw [hctx] at hn
          cases hn
        | badRun hn =>
          obtain h | ⟨t, h⟩ | h := hp <;> cases h
          rw [hctx] at hn
          cases hn
      · obtain ⟨j, hj⟩ := List.mem_iff_getElem?.1 e3
        cases hal j i .freed _ hj hpc trivial hb
        rw [hj] at hpc
        cases hpc
        cases hst
      · cases e3 pc hm hb
        cases hst with
        | badEnter h _ => exact absurd rfl h
  have inv : ∀ r, DisciplinedReach w r → (∀ v, r = .on v → Inv v) ∧ r ≠ .undefined ∧
      (r = .aborted → ∃ v, DisciplinedReach w (.on v) ∧ v.context = 0 ∧ v.s = s' ∧ CsPc.start .dispose ∈ w.threads) := by
    intro r h
    induction h with
    | refl =>
      refine ⟨?_, by simp, by simp⟩
      intro v hv
      cases hv
      have hnb : ∀ pc ∈ w.threads, ¬ CsBusy pc := by
        rintro pc hpc hb
        obtain ⟨t, rfl⟩ := ht pc hpc
        exact hb.2 t rfl
      refine ⟨fun i j pc pc' _ h2 _ hb => absurd hb (hnb _ (List.mem_of_getElem? h2)), ?_, .inl ⟨hc, rfl, fun pc h hb => absurd hb (hnb pc h)⟩⟩
      intro i pc hpc hd
      obtain ⟨t, rfl⟩ := ht pc (List.mem_of_getElem? hpc)
      rcases hd with hd | hd
      · exact hd.elim
      · rw [← hd]
        exact List.mem_of_getElem? hpc
    | @step v r hv hstep hr ih =>
      obtain ⟨h1, h2, h3⟩ := key v r (ih.1 v rfl) hstep hr
      exact ⟨h1, h2, fun h => ⟨v, hv, h3 h⟩⟩
  refine ⟨fun h => (inv _ h).2.1 rfl, fun h => ?_, fun w' h hnb => ?_⟩
  · obtain ⟨v, hv, h1, h2, h3⟩ := (inv _ h).2.2 rfl
    refine ⟨v, hv, h1, ?_, h3⟩
    rw [h2, ← hs']
    simp
  · obtain ⟨-, -, h | h | h⟩ := (inv _ h).1 w' rfl
    · exact .inl ⟨h.1, h.2.1⟩
    · exact absurd ⟨by simp, by simp⟩ (hnb _ h.2.2)
    · exact .inr ⟨h.1, h.2.1⟩

/-- C67 for threads that do not call `Dispose`: whatever the interleaving, nothing ends the process, there is no undefined behaviour, and
the object and its context stay as they were. -/
theorem C67_csharp_calls_partial {w : CsWorld K G1 G2} {r : CsOut (CsWorld K G1 G2)} (h0 : w.context ≠ 0)
    (hw : ∃ ctx, w.s.ctxs w.context = some ctx) (ht : ∀ pc ∈ w.threads, pc = .start .call) (h : CsReach w r) :
    ∃ w', r = .on w' ∧ w'.context = w.context ∧ w'.s = w.s ∧ w'.threads.length = w.threads.length := by
  obtain ⟨ctx, hctx⟩ := hw
  suffices ∃ w', r = .on w' ∧ w'.context = w.context ∧ w'.s = w.s ∧ w'.threads.length = w.threads.length ∧
      ∀ pc ∈ w'.threads, pc = .start .call ∨ pc = .loaded .call w.context ∨ pc = .inside w.context ∨ pc = .done by
    obtain ⟨w', h1, h2, h3, h4, -⟩ := this
    exact ⟨w', h1, h2, h3, h4⟩
  generalize hc : w.context = c at *
  generalize hs : w.s = s₀ at *
  induction h with
  | refl => exact ⟨w, rfl, hc, hs, rfl, fun pc h => .inl (ht pc h)⟩
  | @step v r _ hstep ih =>
    obtain ⟨_, h1, h2, h3, h4, h5⟩ := ih
    cases h1
    obtain ⟨f, s, th⟩ := v
    simp only at h2 h3 h4 h5
    subst h2 h3
    cases hstep with
    | @on i pc pc' f' s' hpc hst =>
      have hm := h5 pc (List.mem_of_getElem? hpc)
      have : f' = f ∧ s' = s ∧ (pc' = .start .call ∨ pc' = .loaded .call f ∨ pc' = .inside f ∨ pc' = .done) := by
        cases hst <;> simp_all
      obtain ⟨rfl, rfl, h⟩ := this
      refine ⟨_, rfl, rfl, rfl, by simpa using h4, ?_⟩
      intro q hq
      rcases List.mem_or_eq_of_mem_set hq with hq | rfl
      · exact h5 q hq
      · exact h
    | @aborted i pc hpc hst =>
      have hm := h5 pc (List.mem_of_getElem? hpc)
      cases hst
      simp_all
    | @undefined i pc hpc hst =>
      have hm := h5 pc (List.mem_of_getElem? hpc)
      exfalso
      cases hst <;> simp_all

/-- three threads, two of them in the native function at the same time -/
example (ctx : DASContext K G1 G2) (mem : Nat → Option UInt8) :
    CsReach (⟨16, ⟨mem, fun a => if a = 16 then some ctx else none, fun _ => none⟩, [.start .call, .start .call, .start .call]⟩ : CsWorld K G1 G2)
      (.on ⟨16, ⟨mem, fun a => if a = 16 then some ctx else none, fun _ => none⟩, [.inside 16, .inside 16, .start .call]⟩) :=
  .step (.step (.step (.step .refl (.on (i := 0) rfl .load)) (.on (i := 1) rfl .load)) (.on (i := 0) rfl (.enter (by simp) (by simp))))
    (.on (i := 1) rfl (.enter (by simp) (by simp)))

/-- two calls that overlap, under the discipline, before the third thread disposes of the object -/
example (ctx : DASContext K G1 G2) (mem : Nat → Option UInt8) :
    DisciplinedReach (⟨16, ⟨mem, fun a => if a = 16 then some ctx else none, fun _ => none⟩, [.start .call, .start .call, .start .dispose]⟩ :
        CsWorld K G1 G2)
      (.on ⟨16, ⟨mem, fun a => if a = 16 then some ctx else none, fun _ => none⟩, [.loaded .call 16, .loaded .call 16, .start .dispose]⟩) := by
  refine .step (.step .refl (.on (i := 0) rfl .load) ?_) (.on (i := 1) rfl .load) ?_ <;>
  · intro v hv
    cases hv
    intro i j pc pc' h1 _ hd _
    rcases i with _ | _ | _ | i <;> simp at h1 <;> subst h1 <;> exact hd.elim

end
end Verif
