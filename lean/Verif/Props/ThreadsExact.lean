import Verif.Props.Lifecycle
import Verif.Props.CSharpThreads

set_option linter.unusedSectionVars false

/-! C46 and C67: exactly which calls of an object may run at the same time. Every thread makes one call. -/
namespace Verif

section
variable {K G1 G2 : Type} [Field K] [DecidableEq K] [AddCommGroup G1] [Module Fr G1] [DecidableEq G1] [Curve K G1] [PointCodec G1]
  [AddCommGroup G2] [Module Fr G2]

theorem javaStep {w₀ : JWorld K G1 G2} {f f' : Nat} {s s' : CState (DASContext K G1 G2)} {th : List JPc} {i : Nat} {pc pc' : JPc}
    (h : JReach w₀ (some ⟨f, s, th⟩)) (hi : th[i]? = some pc) (hs : JThreadStep f s pc (some (f', s', pc'))) :
    JReach w₀ (some ⟨f', s', th.set i pc'⟩) := .step h (.step hi hs)

/-- C46: undefined behaviour can happen exactly if one of the threads calls `destroy` and there is another thread, whatever that one
calls. -/
theorem C46_java_threads_exact {w : JWorld K G1 G2} (h0 : w.contextPtr ≠ 0) (hw : ∃ ctx, w.s.ctxs w.contextPtr = some ctx)
    (ht : ∀ pc ∈ w.threads, ∃ t, pc = .start t) :
    JReach w none ↔ .start .destroy ∈ w.threads ∧ 2 ≤ w.threads.length := by
  obtain ⟨ctx, hctx⟩ := hw
  have hfree : ethKzgDasContextFree w.contextPtr w.s =
      .ok () { w.s with ctxs := fun a => if a = w.contextPtr then none else w.s.ctxs a } := by
    simp only [ethKzgDasContextFree, h0, if_false, hctx]
  constructor
  · intro hr
    by_cases hd : JPc.start .destroy ∈ w.threads
    · refine ⟨hd, ?_⟩
      by_contra hlen
      obtain ⟨c, s, th⟩ := w
      simp only at *
      have hth : th = [.start .destroy] := by
        match th, hd, hlen with
        | [a], hd, _ => rw [List.mem_singleton.1 hd]
        | a :: b :: l, _, hlen => simp at hlen
      subst hth
      -- a single thread
      have ok : ∀ r, JReach (⟨c, s, [.start .destroy]⟩ : JWorld K G1 G2) r →
          (∃ pc, r = some ⟨c, s, [pc]⟩ ∧ (pc = .start .destroy ∨ pc = .checked .destroy ∨ pc = .loaded .destroy c)) ∨
          (∃ f s' pc, r = some ⟨f, s', [pc]⟩ ∧ (pc = .freed ∨ pc = .done)) := by
        intro r h
        induction h with
        | refl => exact .inl ⟨_, rfl, .inl rfl⟩
        | @step w₁ w₂ _ hstep ih =>
          rcases ih with ⟨pc, h1, h2⟩ | ⟨f, s', pc, h1, h2⟩
          · cases h1
            cases hstep with
            | @step i q q' f' s'' hq hs =>
              rcases i with _ | i
              · simp only [List.getElem?_cons_zero, Option.some.injEq] at hq
                subst hq
                simp only [List.set_cons_zero] at *
                rcases h2 with rfl | rfl | rfl
                · cases hs with
                  | noContext => exact absurd rfl h0
                  | check _ => exact .inl ⟨_, rfl, .inr (.inl rfl)⟩
                · cases hs
                  exact .inl ⟨_, rfl, .inr (.inr rfl)⟩
                · cases hs
                  exact .inr ⟨_, _, _, rfl, .inl rfl⟩
              · simp at hq
            | @bad i q hq hs =>
              rcases i with _ | i
              · simp only [List.getElem?_cons_zero, Option.some.injEq] at hq
                subst hq
                rcases h2 with rfl | rfl | rfl
                · cases hs
                · cases hs
                · cases hs with
                  | badFree hf =>
                    rw [hfree] at hf
                    cases hf
              · simp at hq
          · cases h1
            cases hstep with
            | @step i q q' f' s'' hq hs =>
              rcases i with _ | i
              · simp only [List.getElem?_cons_zero, Option.some.injEq] at hq
                subst hq
                rcases h2 with rfl | rfl
                · cases hs
                  exact .inr ⟨_, _, _, rfl, .inr rfl⟩
                · cases hs
              · simp at hq
            | @bad i q hq hs =>
              rcases i with _ | i
              · simp only [List.getElem?_cons_zero, Option.some.injEq] at hq
                subst hq
                rcases h2 with rfl | rfl <;> cases hs
              · simp at hq
      rcases ok none hr with ⟨_, h, _⟩ | ⟨_, _, _, h, _⟩ <;> cases h
    · refine absurd hr (C46_java_threads_partial ⟨ctx, hctx⟩ ?_).1
      intro pc hpc
      obtain ⟨t, rfl⟩ := ht pc hpc
      cases t
      · exact absurd hpc hd
      · rfl
  · rintro ⟨hd, hlen⟩
    obtain ⟨i, hi⟩ := List.mem_iff_getElem?.1 hd
    obtain ⟨hil, -⟩ := List.getElem?_eq_some_iff.1 hi
    obtain ⟨j, hjl, hij⟩ : ∃ j < w.threads.length, i ≠ j := by
      rcases i with _ | i
      · exact ⟨1, by omega, by omega⟩
      · exact ⟨0, by omega, by omega⟩
    obtain ⟨t, hjt⟩ := ht _ (List.getElem_mem hjl)
    have hj : w.threads[j]? = some (.start t) := by rw [List.getElem?_eq_getElem hjl, hjt]
    obtain ⟨c, s, th⟩ := w
    simp only at *
    have r1 := javaStep (.refl (w₀ := ⟨c, s, th⟩)) hj (.check h0)
    have r2 := javaStep r1 (pc := .checked t) (i := j) (by simp [hjl]) .load
    have r3 := javaStep r2 (pc := .start .destroy) (i := i) (by simp [hij.symm, hi]) (.check h0)
    have r4 := javaStep r3 (pc := .checked .destroy) (i := i) (by simp [hil]) .load
    have r5 := javaStep r4 (pc := .loaded .destroy c) (i := i) (by simp [hil]) (.free hfree)
    refine .step r5 (.bad (i := j) (pc := .loaded t c) (by simp [hij, hjl]) ?_)
    cases t
    · exact .badFree (by simp [ethKzgDasContextFree, h0])
    · exact .badEnter (by simp)

theorem csharpStep {w₀ : CsWorld K G1 G2} {f f' : Nat} {s s' : CState (DASContext K G1 G2)} {th : List CsPc} {i : Nat} {pc pc' : CsPc}
    (h : CsReach w₀ (.on ⟨f, s, th⟩)) (hi : th[i]? = some pc) (hs : CsThreadStep f s pc (.on (f', s', pc'))) :
    CsReach w₀ (.on ⟨f', s', th.set i pc'⟩) := .step h (.on hi hs)

/-- C67: undefined behaviour can happen exactly if one of the threads calls `Dispose` and there is another thread, whatever that one calls;
the process can be aborted exactly if one thread calls `Dispose` and one calls another method. -/
theorem C67_csharp_threads_exact {w : CsWorld K G1 G2} (h0 : w.context ≠ 0) (hw : ∃ ctx, w.s.ctxs w.context = some ctx)
    (ht : ∀ pc ∈ w.threads, ∃ t, pc = .start t) :
    (CsReach w .undefined ↔ .start .dispose ∈ w.threads ∧ 2 ≤ w.threads.length) ∧
    (CsReach w .aborted ↔ .start .dispose ∈ w.threads ∧ .start .call ∈ w.threads) := by
  obtain ⟨ctx, hctx⟩ := hw
  have hfree : ethKzgDasContextFree w.context w.s =
      .ok () { w.s with ctxs := fun a => if a = w.context then none else w.s.ctxs a } := by
    simp only [ethKzgDasContextFree, h0, if_false, hctx]
  have calls : CsPc.start .dispose ∉ w.threads → ∀ r, CsReach w r → ∃ w', r = .on w' := by
    intro hd r hr
    obtain ⟨w', h, -⟩ := C67_csharp_calls_partial h0 ⟨ctx, hctx⟩ (fun pc hpc => by
      obtain ⟨t, rfl⟩ := ht pc hpc
      cases t
      · exact absurd hpc hd
      · rfl) hr
    exact ⟨w', h⟩
  constructor
  · constructor
    · intro hr
      by_cases hd : CsPc.start .dispose ∈ w.threads
      · refine ⟨hd, ?_⟩
        by_contra hlen
        obtain ⟨c, s, th⟩ := w
        simp only at *
        have hth : th = [.start .dispose] := by
          match th, hd, hlen with
          | [a], hd, _ => rw [List.mem_singleton.1 hd]
          | a :: b :: l, _, hlen => simp at hlen
        subst hth
        have ok : ∀ r, CsReach (⟨c, s, [.start .dispose]⟩ : CsWorld K G1 G2) r →
            (∃ pc, r = .on ⟨c, s, [pc]⟩ ∧ (pc = .start .dispose ∨ pc = .tested ∨ pc = .loaded .dispose c)) ∨
            (∃ f s' pc, r = .on ⟨f, s', [pc]⟩ ∧ (pc = .freed ∨ pc = .done)) := by
          intro r h
          induction h with
          | refl => exact .inl ⟨_, rfl, .inl rfl⟩
          | @step w₁ w₂ _ hstep ih =>
            rcases ih with ⟨pc, h1, h2⟩ | ⟨f, s', pc, h1, h2⟩
            · cases h1
              cases hstep with
              | @on i q q' f' s'' hq hs =>
                rcases i with _ | i
                · simp only [List.getElem?_cons_zero, Option.some.injEq] at hq
                  subst hq
                  simp only [List.set_cons_zero] at *
                  rcases h2 with rfl | rfl | rfl
                  · cases hs with
                    | noContext => exact absurd rfl h0
                    | test _ => exact .inl ⟨_, rfl, .inr (.inl rfl)⟩
                  · cases hs
                    exact .inl ⟨_, rfl, .inr (.inr rfl)⟩
                  · cases hs
                    exact .inr ⟨_, _, _, rfl, .inl rfl⟩
                · simp at hq
              | @aborted i q hq hs =>
                rcases i with _ | i
                · simp only [List.getElem?_cons_zero, Option.some.injEq] at hq
                  subst hq
                  rcases h2 with rfl | rfl | rfl <;> cases hs
                · simp at hq
              | @undefined i q hq hs =>
                rcases i with _ | i
                · simp only [List.getElem?_cons_zero, Option.some.injEq] at hq
                  subst hq
                  rcases h2 with rfl | rfl | rfl
                  · cases hs
                  · cases hs
                  · cases hs with
                    | badFree hf =>
                      rw [hfree] at hf
                      cases hf
                · simp at hq
            · cases h1
              cases hstep with
              | @on i q q' f' s'' hq hs =>
                rcases i with _ | i
                · simp only [List.getElem?_cons_zero, Option.some.injEq] at hq
                  subst hq
                  rcases h2 with rfl | rfl
                  · cases hs
                    exact .inr ⟨_, _, _, rfl, .inr rfl⟩
                  · cases hs
                · simp at hq
              | @aborted i q hq hs =>
                rcases i with _ | i
                · simp only [List.getElem?_cons_zero, Option.some.injEq] at hq
                  subst hq
                  rcases h2 with rfl | rfl <;> cases hs
                · simp at hq
              | @undefined i q hq hs =>
                rcases i with _ | i
                · simp only [List.getElem?_cons_zero, Option.some.injEq] at hq
                  subst hq
                  rcases h2 with rfl | rfl <;> cases hs
                · simp at hq
        rcases ok _ hr with ⟨_, h, _⟩ | ⟨_, _, _, h, _⟩ <;> cases h
      · obtain ⟨w', h⟩ := calls hd _ hr
        cases h
    · rintro ⟨hd, hlen⟩
      obtain ⟨i, hi⟩ := List.mem_iff_getElem?.1 hd
      obtain ⟨hil, -⟩ := List.getElem?_eq_some_iff.1 hi
      obtain ⟨j, hjl, hij⟩ : ∃ j < w.threads.length, i ≠ j := by
        rcases i with _ | i
        · exact ⟨1, by omega, by omega⟩
        · exact ⟨0, by omega, by omega⟩
      obtain ⟨t, hjt⟩ := ht _ (List.getElem_mem hjl)
      have hj : w.threads[j]? = some (.start t) := by rw [List.getElem?_eq_getElem hjl, hjt]
      obtain ⟨c, s, th⟩ := w
      simp only at *
      obtain ⟨th', hth', hr, hj'⟩ : ∃ th' : List CsPc, th'[i]? = some (.start .dispose) ∧
          CsReach (⟨c, s, th⟩ : CsWorld K G1 G2) (.on ⟨c, s, th'⟩) ∧ th'[j]? = some (.loaded t c) := by
        cases t with
        | call =>
          exact ⟨_, by simp [hij.symm, hi], csharpStep .refl hj .load, by simp [hjl]⟩
        | dispose =>
          have r1 := csharpStep (.refl (w₀ := ⟨c, s, th⟩)) hj (.test h0)
          exact ⟨_, by simp [hij.symm, hi], csharpStep r1 (pc := .tested) (i := j) (by simp [hjl]) .loadDispose,
            by simp [hjl]⟩
      obtain ⟨hil', -⟩ := List.getElem?_eq_some_iff.1 hth'
      have r3 := csharpStep hr hth' (.test h0)
      have r4 := csharpStep r3 (pc := .tested) (i := i) (by simp [hil']) .loadDispose
      have r5 := csharpStep r4 (pc := .loaded .dispose c) (i := i) (by simp [hil']) (.free hfree)
      refine .step r5 (.undefined (i := j) (pc := .loaded t c) (by simp [hij, hj']) ?_)
      cases t
      · exact .badFree (by simp [ethKzgDasContextFree, h0])
      · exact .badEnter h0 (by simp)
  · constructor
    · intro hr
      refine ⟨?_, ?_⟩
      · by_contra hd
        obtain ⟨w', h⟩ := calls hd _ hr
        cases h
      · by_contra hc
        -- no thread is ever in a call
        have ok : ∀ r, CsReach w r → r ≠ .aborted ∧ ∀ v, r = .on v → ∀ pc ∈ v.threads, pc ≠ .start .call ∧ ∀ p, pc ≠ .loaded .call p := by
          intro r h
          induction h with
          | refl =>
            refine ⟨by simp, ?_⟩
            rintro v hv pc hpc
            cases hv
            obtain ⟨t, rfl⟩ := ht pc hpc
            exact ⟨fun e => hc (e ▸ hpc), by simp⟩
          | @step w₁ w₂ _ hstep ih =>
            have ih' := ih.2 w₁ rfl
            obtain ⟨f₀, s₀, th₀⟩ := w₁
            cases hstep with
            | @on i q q' f' s'' hq hs =>
              refine ⟨by simp, ?_⟩
              rintro v hv pc hpc
              cases hv
              have hq' := ih' q (List.mem_of_getElem? hq)
              rcases List.mem_or_eq_of_mem_set hpc with h | rfl
              · exact ih' pc h
              · cases hs <;> simp_all
            | @aborted i q hq hs =>
              have hq' := ih' q (List.mem_of_getElem? hq)
              cases hs
              exact absurd rfl (hq'.2 0)
            | @undefined i q hq hs => exact ⟨by simp, by simp⟩
        exact (ok _ hr).1 rfl
    · rintro ⟨hd, hc⟩
      obtain ⟨i, hi⟩ := List.mem_iff_getElem?.1 hd
      obtain ⟨hil, -⟩ := List.getElem?_eq_some_iff.1 hi
      obtain ⟨j, hj⟩ := List.mem_iff_getElem?.1 hc
      obtain ⟨hjl, -⟩ := List.getElem?_eq_some_iff.1 hj
      have hij : i ≠ j := by
        rintro rfl
        rw [hi] at hj
        cases hj
      obtain ⟨c, s, th⟩ := w
      simp only at *
      have r1 := csharpStep (.refl (w₀ := ⟨c, s, th⟩)) hi (.test h0)
      have r2 := csharpStep r1 (pc := .tested) (i := i) (by simp [hil]) .loadDispose
      have r3 := csharpStep r2 (pc := .loaded .dispose c) (i := i) (by simp [hil]) (.free hfree)
      have r4 := csharpStep r3 (pc := .freed) (i := i) (by simp [hil]) .clear
      have r5 := csharpStep r4 (pc := .start .call) (i := j) (by simp [hij, hj]) .load
      exact .step r5 (.aborted (i := j) (pc := .loaded .call 0) (by simp [hjl]) .null)

/-- the hypotheses hold for a new object and any list of calls; for example two calls and one `destroy` -/
example (ctx : DASContext K G1 G2) (mem : Nat → Option UInt8) :
    JReach (⟨16, ⟨mem, fun a => if a = 16 then some ctx else none, fun _ => none⟩, [.start .call, .start .call, .start .destroy]⟩ :
      JWorld K G1 G2) none ∧
    ¬ JReach (⟨16, ⟨mem, fun a => if a = 16 then some ctx else none, fun _ => none⟩, [.start .destroy]⟩ : JWorld K G1 G2) none ∧
    ¬ CsReach (⟨16, ⟨mem, fun a => if a = 16 then some ctx else none, fun _ => none⟩, [.start .dispose, .start .dispose]⟩ : CsWorld K G1 G2)
      .aborted :=
  ⟨(C46_java_threads_exact (by simp) ⟨ctx, by simp⟩ (by simp)).2 (by simp),
    fun h => absurd ((C46_java_threads_exact (by simp) ⟨ctx, by simp⟩ (by simp)).1 h).2 (by simp),
    fun h => absurd ((C67_csharp_threads_exact (by simp) ⟨ctx, by simp⟩ (by simp)).2.1 h).2 (by simp)⟩

end
end Verif
