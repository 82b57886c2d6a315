import Verif.Model.CSharpBinding

/-! Model of several threads that use one `EthKZG` object (ethkzg.cs). The field `_context` is neither volatile nor guarded by a lock. A step
of a thread is one access to the field or one step of a native function; steps of the threads interleave in any order. A native function
that uses the context needs it to be live when it starts and as long as it runs. -/
namespace Verif

/-- what a thread does: `Dispose` (lines 34-41) or one of the four methods with a native call (lines 43-248) -/
inductive CsTask where
  | dispose
  | call
  deriving DecidableEq

/-- where a thread is -/
inductive CsPc where
  | start (t : CsTask)
  /-- in `Dispose`, the test of line 36 found a context; before the field is read again -/
  | tested
  /-- before the native function is entered with this address -/
  | loaded (t : CsTask) (p : Nat)
  /-- in a native function that uses the context at this address -/
  | inside (p : Nat)
  /-- in `Dispose`, before line 39 -/
  | freed
  | done
  deriving DecidableEq

section
variable {K G1 G2 : Type}

/-- the field of the object, the process and the threads -/
structure CsWorld (K G1 G2 : Type) where
  context : Nat
  s : CState (DASContext K G1 G2)
  threads : List CsPc

/-- where a step leads: on, to the end of the process, or to undefined behaviour -/
inductive CsOut (α : Type) where
  | on (a : α)
  | aborted
  | undefined

/-- one step of a thread: the new field, process and position -/
inductive CsThreadStep : Nat → CState (DASContext K G1 G2) → CsPc → CsOut (Nat × CState (DASContext K G1 G2) × CsPc) → Prop
  /-- line 36: nothing to dispose -/
  | noContext {s} : CsThreadStep 0 s (.start .dispose) (.on (0, s, .done))
  | test {f s} : f ≠ 0 → CsThreadStep f s (.start .dispose) (.on (f, s, .tested))
  | loadDispose {f s} : CsThreadStep f s .tested (.on (f, s, .loaded .dispose f))
  /-- line 38 -/
  | free {f s p s'} : ethKzgDasContextFree p s = .ok () s' → CsThreadStep f s (.loaded .dispose p) (.on (f, s', .freed))
  | badFree {f s p} : ethKzgDasContextFree p s = .fault → CsThreadStep f s (.loaded .dispose p) .undefined
  /-- line 39 -/
  | clear {f s} : CsThreadStep f s .freed (.on (0, s, .done))
  /-- an exception before the native call, for example lines 47-50 -/
  | throw {f s} : CsThreadStep f s (.start .call) (.on (f, s, .done))
  /-- the argument `_context` of the native call, for example line 57; it is not tested -/
  | load {f s} : CsThreadStep f s (.start .call) (.on (f, s, .loaded .call f))
  /-- the assertion `!ctx.is_null()` of the native function -/
  | null {f s} : CsThreadStep f s (.loaded .call 0) .aborted
  | enter {f s p} : p ≠ 0 → s.ctxs p ≠ none → CsThreadStep f s (.loaded .call p) (.on (f, s, .inside p))
  | badEnter {f s p} : p ≠ 0 → s.ctxs p = none → CsThreadStep f s (.loaded .call p) .undefined
  /-- the native function reads the context, any number of times -/
  | run {f s p} : s.ctxs p ≠ none → CsThreadStep f s (.inside p) (.on (f, s, .inside p))
  | badRun {f s p} : s.ctxs p = none → CsThreadStep f s (.inside p) .undefined
  | leave {f s p} : CsThreadStep f s (.inside p) (.on (f, s, .done))

/-- one step of one of the threads -/
inductive CsStep : CsWorld K G1 G2 → CsOut (CsWorld K G1 G2) → Prop
  | on {w : CsWorld K G1 G2} {i : Nat} {pc pc' f s} : w.threads[i]? = some pc → CsThreadStep w.context w.s pc (.on (f, s, pc')) →
      CsStep w (.on ⟨f, s, w.threads.set i pc'⟩)
  | aborted {w : CsWorld K G1 G2} {i : Nat} {pc} : w.threads[i]? = some pc → CsThreadStep w.context w.s pc .aborted → CsStep w .aborted
  | undefined {w : CsWorld K G1 G2} {i : Nat} {pc} : w.threads[i]? = some pc → CsThreadStep w.context w.s pc .undefined → CsStep w .undefined

/-- what can be reached -/
inductive CsReach (w₀ : CsWorld K G1 G2) : CsOut (CsWorld K G1 G2) → Prop
  | refl : CsReach w₀ (.on w₀)
  | step {w r} : CsReach w₀ (.on w) → CsStep w r → CsReach w₀ r

end
end Verif
