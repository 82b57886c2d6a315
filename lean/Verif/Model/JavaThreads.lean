import Verif.Model.JavaBinding

/-! Model of several threads that use one `LibEthKZG` object (LibEthKZG.java). The field `contextPtr` is neither volatile nor guarded by a
lock. A step of a thread is one access to the field or one step of a native method; steps of the threads interleave in any order. A native
method that uses the context needs it to be live when it starts and as long as it runs. -/
namespace Verif

/-- what a thread does: `destroy` (lines 74-79) or one of the four methods with a native call (lines 93-135) -/
inductive JTask where
  | destroy
  | call
  deriving DecidableEq

/-- where a thread is -/
inductive JPc where
  /-- before the test of `contextPtr` -/
  | start (t : JTask)
  /-- the test found a context; before the field is read again for the argument -/
  | checked (t : JTask)
  /-- before the native method is entered with this address -/
  | loaded (t : JTask) (p : Nat)
  /-- in a native method that uses the context at this address -/
  | inside (p : Nat)
  /-- in `destroy`, before the field is set to zero -/
  | freed
  | done
  deriving DecidableEq

section
variable {K G1 G2 : Type} [Field K] [DecidableEq K] [AddCommGroup G1] [Module Fr G1] [DecidableEq G1] [Curve K G1] [PointCodec G1]
  [AddCommGroup G2] [Module Fr G2]

/-- the field of the object, the process and the threads -/
structure JWorld (K G1 G2 : Type) where
  contextPtr : Nat
  s : CState (DASContext K G1 G2)
  threads : List JPc

/-- one step of a thread: the new field, process and position, or `none` for undefined behaviour -/
inductive JThreadStep : Nat → CState (DASContext K G1 G2) → JPc → Option (Nat × CState (DASContext K G1 G2) × JPc) → Prop
  /-- lines 75, 82: `destroy` does nothing, a method throws -/
  | noContext {s t} : JThreadStep 0 s (.start t) (some (0, s, .done))
  | check {f s t} : f ≠ 0 → JThreadStep f s (.start t) (some (f, s, .checked t))
  | load {f s t} : JThreadStep f s (.checked t) (some (f, s, .loaded t f))
  /-- line 76 -/
  | free {f s p s'} : ethKzgDasContextFree p s = .ok () s' → JThreadStep f s (.loaded .destroy p) (some (f, s', .freed))
  | badFree {f s p} : ethKzgDasContextFree p s = .fault → JThreadStep f s (.loaded .destroy p) none
  /-- line 77 -/
  | clear {f s} : JThreadStep f s .freed (some (0, s, .done))
  /-- `&*ctx_ptr` in the native method -/
  | enter {f s p} : s.ctxs p ≠ none → JThreadStep f s (.loaded .call p) (some (f, s, .inside p))
  | badEnter {f s p} : s.ctxs p = none → JThreadStep f s (.loaded .call p) none
  /-- the native method reads the context, any number of times -/
  | run {f s p} : s.ctxs p ≠ none → JThreadStep f s (.inside p) (some (f, s, .inside p))
  | badRun {f s p} : s.ctxs p = none → JThreadStep f s (.inside p) none
  | leave {f s p} : JThreadStep f s (.inside p) (some (f, s, .done))

/-- one step of one of the threads -/
inductive JStep : JWorld K G1 G2 → Option (JWorld K G1 G2) → Prop
  | step {w : JWorld K G1 G2} {i : Nat} {pc pc' f s} : w.threads[i]? = some pc → JThreadStep w.contextPtr w.s pc (some (f, s, pc')) →
      JStep w (some ⟨f, s, w.threads.set i pc'⟩)
  | bad {w : JWorld K G1 G2} {i : Nat} {pc} : w.threads[i]? = some pc → JThreadStep w.contextPtr w.s pc none → JStep w none

/-- the worlds that can be reached; `none` is undefined behaviour -/
inductive JReach (w₀ : JWorld K G1 G2) : Option (JWorld K G1 G2) → Prop
  | refl : JReach w₀ (some w₀)
  | step {w w'} : JReach w₀ (some w) → JStep w w' → JReach w₀ w'

end
end Verif
