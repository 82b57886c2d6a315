import Verif.Model.NativeLoading

/-! Model of the constructors of `LibEthKZG` in several threads: `ensureLibraryLoaded` (LibEthKZG.java:54-63) and the call of the native
method that follows it (lines 40 and 51).

A step of a thread is one access to the field `libraryLoaded`, taking or leaving the lock, the loading of the library, or the native call;
the steps of the threads interleave in any order. The field is volatile, so a thread reads the last value written. A constructor call
that starts later is a thread that makes its first step later. -/
namespace Verif

/-- where a constructor call is -/
inductive LPc where
  /-- before the first test, line 55 -/
  | start
  /-- before the lock is taken, line 56 -/
  | wait
  /-- before the second test, line 57 -/
  | locked
  /-- before the library is loaded, line 58 -/
  | loading
  /-- before `libraryLoaded = true`, line 59 -/
  | loaded
  /-- before the lock is released, line 61; with an exception on the way if `threw` -/
  | leave (threw : Bool)
  /-- before the native method is called, lines 40 and 51 -/
  | ready
  /-- the constructor has returned -/
  | done
  /-- the constructor has thrown the exception of `loadNativeLibrary` -/
  | threw
  /-- the native method was called without its library: `UnsatisfiedLinkError` -/
  | linkError
  deriving DecidableEq

/-- the field, the lock (with its owner), how often a library was loaded into the JVM, and the constructor calls -/
structure LWorld where
  libraryLoaded : Bool
  lock : Option Nat
  loads : Nat
  threads : List LPc

/-- The class after its initialisation, lines 29-30, and `n` constructor calls. -/
def LWorld.init (n : Nat) : LWorld := ⟨false, none, 0, List.replicate n .start⟩

/-- One step of the constructor call `i`: the field, the lock and the number of loads before and after. `mayFail` tells whether
`loadNativeLibrary` can throw. -/
inductive LThreadStep (mayFail : Bool) (i : Nat) : Bool → Option Nat → Nat → LPc → Bool → Option Nat → Nat → LPc → Prop
  /-- line 55 -/
  | first {f l n} : LThreadStep mayFail i f l n .start f l n (if f then .ready else .wait)
  /-- line 56 -/
  | lock {f n} : LThreadStep mayFail i f none n .wait f (some i) n .locked
  /-- line 57 -/
  | second {f l n} : LThreadStep mayFail i f l n .locked f l n (if f then .leave false else .loading)
  /-- line 58 -/
  | load {f l n} : LThreadStep mayFail i f l n .loading f l (n + 1) .loaded
  | loadThrows {f l n} : mayFail = true → LThreadStep mayFail i f l n .loading f l n (.leave true)
  /-- line 59 -/
  | set {f l n} : LThreadStep mayFail i f l n .loaded true l n (.leave false)
  /-- line 61 -/
  | unlock {f l n} {threw : Bool} : LThreadStep mayFail i f l n (.leave threw) f none n (if threw then .threw else .ready)
  /-- lines 40 and 51 -/
  | native {f l n} : LThreadStep mayFail i f l n .ready f l n (if n = 0 then .linkError else .done)

/-- one step of one of the constructor calls -/
inductive LStep (mayFail : Bool) : LWorld → LWorld → Prop
  | step {w : LWorld} {i : Nat} {pc pc' f l n} : w.threads[i]? = some pc →
      LThreadStep mayFail i w.libraryLoaded w.lock w.loads pc f l n pc' → LStep mayFail w ⟨f, l, n, w.threads.set i pc'⟩

/-- the worlds that can be reached, with the number of steps -/
inductive LReach (mayFail : Bool) (w₀ : LWorld) : Nat → LWorld → Prop
  | refl : LReach mayFail w₀ 0 w₀
  | step {k w w'} : LReach mayFail w₀ k w → LStep mayFail w w' → LReach mayFail w₀ (k + 1) w'

end Verif
