/-! What the Java Native Interface asks of a native method, independent of the bindings: the calls it makes are a list of events. -/
namespace Verif

/-- the JNI functions that the bindings use. The `jni` crate also calls `ExceptionCheck`, which has no effect and is always allowed. -/
inductive JniFn where
  | GetArrayLength
  | GetByteArrayRegion
  | GetLongArrayRegion
  | GetObjectArrayElement
  | FindClass (name : String)
  | NewObjectArray
  | NewByteArray
  | SetByteArrayRegion
  | SetObjectArrayElement
  | GetMethodID
  | NewObjectA
  | ThrowNew
  | DeleteLocalRef
  deriving DecidableEq

/-- one call -/
structure JniCall where
  fn : JniFn
  /-- an exception was pending when the call was made -/
  pending : Bool
  /-- the call raised an exception (of `ThrowNew`: could not raise the requested one) -/
  failed : Bool
  /-- the local references that the method has created and not deleted, after the call -/
  locals : Nat

/-- the functions of `JniFn` that may be called while an exception is pending (JNI specification, chapter 2, "Exception Handling") -/
def JniFn.allowedWhilePending : JniFn → Prop
  | .DeleteLocalRef => True
  | _ => False

/-- no call is made while an exception is pending, apart from the allowed ones -/
def Disciplined (calls : List JniCall) : Prop := ∀ c ∈ calls, c.pending = true → c.fn.allowedWhilePending

/-- the local references that a native method may create without asking for more (JNI specification, chapter 4, "EnsureLocalCapacity":
at least 16) -/
def localCapacity : Nat := 16

/-- the method stays within the local references that every Java virtual machine grants -/
def WithinCapacity (calls : List JniCall) : Prop := ∀ c ∈ calls, c.locals ≤ localCapacity

/-- how a native method ends: it returns with no exception pending, it returns with an exception pending, the process aborts -/
inductive NativeEnd (χ α : Type) where
  | returned (a : α)
  | threw (e : χ)
  | aborted

/-- the Java types of the descriptors -/
inductive JavaType where
  | byte
  | array (t : JavaType)

/-- field descriptors (JVM specification, 4.3.2) -/
def JavaType.descriptor : JavaType → String
  | .byte => "B"
  | .array t => "[" ++ t.descriptor

/-- the descriptor of a constructor with the given parameters (JVM specification, 4.3.3) -/
def constructorDescriptor (params : List JavaType) : String :=
  "(" ++ String.join (params.map JavaType.descriptor) ++ ")V"

end Verif
