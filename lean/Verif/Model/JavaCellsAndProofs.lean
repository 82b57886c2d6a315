import Verif.Model.JavaBinding

/-! Model of the class `CellsAndProofs` of the Java bindings,
`bindings/java/java_code/src/main/java/ethereum/cryptography/CellsAndProofs.java`, the result type of two native methods.

An array reference may be null. Java's `int` is `Int32`, with wrapping arithmetic. `java.util.Arrays`, `IntStream.sum` and `ByteBuffer`
are modelled as documented. An object that fits into memory is assumed for `ByteBuffer.allocate` (no `OutOfMemoryError`). -/
namespace Verif

/-- the exceptions of this class -/
inductive JRuntimeException where
  | nullPointer
  | illegalArgument
  | bufferOverflow
  deriving DecidableEq

/-- the fields, CellsAndProofs.java:12-27 -/
structure JCellsAndProofs where
  cells : JObjectArray
  proofs : JObjectArray

/-- the object that `cells_and_proofs_to_jobject` (lib.rs:223-266) constructs from its two arrays, through the constructor at
CellsAndProofs.java:24-27 -/
def JCellsAndProofs.ofArrays (r : List (List Int8) × List (List Int8)) : JCellsAndProofs :=
  ⟨some (r.1.map some), some (r.2.map some)⟩

/-- a dereference -/
def deref {α : Type} : Option α → Outcome JRuntimeException α
  | some a => .ok a
  | none => .err .nullPointer

/-- `Arrays.stream(a).mapToInt(x -> x.length).sum()` -/
def sumOfLengths (a : JObjectArray) : Outcome JRuntimeException Int32 := do
  let a ← deref a
  a.foldlM (fun sum x => do let x ← deref x; pure (sum + Int32.ofNat x.length)) 0

/-- `ByteBuffer`: its capacity and the bytes put so far -/
structure ByteBuffer where
  capacity : Nat
  bytes : List Int8

/-- `ByteBuffer.allocate` -/
def ByteBuffer.allocate (n : Int32) : Outcome JRuntimeException ByteBuffer :=
  if n.toInt < 0 then .err .illegalArgument else .ok ⟨n.toInt.toNat, []⟩

/-- `ByteBuffer.put(byte[])` -/
def ByteBuffer.put (b : ByteBuffer) (x : JByteArray) : Outcome JRuntimeException ByteBuffer := do
  let x ← deref x
  if b.capacity - b.bytes.length < x.length then .err .bufferOverflow else pure ⟨b.capacity, b.bytes ++ x⟩

/-- `ByteBuffer.array()`: all bytes, zero where nothing was put -/
def ByteBuffer.array (b : ByteBuffer) : List Int8 := b.bytes ++ List.replicate (b.capacity - b.bytes.length) 0

namespace JCellsAndProofs

/-- `toBytes`, CellsAndProofs.java:63-73 -/
def toBytes (self : JCellsAndProofs) : Outcome JRuntimeException (List Int8) := do
  let cellsLength ← sumOfLengths self.cells
  let proofsLength ← sumOfLengths self.proofs
  let totalLength := cellsLength + proofsLength
  let buffer ← ByteBuffer.allocate totalLength
  let cells ← deref self.cells
  let buffer ← cells.foldlM ByteBuffer.put buffer
  let proofs ← deref self.proofs
  let buffer ← proofs.foldlM ByteBuffer.put buffer
  pure buffer.array

/-- `Arrays.hashCode(byte[])` -/
def arrayHashCode : JByteArray → Int32
  | none => 0
  | some a => a.foldl (fun result x => 31 * result + x.toInt32) 1

/-- `Arrays.deepHashCode(Object[])` for an array of byte arrays -/
def deepHashCode : JObjectArray → Int32
  | none => 0
  | some a => a.foldl (fun result x => 31 * result + arrayHashCode x) 1

/-- `hashCode`, CellsAndProofs.java:76-82 -/
def hashCode (self : JCellsAndProofs) : Int32 :=
  let prime := 31
  let result := 1
  let result := prime * result + deepHashCode self.cells
  let result := prime * result + deepHashCode self.proofs
  result

/-- `Arrays.equals(byte[], byte[])` -/
def arrayEquals : JByteArray → JByteArray → Bool
  | none, none => true
  | some a, some b => if a.length ≠ b.length then false else (List.zip a b).all (fun p => p.1 == p.2)
  | _, _ => false

/-- `Arrays.deepEquals(Object[], Object[])` for arrays of byte arrays -/
def deepEquals : JObjectArray → JObjectArray → Bool
  | none, none => true
  | some a, some b => if a.length ≠ b.length then false else (List.zip a b).all (fun p => arrayEquals p.1 p.2)
  | _, _ => false

/-- the argument of `equals`: null, an object of another class, or one of this class; `same` is `this == obj` -/
inductive JObj where
  | null
  | otherClass
  | cellsAndProofs (same : Bool) (o : JCellsAndProofs)

/-- `equals`, CellsAndProofs.java:85-94 -/
def equals (self : JCellsAndProofs) : JObj → Bool
  | .null => false
  | .otherClass => false
  | .cellsAndProofs same other =>
    if same then true
    else deepEquals self.cells other.cells && deepEquals self.proofs other.proofs

end JCellsAndProofs
end Verif
