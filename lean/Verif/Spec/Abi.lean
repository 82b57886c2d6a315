import Verif.Model.Abi
import Verif.Spec.Bytes
import Mathlib.Order.Bounds.Basic

/-! Specification of the representation of C values and of agreement between a declaration and an exported function (C66). -/
namespace Verif.Spec

/-- The `size` bytes from `off` on represent the integer `v` in the given byte order. -/
def IntAt (bigEndian : Bool) (bytes : List UInt8) (off size v : Nat) : Prop :=
  ∃ b, b.length = size ∧ b <+: bytes.drop off ∧ v = beValue (if bigEndian then b else b.reverse)

/-- The rule of C for the offsets of fields of the given sizes, the first of which may start at `n`: a field is at the first multiple of its
size that is not inside the previous field. -/
inductive LaidOut : Nat → List Nat → List Nat → Prop
  | nil (n : Nat) : LaidOut n [] []
  | cons {n size off : Nat} {sizes offs : List Nat} : IsLeast {o | n ≤ o ∧ size ∣ o} off → LaidOut (off + size) sizes offs →
    LaidOut n (size :: sizes) (off :: offs)

/-- The bytes represent a value with the given fields. Bytes between the fields are arbitrary. -/
def Represents (t : Target) (sizes : List Nat) (bytes : List UInt8) (vals : List Nat) : Prop :=
  ∃ offs, LaidOut 0 sizes offs ∧ List.Forall₂ (fun q v => IntAt t.bigEndian bytes q.1 q.2 v) (offs.zip sizes) vals

/-- the values of a type of an exported function, as the integers in their fields -/
def Value (t : Target) : RustTy → List Nat → Prop
  | .unit, vals => vals = []
  | .bool, vals => vals = [0] ∨ vals = [1]
  | .u8, vals => ∃ v < 2 ^ 8, vals = [v]
  | .u32, vals => ∃ v < 2 ^ 32, vals = [v]
  | .u64, vals => ∃ v < 2 ^ 64, vals = [v]
  | .cChar, vals => ∃ v < 2 ^ 8, vals = [v]
  | .dasContext, _ => False
  | .cResultStatus, vals => vals = [0] ∨ vals = [1]
  | .cResult, vals => ∃ p < 256 ^ t.pointerBytes, vals = [0, p] ∨ vals = [1, p]
  | .pointer _, vals => ∃ p < 256 ^ t.pointerBytes, vals = [p]

/-- A value written with fields of sizes `src` is read unchanged with fields of sizes `dst`. -/
def Carries (t : Target) (ty : RustTy) (src dst : List Nat) : Prop :=
  ∀ bytes vals, Value t ty vals → Represents t src bytes vals → t.readFields dst bytes = vals

/-- what a C# pointer points at has the size the exported function expects, at every level -/
def CsPointsLike (t : Target) : CsTy → RustTy → Prop
  | .pointer a, .pointer b => CsTy.fields t a = RustTy.fields t b ∧ CsPointsLike t a b
  | .pointer _, _ => False
  | _, .pointer _ => False
  | _, _ => True

/-- the same for Nim, where a pointer can be untyped -/
def NimPointsLike (t : Target) : NimTy → RustTy → Prop
  | .pointer a, .pointer b => NimTy.fields t a = RustTy.fields t b ∧ NimPointsLike t a b
  | .untypedPointer, .pointer _ => True
  | .pointer _, _ => False
  | .untypedPointer, _ => False
  | _, .pointer _ => False
  | _, _ => True

/-- The declaration `decl` of a foreign function agrees with the exported function `fn`: it names the same symbol, its parameters have the
same names in the same order (keywords escaped), every argument the caller passes reaches the function unchanged, pointers point at what
the function expects, and every result reaches the caller unchanged. -/
structure DeclAgrees {T : Type} (t : Target) (fields : T → List Nat) (pointsLike : T → RustTy → Prop) (escape : List UInt8 → List UInt8)
    (decl : FnDecl T) (fn : FnDecl RustTy) : Prop where
  symbol : decl.symbol = fn.symbol
  names : decl.params.map Prod.fst = fn.params.map (fun p => escape p.1)
  args : List.Forall₂ (fun p q => Carries t q.2 (fields p.2) (q.2.fields t) ∧ pointsLike p.2 q.2) decl.params fn.params
  result : Carries t fn.ret (fn.ret.fields t) (fields decl.ret) ∧ pointsLike decl.ret fn.ret

/-- `out` is a keyword in C# and in Nim -/
def escapeCs (name : List UInt8) : List UInt8 := if name = ascii "out" then ascii "@out" else name
def escapeNim (name : List UInt8) : List UInt8 := if name = ascii "out" then ascii "outx" else name

/-- camel case to snake case: an underscore before a capital that follows a small letter -/
def snake : List UInt8 → List UInt8
  | [] => []
  | [c] => [if 65 ≤ c ∧ c ≤ 90 then c + 32 else c]
  | c :: d :: rest =>
    (if 65 ≤ c ∧ c ≤ 90 then c + 32 else c) :: ((if (97 ≤ c ∧ c ≤ 122) ∧ 65 ≤ d ∧ d ≤ 90 then [95] else []) ++ snake (d :: rest))

/-- The native method `decl` of the class `ethereum.cryptography.LibEthKZG` agrees with the exported function `fn`: the virtual machine
finds `fn`, which takes the environment, the class and the parameters of the method with their native types, and returns the native type
of the result; array parameters have the same names, up to a plural. -/
structure JavaAgrees (decl : FnDecl JavaTy) (fn : FnDecl JniTy) : Prop where
  symbol : fn.symbol = jniSymbol (ascii "ethereum/cryptography/LibEthKZG") decl.symbol
  types : fn.params.map Prod.snd = [.jniEnv, .jClass] ++ decl.params.map (fun p => p.2.native)
  result : fn.ret = decl.ret.native
  names : List.Forall₂ (fun p q => p.2 = .long ∨ q.1 <+: snake p.1) decl.params (fn.params.drop 2)

/-- the descriptor of a method -/
def methodDescriptor (decl : FnDecl JavaTy) : List UInt8 :=
  ascii "(" ++ decl.params.flatMap (fun p => p.2.descriptor) ++ ascii ")" ++ decl.ret.descriptor

/-- snake case to camel case, the convention of napi-rs -/
def camel : List UInt8 → List UInt8
  | [] => []
  | [c] => [c]
  | c :: d :: rest => if c = 95 then (if 97 ≤ d ∧ d ≤ 122 then d - 32 else d) :: camel rest else c :: camel (d :: rest)

/-- the type scripts see for a type of a `#[napi]` function -/
inductive SeenAs : NapiTy → TsTy → Prop
  | bool : SeenAs .bool .boolean
  | bigInt : SeenAs .bigInt .bigint
  | uint8Array : SeenAs .uint8Array .uint8Array
  | cellsAndProofs : SeenAs .cellsAndProofs .cellsAndProofs
  | options : SeenAs .dasContextOptions .dasContextOptions
  | self : SeenAs .self .dasContextJs
  | vec {a : NapiTy} {b : TsTy} : SeenAs a b → SeenAs (.vec a) (.array b)

/-- The declaration `decl` in `index.d.ts` agrees with the function `fn`: name and parameters in camel case, the types scripts see, a promise
exactly for an `async` function. -/
structure TypescriptAgrees (decl : FnDecl TsTy) (fn : NapiFn) : Prop where
  name : decl.symbol = camel fn.name
  params : List.Forall₂ (fun p q => p.1 = camel q.1 ∧ SeenAs q.2 p.2) decl.params fn.params
  result : ∃ ty, SeenAs fn.ret ty ∧ decl.ret = if fn.isAsync then .promise ty else ty

/-- the constants of the consensus specification (Deneb and Fulu, mainnet preset) -/
def consensusConstants : BindingConstants where
  bytesPerCommitment := 48
  bytesPerProof := 48
  bytesPerFieldElement := 32
  bytesPerBlob := 4096 * 32
  maxNumColumns := 2 * 4096 / 64
  bytesPerCell := 64 * 32

end Verif.Spec
