import Verif.Model.NimBinding

/-! How calls cross the C interface: the functions exported by `bindings/c/src/lib.rs` and `bindings/java/rust_code/src/lib.rs`, and the
declarations of these functions in `native_methods.g.cs` (C#), `header.nim` (Nim) and `LibEthKZG.java` (Java).

A value of a C type is passed as the bytes of its representation; the side that receives it reads these bytes with the type in its own
declaration. Registers are not modelled: a scalar in a register is its representation, and padding is arbitrary. The C header used by the
Go bindings is generated at build time (`bindings/c/build.rs`) and is not in the repository. -/
namespace Verif

/-- what matters of a machine here: the size of a pointer in bytes and the byte order -/
structure Target where
  pointerBytes : Nat
  bigEndian : Bool

/-- a pointer has 4 or 8 bytes -/
def Target.Supported (t : Target) : Prop := t.pointerBytes = 4 ∨ t.pointerBytes = 8

/-- the types of the exported functions, c/lib.rs. `CResultStatus` is `#[repr(C)]` with two variants (lines 108-112), `CResult` a
`#[repr(C)]` structure of a status and a pointer (lines 117-121). -/
inductive RustTy where
  | unit | bool | u8 | u32 | u64 | cChar | dasContext | cResultStatus | cResult
  | pointer (pointee : RustTy)
  deriving DecidableEq

/-- the types in `native_methods.g.cs`. A `bool` is marshalled as a 4-byte `BOOL` unless it is declared `[MarshalAs(UnmanagedType.U1)]`;
behind a pointer it has one byte. `CResultStatus` is an enumeration over `uint` (lines 180-184), `CResult` has sequential layout
(lines 172-177). -/
inductive CsTy where
  | void | bool | boolU1 | byte | uint | ulong | dasContext | cResultStatus | cResult
  | pointer (pointee : CsTy)
  deriving DecidableEq

/-- the types in `header.nim`. `CResultStatus` is an enumeration of two values without a `size` pragma (lines 6-8), `CResult` an object of
a status and a pointer (lines 15-17). -/
inductive NimTy where
  | void | bool | uint32 | uint64 | untypedPointer | dasContext | cResultStatus | cResult
  | pointer (pointee : NimTy)
  deriving DecidableEq

/-- the sizes of the scalar fields of a Rust type, in order. The `#[repr(C)]` enumeration has the size of a C `int`. -/
def RustTy.fields (t : Target) : RustTy → List Nat
  | .unit => []
  | .bool => [1]
  | .u8 => [1]
  | .u32 => [4]
  | .u64 => [8]
  | .cChar => [1]
  | .dasContext => []
  | .cResultStatus => [4]
  | .cResult => [4, t.pointerBytes]
  | .pointer _ => [t.pointerBytes]

/-- the sizes of the scalar fields of a C# type as it is marshalled -/
def CsTy.fields (t : Target) : CsTy → List Nat
  | .void => []
  | .bool => [4]
  | .boolU1 => [1]
  | .byte => [1]
  | .uint => [4]
  | .ulong => [8]
  | .dasContext => []
  | .cResultStatus => [4]
  | .cResult => [4, t.pointerBytes]
  | .pointer _ => [t.pointerBytes]

/-- the sizes of the scalar fields of a Nim type. An enumeration of at most 256 values has one byte. -/
def NimTy.fields (t : Target) : NimTy → List Nat
  | .void => []
  | .bool => [1]
  | .uint32 => [4]
  | .uint64 => [8]
  | .untypedPointer => [t.pointerBytes]
  | .dasContext => []
  | .cResultStatus => [1]
  | .cResult => [1, t.pointerBytes]
  | .pointer _ => [t.pointerBytes]

/-- the next multiple of `a` -/
def alignUp (n a : Nat) : Nat := (n + a - 1) / a * a

/-- The offsets of fields that follow each other from `n` on, each aligned to its size. (A 64-bit integer in a structure can be aligned to 4
bytes on 32-bit machines; no structure here has one.) -/
def fieldOffsets : Nat → List Nat → List Nat
  | _, [] => []
  | n, size :: rest => alignUp n size :: fieldOffsets (alignUp n size + size) rest

/-- the integer stored in a byte string -/
def Target.readInt (t : Target) (b : List UInt8) : Nat := if t.bigEndian then beToNat b else beToNat b.reverse

/-- the fields read from a representation -/
def Target.readFields (t : Target) (sizes : List Nat) (bytes : List UInt8) : List Nat :=
  ((fieldOffsets 0 sizes).zip sizes).map (fun q => t.readInt ((bytes.drop q.1).take q.2))

/-- the declaration of a function: symbol, parameters with their names, and result -/
structure FnDecl (T : Type) where
  symbol : List UInt8
  params : List (List UInt8 × T)
  ret : T

/-- the functions exported by `bindings/c/src/lib.rs` -/
def exportedFns : List (FnDecl RustTy) := [
  -- line 64
  ⟨ascii "eth_kzg_das_context_new", [(ascii "use_precomp", .bool), (ascii "num_threads", .u32)], .pointer .dasContext⟩,
  -- line 98
  ⟨ascii "eth_kzg_das_context_free", [(ascii "ctx", .pointer .dasContext)], .unit⟩,
  -- line 159
  ⟨ascii "eth_kzg_free_error_message", [(ascii "c_message", .pointer .cChar)], .unit⟩,
  -- lines 184-190
  ⟨ascii "eth_kzg_blob_to_kzg_commitment", [(ascii "ctx", .pointer .dasContext), (ascii "blob", .pointer .u8), (ascii "out", .pointer .u8)], .cResult⟩,
  -- lines 214-221
  ⟨ascii "eth_kzg_compute_cells_and_kzg_proofs", [(ascii "ctx", .pointer .dasContext), (ascii "blob", .pointer .u8),
    (ascii "out_cells", .pointer (.pointer .u8)), (ascii "out_proofs", .pointer (.pointer .u8))], .cResult⟩,
  -- lines 269-285
  ⟨ascii "eth_kzg_verify_cell_kzg_proof_batch", [(ascii "ctx", .pointer .dasContext), (ascii "commitments_length", .u64),
    (ascii "commitments", .pointer (.pointer .u8)), (ascii "cell_indices_length", .u64), (ascii "cell_indices", .pointer .u64),
    (ascii "cells_length", .u64), (ascii "cells", .pointer (.pointer .u8)), (ascii "proofs_length", .u64),
    (ascii "proofs", .pointer (.pointer .u8)), (ascii "verified", .pointer .bool)], .cResult⟩,
  -- lines 327-338
  ⟨ascii "eth_kzg_recover_cells_and_proofs", [(ascii "ctx", .pointer .dasContext), (ascii "cells_length", .u64),
    (ascii "cells", .pointer (.pointer .u8)), (ascii "cell_indices_length", .u64), (ascii "cell_indices", .pointer .u64),
    (ascii "out_cells", .pointer (.pointer .u8)), (ascii "out_proofs", .pointer (.pointer .u8))], .cResult⟩,
  -- lines 356, 360 and 364
  ⟨ascii "eth_kzg_constant_bytes_per_cell", [], .u64⟩,
  ⟨ascii "eth_kzg_constant_bytes_per_proof", [], .u64⟩,
  ⟨ascii "eth_kzg_constant_cells_per_ext_blob", [], .u64⟩]

/-- `native_methods.g.cs`, lines 29-162. The symbol is the `EntryPoint`. -/
def csharpFns : List (FnDecl CsTy) := [
  ⟨ascii "eth_kzg_das_context_new", [(ascii "use_precomp", .boolU1), (ascii "num_threads", .uint)], .pointer .dasContext⟩,
  ⟨ascii "eth_kzg_das_context_free", [(ascii "ctx", .pointer .dasContext)], .void⟩,
  ⟨ascii "eth_kzg_free_error_message", [(ascii "c_message", .pointer .byte)], .void⟩,
  ⟨ascii "eth_kzg_blob_to_kzg_commitment", [(ascii "ctx", .pointer .dasContext), (ascii "blob", .pointer .byte), (ascii "@out", .pointer .byte)],
    .cResult⟩,
  ⟨ascii "eth_kzg_compute_cells_and_kzg_proofs", [(ascii "ctx", .pointer .dasContext), (ascii "blob", .pointer .byte),
    (ascii "out_cells", .pointer (.pointer .byte)), (ascii "out_proofs", .pointer (.pointer .byte))], .cResult⟩,
  ⟨ascii "eth_kzg_verify_cell_kzg_proof_batch", [(ascii "ctx", .pointer .dasContext), (ascii "commitments_length", .ulong),
    (ascii "commitments", .pointer (.pointer .byte)), (ascii "cell_indices_length", .ulong), (ascii "cell_indices", .pointer .ulong),
    (ascii "cells_length", .ulong), (ascii "cells", .pointer (.pointer .byte)), (ascii "proofs_length", .ulong),
    (ascii "proofs", .pointer (.pointer .byte)), (ascii "verified", .pointer .boolU1)], .cResult⟩,
  ⟨ascii "eth_kzg_recover_cells_and_proofs", [(ascii "ctx", .pointer .dasContext), (ascii "cells_length", .ulong),
    (ascii "cells", .pointer (.pointer .byte)), (ascii "cell_indices_length", .ulong), (ascii "cell_indices", .pointer .ulong),
    (ascii "out_cells", .pointer (.pointer .byte)), (ascii "out_proofs", .pointer (.pointer .byte))], .cResult⟩,
  ⟨ascii "eth_kzg_constant_bytes_per_cell", [], .ulong⟩,
  ⟨ascii "eth_kzg_constant_bytes_per_proof", [], .ulong⟩,
  ⟨ascii "eth_kzg_constant_cells_per_ext_blob", [], .ulong⟩]

/-- `header.nim`, lines 27-159. The symbol is that of the `importc` pragma. -/
def nimFns : List (FnDecl NimTy) := [
  ⟨ascii "eth_kzg_das_context_new", [(ascii "use_precomp", .bool), (ascii "num_threads", .uint32)], .pointer .dasContext⟩,
  ⟨ascii "eth_kzg_das_context_free", [(ascii "ctx", .pointer .dasContext)], .void⟩,
  ⟨ascii "eth_kzg_free_error_message", [(ascii "c_message", .untypedPointer)], .void⟩,
  ⟨ascii "eth_kzg_blob_to_kzg_commitment", [(ascii "ctx", .pointer .dasContext), (ascii "blob", .untypedPointer), (ascii "outx", .untypedPointer)],
    .cResult⟩,
  ⟨ascii "eth_kzg_compute_cells_and_kzg_proofs", [(ascii "ctx", .pointer .dasContext), (ascii "blob", .untypedPointer),
    (ascii "out_cells", .pointer .untypedPointer), (ascii "out_proofs", .pointer .untypedPointer)], .cResult⟩,
  ⟨ascii "eth_kzg_verify_cell_kzg_proof_batch", [(ascii "ctx", .pointer .dasContext), (ascii "commitments_length", .uint64),
    (ascii "commitments", .pointer .untypedPointer), (ascii "cell_indices_length", .uint64), (ascii "cell_indices", .untypedPointer),
    (ascii "cells_length", .uint64), (ascii "cells", .pointer .untypedPointer), (ascii "proofs_length", .uint64),
    (ascii "proofs", .pointer .untypedPointer), (ascii "verified", .untypedPointer)], .cResult⟩,
  ⟨ascii "eth_kzg_recover_cells_and_proofs", [(ascii "ctx", .pointer .dasContext), (ascii "cells_length", .uint64),
    (ascii "cells", .pointer .untypedPointer), (ascii "cell_indices_length", .uint64), (ascii "cell_indices", .untypedPointer),
    (ascii "out_cells", .pointer .untypedPointer), (ascii "out_proofs", .pointer .untypedPointer)], .cResult⟩,
  ⟨ascii "eth_kzg_constant_bytes_per_cell", [], .uint64⟩,
  ⟨ascii "eth_kzg_constant_bytes_per_proof", [], .uint64⟩,
  ⟨ascii "eth_kzg_constant_cells_per_ext_blob", [], .uint64⟩]

/-- The `CResult` a Nim caller has after a call: the representation of the result read with the type of `header.nim`. `status` other than
the first value counts as an error (`verify_result`, nim_eth_kzg.nim:66-71, compares with `Ok`). -/
def nimSees (t : Target) (bytes : List UInt8) : CResult :=
  match t.readFields (NimTy.fields t .cResult) bytes with
  | [status, msg] => ⟨if status = 0 then .Ok else .Err, msg⟩
  | _ => ⟨.Err, 0⟩

section
variable {K G1 G2 GT : Type} [Field K] [DecidableEq K] [AddCommGroup G1] [Module Fr G1] [DecidableEq G1]
  [Curve K G1] [PointCodec G1] [AddCommGroup G2] [Module Fr G2] [AddCommGroup GT] [DecidableEq GT]
  [Pairing G1 G2 GT]

/-- `blobToKZGCommitment`, nim_eth_kzg.nim:93-103, where the caller sees `see res` of a result `res`. The model in NimBinding.lean is the
case where it sees the result. This function exchanges no words in memory, so the byte order matters nowhere else in it. -/
def nimBlobToKZGCommitmentSeen (see : CResult → CResult) (H : Heap (DASContext K G1 G2)) (A : Allocator (DASContext K G1 G2))
    (dollar : CResult → List UInt8) (ctx blob : Nat) : CM (DASContext K G1 G2) NimError (List UInt8) := do
  let ret ← newBytes H 48
  let res ← callC (ethKzgBlobToKzgCommitment A ctx blob ret)
  verifyResultNim dollar (see res)
  readBytes ret 48

end

/-- the types of native methods in `LibEthKZG.java` -/
inductive JavaTy where
  | void | boolean | long | byteArray | longArray | byteArrayArray | cellsAndProofs
  deriving DecidableEq

/-- the types of the exported functions in `bindings/java/rust_code/src/lib.rs` -/
inductive JniTy where
  | unit | jniEnv | jClass | jboolean | jlong | jByteArray | jLongArray | jObjectArray | jObject
  deriving DecidableEq

/-- the type that a value of a Java type has in native code (JNI specification) -/
def JavaTy.native : JavaTy → JniTy
  | .void => .unit
  | .boolean => .jboolean
  | .long => .jlong
  | .byteArray => .jByteArray
  | .longArray => .jLongArray
  | .byteArrayArray => .jObjectArray
  | .cellsAndProofs => .jObject

/-- type descriptors of the Java virtual machine -/
def JavaTy.descriptor : JavaTy → List UInt8
  | .void => ascii "V"
  | .boolean => ascii "Z"
  | .long => ascii "J"
  | .byteArray => ascii "[B"
  | .longArray => ascii "[J"
  | .byteArrayArray => ascii "[[B"
  | .cellsAndProofs => ascii "Lethereum/cryptography/CellsAndProofs;"

/-- the static native methods of `ethereum.cryptography.LibEthKZG`, LibEthKZG.java:142-153; the symbol is the method name -/
def javaNatives : List (FnDecl JavaTy) := [
  ⟨ascii "DASContextNew", [(ascii "usePrecomp", .boolean), (ascii "numThreads", .long)], .long⟩,
  ⟨ascii "DASContextDestroy", [(ascii "ctx_ptr", .long)], .void⟩,
  ⟨ascii "computeCellsAndKZGProofs", [(ascii "context_ptr", .long), (ascii "blob", .byteArray)], .cellsAndProofs⟩,
  ⟨ascii "blobToKZGCommitment", [(ascii "context_ptr", .long), (ascii "blob", .byteArray)], .byteArray⟩,
  ⟨ascii "verifyCellKZGProofBatch", [(ascii "context_ptr", .long), (ascii "commitments", .byteArrayArray), (ascii "cellIndices", .longArray),
    (ascii "cells", .byteArrayArray), (ascii "proofs", .byteArrayArray)], .boolean⟩,
  ⟨ascii "recoverCellsAndKZGProofs", [(ascii "context_ptr", .long), (ascii "cellIDs", .longArray), (ascii "cells", .byteArrayArray)],
    .cellsAndProofs⟩]

/-- the functions exported by `bindings/java/rust_code/src/lib.rs`, lines 10-15, 22-26, 31-36, 60-65, 88-96, 141-147 -/
def jniFns : List (FnDecl JniTy) := [
  ⟨ascii "Java_ethereum_cryptography_LibEthKZG_DASContextNew", [(ascii "_env", .jniEnv), (ascii "_class", .jClass),
    (ascii "use_precomp", .jboolean), (ascii "num_threads", .jlong)], .jlong⟩,
  ⟨ascii "Java_ethereum_cryptography_LibEthKZG_DASContextDestroy", [(ascii "_env", .jniEnv), (ascii "_class", .jClass),
    (ascii "ctx_ptr", .jlong)], .unit⟩,
  ⟨ascii "Java_ethereum_cryptography_LibEthKZG_computeCellsAndKZGProofs", [(ascii "env", .jniEnv), (ascii "_class", .jClass),
    (ascii "ctx_ptr", .jlong), (ascii "blob", .jByteArray)], .jObject⟩,
  ⟨ascii "Java_ethereum_cryptography_LibEthKZG_blobToKZGCommitment", [(ascii "env", .jniEnv), (ascii "_class", .jClass),
    (ascii "ctx_ptr", .jlong), (ascii "blob", .jByteArray)], .jByteArray⟩,
  ⟨ascii "Java_ethereum_cryptography_LibEthKZG_verifyCellKZGProofBatch", [(ascii "env", .jniEnv), (ascii "_class", .jClass),
    (ascii "ctx_ptr", .jlong), (ascii "commitment", .jObjectArray), (ascii "cell_indices", .jLongArray), (ascii "cells", .jObjectArray),
    (ascii "proofs", .jObjectArray)], .jboolean⟩,
  ⟨ascii "Java_ethereum_cryptography_LibEthKZG_recoverCellsAndKZGProofs", [(ascii "env", .jniEnv), (ascii "_class", .jClass),
    (ascii "ctx_ptr", .jlong), (ascii "cell_ids", .jLongArray), (ascii "cells", .jObjectArray)], .jObject⟩]

/-- The part of the JNI name mangling that concerns ASCII names: `/` becomes `_`, `_` becomes `_1`, `;` becomes `_2`, `[` becomes `_3`. -/
def jniMangle (name : List UInt8) : List UInt8 := name.flatMap (fun c =>
  if c = 47 then [95] else if c = 95 then [95, 49] else if c = 59 then [95, 50] else if c = 91 then [95, 51] else [c])

/-- the symbol in which the virtual machine looks for a native method that is not overloaded -/
def jniSymbol (cls method : List UInt8) : List UInt8 := ascii "Java_" ++ jniMangle cls ++ [95] ++ jniMangle method

/-- the signature comments of `ethereum_cryptography_LibEthKZG.h`, lines 21-67: method and descriptor -/
def jniHeader : List (List UInt8 × List UInt8) := [
  (ascii "DASContextNew", ascii "(ZJ)J"),
  (ascii "DASContextDestroy", ascii "(J)V"),
  (ascii "computeCellsAndKZGProofs", ascii "(J[B)Lethereum/cryptography/CellsAndProofs;"),
  (ascii "blobToKZGCommitment", ascii "(J[B)[B"),
  (ascii "verifyCellKZGProofBatch", ascii "(J[[B[J[[B[[B)Z"),
  (ascii "recoverCellsAndKZGProofs", ascii "(J[J[[B)Lethereum/cryptography/CellsAndProofs;")]

/-- `ptr as jlong`, java/lib.rs:18: a pointer is an unsigned word, zero-extended to 64 bits, read as a signed integer -/
def pointerToJlong (p : Nat) : Int64 := Int64.ofUInt64 (UInt64.ofNat p)

/-- `ctx_ptr as *const DASContext`, java/lib.rs:27, 37, 66, 97, 148: the low bits that fit a pointer -/
def jlongToPointer (t : Target) (x : Int64) : Nat := x.toUInt64.toNat % 256 ^ t.pointerBytes

/-- the types of the `#[napi]` functions of `bindings/node/src/lib.rs` -/
inductive NapiTy where
  | bool | bigInt | uint8Array | cellsAndProofs | dasContextOptions | self
  | vec (item : NapiTy)
  deriving DecidableEq

/-- the types in `index.d.ts` -/
inductive TsTy where
  | boolean | bigint | uint8Array | cellsAndProofs | dasContextOptions | dasContextJs
  | array (item : TsTy)
  | promise (item : TsTy)
  deriving DecidableEq

/-- A `#[napi]` function: name, whether it is `async`, parameters after `&self`, the type in the `Result` it returns. -/
structure NapiFn where
  name : List UInt8
  isAsync : Bool
  params : List (List UInt8 × NapiTy)
  ret : NapiTy

/-- the methods of `DASContextJs` in node/lib.rs, in order: lines 67, 89, 104, 109, 138-141, 146, 153, 159-163, 199-203, 208-214, 244-250 -/
def napiFns : List NapiFn := [
  ⟨ascii "create", false, [(ascii "options", .dasContextOptions)], .self⟩,
  ⟨ascii "blob_to_kzg_commitment", false, [(ascii "blob", .uint8Array)], .uint8Array⟩,
  ⟨ascii "async_blob_to_kzg_commitment", true, [(ascii "blob", .uint8Array)], .uint8Array⟩,
  ⟨ascii "compute_cells_and_kzg_proofs", false, [(ascii "blob", .uint8Array)], .cellsAndProofs⟩,
  ⟨ascii "async_compute_cells_and_kzg_proofs", true, [(ascii "blob", .uint8Array)], .cellsAndProofs⟩,
  ⟨ascii "compute_cells", false, [(ascii "blob", .uint8Array)], .vec .uint8Array⟩,
  ⟨ascii "async_compute_cells", true, [(ascii "blob", .uint8Array)], .vec .uint8Array⟩,
  ⟨ascii "recover_cells_and_kzg_proofs", false, [(ascii "cell_indices", .vec .bigInt), (ascii "cells", .vec .uint8Array)], .cellsAndProofs⟩,
  ⟨ascii "async_recover_cells_and_kzg_proofs", true, [(ascii "cell_indices", .vec .bigInt), (ascii "cells", .vec .uint8Array)],
    .cellsAndProofs⟩,
  ⟨ascii "verify_cell_kzg_proof_batch", false, [(ascii "commitments", .vec .uint8Array), (ascii "cell_indices", .vec .bigInt),
    (ascii "cells", .vec .uint8Array), (ascii "proofs", .vec .uint8Array)], .bool⟩,
  ⟨ascii "async_verify_cell_kzg_proof_batch", true, [(ascii "commitments", .vec .uint8Array), (ascii "cell_indices", .vec .bigInt),
    (ascii "cells", .vec .uint8Array), (ascii "proofs", .vec .uint8Array)], .bool⟩]

/-- the methods of `DasContextJs` in `index.d.ts`, lines 23-33 -/
def typescriptFns : List (FnDecl TsTy) := [
  ⟨ascii "create", [(ascii "options", .dasContextOptions)], .dasContextJs⟩,
  ⟨ascii "blobToKzgCommitment", [(ascii "blob", .uint8Array)], .uint8Array⟩,
  ⟨ascii "asyncBlobToKzgCommitment", [(ascii "blob", .uint8Array)], .promise .uint8Array⟩,
  ⟨ascii "computeCellsAndKzgProofs", [(ascii "blob", .uint8Array)], .cellsAndProofs⟩,
  ⟨ascii "asyncComputeCellsAndKzgProofs", [(ascii "blob", .uint8Array)], .promise .cellsAndProofs⟩,
  ⟨ascii "computeCells", [(ascii "blob", .uint8Array)], .array .uint8Array⟩,
  ⟨ascii "asyncComputeCells", [(ascii "blob", .uint8Array)], .promise (.array .uint8Array)⟩,
  ⟨ascii "recoverCellsAndKzgProofs", [(ascii "cellIndices", .array .bigint), (ascii "cells", .array .uint8Array)], .cellsAndProofs⟩,
  ⟨ascii "asyncRecoverCellsAndKzgProofs", [(ascii "cellIndices", .array .bigint), (ascii "cells", .array .uint8Array)],
    .promise .cellsAndProofs⟩,
  ⟨ascii "verifyCellKzgProofBatch", [(ascii "commitments", .array .uint8Array), (ascii "cellIndices", .array .bigint),
    (ascii "cells", .array .uint8Array), (ascii "proofs", .array .uint8Array)], .boolean⟩,
  ⟨ascii "asyncVerifyCellKzgProofBatch", [(ascii "commitments", .array .uint8Array), (ascii "cellIndices", .array .bigint),
    (ascii "cells", .array .uint8Array), (ascii "proofs", .array .uint8Array)], .promise .boolean⟩]

/-- the constants a binding declares -/
structure BindingConstants where
  bytesPerCommitment : Nat
  bytesPerProof : Nat
  bytesPerFieldElement : Nat
  bytesPerBlob : Nat
  maxNumColumns : Nat
  bytesPerCell : Nat
  deriving DecidableEq

/-- ethkzg.cs:12-25 -/
def csharpConstants : BindingConstants := ⟨48, 48, 32, 131072, 128, 2048⟩
/-- prover.go:25-41 -/
def goConstants : BindingConstants := ⟨48, 48, 32, 131072, 128, 2048⟩
/-- LibEthKZG.java:15-25 -/
def javaConstants : BindingConstants := ⟨48, 48, 32, 131072, 128, 2048⟩
/-- ethereum_cryptography_LibEthKZG.h:10-21 -/
def jniHeaderConstants : BindingConstants := ⟨48, 48, 32, 131072, 128, 2048⟩
/-- nim_eth_kzg.nim:11-15 and the type `Bytes48` in lines 18-19 -/
def nimConstants : BindingConstants := ⟨48, 48, 32, 131072, 128, 2048⟩
/-- node/lib.rs:15-25: `as u32` of the constants of the library -/
def nodeConstants : BindingConstants := ⟨BYTES_PER_COMMITMENT % 2 ^ 32, BYTES_PER_COMMITMENT % 2 ^ 32, BYTES_PER_FIELD_ELEMENT % 2 ^ 32,
  BYTES_PER_BLOB % 2 ^ 32, CELLS_PER_EXT_BLOB % 2 ^ 32, BYTES_PER_CELL % 2 ^ 32⟩

end Verif
