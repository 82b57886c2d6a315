import Verif.Model.TrustedSetup

/-!
The conformance tests: the programs that run the library on the files in `test_vectors`, in each language. The library is a
parameter: the question is which libraries pass. Not modelled: reading directories and YAML; a vector is the content of its file, hex
strings as lists of ASCII characters. Indices are those after reading; all readers agree below `2^53`. A run is `true` if the test
passes; a failed assertion, panic or exception that leaves the test is `false`.
-/
namespace Verif.Tests

abbrev Str := List UInt8

/-- a file in `test_vectors/blob_to_kzg_commitment`; the output is `null` for inputs that must be refused -/
structure BlobVector where
  blob : Str
  output : Option Str

/-- a file in `test_vectors/compute_cells_and_kzg_proofs`; the output is a list of two lists, cells and proofs -/
structure CellsVector where
  blob : Str
  output : Option (List (List Str))

/-- a file in `test_vectors/recover_cells_and_kzg_proofs` -/
structure RecoverVector where
  indices : List Nat
  cells : List Str
  output : Option (List (List Str))

/-- a file in `test_vectors/verify_cell_kzg_proof_batch` -/
structure VerifyVector where
  commitments : List Str
  indices : List Nat
  cells : List Str
  proofs : List Str
  output : Option Bool

/-- A whole suite: there are files, and all pass. eip7594/tests/common.rs, 11-19, and the loops of the tests; bindings/csharp/csharp_code/
EthKZG.test/RefTests.cs, 75 and 77; bindings/java/java_code/src/testFixtures/java/ethereum/cryptography/TestUtils.java, 48;
bindings/node/__test__/index.spec.ts, 66 and 68; bindings/nim/nim_code/tests/test_yaml.nim, 49-51 -/
def suite {V : Type} (run : V → Bool) (files : List V) : Bool := !files.isEmpty && files.all run

section Rust
variable {ε : Type}

/-- `remove_hex_prefix` and `bytes_from_hex`, eip7594/tests/common.rs, 33-48; `none` is a panic -/
def bytesFromHex (s : Str) : Option (List UInt8) := (stripPrefix0x s).bind hexDecode

/-- serde reads the output as a pair of lists: anything but two lists is an error, on which `from_str` panics -/
def yamlPair : List (List Str) → Option (List Str × List Str)
  | [a, b] => some (a, b)
  | _ => none

/-- The field `commitment` of `TestVector`, eip7594/tests/blob_to_kzg_commitment.rs, 47-50. The outer `none` is a panic. -/
def rustBytes : Option Str → Option (Option (List UInt8))
  | none => some none
  | some s => (bytesFromHex s).map some

/-- The field `proofs_and_cells` of `TestVector` as (cells, proofs), eip7594/tests/compute_cells_and_kzg_proofs.rs, 51-68, and
recover_cells_and_kzg_proofs.rs, 55-73. The outer `none` is a panic. -/
def rustLists : Option (List (List Str)) → Option (Option (List (List UInt8) × List (List UInt8)))
  | none => some none
  | some l => do
    let (cells, proofs) ← yamlPair l
    let proofs ← proofs.mapM bytesFromHex
    let cells ← cells.mapM bytesFromHex
    pure (some (cells, proofs))

/-- eip7594/tests/blob_to_kzg_commitment.rs, 62-93 -/
def rustCommit (lib : List UInt8 → Outcome ε (List UInt8)) (v : BlobVector) : Bool :=
  match bytesFromHex v.blob, rustBytes v.output with
  | some blob, some output =>
    match tryIntoArray 131072 blob with
    | none => output.isNone
    | some blob =>
      match lib blob with
      | .ok commitment =>
        match output with
        | some expected => commitment == expected
        | none => false
      | .err _ => output.isNone
      | .panic => false
  | _, _ => false

/-- The comparison of cells and proofs, eip7594/tests/compute_cells_and_kzg_proofs.rs, 93-115, and recover_cells_and_kzg_proofs.rs, 105-127. It
goes over the expected proofs; an index out of range is a panic. -/
def rustCompare (run : Outcome ε (List (List UInt8) × List (List UInt8))) (output : Option (List (List UInt8) × List (List UInt8))) :
    Bool :=
  match run with
  | .ok (cells, proofs) =>
    match output with
    | none => false
    | some (expectedCells, expectedProofs) =>
      (List.range expectedProofs.length).all (fun k =>
        match expectedProofs[k]?, expectedCells[k]?, proofs[k]?, cells[k]? with
        | some expectedProof, some expectedCell, some gotProof, some gotCell => gotCell == expectedCell && gotProof == expectedProof
        | _, _, _, _ => false)
  | .err _ => output.isNone
  | .panic => false

/-- eip7594/tests/compute_cells_and_kzg_proofs.rs, 76-117 -/
def rustCompute (lib : List UInt8 → Outcome ε (List (List UInt8) × List (List UInt8))) (v : CellsVector) : Bool :=
  match bytesFromHex v.blob, rustLists v.output with
  | some blob, some output =>
    match tryIntoArray 131072 blob with
    | none => output.isNone
    | some blob => rustCompare (lib blob) output
  | _, _ => false

/-- `Vec<Vec<u8>>` to `Vec<&[u8; n]>` by `try_into` and `collect` -/
def tryIntoArrays (n : Nat) (l : List (List UInt8)) : Option (List (List UInt8)) := l.mapM (tryIntoArray n)

/-- eip7594/tests/recover_cells_and_kzg_proofs.rs, 81-129 -/
def rustRecover (lib : List Nat → List (List UInt8) → Outcome ε (List (List UInt8) × List (List UInt8))) (v : RecoverVector) : Bool :=
  match v.cells.mapM bytesFromHex, rustLists v.output with
  | some cells, some output =>
    match tryIntoArrays 2048 cells with
    | none => output.isNone
    | some cells => rustCompare (lib v.indices cells) output
  | _, _ => false

/-- eip7594/tests/verify_cell_kzg_proof_batch.rs, 80-147; `invalid` is the method `invalid_proof` of the error -/
def rustVerify (invalid : ε → Bool) (lib : List (List UInt8) → List Nat → List (List UInt8) → List (List UInt8) → Outcome ε Unit)
    (v : VerifyVector) : Bool :=
  match v.commitments.mapM bytesFromHex, v.cells.mapM bytesFromHex, v.proofs.mapM bytesFromHex with
  | some commitments, some cells, some proofs =>
    match tryIntoArrays 2048 cells with
    | none => v.output.isNone
    | some cells =>
      match tryIntoArrays 48 commitments with
      | none => v.output.isNone
      | some commitments =>
        match tryIntoArrays 48 proofs with
        | none => v.output.isNone
        | some proofs =>
          match lib commitments v.indices cells proofs with
          | .ok _ => v.output == some true
          | .err x => if invalid x then v.output == some false else v.output.isNone
          | .panic => false
  | _, _, _ => false

end Rust

section Java

/-- How a Java expression ends: with a value, with an `IllegalArgumentException`, or with another throwable (failed assertions are
`AssertionError`s). -/
inductive JavaEnd (α : Type) where
  | returns (a : α)
  | illegalArgument
  | otherThrowable
  deriving DecidableEq

def JavaEnd.bind {α β : Type} : JavaEnd α → (α → JavaEnd β) → JavaEnd β
  | .returns a, f => f a
  | .illegalArgument, _ => .illegalArgument
  | .otherThrowable, _ => .otherThrowable

instance : Monad JavaEnd where
  pure := .returns
  bind := .bind

/-- `Bytes.fromHexString` (Apache Tuweni): the prefix `0x` may be missing; an `IllegalArgumentException` for an odd number of digits or another
character -/
def javaHex (s : Str) : JavaEnd (List UInt8) :=
  match hexDecode (match stripPrefix0x s with | some t => t | none => s) with
  | some b => .returns b
  | none => .illegalArgument

/-- a stream of `Bytes::fromHexString` -/
def javaHexes (l : List Str) : JavaEnd (List (List UInt8)) := l.mapM javaHex

/-- `getOutput`, bindings/java/java_code/src/testFixtures/java/ethereum/cryptography/test_formats/BlobToKzgCommitmentTest.java, 21-26 -/
def javaBytes : Option Str → JavaEnd (Option (List UInt8))
  | none => .returns none
  | some s => (javaHex s).bind (fun b => .returns (some b))

/-- `getOutput`, test_formats/ComputeCellsAndKzgProofsTest.java, 25-41, and RecoverCellsAndKzgProofsTest.java, 37-53. The tests run with `assert` enabled. -/
def javaLists : Option (List (List Str)) → JavaEnd (Option (List (List UInt8) × List (List UInt8)))
  | none => .returns none
  | some [a, b] => do
    let cells ← javaHexes a
    let proofs ← javaHexes b
    pure (some (cells, proofs))
  | some _ => .otherThrowable

/-- an assertion of JUnit -/
def javaAssert (b : Bool) : JavaEnd Unit := if b then .returns () else .otherThrowable

/-- `try { body } catch (IllegalArgumentException e) { assertNull(test.getOutput()) }` -/
def javaTry {α : Type} (body : JavaEnd Unit) (output : JavaEnd (Option α)) : Bool :=
  match body with
  | .returns _ => true
  | .illegalArgument =>
    match output with
    | .returns none => true
    | _ => false
  | .otherThrowable => false

/-- bindings/java/java_code/src/test/java/ethereum/cryptography/LibEthKZGTest.java, 57-66 -/
def javaCommit (lib : List UInt8 → JavaEnd (List UInt8)) (v : BlobVector) : Bool :=
  javaTry (do
    let blob ← javaHex v.blob
    let commitment ← lib blob
    let expected ← javaBytes v.output
    javaAssert (expected == some commitment)) (javaBytes v.output)

/-- The assertions on cells and proofs: `test.getOutput().getCells()` is a `NullPointerException` if there is no output. -/
def javaCompare (output : JavaEnd (Option (List (List UInt8) × List (List UInt8)))) (got : List (List UInt8) × List (List UInt8)) :
    JavaEnd Unit := do
  let expected ← output
  match expected with
  | none => .otherThrowable
  | some (cells, proofs) => do
    javaAssert (cells == got.1)
    javaAssert (proofs == got.2)

/-- LibEthKZGTest.java, 68-78 -/
def javaCompute (lib : List UInt8 → JavaEnd (List (List UInt8) × List (List UInt8))) (v : CellsVector) : Bool :=
  javaTry (do
    let blob ← javaHex v.blob
    let got ← lib blob
    javaCompare (javaLists v.output) got) (javaLists v.output)

/-- LibEthKZGTest.java, 80-92 -/
def javaRecover (lib : List Nat → List (List UInt8) → JavaEnd (List (List UInt8) × List (List UInt8))) (v : RecoverVector) : Bool :=
  javaTry (do
    let cells ← javaHexes v.cells
    let got ← lib v.indices cells
    javaCompare (javaLists v.output) got) (javaLists v.output)

/-- LibEthKZGTest.java, 94-107 -/
def javaVerify (lib : List (List UInt8) → List Nat → List (List UInt8) → List (List UInt8) → JavaEnd Bool) (v : VerifyVector) : Bool :=
  javaTry (do
    let commitments ← javaHexes v.commitments
    let cells ← javaHexes v.cells
    let proofs ← javaHexes v.proofs
    let valid ← lib commitments v.indices cells proofs
    javaAssert (v.output == some valid)) (.returns v.output)

end Java

section CSharp

/-- How the block after `try` ends: normally, with an exception of the library or of a conversion, or with the exception of a failed assertion. -/
inductive CsEnd where
  | passed
  | threw
  | assertionFailed
  deriving DecidableEq

/-- `GetBytes`, bindings/csharp/csharp_code/EthKZG.test/RefTests.cs, 43-46: the first two characters are dropped whatever they are;
`none` is an exception -/
def csHex (s : Str) : Option (List UInt8) := if s.length < 2 then none else hexDecode (s.drop 2)

/-- `try { body } catch { Assert.That(test.Output, Is.EqualTo(null)); }`: the block catches failed assertions too. `counts` says whether the
test framework records a failed assertion although its exception is caught (NUnit does, from version 3.6 on; the project asks for
3.14). -/
def csTry (counts : Bool) (body : CsEnd) (outputIsNull : Bool) : Bool :=
  match body with
  | .passed => true
  | .threw => outputIsNull
  | .assertionFailed => outputIsNull && !counts

/-- RefTests.cs, 69-100; a library call that throws is `none` -/
def csCommit (counts : Bool) (lib : List UInt8 → Option (List UInt8)) (v : BlobVector) : Bool :=
  match csHex v.blob with
  | none => false
  | some blob =>
    csTry counts (match lib blob with
      | none => .threw
      | some commitment =>
        match v.output with
        | none => .assertionFailed
        | some s =>
          match csHex s with
          | none => .threw
          | some expected => if commitment == expected then .passed else .assertionFailed) v.output.isNone

/-- the assertions on cells and proofs, RefTests.cs, 137-141 and 237-241; `ElementAt` throws if there is no such element -/
def csCompare (output : Option (List (List Str))) (got : List (List UInt8) × List (List UInt8)) : CsEnd :=
  match output with
  | none => .assertionFailed
  | some l =>
    match l[0]?.bind (List.mapM csHex) with
    | none => .threw
    | some cells =>
      if got.1 == cells then
        match l[1]?.bind (List.mapM csHex) with
        | none => .threw
        | some proofs => if got.2 == proofs then .passed else .assertionFailed
      else .assertionFailed

/-- RefTests.cs, 118-148 -/
def csCompute (counts : Bool) (lib : List UInt8 → Option (List (List UInt8) × List (List UInt8))) (v : CellsVector) : Bool :=
  match csHex v.blob with
  | none => false
  | some blob =>
    csTry counts (match lib blob with
      | none => .threw
      | some got => csCompare v.output got) v.output.isNone

/-- RefTests.cs, 217-248 -/
def csRecover (counts : Bool) (lib : List Nat → List (List UInt8) → Option (List (List UInt8) × List (List UInt8)))
    (v : RecoverVector) : Bool :=
  match v.cells.mapM csHex with
  | none => false
  | some cells =>
    csTry counts (match lib v.indices cells with
      | none => .threw
      | some got => csCompare v.output got) v.output.isNone

/-- RefTests.cs, 169-198 -/
def csVerify (counts : Bool) (lib : List (List UInt8) → List Nat → List (List UInt8) → List (List UInt8) → Option Bool)
    (v : VerifyVector) : Bool :=
  match v.commitments.mapM csHex, v.cells.mapM csHex, v.proofs.mapM csHex with
  | some commitments, some cells, some proofs =>
    csTry counts (match lib commitments v.indices cells proofs with
      | none => .threw
      | some isCorrect => if some isCorrect == v.output then .passed else .assertionFailed) v.output.isNone
  | _, _, _ => false

end CSharp

section Node

/-- `Buffer.from(s, "hex")`: decoding stops at the first pair that is not two digits -/
def bufferFromHex : Str → List UInt8
  | a :: b :: s =>
    match hexVal a, hexVal b with
    | some h, some l => ((h <<< 4) ||| l) :: bufferFromHex s
    | _, _ => []
  | _ => []

/-- `bytesFromHex`, bindings/node/__test__/index.spec.ts, 35-40 -/
def nodeHex (s : Str) : List UInt8 := bufferFromHex (match stripPrefix0x s with | some t => t | none => s)

/-- index.spec.ts, 64-85; a library call that throws is `none` -/
def nodeCommit (lib : List UInt8 → Option (List UInt8)) (v : BlobVector) : Bool :=
  match lib (nodeHex v.blob) with
  | none => v.output.isNone
  | some commitment =>
    match v.output with
    | none => false
    | some s => commitment == nodeHex s

/-- the comparison of cells and proofs, index.spec.ts, 107-118 and 143-154 -/
def nodeCompare (output : Option (List (List Str))) (got : List (List UInt8) × List (List UInt8)) : Bool :=
  match output with
  | some [a, b] => got.1 == a.map nodeHex && got.2 == b.map nodeHex
  | _ => false

/-- index.spec.ts, 87-120 -/
def nodeCompute (lib : List UInt8 → Option (List (List UInt8) × List (List UInt8))) (v : CellsVector) : Bool :=
  match lib (nodeHex v.blob) with
  | none => v.output.isNone
  | some got => nodeCompare v.output got

/-- index.spec.ts, 122-156 -/
def nodeRecover (lib : List Nat → List (List UInt8) → Option (List (List UInt8) × List (List UInt8))) (v : RecoverVector) : Bool :=
  match lib v.indices (v.cells.map nodeHex) with
  | none => v.output.isNone
  | some got => nodeCompare v.output got

/-- index.spec.ts, 158-180 -/
def nodeVerify (lib : List (List UInt8) → List Nat → List (List UInt8) → List (List UInt8) → Option Bool) (v : VerifyVector) : Bool :=
  match lib (v.commitments.map nodeHex) v.indices (v.cells.map nodeHex) (v.proofs.map nodeHex) with
  | none => v.output.isNone
  | some valid => some valid == v.output

end Node

section Nim

/-- How the body of a test ends: all statements were executed and the checks held or not, a `ValueError` was raised, or a defect ended the test.
A check that fails does not raise anything. -/
inductive NimEnd where
  | done (checks : Bool)
  | valueError
  | defect
  deriving DecidableEq

def nullText : Str := [110, 117, 108, 108]
def trueText : Str := [116, 114, 117, 101]
def falseText : Str := [102, 97, 108, 115, 101]

/-- `fromHex`, bindings/nim/nim_code/tests/test_yaml.nim, 31-34, with `hexToByteArray` of stew: the prefix `0x` may be missing, a text that is
too short or has other characters raises a `ValueError`, what follows after `size` bytes is not looked at; `none` is the `ValueError` -/
def nimHex (size : Nat) (x : Str) : Option (List UInt8) :=
  if (x.length - 2) / 2 > size then none
  else
    let digits := match stripPrefix0x x with | some t => t | none => x
    if digits.length < 2 * size then none else hexDecode (digits.take (2 * size))

/-- `runTests`, test_yaml.nim, 47-58: `content` is the text of the scalar node `n["output"]`; there is none for a list, and reading it is a
defect -/
def nimTest (body : NimEnd) (content : Option Str) : Bool :=
  match body with
  | .done checks => checks
  | .valueError => content == some nullText
  | .defect => false

/-- the text of the output of a vector for `blobToKZGCommitment` -/
def bytesContent : Option Str → Str
  | none => nullText
  | some s => s

/-- the text of an output that is a list or `null` -/
def listsContent : Option (List (List Str)) → Option Str
  | none => some nullText
  | some _ => none

/-- the text of a boolean output -/
def boolContent : Option Bool → Str
  | none => nullText
  | some true => trueText
  | some false => falseText

/-- test_yaml.nim, 60-69 (`checkRes`, `checkBytes48`) and 83-87 -/
def nimCommit {ε : Type} (lib : List UInt8 → Outcome ε (List UInt8)) (v : BlobVector) : Bool :=
  nimTest (match nimHex 131072 v.blob with
    | none => .valueError
    | some blob =>
      match lib blob with
      | .err _ => .done (bytesContent v.output == nullText)
      | .panic => .defect
      | .ok commitment =>
        match nimHex 48 (bytesContent v.output) with
        | none => .valueError
        | some bytes => .done (bytes == commitment)) (some (bytesContent v.output))

/-- the checks of cells and proofs, test_yaml.nim, 95-98 and 107-110. Taking an element of a node that is no list, or that has too few, is a
defect. -/
def nimCompare (output : Option (List (List Str))) (got : List (List UInt8) × List (List UInt8)) : NimEnd :=
  match output with
  | none => .defect
  | some l =>
    match l[0]? with
    | none => .defect
    | some a =>
      match a.mapM (nimHex 2048) with
      | none => .valueError
      | some cells =>
        match l[1]? with
        | none => .defect
        | some b =>
          match b.mapM (nimHex 48) with
          | none => .valueError
          | some proofs => .done (cells == got.1 && proofs == got.2)

/-- `checkRes` on cells and proofs, test_yaml.nim, 60-64: `check n["output"].content == "null"` on an error, where a list has no content -/
def nimCells {ε : Type} (run : Outcome ε (List (List UInt8) × List (List UInt8))) (output : Option (List (List Str))) : NimEnd :=
  match run with
  | .err _ =>
    match listsContent output with
    | none => .defect
    | some c => .done (c == nullText)
  | .panic => .defect
  | .ok got => nimCompare output got

/-- test_yaml.nim, 89-98 -/
def nimCompute {ε : Type} (lib : List UInt8 → Outcome ε (List (List UInt8) × List (List UInt8))) (v : CellsVector) : Bool :=
  nimTest (match nimHex 131072 v.blob with
    | none => .valueError
    | some blob => nimCells (lib blob) v.output) (listsContent v.output)

/-- `fromIntList`, test_yaml.nim, 43-45: `parseInt` raises a `ValueError` for numbers that do not fit -/
def nimInts (l : List Nat) : Option (List Nat) := if l.all (· < 2 ^ 63) then some l else none

/-- test_yaml.nim, 100-110 -/
def nimRecover {ε : Type} (lib : List Nat → List (List UInt8) → Outcome ε (List (List UInt8) × List (List UInt8))) (v : RecoverVector) :
    Bool :=
  nimTest (match nimInts v.indices, v.cells.mapM (nimHex 2048) with
    | some indices, some cells => nimCells (lib indices cells) v.output
    | _, _ => .valueError) (listsContent v.output)

/-- test_yaml.nim, 71-73 (`checkBool`) and 112-119 -/
def nimVerify {ε : Type} (lib : List (List UInt8) → List Nat → List (List UInt8) → List (List UInt8) → Outcome ε Bool)
    (v : VerifyVector) : Bool :=
  nimTest (match v.commitments.mapM (nimHex 48), nimInts v.indices, v.cells.mapM (nimHex 2048), v.proofs.mapM (nimHex 48) with
    | some commitments, some indices, some cells, some proofs =>
      match lib commitments indices cells proofs with
      | .err _ => .done (boolContent v.output == nullText)
      | .panic => .defect
      | .ok valid => .done (boolContent v.output == boolContent (some valid))
    | _, _, _, _ => .valueError) (some (boolContent v.output))

end Nim

/-- The only Go test, bindings/golang/prover_test.go, 7-15: one call, with a blob that is zero except for its second byte; the results are
not looked at. -/
def goTest {ε : Type} (lib : List UInt8 → Outcome ε (List UInt8)) : Bool :=
  match lib ([0, 1] ++ List.replicate 131070 0) with
  | .panic => false
  | _ => true

end Verif.Tests
