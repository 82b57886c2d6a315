import Verif.Model.Api

/-! Model of `eip7594/src/trusted_setup.rs`.

A Rust `str` is the list of its UTF-8 bytes. The JSON reader (`serde_json`) is a parameter `parse` with
`none` for a document that is not an object with three lists of strings. The decoding of point encodings
(blstrs) is a parameter: `fromCompressedUnchecked` and the subgroup test `isTorsionFree`; the checked
decoding is the unchecked decoding followed by the test. `hex::decode` (crate `hex`) is modelled. -/
namespace Verif

/-- `TrustedSetup`, trusted_setup.rs:10-30 -/
structure TrustedSetup where
  g1Monomial : List (List UInt8)
  g1Lagrange : List (List UInt8)
  g2Monomial : List (List UInt8)

/-- `SubgroupCheck`, trusted_setup.rs:40-43 -/
inductive SubgroupCheck where
  | check
  | noCheck
  deriving DecidableEq

/-- blstrs `from_compressed_unchecked` and `is_torsion_free` -/
class UncheckedCodec (E : Type) where
  fromCompressedUnchecked : List UInt8 → Option E
  isTorsionFree : E → Bool

export UncheckedCodec (fromCompressedUnchecked isTorsionFree)

/-- blstrs `from_compressed`: the unchecked decoding followed by the subgroup test -/
def fromCompressedChecked {E : Type} [UncheckedCodec E] (b : List UInt8) : Option E :=
  (fromCompressedUnchecked b).bind (fun p => if isTorsionFree p then some p else none)

/-- the value of a hexadecimal digit, crate `hex`, function `val` -/
def hexVal (c : UInt8) : Option UInt8 :=
  if 65 ≤ c ∧ c ≤ 70 then some (c - 65 + 10)
  else if 97 ≤ c ∧ c ≤ 102 then some (c - 97 + 10)
  else if 48 ≤ c ∧ c ≤ 57 then some (c - 48)
  else none

/-- `hex::decode` (crate `hex`): an error for an odd length or a character that is not a digit -/
def hexDecode (data : List UInt8) : Option (List UInt8) :=
  if data.length % 2 ≠ 0 then none
  else (chunksExact 2 data).mapM (fun pair => match pair with
    | [a, b] => do
      let h ← hexVal a
      let l ← hexVal b
      pure ((h <<< 4) ||| l)
    | _ => none)

/-- `str::strip_prefix("0x")` -/
def stripPrefix0x : List UInt8 → Option (List UInt8)
  | 48 :: 120 :: s => some s
  | _ => none

/-- `Vec<u8>::try_into::<[u8; N]>` -/
def tryIntoArray (n : Nat) (b : List UInt8) : Option (List UInt8) := if b.length = n then some b else none

variable {ε E1 E2 : Type} [UncheckedCodec E1] [UncheckedCodec E2]

/-- `deserialize_g1_points`, trusted_setup.rs:131-160 -/
def deserializeG1Points (hexStrs : List (List UInt8)) (sub : SubgroupCheck) : Outcome ε (List E1) :=
  hexStrs.foldlM (fun points hexStr => do
    let without0x ← expect (stripPrefix0x hexStr)
    let decoded ← expect (hexDecode without0x)
    let bytes ← expect (tryIntoArray 48 decoded)
    let point ← match sub with
      | .check => expect (fromCompressedChecked bytes)
      | .noCheck => expect (fromCompressedUnchecked bytes)
    pure (points ++ [point])) []

/-- `deserialize_g2_points`, trusted_setup.rs:164-187 -/
def deserializeG2Points (hexStrs : List (List UInt8)) (sub : SubgroupCheck) : Outcome ε (List E2) :=
  hexStrs.foldlM (fun points hexStr => do
    let without0x ← expect (stripPrefix0x hexStr)
    let decoded ← expect (hexDecode without0x)
    let bytes ← expect (tryIntoArray 96 decoded)
    let point ← match sub with
      | .check => expect (fromCompressedChecked bytes)
      | .noCheck => expect (fromCompressedUnchecked bytes)
    pure (points ++ [point])) []

namespace TrustedSetup

/-- `to_commit_key`, trusted_setup.rs:103-106 -/
def toCommitKey [DecidableEq E1] (setup : TrustedSetup) (sub : SubgroupCheck) : Outcome ε (List E1) := do
  let points ← deserializeG1Points setup.g1Monomial sub
  commitKeyNew points

/-- `to_verification_key`, trusted_setup.rs:108-121 -/
def toVerificationKey (setup : TrustedSetup) (sub : SubgroupCheck) : Outcome ε (VerificationKey E1 E2) := do
  let g2Points ← deserializeG2Points setup.g2Monomial sub
  let numG2Points := g2Points.length
  let strs ← slice setup.g1Monomial 0 numG2Points
  let g1Points ← deserializeG1Points strs sub
  VerificationKey.new g1Points g2Points FIELD_ELEMENTS_PER_CELL FIELD_ELEMENTS_PER_BLOB

variable (E1 E2) in
/-- `validate_trusted_setup`, trusted_setup.rs:98-101 -/
def validate [DecidableEq E1] (setup : TrustedSetup) : Outcome ε Unit := do
  let _ ← (setup.toCommitKey .check : Outcome ε (List E1))
  let _ ← (setup.toVerificationKey .check : Outcome ε (VerificationKey E1 E2))
  pure ()

/-- `from_json_unchecked`, trusted_setup.rs:88-93 -/
def fromJsonUnchecked (parse : List UInt8 → Option TrustedSetup) (json : List UInt8) : Outcome ε TrustedSetup :=
  expect (parse json)

variable (E1 E2) in
/-- `from_json`, trusted_setup.rs:80-84 -/
def fromJson [DecidableEq E1] (parse : List UInt8 → Option TrustedSetup) (json : List UInt8) : Outcome ε TrustedSetup := do
  let setup ← fromJsonUnchecked parse json
  setup.validate E1 E2
  pure setup

end TrustedSetup

section
variable {K G1 G2 : Type} [Field K] [DecidableEq K] [AddCommGroup G1] [Module Fr G1] [DecidableEq G1]
  [Curve K G1] [UncheckedCodec G1] [AddCommGroup G2] [Module Fr G2] [UncheckedCodec G2]

/-- `ProverContext::new` on an encoded setup, prover.rs:39-70 with trusted_setup.rs:45-49. The points of the setup are
assumed to be in the subgroups, so that they are elements of modules over the scalar field. -/
def ProverContext.ofTrustedSetup (setup : TrustedSetup) (usePrecomp : UsePrecomp) : Outcome ε (ProverContext K G1) := do
  let commitKey ← setup.toCommitKey .noCheck
  let prover ← FK20Prover.new commitKey FIELD_ELEMENTS_PER_BLOB FIELD_ELEMENTS_PER_CELL
    FIELD_ELEMENTS_PER_EXT_BLOB usePrecomp
  let rs ← ReedSolomon.new FIELD_ELEMENTS_PER_BLOB EXPANSION_FACTOR CELLS_PER_EXT_BLOB
  pure { kzgMultipointProver := prover, rs := rs }

/-- `VerifierContext::new` on an encoded setup, verifier.rs:28-40 with trusted_setup.rs:51-55 -/
def VerifierContext.ofTrustedSetup (setup : TrustedSetup) : Outcome ε (VerifierContext G1 G2) := do
  let vk ← setup.toVerificationKey .noCheck
  let v ← FK20Verifier.new vk FIELD_ELEMENTS_PER_EXT_BLOB CELLS_PER_EXT_BLOB
  pure { kzgMultipointVerifier := v }

/-- `DASContext::new` on an encoded setup, lib.rs:127-161 -/
def DASContext.ofTrustedSetup (setup : TrustedSetup) (usePrecomp : UsePrecomp) : Outcome ε (DASContext K G1 G2) := do
  let p ← ProverContext.ofTrustedSetup setup usePrecomp
  let v ← VerifierContext.ofTrustedSetup setup
  pure { proverCtx := p, verifierCtx := v }

end

end Verif
