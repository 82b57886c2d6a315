import Verif.Model.Msm

/-! Model of `FixedBaseMSMPrecompBLST` (`cryptography/bls12_381/src/fixed_base_msm.rs`), the table of multiples computed by
the C library blst. The library itself is a parameter: `blstPrecompute` and `blstMult` state which memory it touches and
what it computes, as its header documents; an access outside the buffers is the value `Access.fault`. The type is public but
only benchmarks and tests use it. -/
namespace Verif

/-- Outcome of a call into C: a value, or an access outside the memory handed over (undefined behaviour) -/
inductive Access (α : Type) where
  | done (a : α)
  | fault
  deriving DecidableEq, Repr

/-- Bytes of a `blst_p1_affine`: two coordinates of 48 bytes -/
def blstP1AffineBytes : Nat := 96

/-- Bytes of a `limb_t` -/
def blstLimbBytes : Nat := 8

/-- Number of multiples of each point in a table of width `wbits` -/
def blstMultiples (wbits : Nat) : Nat := 2 ^ (wbits - 1)

/-- `blst_p1s_mult_wbits_precompute_sizeof`: bytes of a table -/
def blstPrecomputeSizeof (wbits npoints : Nat) : Nat := blstP1AffineBytes * npoints * blstMultiples wbits

/-- The number in little-endian bytes -/
def blstScalarLE (bytes : List UInt8) : Nat := bytes.foldr (fun b n => b.toNat + 256 * n) 0

section
variable {G : Type} [AddCommGroup G] [Module Fr G] [DecidableEq G]

/-- `blst_p1s_mult_wbits_precompute(table, wbits, points, npoints)`: reads `npoints` pointers and writes the multiples
`P, 2P, …, 2^(wbits-1) P` of every point. `tableLen` is the number of elements the buffer holds. The coordinates are shared
in one inversion, so nothing is assumed of the contents if a point is the identity (`junk`). -/
def blstPrecompute (junk : List G) (tableLen wbits : Nat) (points : List G) (npoints : Nat) : Access (List G) :=
  if points.length < npoints ∨ tableLen < npoints * blstMultiples wbits then .fault
  else if (points.take npoints).any (fun P => P = 0) then .done (resize junk tableLen 0)
  else .done (resize ((points.take npoints).flatMap (fun P => (List.range (blstMultiples wbits)).map (fun j => (j + 1) • P)))
    tableLen 0)

/-- The product of one scalar and one point: reads the pointer, the bytes behind it and the table (`none`: out of bounds) -/
def blstTerm (table : List G) (wbits : Nat) (scalars : List (List UInt8)) (nbits i : Nat) : Option G := do
  let s ← scalars[i]?
  let P ← table[i * blstMultiples wbits]?
  if s.length < (nbits + 7) / 8 then none else some ((blstScalarLE (s.take ((nbits + 7) / 8)) % 2 ^ nbits) • P)

/-- `blst_p1s_mult_wbits(ret, table, wbits, npoints, scalars, nbits, scratch)`: reads the table, `npoints` pointers to
scalars and `(nbits + 7) / 8` bytes of each, little endian, of which it takes the low `nbits` bits; `scratchBytes` is the
size of the scratch buffer and `scratchNeeded` what `blst_p1s_mult_wbits_scratch_sizeof` asks for. -/
def blstMult (scratchNeeded : Nat → Nat) (table : List G) (wbits npoints : Nat) (scalars : List (List UInt8)) (nbits : Nat)
    (scratchBytes : Nat) : Access G :=
  if table.length < npoints * blstMultiples wbits ∨ scratchBytes < scratchNeeded npoints then .fault
  else
    match (List.range npoints).mapM (blstTerm table wbits scalars nbits) with
    | none => .fault
    | some terms => .done terms.sum

/-- `FixedBaseMSMPrecompBLST`, fixed_base_msm.rs:8-13 -/
structure FixedBaseMSMPrecompBLST (G : Type) where
  table : List G
  wbits : Nat
  numPoints : Nat
  scratchSpaceSize : Nat
  deriving DecidableEq, Repr

/-- `FixedBaseMSMPrecompBLST::new`, fixed_base_msm.rs:57-82 -/
def FixedBaseMSMPrecompBLST.new (junk : List G) (scratchNeeded : Nat → Nat) (generators : List G) (wbits : Nat) :
    Access (FixedBaseMSMPrecompBLST G) :=
  let numPoints := generators.length
  let tableSizeBytes := blstPrecomputeSizeof wbits numPoints
  let tableSize := tableSizeBytes / blstP1AffineBytes
  match blstPrecompute junk tableSize wbits generators numPoints with
  | .fault => .fault
  | .done table => .done { table, wbits, numPoints, scratchSpaceSize := scratchNeeded numPoints }

/-- `FixedBaseMSMPrecompBLST::msm`, fixed_base_msm.rs:84-118. The capacity of the scratch vector counts limbs. -/
def FixedBaseMSMPrecompBLST.msm (scratchNeeded : Nat → Nat) (m : FixedBaseMSMPrecompBLST G) (scalars : List Fr) : Access G :=
  let blstScalars := scalars.map scalarToBytesLE
  blstMult scratchNeeded m.table m.wbits m.numPoints blstScalars 255 (m.scratchSpaceSize * blstLimbBytes)
end

end Verif
