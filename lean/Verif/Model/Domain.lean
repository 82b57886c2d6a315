import Verif.Model.Field
import Verif.Model.Fft

/-! Model of `cryptography/polynomial/src/domain.rs` and `coset_fft.rs`. -/
namespace Verif

variable {ε : Type}

/-- `x.invert().expect(..)` on field elements: panics on zero. -/
def invertExpect {F : Type} [Field F] [DecidableEq F] (x : F) : Outcome ε F :=
  if x = 0 then .panic else .ok x⁻¹

/-- `Domain`, domain.rs:14-33 -/
structure Domain where
  roots : List Fr
  domainSize : Fr
  domainSizeInv : Fr
  generator : Fr
  generatorInv : Fr
  twiddleFactors : List Fr
  twiddleFactorsInv : List Fr

/-- `Domain::compute_generator_for_size`, domain.rs:75-87 (`two_adicity` is 32, domain.rs:95-97) -/
def Domain.computeGeneratorForSize (size : Nat) : Outcome ε Fr := do
  assertP (isPow2 size = true)
  let logSize := trailingZeros size
  if logSize > 32 then .panic
  else pure (ROOT_OF_UNITY ^ (2 ^ (32 - logSize)))

/-- Loop computing the roots, domain.rs:52-58: `for i in 1..size` -/
def Domain.rootsLoop (generator : Fr) (size : Nat) : Outcome ε (List Fr) :=
  (List.range (size - 1)).foldlM (fun (roots : List Fr) i => do
    let prev ← idx roots (i + 1 - 1)
    pure (roots ++ [prev * generator])) [1]

/-- `Domain::new`, domain.rs:36-72 -/
def Domain.new (size : Nat) : Outcome ε Domain := do
  let size := if isPow2 size then size else nextPow2 size
  let generator ← Domain.computeGeneratorForSize size
  let generatorInv ← invertExpect generator
  let sizeAsScalar : Fr := (size : Fr)
  let sizeAsScalarInv ← invertExpect sizeAsScalar
  let roots ← Domain.rootsLoop generator size
  pure { roots := roots
         domainSize := sizeAsScalar
         domainSizeInv := sizeAsScalarInv
         generator := generator
         generatorInv := generatorInv
         twiddleFactors := precomputeTwiddleFactors generator size
         twiddleFactorsInv := precomputeTwiddleFactors generatorInv size }

/-- `Domain::size`, domain.rs:102-104 -/
def Domain.size (d : Domain) : Nat := d.roots.length

/-- `CosetFFT`, coset_fft.rs:7-10 -/
structure CosetFFT where
  generator : Fr
  generatorInv : Fr

/-- `CosetFFT::new`, coset_fft.rs:13-18 -/
def CosetFFT.new (gen : Fr) : Outcome ε CosetFFT := do
  let inv ← invertExpect gen
  pure { generator := gen, generatorInv := inv }

/-- The scaling loop of domain.rs:124-128 and 207-211: entry `i` is multiplied by `c * g^i`, with a
running scale. -/
def cosetScale (g : Fr) : List Fr → Fr → List Fr
  | [], _ => []
  | p :: ps, c => (p * c) :: cosetScale g ps (c * g)

/-- `Domain::fft_scalars`, domain.rs:107-115 -/
def Domain.fftScalars (d : Domain) (polynomial : List Fr) : Outcome ε (List Fr) :=
  fftInplace d.twiddleFactors (resize polynomial d.size 0)

/-- `Domain::coset_fft_scalars`, domain.rs:119-132 -/
def Domain.cosetFftScalars (d : Domain) (points : List Fr) (coset : CosetFFT) : Outcome ε (List Fr) :=
  fftInplace d.twiddleFactors (cosetScale coset.generator (resize points d.size 0) 1)

/-- `Domain::ifft_scalars`, domain.rs:189-201 -/
def Domain.ifftScalars (d : Domain) (points : List Fr) : Outcome ε (List Fr) := do
  let a ← fftInplace d.twiddleFactorsInv (resize points d.size 0)
  pure (a.map (· * d.domainSizeInv))

/-- `Domain::coset_ifft_scalars`, domain.rs:204-213 -/
def Domain.cosetIfftScalars (d : Domain) (points : List Fr) (coset : CosetFFT) : Outcome ε (List Fr) := do
  let a ← d.ifftScalars points
  pure (cosetScale coset.generatorInv a 1)

section
variable {G1 : Type} [AddCommGroup G1] [Module Fr G1] [DecidableEq G1]

/-- `Domain::fft_g1`, domain.rs:138-146 -/
def Domain.fftG1 (d : Domain) (points : List G1) : Outcome ε (List G1) :=
  fftInplace d.twiddleFactors (resize points d.size 0)

/-- `Domain::ifft_g1_take_n`, domain.rs:160-185 -/
def Domain.ifftG1TakeN (d : Domain) (points : List G1) (n : Option Nat) : Outcome ε (List G1) := do
  let points ← fftInplace d.twiddleFactorsInv (resize points d.size 0)
  let res ← match n with
    | some k => do
      assertP (k < points.length)
      slice points 0 k
    | none => pure points
  pure (res.map (fun e => d.domainSizeInv • e))

/-- `Domain::ifft_g1`, domain.rs:149-151 -/
def Domain.ifftG1 (d : Domain) (points : List G1) : Outcome ε (List G1) := d.ifftG1TakeN points none
end

end Verif
