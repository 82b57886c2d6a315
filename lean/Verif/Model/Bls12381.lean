import Verif.Model.Field

/-!
The base field of BLS12-381 and its G1 generator: the constants of the external crate `blst` on which the library computes.
They are not in the repository; they are the public constants of the curve, and `Lemmas/BlsPrime.lean` proves that they fit
together (the modulus is prime, the generator is on the curve and has order `frOrder`).
-/
namespace Verif

/-- the modulus `p` of the coordinates of G1 points, `BLS12_381_P` of blst -/
def fpOrder : Nat :=
  0x1a0111ea397fe69a4b1ba7b6434bacd764774b84f38512bf6730d2a0f6b0f6241eabfffeb153ffffb9feffffffffaaab

/-- `x` of the G1 generator, `BLS12_381_G1` of blst (the first point of the embedded trusted setup) -/
def g1GeneratorX : Nat :=
  0x17f1d3a73197d7942695638c4fa9ac0fc3688c4f9774b905a14e3a3f171bac586c55e83ff97a1aeffb3af00adb22c6bb

/-- `y` of the G1 generator -/
def g1GeneratorY : Nat :=
  0x08b3f481e3aaa0f1a09e30ed741d8ae4fcf5e095d5d00af600db18cb2c04b3edd03cc744a2888ae40caa232946c5e7e1

end Verif
