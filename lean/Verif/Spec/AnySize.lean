import Verif.Spec.Verify

/-!
Specification of the multi-opening verifier for sizes other than those of the protocol, independent of the model. The generators of
`2^k` cosets are powers of the root of unity of order `2^e`, in bit-reversed order; each coset has `2^s` points. In the protocol
`e = 13`, `k = 7` and `s = 6`. The verifier does not require `e = k + s`.
-/
namespace Verif.Spec
open Polynomial

/-- The first point of coset number `i`. -/
def cosetStart (e k i : Nat) : Fr := omega e ^ brev k i

/-- Point number `j` of coset number `i`. -/
def cosetPoint (e k s i j : Nat) : Fr := cosetStart e k i * omega s ^ brev s j

/-- The `n`-byte big-endian encoding of an integer. -/
def bytesBE (n v : Nat) : List UInt8 := (List.range n).map (fun i => UInt8.ofNat (v / 256 ^ (n - 1 - i) % 256))

section
variable {G : Type} [AddCommGroup G] [Module Fr G]

/-- The values a claim is about. -/
noncomputable def Opening.valuesAt (e k s : Nat) (o : Opening G) : List Fr :=
  (List.range (2 ^ s)).map (fun j => o.interp.eval (cosetPoint e k s o.index j))

/-- `(τ^n - h^n) proof - commitment + I(τ) P` where `h` is the first point of the coset and `n = 2^s` its size. -/
noncomputable def Opening.defectAt (e k s : Nat) (τ : Fr) (P : G) (o : Opening G) : G :=
  (τ ^ 2 ^ s - cosetStart e k o.index ^ 2 ^ s) • o.proof - o.commitment + o.interp.eval τ • P

/-- The random linear combination of the defects. -/
noncomputable def combinedAt (e k s : Nat) (τ : Fr) (P : G) (r : Fr) (items : List (Opening G)) : G :=
  ∑ i : Fin items.length, r ^ (i : Nat) • (items[i]).defectAt e k s τ P

/-- The hash input for the claims `items`, where claim number `i` is about the commitment number `rows[i]` of `unique`. -/
noncomputable def challengeInputAt [PointCodec G] (e k s numCoefficients : Nat) (unique : List G) (rows : List Nat)
    (items : List (Opening G)) : List UInt8 :=
  "RCKZGCBATCH__V1_".toUTF8.toList ++ bytesBE 8 numCoefficients ++ bytesBE 8 (2 ^ s) ++ bytesBE 8 unique.length ++
    bytesBE 8 items.length ++ (unique.map toCompressed).flatten ++
    ((rows.zip items).map (fun q => bytesBE 8 q.1 ++ bytesBE 8 q.2.index ++
      ((q.2.valuesAt e k s).map (fun x => bytesBE 32 x.val)).flatten ++ toCompressed q.2.proof)).flatten

/-- The challenge: the hash, as a big-endian integer, modulo the group order. -/
noncomputable def challengeAt [PointCodec G] (sha256 : List UInt8 → List UInt8) (e k s numCoefficients : Nat) (unique : List G)
    (rows : List Nat) (items : List (Opening G)) : Fr :=
  (beValue (sha256 (challengeInputAt e k s numCoefficients unique rows items)) : Nat)

/-- The claims are about cosets that exist, and every commitment is the one its row number names. -/
structure ClaimsAt (k s : Nat) (unique : List G) (rows : List Nat) (items : List (Opening G)) : Prop where
  rows : rows.map (fun i => unique[i]?) = items.map (fun o => some o.commitment)
  index : ∀ o ∈ items, o.index < 2 ^ k
  degree : ∀ o ∈ items, o.interp.degree < (2 ^ s : Nat)

end
end Verif.Spec
