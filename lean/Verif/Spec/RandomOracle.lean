import Mathlib.Data.Fintype.Pi
import Verif.Spec.Binding
import Verif.Spec.Recovery

/-!
The random oracle: the hash function is drawn at random, and an attacker who knows everything else (the secret of the setup too) may
ask it for values, each question depending on the answers so far. Specification only; nothing here refers to the model.
-/
namespace Verif.Spec

/-- 32 bytes -/
abbrev Digest := Fin 32 → Fin 256

/-- a digest as a byte string -/
def Digest.bytes (d : Digest) : List UInt8 := List.ofFn (fun i => UInt8.ofNat (d i))

/-- A deterministic attacker: it asks for the hash of strings and finally puts something out. -/
inductive Attacker (α : Type) where
  | output (a : α)
  | ask (x : List UInt8) (next : Digest → Attacker α)

/-- what the attacker puts out, for a given hash function -/
def Attacker.run {α : Type} (hash : List UInt8 → Digest) : Attacker α → α
  | .output a => a
  | .ask x next => (next (hash x)).run hash

/-- the attacker asks at most `q` questions -/
def Attacker.AtMost {α : Type} : Nat → Attacker α → Prop
  | _, .output _ => True
  | 0, .ask _ _ => False
  | q + 1, .ask _ next => ∀ d, (next d).AtMost q

/-- The values of the hash on a finite set `D` of strings; they are drawn independently and uniformly, so that each table of values
has the same probability. -/
abbrev Table (D : Finset (List UInt8)) := {x // x ∈ D} → Digest

/-- The hash function: the table on `D`, and some fixed function on all other strings. -/
def Table.hash {D : Finset (List UInt8)} (ω : Table D) (rest : List UInt8 → Digest) (x : List UInt8) : Digest :=
  if h : x ∈ D then ω ⟨x, h⟩ else rest x

/-- a batch of claims, as given to the verifier -/
structure Batch where
  commitments : List (List UInt8)
  inds : List Nat
  cells : List (List UInt8)
  proofs : List (List UInt8)

/-- the string that is hashed for a batch -/
def Batch.input (b : Batch) : List UInt8 := challengeInput b.commitments b.inds b.cells b.proofs

/-- The batch has at most `n` claims, is well-formed (fields of the right sizes, everything decodes), and one of its claims is false
for the secret `τ`. -/
def Batch.IsFalse {G : Type} [AddCommGroup G] [Module Fr G] [PointCodec G] (τ : Fr) (P : G) (n : Nat) (b : Batch) : Prop :=
  (∀ c ∈ b.commitments, c.length = 48) ∧ (∀ c ∈ b.cells, c.length = 2048) ∧ (∀ c ∈ b.proofs, c.length = 48) ∧
  ∃ items : List (Opening G), Decodes b.commitments b.inds b.cells b.proofs items ∧ items.length ≤ n ∧
    ∃ o ∈ items, ¬ o.Valid τ P

/-- The fields have the sizes of the Rust types, and there are at most `n` entries. -/
def Batch.Sized (n : Nat) (b : Batch) : Prop :=
  (∀ c ∈ b.commitments, c.length = 48) ∧ (∀ c ∈ b.cells, c.length = 2048) ∧ (∀ c ∈ b.proofs, c.length = 48) ∧
  b.commitments.length ≤ n

/-- The batches contain different cells for the same commitment and index. -/
def Batch.Contradicts (b b' : Batch) : Prop :=
  ∃ (i i' : Nat) (cm : List UInt8) (k : Nat) (cell cell' : List UInt8),
    b.commitments[i]? = some cm ∧ b.inds[i]? = some k ∧ b.cells[i]? = some cell ∧
    b'.commitments[i']? = some cm ∧ b'.inds[i']? = some k ∧ b'.cells[i']? = some cell' ∧ cell ≠ cell'

section
open Polynomial
variable {G1 G2 GT : Type} [AddCommGroup G1] [Module Fr G1] [PointCodec G1] [AddCommGroup G2] [Module Fr G2] [AddCommGroup GT]
  [Pairing G1 G2 GT]

/-- From entries number `i` and `i'` of the two batches `sdhSolution` computes, for some point of their coset, the solution of the bilinear
strong Diffie-Hellman problem. -/
def SolvesSdh (g1 : List G1) (g2 : List G2) (τ : Fr) (P : G1) (H : G2) (b b' : Batch) : Prop :=
  ∃ (items items' : List (Opening G1)) (i i' k j : Nat) (o o' : Opening G1),
    Decodes b.commitments b.inds b.cells b.proofs items ∧ Decodes b'.commitments b'.inds b'.cells b'.proofs items' ∧
    b.inds[i]? = some k ∧ items[i]? = some o ∧ b'.inds[i']? = some k ∧ items'[i']? = some o' ∧ k < 128 ∧ j < 64 ∧
    (sdhSolution g1 g2 k j o.interp o'.interp o.proof o'.proof : GT) = pair ((τ - point 13 (64 * k + j))⁻¹ • P) H

/-- The batch consists of at least 64 cells with different indices for the commitment `cm`. -/
def Batch.Half (b : Batch) (cm : List UInt8) : Prop :=
  b.commitments = List.replicate b.inds.length cm ∧ 64 ≤ b.inds.length ∧ b.inds.Nodup

/-- From the batch one computes (with the polynomial `f` through its first 64 cells) either a point other than zero together with its
multiple by the value at `τ` of a monic polynomial of degree 4096, or the solution of the bilinear strong Diffie-Hellman
problem at a point of one of the cosets. -/
def BreaksSetup (g1 : List G1) (g2 : List G2) (τ : Fr) (P : G1) (H : G2) (b : Batch) (cm : List UInt8) : Prop :=
  ∃ (items : List (Opening G1)) (f : Fr[X]), Decodes b.commitments b.inds b.cells b.proofs items ∧
    Consistent (b.inds.take 64) (b.cells.take 64) f ∧
    ((∃ C : G1, fromCompressed cm = some C ∧ (allVanishing (items.take 64)).Monic ∧ (allVanishing (items.take 64)).natDegree = 4096 ∧
        excess g1 f (items.take 64) ≠ 0 ∧
        (allVanishing (items.take 64)).eval τ • excess g1 f (items.take 64) = C - commitment g1 f) ∨
      ∃ o ∈ items, ∃ j < 64,
        (sdhSolution g1 g2 o.index j o.interp (f %ₘ vanishing 13 6 o.index) o.proof (openingProof g1 13 6 f o.index) : GT) =
          pair ((τ - point 13 (64 * o.index + j))⁻¹ • P) H)

end

end Verif.Spec
