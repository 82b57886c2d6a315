import Mathlib.Data.List.Forall2
import Verif.Model.Bytes
import Verif.Model.Errors
import Verif.Spec.Kzg

/-!
Specification of cell proof verification, independent of the model: what a batch denotes, the KZG equation of
a single cell, and the possible defects of a batch.
-/
namespace Verif.Spec
open Polynomial

/-- One claim: on coset `index` the polynomial committed to by `commitment` takes the values of `interp`. -/
structure Opening (G : Type) where
  commitment : G
  index : Nat
  interp : Fr[X]
  proof : G

section
variable {G : Type} [AddCommGroup G] [Module Fr G]

/-- `(τ^64 - h^64) proof - commitment + I(τ) P` where `h` is the first point of the coset. -/
noncomputable def Opening.defect (τ : Fr) (P : G) (o : Opening G) : G :=
  (τ ^ 64 - point 13 (64 * o.index) ^ 64) • o.proof - o.commitment + o.interp.eval τ • P

/-- The KZG equation of one cell. -/
def Opening.Valid (τ : Fr) (P : G) (o : Opening G) : Prop :=
  (τ ^ 64 - point 13 (64 * o.index) ^ 64) • o.proof = o.commitment - o.interp.eval τ • P

theorem Opening.valid_iff (τ : Fr) (P : G) (o : Opening G) : o.Valid τ P ↔ o.defect τ P = 0 := by
  unfold Opening.Valid Opening.defect
  rw [← sub_eq_zero]
  have : ∀ a b c : G, a - (b - c) = a - b + c := by intros; abel
  rw [this]

/-- The four byte lists of a batch denote the claims `items`. -/
structure Decodes [PointCodec G] (commitments : List (List UInt8)) (cellIndices : List Nat)
    (cells proofs : List (List UInt8)) (items : List (Opening G)) : Prop where
  commitments : List.Forall₂ (fun b o => fromCompressed b = some o.commitment) commitments items
  indices : List.Forall₂ (fun k o => k = o.index ∧ k < 128) cellIndices items
  cells : List.Forall₂ (fun c o => o.interp.degree < 64 ∧ IsCell o.interp o.index c) cells items
  proofs : List.Forall₂ (fun b o => fromCompressed b = some o.proof) proofs items

/-- The random linear combination of the defects. -/
noncomputable def combined (τ : Fr) (P : G) (r : Fr) (items : List (Opening G)) : G :=
  ∑ i : Fin items.length, r ^ (i : Nat) • (items[i]).defect τ P

/-- The 8-byte big-endian encoding of an integer. -/
def u64be (v : Nat) : List UInt8 := (List.range 8).map (fun i => UInt8.ofNat (v / 256 ^ (7 - i) % 256))

/-- The hash input of EIP-7594 (`compute_verify_cell_kzg_proof_batch_challenge`) on the raw bytes: domain separator,
degree bound, cell size, number of different commitments, batch size, the different commitments in order of first
occurrence, then for each entry its commitment number, cell index, cell and proof. -/
def challengeInput (commitments : List (List UInt8)) (cellIndices : List Nat) (cells proofs : List (List UInt8)) :
    List UInt8 :=
  "RCKZGCBATCH__V1_".toUTF8.toList ++ u64be 4096 ++ u64be 64 ++ u64be commitments.eraseDups.length ++
    u64be cellIndices.length ++ commitments.eraseDups.flatten ++
    ((commitments.zip (cellIndices.zip (cells.zip proofs))).map (fun q =>
      u64be (commitments.eraseDups.idxOf q.1) ++ u64be q.2.1 ++ q.2.2.1 ++ q.2.2.2)).flatten

/-- The challenge: the hash, as a big-endian integer, modulo the group order. -/
def challenge (sha256 : List UInt8 → List UInt8) (commitments : List (List UInt8)) (cellIndices : List Nat)
    (cells proofs : List (List UInt8)) : Fr :=
  (beValue (sha256 (challengeInput commitments cellIndices cells proofs)) : Nat)

end

/-- All lists have the same length, all indices are below 128, everything decodes. -/
structure VerifyWellFormed (G : Type) [PointCodec G] (commitments : List (List UInt8)) (cellIndices : List Nat)
    (cells proofs : List (List UInt8)) : Prop where
  lengths : commitments.length = cellIndices.length ∧ commitments.length = cells.length ∧
    commitments.length = proofs.length
  inRange : ∀ k ∈ cellIndices, k < 128
  commitments : ∀ b ∈ commitments, ∃ p : G, fromCompressed b = some p
  proofs : ∀ b ∈ proofs, ∃ p : G, fromCompressed b = some p
  cells : ∀ c ∈ cells, Canonical 64 c

/-- The reported error, one constructor for each defect in the order of precedence. -/
inductive VerifyDefect (G : Type) [PointCodec G] (commitments : List (List UInt8)) (cellIndices : List Nat)
    (cells proofs : List (List UInt8)) : Error → Prop
  | lengths (h : ¬ (commitments.length = cellIndices.length ∧ commitments.length = cells.length ∧
        commitments.length = proofs.length)) :
      VerifyDefect G commitments cellIndices cells proofs (.Verifier (.BatchVerificationInputsMustHaveSameLength
        commitments.length cellIndices.length cells.length proofs.length))
  | range (h : commitments.length = cellIndices.length ∧ commitments.length = cells.length ∧
        commitments.length = proofs.length) (pre post : List Nat) (k : Nat) (hs : cellIndices = pre ++ k :: post)
      (hpre : ∀ j ∈ pre, j < 128) (hk : 128 ≤ k) :
      VerifyDefect G commitments cellIndices cells proofs (.Verifier (.CellIndexOutOfRange k 128))
  | commitment (h : commitments.length = cellIndices.length ∧ commitments.length = cells.length ∧
        commitments.length = proofs.length) (hr : ∀ k ∈ cellIndices, k < 128)
      (pre post : List (List UInt8)) (b : List UInt8) (hs : commitments = pre ++ b :: post)
      (hpre : ∀ c ∈ pre, ∃ p : G, fromCompressed c = some p) (hb : (fromCompressed b : Option G) = none) :
      VerifyDefect G commitments cellIndices cells proofs (.Serialization (.CouldNotDeserializeG1Point b))
  | proof (h : commitments.length = cellIndices.length ∧ commitments.length = cells.length ∧
        commitments.length = proofs.length) (hr : ∀ k ∈ cellIndices, k < 128)
      (hc : ∀ c ∈ commitments, ∃ p : G, fromCompressed c = some p)
      (pre post : List (List UInt8)) (b : List UInt8) (hs : proofs = pre ++ b :: post)
      (hpre : ∀ c ∈ pre, ∃ p : G, fromCompressed c = some p) (hb : (fromCompressed b : Option G) = none) :
      VerifyDefect G commitments cellIndices cells proofs (.Serialization (.CouldNotDeserializeG1Point b))
  | cell (h : commitments.length = cellIndices.length ∧ commitments.length = cells.length ∧
        commitments.length = proofs.length) (hr : ∀ k ∈ cellIndices, k < 128)
      (hc : ∀ c ∈ commitments, ∃ p : G, fromCompressed c = some p)
      (hp : ∀ c ∈ proofs, ∃ p : G, fromCompressed c = some p)
      (pre post : List (List UInt8)) (c : List UInt8) (i : Nat) (hs : cells = pre ++ c :: post)
      (hpre : ∀ d ∈ pre, Canonical 64 d) (hi : i < 64) (hfirst : ∀ j < i, beValue (block 32 j c) < frOrder)
      (hbad : frOrder ≤ beValue (block 32 i c)) :
      VerifyDefect G commitments cellIndices cells proofs (.Serialization (.CouldNotDeserializeScalar (block 32 i c)))

end Verif.Spec
