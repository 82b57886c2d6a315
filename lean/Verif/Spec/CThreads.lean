import Verif.Model.CThreads
import Verif.Spec.Memory

/-! Specification of concurrent calls of the C API (C68). -/
namespace Verif.Spec

/-- a call of the C API with its arguments -/
inductive CCall where
  | commitment (ctx blob out : Nat)
  | compute (ctx blob outCells outProofs : Nat)
  | recover (ctx cellsLength cells cellIndicesLength cellIndices outCells outProofs : Nat)
  | verify (ctx commitmentsLength commitments cellIndicesLength cellIndices cellsLength cells proofsLength proofs verified : Nat)

/-- the `n` addresses from `p` -/
def Span (p n a : Nat) : Prop := p ≤ a ∧ a < p + n

/-- the addresses of an array of pointers and of the `n` bytes that each of them points to -/
def ItemSpans (p : Nat) (ptrs : List Nat) (n a : Nat) : Prop := Span p (8 * ptrs.length) a ∨ ∃ q ∈ ptrs, Span q n a

/-- `p` is an array of the pointers `ptrs`, which point to the byte strings `items` -/
def HoldsItemsAt (mem : Memory) (p : Nat) (ptrs : List Nat) (items : List (List UInt8)) : Prop :=
  HoldsWords mem p ptrs ∧ List.Forall₂ (fun q item => q ≠ 0 ∧ Holds mem q item) ptrs items

/-- what the process may see of a call: which byte strings it writes where, the error it reports, or that it aborts the process -/
abbrev Effect := Outcome Error (List (Nat × List UInt8))

section
variable {K G1 G2 GT : Type} [Field K] [DecidableEq K] [AddCommGroup G1] [Module Fr G1] [DecidableEq G1]
  [Curve K G1] [PointCodec G1] [AddCommGroup G2] [Module Fr G2] [AddCommGroup GT] [DecidableEq GT]
  [Pairing G1 G2 GT]

/-- the effect of a call that returns a commitment -/
def commitmentEffect (out : Nat) : Outcome Error (List UInt8) → Effect
  | .ok c => .ok [(out, c)]
  | .err e => .err e
  | .panic => .panic

/-- the effect of a call that returns cells and proofs -/
def cellsEffect (cp pp : List Nat) : Outcome Error (List (List UInt8) × List (List UInt8)) → Effect
  | .ok (cells, proofs) => .ok (cp.zip cells ++ pp.zip proofs)
  | .err e => .err e
  | .panic => .panic

/-- the effect of a verification: an invalid proof is not an error -/
def verifyEffect (verified : Nat) : Outcome Error Unit → Effect
  | .ok _ => .ok [(verified, [1])]
  | .err (.Verifier (.FK20 _)) => .ok [(verified, [0])]
  | .err e => .err e
  | .panic => .panic

/-- The arguments of the call are valid in this state. `reads` are the addresses of the inputs and of the arrays with the pointers to the
outputs, `writes` those of the outputs, `effect` is what the library computes from the inputs. -/
inductive ValidCall (sha256 : List UInt8 → List UInt8) (s : CState (DASContext K G1 G2)) :
    CCall → (reads writes : Nat → Prop) → Effect → Prop
  | commitment {ctxp blobp out ctx blob} : ctxp ≠ 0 → s.ctxs ctxp = some ctx →
      blob.length = 131072 → blobp ≠ 0 → Holds s.mem blobp blob → out ≠ 0 → Mapped s.mem out 48 →
      ValidCall sha256 s (.commitment ctxp blobp out) (Span blobp 131072) (Span out 48)
        (commitmentEffect out (ctx.blobToKzgCommitment blob))
  | compute {ctxp blobp outCells outProofs ctx blob cp pp} : ctxp ≠ 0 → s.ctxs ctxp = some ctx →
      blob.length = 131072 → blobp ≠ 0 → Holds s.mem blobp blob → OutBuffers s.mem outCells outProofs cp pp →
      ValidCall sha256 s (.compute ctxp blobp outCells outProofs)
        (fun a => Span blobp 131072 a ∨ Span outCells 1024 a ∨ Span outProofs 1024 a)
        (fun a => (∃ q ∈ cp, Span q 2048 a) ∨ ∃ q ∈ pp, Span q 48 a)
        (cellsEffect cp pp (ctx.computeCellsAndKzgProofs blob))
  | recover {ctxp cellsLength cellsp cellIndicesLength cellIndicesp outCells outProofs ctx ptrs cells inds cp pp} :
      ctxp ≠ 0 → s.ctxs ctxp = some ctx →
      cells.length = cellsLength → (∀ c ∈ cells, c.length = 2048) → HoldsItemsAt s.mem cellsp ptrs cells →
      inds.length = cellIndicesLength → HoldsWords s.mem cellIndicesp inds → OutBuffers s.mem outCells outProofs cp pp →
      ValidCall sha256 s (.recover ctxp cellsLength cellsp cellIndicesLength cellIndicesp outCells outProofs)
        (fun a => ItemSpans cellsp ptrs 2048 a ∨ Span cellIndicesp (8 * inds.length) a ∨ Span outCells 1024 a ∨ Span outProofs 1024 a)
        (fun a => (∃ q ∈ cp, Span q 2048 a) ∨ ∃ q ∈ pp, Span q 48 a)
        (cellsEffect cp pp (ctx.recoverCellsAndKzgProofs inds cells))
  | verify {ctxp commitmentsLength commitmentsp cellIndicesLength cellIndicesp cellsLength cellsp proofsLength proofsp verified ctx
      mptrs commitments inds cptrs cells pptrs proofs} : ctxp ≠ 0 → s.ctxs ctxp = some ctx →
      commitments.length = commitmentsLength → (∀ c ∈ commitments, c.length = 48) → HoldsItemsAt s.mem commitmentsp mptrs commitments →
      inds.length = cellIndicesLength → HoldsWords s.mem cellIndicesp inds →
      cells.length = cellsLength → (∀ c ∈ cells, c.length = 2048) → HoldsItemsAt s.mem cellsp cptrs cells →
      proofs.length = proofsLength → (∀ p ∈ proofs, p.length = 48) → HoldsItemsAt s.mem proofsp pptrs proofs →
      verified ≠ 0 → Mapped s.mem verified 1 →
      ValidCall sha256 s (.verify ctxp commitmentsLength commitmentsp cellIndicesLength cellIndicesp cellsLength cellsp proofsLength proofsp
          verified)
        (fun a => ItemSpans commitmentsp mptrs 48 a ∨ Span cellIndicesp (8 * inds.length) a ∨ ItemSpans cellsp cptrs 2048 a ∨
          ItemSpans proofsp pptrs 48 a)
        (Span verified 1)
        (verifyEffect verified (ctx.verifyCellKzgProofBatch sha256 commitments inds cells proofs))

/-- the program of a call -/
def CCall.prog (sha256 : List UInt8 → List UInt8) : CCall → CProg (DASContext K G1 G2) Empty CResult
  | .commitment ctx blob out => CProg.blobToKzgCommitment ctx blob out
  | .compute ctx blob outCells outProofs => CProg.computeCellsAndKzgProofs ctx blob outCells outProofs
  | .recover ctx cl c il i oc op => CProg.recoverCellsAndProofs ctx cl c il i oc op
  | .verify ctx ml m il i cl c pl p v => CProg.verifyCellKzgProofBatch sha256 ctx ml m il i cl c pl p v

end

/-- A call with its valid arguments. -/
structure Request where
  call : CCall
  reads : Nat → Prop
  writes : Nat → Prop
  effect : Effect

/-- No call writes where another reads or writes. Inputs may be shared, and the outputs of a call may overlap its own inputs. -/
def NoConflict (rs : List Request) : Prop :=
  ∀ (i j : Nat) r r', rs[i]? = some r → rs[j]? = some r' → i ≠ j → ∀ a, r.writes a → ¬ r'.reads a ∧ ¬ r'.writes a

variable {Ctx : Type}

/-- The call has returned as its effect says: with the status `Ok` and the outputs in place, or with the status `Err` and a message of the
library. The process aborts when the library panics, and when there is no memory for the message. -/
def Finished (s : CState Ctx) (x : CProg Ctx Empty CResult) : Effect → Prop
  | .ok regions => x = .ret ⟨.Ok, 0⟩ ∧ ∀ r ∈ regions, Holds s.mem r.1 r.2
  | .err e => x = .panic ∨ ∃ p, x = .ret ⟨.Err, p⟩ ∧ p ≠ 0 ∧ CString s.mem p e.debug ∧ s.strings p = some (e.debug.length + 1)
  | .panic => x = .panic

/-- a thread is about to write to an address which another is about to read or write -/
def Race (w : CPool Ctx) : Prop :=
  ∃ (i j : Nat) (p : Nat) (b : UInt8) (k : CProg Ctx Empty CResult), i ≠ j ∧ w.threads[i]? = some (.write p b k) ∧
    ((∃ k', w.threads[j]? = some (.read p k')) ∨ ∃ b' k', w.threads[j]? = some (.write p b' k'))

end Verif.Spec
