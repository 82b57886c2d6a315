import Verif.Model.CSharpBinding
import Verif.Model.GoBinding
import Verif.Model.JavaBinding
import Verif.Model.NimBinding
import Verif.Model.NodeBinding
import Verif.Spec.Bindings
import Verif.Spec.CApi
import Verif.Spec.Managed

/-! Specification of what the parties of a network can get from calls of the library in any language: the bytes that a call returns, or
an error. Calls that end the process (out of memory, panic) give the party nothing and do not occur here. In C# the garbage collector
does not run during the call. -/
namespace Verif.Spec

/-- a call of a Rust function gave the value, or (`none`) reported an error -/
inductive Reports {ε α : Type} : Outcome ε α → Option α → Prop
  | value (v) : Reports (.ok v) (some v)
  | error (e) : Reports (.err e) none

/-- a call that works on the memory of the process gave the value, or (`none`) reported an error -/
inductive CReports {Ctx ε α : Type} : COut Ctx ε α → Option α → Prop
  | value (v s) : CReports (.ok v s) (some v)
  | error (e s) : CReports (.err e s) none

/-- a process that has the context `ctx` at the address `ptr` -/
structure Process (Ctx : Type) (ctx : Ctx) where
  heap : Heap Ctx
  allocator : Allocator Ctx
  state : CState Ctx
  ptr : Nat
  ne : ptr ≠ 0
  has : state.ctxs ptr = some ctx

/-- Java bytes and byte strings, item by item -/
def JavaItems (l : List (List Int8)) (b : List (List UInt8)) : Prop := List.Forall₂ JavaBytes l b

/-- the C# arrays contain the byte strings -/
def CsItemsHold (mem : Memory) (arrays : List CsArray) (items : List (List UInt8)) : Prop :=
  List.Forall₂ (fun a b => ArrayHolds mem a.addr a.length b) arrays items

/-- the buffers at the pointers contain the items, which have `n` bytes each -/
def BuffersHold (mem : Memory) (n : Nat) (ptrs : List Nat) (items : List (List UInt8)) : Prop :=
  List.Forall₂ (fun q c => c.length = n ∧ Holds mem q c) ptrs items

section
variable {K G1 G2 GT : Type} [Field K] [DecidableEq K] [AddCommGroup G1] [Module Fr G1] [DecidableEq G1]
  [Curve K G1] [PointCodec G1] [AddCommGroup G2] [Module Fr G2] [AddCommGroup GT] [DecidableEq GT]
  [Pairing G1 G2 GT]

/-- A party that calls the commitment function with `blob` in any language except Go gets this commitment or an error. -/
inductive CommitEnds (ctx : DASContext K G1 G2) (blob : List UInt8) : Option (List UInt8) → Prop
  | rust {r} : blob.length = 131072 → Reports (ctx.blobToKzgCommitment blob) r → CommitEnds ctx blob r
  | node {r} : Reports (blobToKzgCommitmentN ctx blob) r → CommitEnds ctx blob r
  | java {r} (P : Process _ ctx) (debug : List UInt8) (arg : List Int8) (rj : Option (List Int8)) : JavaBytes arg blob →
      CReports ((⟨P.ptr⟩ : LibEthKZG).blobToKZGCommitment debug (some arg) P.state) rj → Option.Rel JavaBytes rj r →
      CommitEnds ctx blob r
  | csharp {r} (P : Process _ ctx) (arg : CsArray) : ArrayHolds P.state.mem arg.addr arg.length blob →
      CReports (csBlobToKzgCommitment P.heap P.allocator P.ptr arg P.state) r → CommitEnds ctx blob r
  | nim {r} (P : Process _ ctx) (dollar : CResult → List UInt8) (arg : Nat) : blob.length = 131072 → arg ≠ 0 →
      Holds P.state.mem arg blob → CReports (nimBlobToKZGCommitment P.heap P.allocator dollar P.ptr arg P.state) r →
      CommitEnds ctx blob r
  | cOk (P : Process _ ctx) (arg out msg : Nat) (s' : CState (DASContext K G1 G2)) (c : List UInt8) : blob.length = 131072 → arg ≠ 0 →
      Holds P.state.mem arg blob → out ≠ 0 → Mapped P.state.mem out 48 →
      ethKzgBlobToKzgCommitment P.allocator P.ptr arg out P.state = .ok ⟨.Ok, msg⟩ s' → c.length = 48 → Holds s'.mem out c →
      CommitEnds ctx blob (some c)
  | cErr (P : Process _ ctx) (arg out msg : Nat) (s' : CState (DASContext K G1 G2)) : blob.length = 131072 → arg ≠ 0 →
      Holds P.state.mem arg blob → out ≠ 0 → Mapped P.state.mem out 48 →
      ethKzgBlobToKzgCommitment P.allocator P.ptr arg out P.state = .ok ⟨.Err, msg⟩ s' → CommitEnds ctx blob none

/-- A party that calls the Go wrapper gets this commitment and a nil error. -/
def GoCommits (ctx : DASContext K G1 G2) (blob c : List UInt8) : Prop :=
  ∃ (P : Process _ ctx) (addr len : Nat) (s' : CState (DASContext K G1 G2)), ArrayHolds P.state.mem addr len blob ∧
    goBlobToKZGCommitment P.heap P.allocator P.ptr addr len P.state = .ok (some c, none) s'

/-- A party that asks for the cells and proofs of `blob` in any language gets these or an error (Go has no such function). -/
inductive ProveEnds (ctx : DASContext K G1 G2) (blob : List UInt8) : Option (List (List UInt8) × List (List UInt8)) → Prop
  | rust {r} : blob.length = 131072 → Reports (ctx.computeCellsAndKzgProofs blob) r → ProveEnds ctx blob r
  | node {r} : Reports (computeCellsAndKzgProofsN ctx blob) r → ProveEnds ctx blob r
  | java {r} (P : Process _ ctx) (debug : List UInt8) (arg : List Int8) (rj : Option (List (List Int8) × List (List Int8))) :
      JavaBytes arg blob → CReports ((⟨P.ptr⟩ : LibEthKZG).computeCellsAndKZGProofs debug (some arg) P.state) rj →
      Option.Rel (fun x y => JavaItems x.1 y.1 ∧ JavaItems x.2 y.2) rj r → ProveEnds ctx blob r
  | csharp {r} (P : Process _ ctx) (arg : CsArray) : ArrayHolds P.state.mem arg.addr arg.length blob →
      CReports (csComputeCellsAndKZGProofs P.heap P.allocator noGc P.ptr arg P.state) r → ProveEnds ctx blob r
  | nim {r} (P : Process _ ctx) (dollar : CResult → List UInt8) (arg : Nat) : blob.length = 131072 → arg ≠ 0 →
      Holds P.state.mem arg blob → CReports (nimComputeCellsAndProofs P.heap P.allocator dollar P.ptr arg P.state) r →
      ProveEnds ctx blob r
  | cOk (P : Process _ ctx) (arg outCells outProofs msg : Nat) (cp pp : List Nat) (s' : CState (DASContext K G1 G2))
      (cells proofs : List (List UInt8)) : blob.length = 131072 → arg ≠ 0 → Holds P.state.mem arg blob →
      OutBuffers P.state.mem outCells outProofs cp pp →
      ethKzgComputeCellsAndKzgProofs P.allocator P.ptr arg outCells outProofs P.state = .ok ⟨.Ok, msg⟩ s' →
      BuffersHold s'.mem 2048 cp cells → BuffersHold s'.mem 48 pp proofs → ProveEnds ctx blob (some (cells, proofs))
  | cErr (P : Process _ ctx) (arg outCells outProofs msg : Nat) (cp pp : List Nat) (s' : CState (DASContext K G1 G2)) :
      blob.length = 131072 → arg ≠ 0 → Holds P.state.mem arg blob → OutBuffers P.state.mem outCells outProofs cp pp →
      ethKzgComputeCellsAndKzgProofs P.allocator P.ptr arg outCells outProofs P.state = .ok ⟨.Err, msg⟩ s' → ProveEnds ctx blob none

/-- A party that recovers in any language from these cells with these indices gets these cells and proofs or an error. `inds` are the
indices modulo 2^64, see C33. -/
inductive RecoverEnds (ctx : DASContext K G1 G2) (inds : List Nat) (cells : List (List UInt8)) :
    Option (List (List UInt8) × List (List UInt8)) → Prop
  | rust {r} : Sized 2048 cells → Reports (ctx.recoverCellsAndKzgProofs inds cells) r → RecoverEnds ctx inds cells r
  | node {r} (is : List Int) : List.Forall₂ (fun (x : Int) (i : Nat) => 0 ≤ x ∧ (i : Int) = x % 2 ^ 64) is inds →
      Reports (recoverCellsAndKzgProofsN ctx is cells) r → RecoverEnds ctx inds cells r
  | java {r} (P : Process _ ctx) (debug : List UInt8) (is : List Int64) (arg : List (List Int8))
      (rj : Option (List (List Int8) × List (List Int8))) :
      List.Forall₂ (fun (x : Int64) (i : Nat) => (i : Int) = x.toInt % 2 ^ 64) is inds → JavaItems arg cells →
      CReports ((⟨P.ptr⟩ : LibEthKZG).recoverCellsAndKZGProofs debug (some is) (some (arg.map some)) P.state) rj →
      Option.Rel (fun x y => JavaItems x.1 y.1 ∧ JavaItems x.2 y.2) rj r → RecoverEnds ctx inds cells r
  | csharp {r} (P : Process _ ctx) (is : CsArray) (arg : List CsArray) : inds.length = is.length →
      HoldsWords P.state.mem is.fixed inds → CsItemsHold P.state.mem arg cells →
      CReports (csRecoverCellsAndKZGProofs P.heap P.allocator noGc P.ptr is arg P.state) r → RecoverEnds ctx inds cells r
  | nim {r} (P : Process _ ctx) (dollar : CResult → List UInt8) (is arg : NimArray) : inds.length = is.length →
      HoldsWords P.state.mem is.addr inds → ItemsHold P.state.mem arg.addr arg.length 2048 cells →
      CReports (nimRecoverCellsAndProofs P.heap P.allocator dollar P.ptr is arg P.state) r → RecoverEnds ctx inds cells r
  | cOk (P : Process _ ctx) (cellsp indsp outCells outProofs msg : Nat) (cp pp : List Nat) (s' : CState (DASContext K G1 G2))
      (cells' proofs' : List (List UInt8)) : Sized 2048 cells → HoldsItems P.state.mem cellsp cells →
      HoldsWords P.state.mem indsp inds → OutBuffers P.state.mem outCells outProofs cp pp →
      ethKzgRecoverCellsAndProofs P.allocator P.ptr cells.length cellsp inds.length indsp outCells outProofs P.state =
        .ok ⟨.Ok, msg⟩ s' →
      BuffersHold s'.mem 2048 cp cells' → BuffersHold s'.mem 48 pp proofs' → RecoverEnds ctx inds cells (some (cells', proofs'))
  | cErr (P : Process _ ctx) (cellsp indsp outCells outProofs msg : Nat) (cp pp : List Nat) (s' : CState (DASContext K G1 G2)) :
      Sized 2048 cells → HoldsItems P.state.mem cellsp cells → HoldsWords P.state.mem indsp inds →
      OutBuffers P.state.mem outCells outProofs cp pp →
      ethKzgRecoverCellsAndProofs P.allocator P.ptr cells.length cellsp inds.length indsp outCells outProofs P.state =
        .ok ⟨.Err, msg⟩ s' → RecoverEnds ctx inds cells none

/-- A party that verifies this batch in any language gets this verdict or an error. -/
inductive VerifyEnds (ctx : DASContext K G1 G2) (sha256 : List UInt8 → List UInt8) (commitments : List (List UInt8)) (inds : List Nat)
    (cells proofs : List (List UInt8)) : Option Bool → Prop
  | rust {r v} : Sized 48 commitments → Sized 2048 cells → Sized 48 proofs →
      Verdict (ctx.verifyCellKzgProofBatch sha256 commitments inds cells proofs) v → Reports v r →
      VerifyEnds ctx sha256 commitments inds cells proofs r
  | node {r} (is : List Int) : List.Forall₂ (fun (x : Int) (i : Nat) => 0 ≤ x ∧ (i : Int) = x % 2 ^ 64) is inds →
      Reports (verifyCellKzgProofBatchN sha256 ctx commitments is cells proofs) r →
      VerifyEnds ctx sha256 commitments inds cells proofs r
  | java {r} (P : Process _ ctx) (debug : List UInt8) (is : List Int64) (cmj clj pfj : List (List Int8)) :
      List.Forall₂ (fun (x : Int64) (i : Nat) => (i : Int) = x.toInt % 2 ^ 64) is inds →
      JavaItems cmj commitments → JavaItems clj cells → JavaItems pfj proofs →
      CReports ((⟨P.ptr⟩ : LibEthKZG).verifyCellKZGProofBatch debug sha256 (some (cmj.map some)) (some is) (some (clj.map some))
        (some (pfj.map some)) P.state) r →
      VerifyEnds ctx sha256 commitments inds cells proofs r
  | csharp {r} (P : Process _ ctx) (is : CsArray) (cma cla pfa : List CsArray) : inds.length = is.length →
      HoldsWords P.state.mem is.fixed inds → CsItemsHold P.state.mem cma commitments → CsItemsHold P.state.mem cla cells →
      CsItemsHold P.state.mem pfa proofs →
      CReports (csVerifyCellKZGProofBatch P.heap P.allocator noGc sha256 P.ptr cma is cla pfa P.state) r →
      VerifyEnds ctx sha256 commitments inds cells proofs r
  | nim {r} (P : Process _ ctx) (dollar : CResult → List UInt8) (is cma cla pfa : NimArray) : inds.length = is.length →
      HoldsWords P.state.mem is.addr inds → ItemsHold P.state.mem cma.addr cma.length 48 commitments →
      ItemsHold P.state.mem cla.addr cla.length 2048 cells → ItemsHold P.state.mem pfa.addr pfa.length 48 proofs →
      CReports (nimVerifyCellKZGProofBatch P.heap P.allocator dollar sha256 P.ptr cma is cla pfa P.state) r →
      VerifyEnds ctx sha256 commitments inds cells proofs r
  | cOk (P : Process _ ctx) (cmp indsp clp pfp out msg : Nat) (s' : CState (DASContext K G1 G2)) (b : UInt8) :
      Sized 48 commitments → Sized 2048 cells → Sized 48 proofs → HoldsItems P.state.mem cmp commitments →
      HoldsWords P.state.mem indsp inds → HoldsItems P.state.mem clp cells → HoldsItems P.state.mem pfp proofs →
      out ≠ 0 → Mapped P.state.mem out 1 →
      ethKzgVerifyCellKzgProofBatch P.allocator sha256 P.ptr commitments.length cmp inds.length indsp cells.length clp proofs.length pfp
        out P.state = .ok ⟨.Ok, msg⟩ s' → s'.mem out = some b →
      VerifyEnds ctx sha256 commitments inds cells proofs (some (decide (b ≠ 0)))
  | cErr (P : Process _ ctx) (cmp indsp clp pfp out msg : Nat) (s' : CState (DASContext K G1 G2)) :
      Sized 48 commitments → Sized 2048 cells → Sized 48 proofs → HoldsItems P.state.mem cmp commitments →
      HoldsWords P.state.mem indsp inds → HoldsItems P.state.mem clp cells → HoldsItems P.state.mem pfp proofs →
      out ≠ 0 → Mapped P.state.mem out 1 →
      ethKzgVerifyCellKzgProofBatch P.allocator sha256 P.ptr commitments.length cmp inds.length indsp cells.length clp proofs.length pfp
        out P.state = .ok ⟨.Err, msg⟩ s' →
      VerifyEnds ctx sha256 commitments inds cells proofs none

/-- A tuple (commitment, cell index, cell, proof) that parties with contexts made from `setup` got for some blob, in any language, with
any precomputation for which the proofs are right. The commitment may come from another party than the cell and the proof. -/
def PublishedTuple (setup : SetupPoints G1 G2) (usable : UsePrecomp → Prop) (t : List UInt8 × Nat × List UInt8 × List UInt8) : Prop :=
  ∃ (up up' : UsePrecomp) (ctx ctx' : DASContext K G1 G2) (blob : List UInt8) (cells proofs : List (List UInt8)),
    usable up ∧ (DASContext.new setup up : Outcome Error (DASContext K G1 G2)) = .ok ctx ∧
    (DASContext.new setup up' : Outcome Error (DASContext K G1 G2)) = .ok ctx' ∧
    (CommitEnds ctx' blob (some t.1) ∨ GoCommits ctx' blob t.1) ∧ ProveEnds ctx blob (some (cells, proofs)) ∧
    cells[t.2.1]? = some t.2.2.1 ∧ proofs[t.2.1]? = some t.2.2.2

end

end Verif.Spec
