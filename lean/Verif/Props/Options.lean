import Verif.Lemmas.Precomp
import Verif.Model.ContextOptions
import Verif.Model.GoBinding
import Verif.Model.NimBinding
import Verif.Model.CSharpBinding
import Verif.Props.Toy
import Verif.Props.ToyHeap

set_option linter.unusedSectionVars false

/-! C55: contexts are created with the options the caller asked for. -/
namespace Verif

/-- the number of workers a caller gets who asks for `n` threads: `n`, or what the system suggests (at least one) for zero -/
def Spec.askedWorkers (auto n : Nat) : Nat := if n = 0 then max auto 1 else n

section
variable {K G1 G2 GT : Type} [Field K] [DecidableEq K] [AddCommGroup G1] [Module Fr G1] [DecidableEq G1]
  [Curve K G1] [PointCodec G1] [AddCommGroup G2] [Module Fr G2] [AddCommGroup GT] [DecidableEq GT]
  [Pairing G1 G2 GT]
variable (A : Allocator (DASContext K G1 G2)) (setup : SetupPoints G1 G2)

/-- C55 (C): the new context has precomputed tables of width 8 exactly if the caller asked for precomputation. -/
theorem C55_c {s s' : CState (DASContext K G1 G2)} {up : Bool} {p : Nat} (h : ethKzgDasContextNew A setup up s = .ok p s') :
    ∃ ctx, s'.ctxs p = some ctx ∧
      (up = true → (DASContext.new setup (.yes 8) : Outcome Empty (DASContext K G1 G2)) = .ok ctx) ∧
      (up = false → (DASContext.new setup .no : Outcome Empty (DASContext K G1 G2)) = .ok ctx) := by
  unfold ethKzgDasContextNew at h
  split at h
  · rename_i ctx hc
    split at h
    · rename_i q hq
      cases h
      refine ⟨ctx, by simp, ?_, ?_⟩ <;> rintro rfl <;> exact hc
    · cases h
  · cases h

/-- C55 (Java, C#, Nim, Go): their constructors return the address of such a context. Go always asks for precomputation. -/
theorem C55_objects {s s' : CState (DASContext K G1 G2)} {up : Bool} {p : Nat}
    (h : LibEthKZG.new A setup up s = .ok ⟨p⟩ s' ∨ EthKZGCs.new A setup up s = .ok ⟨p⟩ s' ∨ newKZGCtx A setup up s = .ok ⟨p⟩ s' ∨
      (up = true ∧ goNewProverContext A setup s = .ok p s')) :
    ∃ ctx, s'.ctxs p = some ctx ∧
      (up = true → (DASContext.new setup (.yes 8) : Outcome Empty (DASContext K G1 G2)) = .ok ctx) ∧
      (up = false → (DASContext.new setup .no : Outcome Empty (DASContext K G1 G2)) = .ok ctx) := by
  apply C55_c A setup (s := s)
  rcases h with h | h | h | ⟨rfl, h⟩
  · unfold LibEthKZG.new at h
    rw [CM.bind_apply] at h
    rcases hn : ethKzgDasContextNew A setup up s with ⟨q, s''⟩ | ⟨e, _⟩ | _ | _ <;> rw [hn] at h <;> cases h
    rfl
  · unfold EthKZGCs.new at h
    rw [CM.bind_apply] at h
    rcases hn : ethKzgDasContextNew A setup up s with ⟨q, s''⟩ | ⟨e, _⟩ | _ | _ <;> rw [hn] at h <;> cases h
    rfl
  · unfold newKZGCtx at h
    rw [CM.bind_apply] at h
    rcases hn : ethKzgDasContextNew A setup up s with ⟨q, s''⟩ | ⟨e, _⟩ | _ | _ <;> rw [hn] at h <;> cases h
    rfl
  · exact h

/-- C55 (Node): likewise; the constructor without options asks for precomputation. -/
theorem C55_node (n : UInt32) :
    (dasContextJsCreate setup ⟨true, n⟩ : Outcome NodeError (DASContext K G1 G2)) = DASContext.new setup (.yes 8) ∧
    (dasContextJsCreate setup ⟨false, n⟩ : Outcome NodeError (DASContext K G1 G2)) = DASContext.new setup .no ∧
    (dasContextJsNew setup : Outcome NodeError (DASContext K G1 G2)) = DASContext.new setup (.yes 8) :=
  ⟨rfl, rfl, rfl⟩

/-- C55: the mode chosen for "with precomputation" is one for which results are those without precomputation (C25), unless a base point is
the identity. -/
theorem C55_width (hn : Spec.NoIdentity setup.g1Monomial) :
    Usable setup.g1Monomial (.yes RECOMMENDED_PRECOMP_WIDTH) :=
  .inr ⟨_, rfl, by decide, by decide, hn⟩

end

/-- C55: the pool has as many workers as were asked for, in C, C#, Nim and Node, for every thread count. -/
theorem C55_threads (auto : Nat) (n : UInt32) (up : Bool) :
    (cThreads n).workers auto = Spec.askedWorkers auto n.toNat ∧
    (csThreads n).workers auto = Spec.askedWorkers auto n.toNat ∧
    (nimThreads n).workers auto = Spec.askedWorkers auto n.toNat ∧
    (nodeThreads ⟨up, n⟩).workers auto = Spec.askedWorkers auto n.toNat :=
  ⟨rfl, rfl, rfl, rfl⟩

/-- C55: without a thread count there is one worker, in every language; `ThreadCount::SensibleDefault` is the choice of the system. -/
theorem C55_defaults (auto : Nat) :
    rustDefaultOptions.1 = .no ∧ rustDefaultOptions.2.workers auto = 1 ∧ ThreadCount.sensibleDefault.workers auto = max auto 1 ∧
    javaDefaultOptions.1 = true ∧ (javaThreads javaDefaultOptions.2).workers auto = 1 ∧
    csDefaultOptions.1 = true ∧ (csThreads csDefaultOptions.2).workers auto = 1 ∧
    goOptions.1 = true ∧ (cThreads goOptions.2).workers auto = 1 ∧
    nimDefaultOptions.1 = true ∧ (nimThreads nimDefaultOptions.2).workers auto = 1 ∧
    ({} : DASContextOptions).usePrecomp = true ∧ (nodeThreads {}).workers auto = 1 :=
  ⟨rfl, rfl, rfl, rfl, rfl, rfl, rfl, rfl, rfl, rfl, rfl, rfl, rfl⟩

theorem numThreadsJ_toNat (n : Int64) : ((numThreadsJ n).toNat : Int) = n.toInt % 2 ^ 32 := by
  have h : ((n.toUInt64.toNat : Nat) : Int) = n.toInt % 2 ^ 64 := by
    have h1 : n.toUInt64.toNat = n.toBitVec.toNat := rfl
    have h2 : n.toInt = n.toBitVec.toInt := rfl
    have h3 := n.toBitVec.isLt
    rw [h1, h2, BitVec.toInt_eq_toNat_bmod, show (2 ^ 64 : Int) = ((2 ^ 64 : Nat) : Int) from by norm_num, Int.bmod_emod]
    norm_cast
    exact (Nat.mod_eq_of_lt h3).symm
  unfold numThreadsJ
  rw [UInt64.toNat_toUInt32]
  push_cast
  rw [h]
  omega

/-- C55 (Java), the part that holds: counts that fit into 32 bits are respected. -/
theorem C55_java_threads_partial (auto n : Nat) (hn : n < 2 ^ 32) :
    (javaThreads (Int64.ofNat n)).workers auto = Spec.askedWorkers auto n := by
  have h := numThreadsJ_toNat (Int64.ofNat n)
  rw [Int64.toInt_ofNat_of_lt (by omega), Int.emod_eq_of_lt (by omega) (by exact_mod_cast hn)] at h
  have h' : (numThreadsJ (Int64.ofNat n)).toNat = n := by exact_mod_cast h
  show (ThreadCount.multi (numThreadsJ (Int64.ofNat n)).toNat).workers auto = _
  rw [h']
  rfl

/-- C55 (Java), refuted beyond: the count is taken modulo 2^32, for negative counts as well. Asking for 2^32 threads gives as many as the
system suggests, asking for 2^32 + 1 gives one, and asking for −1 gives 4294967295. -/
theorem C55_java_threads_refuted (auto : Nat) :
    (∀ n : Int64, (javaThreads n).workers auto = Spec.askedWorkers auto (n.toInt % 2 ^ 32).toNat) ∧
    (javaThreads 4294967296).workers auto = max auto 1 ∧ (javaThreads 4294967297).workers auto = 1 ∧
    (javaThreads (-1)).workers auto = 4294967295 := by
  have key : ∀ n : Int64, (javaThreads n).workers auto = Spec.askedWorkers auto (n.toInt % 2 ^ 32).toNat := by
    intro n
    rw [← numThreadsJ_toNat, Int.toNat_natCast]
    rfl
  refine ⟨key, ?_, ?_, ?_⟩
  · have e : ((4294967296 : Int64).toInt % 2 ^ 32).toNat = 0 := by decide
    rw [key, e]
    rfl
  · have e : ((4294967297 : Int64).toInt % 2 ^ 32).toNat = 1 := by decide
    rw [key, e]
    rfl
  · have e : ((-1 : Int64).toInt % 2 ^ 32).toNat = 4294967295 := by decide
    rw [key, e]
    unfold Spec.askedWorkers
    exact if_neg (by decide)

section
open Toy

theorem go_of (setup : SetupPoints Fr Fr) {ctx : DASContext Fr Fr Fr} (h : (DASContext.new setup (.yes 8) : Outcome Empty _) = .ok ctx) :
    goNewProverContext (ToyHeap.allocator (DASContext Fr Fr Fr)) setup ⟨fun _ => none, fun _ => none, fun _ => none⟩ =
      .ok 16 ⟨fun _ => none, fun a => if a = 16 then some ctx else none, fun _ => none⟩ := by
  unfold goNewProverContext ethKzgDasContextNew
  simp only [if_true, RECOMMENDED_PRECOMP_WIDTH]
  rw [h]
  rfl

/-- a context can be created -/
example : ∃ s', goNewProverContext (ToyHeap.allocator (DASContext Fr Fr Fr)) (setup 7)
    (⟨fun _ => none, fun _ => none, fun _ => none⟩ : CState (DASContext Fr Fr Fr)) = .ok 16 s' := by
  obtain ⟨ctx, h⟩ := context_exists_of (ε := Empty) (K := Fr) (setup 7) (length_g1 7) (by rw [length_g2]) (by rw [length_g2]; norm_num)
    (.yes 8) (fun v => .precomp (tableOf 8 v) 8) (fun v => by
      simp only [FixedBaseMSM.new, precompWindowNew_eq 8 (by norm_num), Outcome.ok_bind, Outcome.pure_eq])
  refine ⟨⟨fun _ => none, fun a => if a = 16 then some ctx else none, fun _ => none⟩, ?_⟩
  exact go_of _ h

/-- 16 threads -/
example : (javaThreads 16).workers 4 = 16 := C55_java_threads_partial 4 16 (by norm_num)

end
end Verif
