import Verif.Model.Fk20Prover
import Verif.Model.Serialization
import Verif.Model.Fk20Verifier

set_option linter.unusedSectionVars false

/-! Functions without an error return: their models never produce `err`. -/
namespace Verif

/-- never an `Err` -/
def NoErr {ε α : Type} (x : Outcome ε α) : Prop := ∀ e, x ≠ .err e

namespace NoErr
variable {ε α β σ : Type}

theorem ok (a : α) : NoErr (.ok a : Outcome ε α) := fun _ h => by cases h
theorem pure (a : α) : NoErr (Pure.pure a : Outcome ε α) := fun _ h => by cases h
theorem panic : NoErr (.panic : Outcome ε α) := fun _ h => by cases h

theorem bind {x : Outcome ε α} {f : α → Outcome ε β} (hx : NoErr x) (hf : ∀ a, NoErr (f a)) : NoErr (x >>= f) := by
  intro e h
  cases x with
  | ok a => exact hf a e h
  | err e' => exact hx e' rfl
  | panic => cases h

theorem assertP (b : Prop) [Decidable b] : NoErr (assertP b : Outcome ε Unit) := by
  unfold Verif.assertP
  split_ifs
  · exact ok _
  · exact panic

theorem expect (o : Option α) : NoErr (expect o : Outcome ε α) := by
  cases o
  · exact panic
  · exact ok _

theorem idx (a : List α) (i : Nat) : NoErr (idx a i : Outcome ε α) := expect _

theorem setIdx (a : List α) (i : Nat) (x : α) : NoErr (setIdx a i x : Outcome ε (List α)) := by
  unfold Verif.setIdx
  split_ifs
  · exact ok _
  · exact panic

theorem slice (a : List α) (i j : Nat) : NoErr (slice a i j : Outcome ε (List α)) := by
  unfold Verif.slice
  split_ifs
  · exact ok _
  · exact panic

theorem mapM {f : α → Outcome ε β} (h : ∀ a, NoErr (f a)) (l : List α) : NoErr (l.mapM f) := by
  induction l with
  | nil => exact pure _
  | cons a l ih =>
    rw [List.mapM_cons]
    exact bind (h a) fun _ => bind ih fun _ => pure _

theorem foldlM {f : σ → α → Outcome ε σ} (h : ∀ s a, NoErr (f s a)) (l : List α) (s : σ) : NoErr (l.foldlM f s) := by
  induction l generalizing s with
  | nil => exact pure _
  | cons a l ih =>
    rw [List.foldlM_cons]
    exact bind (h s a) fun _ => ih _

theorem ite {p : Prop} [Decidable p] {x y : Outcome ε α} (hx : NoErr x) (hy : NoErr y) : NoErr (if p then x else y) := by
  split_ifs
  · exact hx
  · exact hy

theorem swapIdx (a : List α) (i j : Nat) : NoErr (swapIdx a i j : Outcome ε (List α)) :=
  bind (idx _ _) fun _ => bind (idx _ _) fun _ => bind (setIdx _ _ _) fun _ => setIdx _ _ _

theorem invertExpect {F : Type} [Field F] [DecidableEq F] (x : F) : NoErr (invertExpect x : Outcome ε F) :=
  ite panic (ok _)

theorem reverseBitOrder (a : List α) : NoErr (reverseBitOrder a : Outcome ε (List α)) :=
  bind (assertP _) fun _ => bind (bind (assertP _) fun _ => pure _) fun _ =>
    foldlM (fun _ _ => ite (swapIdx _ _ _) (pure _)) _ _

theorem fftInplace {F T : Type} [Field F] [DecidableEq F] [AddCommGroup T] [Module F T] [DecidableEq T] (tw : List F)
    (a : List T) : NoErr (fftInplace tw a : Outcome ε (List T)) :=
  bind (assertP _) fun _ => bind (foldlM (fun _ _ => ite (swapIdx _ _ _) (pure _)) _ _) fun _ =>
    bind (foldlM (fun _ _ => bind (idx _ _) fun _ => bind (foldlM (fun _ _ => bind (foldlM (fun _ _ =>
      bind (idx _ _) fun _ => bind (idx _ _) fun _ => bind (setIdx _ _ _) fun _ => bind (setIdx _ _ _) fun _ => pure _) _ _)
        fun _ => pure _) _ _) fun _ => pure _) _ _) fun _ => pure _

theorem fftScalars (d : Domain) (x : List Fr) : NoErr (d.fftScalars x : Outcome ε _) := fftInplace _ _
theorem ifftScalars (d : Domain) (x : List Fr) : NoErr (d.ifftScalars x : Outcome ε _) :=
  bind (fftInplace _ _) fun _ => pure _
theorem cosetIfftScalars (d : Domain) (x : List Fr) (c : CosetFFT) : NoErr (d.cosetIfftScalars x c : Outcome ε _) :=
  bind (ifftScalars _ _) fun _ => pure _

section
variable {G : Type} [AddCommGroup G] [Module Fr G] [DecidableEq G]

theorem fftG1 (d : Domain) (x : List G) : NoErr (d.fftG1 x : Outcome ε _) := fftInplace _ _
theorem ifftG1TakeN (d : Domain) (x : List G) (n : Option Nat) : NoErr (d.ifftG1TakeN x n : Outcome ε _) := by
  cases n with
  | none => exact bind (fftInplace _ _) fun p => bind (pure _) fun _ => pure _
  | some k => exact bind (fftInplace _ _) fun p => bind (assertP _) fun _ => bind (slice _ _ _) fun _ => pure _
end

theorem transpose (v : List (List α)) : NoErr (transpose v : Outcome ε _) := by
  unfold Verif.transpose
  cases v with
  | nil => exact pure _
  | cons v0 vs =>
    exact ite (pure _) (foldlM (fun _ _ => foldlM (fun _ _ => bind (idx _ _) fun _ => setIdx _ _ _) _ _) _ _)

theorem getBoothIndex (i w : Nat) (el : List UInt8) : NoErr (getBoothIndex i w el : Outcome ε Int) :=
  bind (assertP _) fun _ => ite (pure _) (pure _)

section
variable {K G : Type} [Field K] [DecidableEq K] [AddCommGroup G] [Curve K G]

theorem batchInverse (v : List K) : NoErr (batchInverse v : Outcome ε _) := bind (invertExpect _) fun _ => pure _

theorem pairDenominators (p : List (Aff K)) : NoErr (pairDenominators p : Outcome ε _) :=
  mapM (fun _ => bind (idx _ _) fun _ => bind (idx _ _) fun _ => pure _) _

theorem pairAdd (p : List (Aff K)) (i : List K) : NoErr (pairAdd p i : Outcome ε _) :=
  foldlM (fun _ _ => bind (idx _ _) fun _ => bind (idx _ _) fun _ => setIdx _ _ _) _ _

theorem popOdd (st : List (Aff K) × G) : NoErr (popOdd st : Outcome ε _) :=
  ite (bind (expect _) fun _ => pure _) (pure _)

theorem multiBatchLoop (n : Nat) (b : List (List (Aff K) × G)) : NoErr (multiBatchLoop n b : Outcome ε _) := by
  induction n generalizing b with
  | zero => exact panic
  | succ n ih =>
    exact ite (bind (mapM popOdd _) fun _ => bind (bind (mapM (fun _ => ite (pure _) (pairDenominators _)) _) fun _ => pure _)
      fun _ => bind (batchInverse _) fun _ => bind (bind (foldlM (fun _ _ => ite (pure _)
        (bind (slice _ _ _) fun _ => bind (pairAdd _ _) fun _ => pure _)) _ _) fun _ => pure _) fun _ => ih _) (pure _)

theorem precompWindowMsm (t : List (List (Aff K))) (w : Nat) (s : List Fr) :
    NoErr (precompWindowMsm t w s : Outcome ε G) :=
  bind (assertP _) fun _ => bind (mapM (fun _ => bind (mapM (fun _ => bind (idx _ _) fun _ =>
    bind (getBoothIndex _ _ _) fun _ => ite (pure _) (bind (idx _ _) fun _ => ite (pure _) (pure _))) _) fun _ => pure _) _)
    fun _ => bind (multiBatchLoop _ _) fun _ => bind (expect _) fun _ => pure _

variable [Module Fr G] [DecidableEq G]

theorem msm (m : FixedBaseMSM K G) (s : List Fr) : NoErr (m.msm s : Outcome ε G) := by
  cases m
  · exact precompWindowMsm _ _ _
  · exact expect _

theorem sumMatrixVectorMul (bt : BatchToeplitz K G) (m : List ToeplitzMatrix) :
    NoErr (bt.sumMatrixVectorMul m : Outcome ε _) :=
  bind (assertP _) fun _ => bind (mapM (fun _ => fftScalars _ _) _) fun _ => bind (transpose _) fun _ =>
    bind (mapM (fun _ => msm _ _) _) fun _ => ifftG1TakeN _ _ _

theorem computeHPolyCommitments (bt : BatchToeplitz K G) (p : List Fr) (c : Nat) :
    NoErr (computeHPolyCommitments bt p c : Outcome ε _) :=
  bind (assertP _) fun _ => bind (assertP _) fun _ => bind (mapM (fun _ => bind (idx _ _) fun _ => bind (setIdx _ _ _)
    fun _ => bind (assertP _) fun _ => pure _) _) fun _ => sumMatrixVectorMul _ _

theorem computeMultiOpeningProofsPolyCoeff (p : FK20Prover K G) (x : List Fr) :
    NoErr (p.computeMultiOpeningProofsPolyCoeff x : Outcome ε _) :=
  bind (computeHPolyCommitments _ _ _) fun _ => bind (fftG1 _ _) fun _ => bind (reverseBitOrder _) fun _ =>
    bind (bind (fftScalars _ _) fun _ => bind (reverseBitOrder _) fun _ => pure _) fun _ => pure _

theorem inputToPoly (p : FK20Prover K G) (x : ProverInput) : NoErr (p.inputToPoly x : Outcome ε _) := by
  cases x
  · exact pure _
  · exact bind (reverseBitOrder _) fun _ => ifftScalars _ _

theorem computeMultiOpeningProofs (p : FK20Prover K G) (x : ProverInput) :
    NoErr (p.computeMultiOpeningProofs x : Outcome ε _) :=
  bind (inputToPoly _ _) fun _ => computeMultiOpeningProofsPolyCoeff _ _

theorem commit (p : FK20Prover K G) (x : ProverInput) : NoErr (p.commit x : Outcome ε _) :=
  bind (inputToPoly _ _) fun _ => bind (slice _ _ _) fun _ => expect _

theorem serializeCellsAndProofs [PointCodec G] (e : List (List Fr)) (p : List G) :
    NoErr (serializeCellsAndProofs e p : Outcome ε _) :=
  bind (bind (mapM (fun _ => bind (bind (assertP _) fun _ => pure _) fun _ => bind (assertP _) fun _ => pure _) _)
    fun _ => bind (assertP _) fun _ => pure _) fun _ => bind (assertP _) fun _ => pure _

end
end NoErr
end Verif
