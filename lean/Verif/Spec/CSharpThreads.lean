import Verif.Model.CSharpThreads

/-! Specification of the disciplined use of a C# object by several threads (C67). -/
namespace Verif.Spec
variable {K G1 G2 : Type}

/-- the thread is in the middle of a method -/
def CsBusy (pc : CsPc) : Prop := pc ≠ .done ∧ ∀ t, pc ≠ .start t

/-- the thread is in the middle of `Dispose` -/
def Disposing : CsPc → Prop
  | .tested => True
  | .loaded .dispose _ => True
  | .freed => True
  | _ => False

/-- While a thread is in `Dispose`, no other thread is in a method, as under a lock for readers and writers. Calls may overlap each other. -/
def DisposeAlone (w : CsWorld K G1 G2) : Prop :=
  ∀ (i j : Nat) (pc pc' : CsPc), w.threads[i]? = some pc → w.threads[j]? = some pc' → Disposing pc → CsBusy pc' → i = j

/-- what can be reached under this discipline -/
inductive DisciplinedReach (w₀ : CsWorld K G1 G2) : CsOut (CsWorld K G1 G2) → Prop
  | refl : DisciplinedReach w₀ (.on w₀)
  | step {w r} : DisciplinedReach w₀ (.on w) → CsStep w r → (∀ v, r = .on v → DisposeAlone v) → DisciplinedReach w₀ r

end Verif.Spec
