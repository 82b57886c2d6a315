import Verif.Model.BatchAddition
import Verif.Model.Booth
import Verif.Model.Bytes

/-! Model of `lincomb.rs`, `fixed_base_msm.rs` and `fixed_base_msm_window.rs` of `bls12_381`. -/
namespace Verif

section
variable {G : Type} [AddCommGroup G] [Module Fr G] [DecidableEq G]

/-- blstrs `G1Projective::multi_exp`. As lincomb.rs:6-12 documents, blst returns the identity if any
of the points is the identity. -/
def multiExp (points : List G) (scalars : List Fr) : G :=
  if points.any (fun p => p = 0) then 0
  else ((points.zip scalars).map (fun q => q.2 • q.1)).sum

/-- `g1_lincomb_unsafe` / `g2_lincomb_unsafe`, lincomb.rs:13-21, 35-43 -/
def lincombUnsafe (points : List G) (scalars : List Fr) : Option G :=
  if points.length ≠ scalars.length then none else some (multiExp points scalars)

/-- `g1_lincomb` / `g2_lincomb`, lincomb.rs:53-64, 74-85 -/
def lincomb (points : List G) (scalars : List Fr) : Option G :=
  let filtered := (points.zip scalars).filter (fun q => ¬ (q.1 = 0))
  let pointsFiltered := filtered.map Prod.fst
  let scalarsFiltered := filtered.map Prod.snd
  if pointsFiltered.isEmpty then some 0 else lincombUnsafe pointsFiltered scalarsFiltered
end

section
variable {ε K G : Type} [Field K] [DecidableEq K] [AddCommGroup G] [Curve K G]

/-- `precompute_points`, fixed_base_msm_window.rs:35-48: `P, 2P, …, 2^(w-1) P` normalised. `wbits - 1`
underflows for `wbits = 0`. -/
def precomputePoints (wbits : Nat) (point : G) : Outcome ε (List (Aff K)) := do
  assertP (wbits ≠ 0)
  let st := (List.range (1 <<< (wbits - 1))).foldl (fun (st : List G × G) _ =>
    (st.1 ++ [st.2], st.2 + point)) ([], point)
  pure (st.1.map toAff)

/-- `FixedBaseMSMPrecompWindow::new`, fixed_base_msm_window.rs:17-33 -/
def precompWindowNew (points : List G) (wbits : Nat) : Outcome ε (List (List (Aff K))) :=
  points.mapM (precomputePoints wbits)

/-- The point of one scalar in one window, fixed_base_msm_window.rs:58-71 (`none`: digit zero) -/
def windowPoint (table : List (List (Aff K))) (wbits windowIdx : Nat) (q : List UInt8 × Nat) :
    Outcome ε (Option (Aff K)) := do
  let subTable ← idx table q.2
  let pointIdx ← getBoothIndex windowIdx wbits q.1
  if pointIdx = 0 then pure none
  else do
    let point ← idx subTable (pointIdx.natAbs - 1)
    if pointIdx > 0 then pure (some point) else pure (some point.neg)

/-- `windows_of_points`, fixed_base_msm_window.rs:54-73 -/
def windowsOfPoints (table : List (List (Aff K))) (wbits : Nat) (scalarsBytes : List (List UInt8))
    (numberOfWindows : Nat) : Outcome ε (List (List (Aff K))) :=
  (List.range numberOfWindows).mapM (fun w => do
    let pts ← scalarsBytes.zipIdx.mapM (windowPoint table wbits w)
    pure (pts.filterMap id))

/-- Accumulation of the windows, fixed_base_msm_window.rs:78-88 -/
def accumulateWindows (wbits : Nat) (accumulated : List G) : Outcome ε G := do
  let last ← expect accumulated.getLast?
  pure ((accumulated.reverse.drop 1).foldl (fun result point =>
    (List.range wbits).foldl (fun r _ => r + r) result + point) last)

/-- `FixedBaseMSMPrecompWindow::msm`, fixed_base_msm_window.rs:50-89 (`Scalar::NUM_BITS` is 255) -/
def precompWindowMsm (table : List (List (Aff K))) (wbits : Nat) (scalars : List Fr) : Outcome ε G := do
  let scalarsBytes := scalars.map scalarToBytesLE
  assertP (wbits ≠ 0) -- division by zero
  let numberOfWindows := 255 / wbits + 1
  let windows ← windowsOfPoints table wbits scalarsBytes numberOfWindows
  let accumulated ← multiBatchAddition windows
  accumulateWindows wbits accumulated
end

/-- `UsePrecomp`, fixed_base_msm.rs:18-21 -/
inductive UsePrecomp where
  | yes (width : Nat)
  | no
  deriving DecidableEq

/-- `FixedBaseMSM`, fixed_base_msm.rs:29-32 -/
inductive FixedBaseMSM (K G : Type) where
  | precomp (table : List (List (Aff K))) (wbits : Nat)
  | noPrecomp (generators : List G)

section
variable {ε K G : Type} [Field K] [DecidableEq K] [AddCommGroup G] [Module Fr G] [DecidableEq G] [Curve K G]

/-- `FixedBaseMSM::new`, fixed_base_msm.rs:35-42 -/
def FixedBaseMSM.new (generators : List G) : UsePrecomp → Outcome ε (FixedBaseMSM K G)
  | .yes width => do
    let table ← precompWindowNew generators width
    pure (.precomp table width)
  | .no => pure (.noPrecomp generators)

/-- `FixedBaseMSM::msm`, fixed_base_msm.rs:44-53 -/
def FixedBaseMSM.msm (m : FixedBaseMSM K G) (scalars : List Fr) : Outcome ε G :=
  match m with
  | .precomp table wbits => precompWindowMsm table wbits scalars
  | .noPrecomp generators => expect (lincomb generators scalars)
end

end Verif
