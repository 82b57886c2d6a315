import Verif.Model.Domain

/-! Model of `cryptography/polynomial/src/poly_coeff.rs`. -/
namespace Verif

variable {ε F : Type} [Field F] [DecidableEq F]

/-- `poly_add`, poly_coeff.rs:14-22 -/
def polyAdd (a b : List F) : Outcome ε (List F) :=
  let smaller := if a.length < b.length then a else b
  let larger := if a.length < b.length then b else a
  (List.range smaller.length).foldlM (fun larger i => do
    let x ← idx larger i
    let y ← idx smaller i
    setIdx larger i (x + y)) larger

/-- `poly_neg`, poly_coeff.rs:26-31 -/
def polyNeg (a : List F) : List F := a.map (fun x => -x)

/-- `poly_sub`, poly_coeff.rs:37-40 -/
def polySub (a b : List F) : Outcome ε (List F) := polyAdd a (polyNeg b)

/-- `poly_eval`, poly_coeff.rs:44-50 -/
def polyEval (poly : List F) (value : F) : F :=
  poly.reverse.foldl (fun result coeff => result * value + coeff) 0

/-- Inner loop of `poly_mul`, poly_coeff.rs:57-59 -/
def polyMulRow (i : Nat) (x : F) (b : List F) (result : List F) : Outcome ε (List F) :=
  b.zipIdx.foldlM (fun result (q : F × Nat) => do
    let c ← idx result (i + q.2)
    setIdx result (i + q.2) (c + x * q.1)) result

/-- `poly_mul`, poly_coeff.rs:54-62. `a.len() + b.len() - 1` underflows if both are empty. -/
def polyMul (a b : List F) : Outcome ε (List F) := do
  assertP (1 ≤ a.length + b.length)
  let result := List.replicate (a.length + b.length - 1) (0 : F)
  a.zipIdx.foldlM (fun result (p : F × Nat) => polyMulRow p.2 p.1 b result) result

/-- `vanishing_poly`, poly_coeff.rs:68-74 -/
def vanishingPoly (roots : List F) : Outcome ε (List F) :=
  roots.foldlM (fun poly root => polyMul poly [-root, 1]) [1]

/-- State of the inner loop of `lagrange_interpolate`. -/
structure LagrangeState (F : Type) where
  contribution : List F
  denominator : F
  maxContributionDegree : Nat

/-- Body of the inner loop of `lagrange_interpolate`, poly_coeff.rs:101-141 -/
def lagrangeInner (n k : Nat) (xk : F) (st : LagrangeState F) (q : (F × F) × Nat) :
    Outcome ε (LagrangeState F) := do
  let xj := q.1.1
  if q.2 = k then pure st
  else do
    let diff := xk - xj
    let denominator := st.denominator * diff
    if st.maxContributionDegree = 0 then do
      let c0 ← idx st.contribution 0
      let contribution ← setIdx st.contribution 0 (c0 - xj)
      let c1 ← idx contribution 1
      let contribution ← setIdx contribution 1 (c1 + 1)
      pure ⟨contribution, denominator, 1⟩
    else do
      let mulByMinusXj := st.contribution.map (fun el => -(el * xj))
      let contribution := (0 :: st.contribution).take n
      assertP (mulByMinusXj.length = n)
      let contribution ← contribution.zipIdx.mapM (fun (p : F × Nat) => do
        let other ← idx mulByMinusXj p.2
        pure (p.1 + other))
      pure ⟨contribution, denominator, st.maxContributionDegree⟩

/-- Body of the outer loop of `lagrange_interpolate`, poly_coeff.rs:94-153 -/
def lagrangeOuter (points : List (F × F)) (coeffs : List F) (q : (F × F) × Nat) : Outcome ε (List F) := do
  let n := points.length
  let st ← points.zipIdx.foldlM (lagrangeInner n q.2 q.1.1) ⟨List.replicate n 0, 1, 0⟩
  let denominator ← invertExpect st.denominator
  st.contribution.zipIdx.foldlM (fun coeffs (p : F × Nat) => do
    let c ← idx coeffs p.2
    setIdx coeffs p.2 (c + p.1 * denominator * q.1.2)) coeffs

/-- `lagrange_interpolate`, poly_coeff.rs:86-156 -/
def lagrangeInterpolate (points : List (F × F)) : Outcome ε (Option (List F)) := do
  assertP (2 ≤ points.length)
  let coeffs ← points.zipIdx.foldlM (lagrangeOuter points) (List.replicate points.length 0)
  pure (some coeffs)

end Verif
