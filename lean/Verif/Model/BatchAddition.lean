import Verif.Model.BatchInverse

/-! Model of `cryptography/bls12_381/src/batch_addition.rs`.

Affine points are raw coordinate pairs over the base field `K`; `(0, 0)` is the identity (blst
convention). Projective points are elements of the group `G`. -/
namespace Verif

/-- `G1Affine`: raw coordinates. -/
structure Aff (K : Type) where
  x : K
  y : K
  deriving DecidableEq

/-- Conversions between affine coordinates and group elements (parameters of the model):
`toAff` is normalisation (`G1Affine::from(projective)`), `ofAff` is the reading of raw coordinates by the
projective arithmetic; on coordinates that are not on the curve its value is unspecified. -/
class Curve (K : outParam Type) (G : Type) where
  toAff : G → Aff K
  ofAff : Aff K → G

export Curve (toAff ofAff)

/-- What is assumed of the curve arithmetic of blstrs: affine coordinates determine the point, the identity has
coordinates `(0, 0)`, and the affine addition law of a short Weierstrass curve `y^2 = x^3 + b` (chord, tangent, opposite
points). `Verif.Lemmas.CurveInstance` derives these laws from Mathlib's group law for every field and every `b`. -/
class LawfulCurve (K : outParam Type) (G : Type) [Field K] [AddCommGroup G] [Curve K G] : Prop where
  ofAff_toAff (P : G) : ofAff (toAff P) = P
  toAff_zero : toAff (0 : G) = ⟨0, 0⟩
  toAff_neg (P : G) : toAff (-P) = ⟨(toAff P).x, -(toAff P).y⟩
  chord (P Q : G) (hP : P ≠ 0) (hQ : Q ≠ 0) (h : (toAff P).x ≠ (toAff Q).x) (l x : K)
    (hl : l = ((toAff Q).y - (toAff P).y) / ((toAff Q).x - (toAff P).x)) (hx : x = l ^ 2 - (toAff P).x - (toAff Q).x) :
    toAff (P + Q) = ⟨x, l * ((toAff P).x - x) - (toAff P).y⟩
  tangent (P : G) (hP : P ≠ 0) (h : 2 * (toAff P).y ≠ 0) (l x : K)
    (hl : l = 3 * (toAff P).x ^ 2 / (2 * (toAff P).y)) (hx : x = l ^ 2 - 2 * (toAff P).x) :
    toAff (P + P) = ⟨x, l * ((toAff P).x - x) - (toAff P).y⟩
  opposite (P Q : G) (hP : P ≠ 0) (hQ : Q ≠ 0) (h : (toAff P).x = (toAff Q).x) : P = Q ∨ P + Q = 0
  two_torsion (P : G) (hP : P ≠ 0) (h : 2 * (toAff P).y = 0) : P + P = 0

section
variable {ε K G : Type} [Field K] [DecidableEq K] [AddCommGroup G] [Curve K G]

/-- blstrs `-point` on affine points -/
def Aff.neg (p : Aff K) : Aff K := ⟨p.x, -p.y⟩

/-- `point_add_double`, batch_addition.rs:12-25 -/
def pointAddDouble (p1 p2 : Aff K) (inv : K) : Aff K :=
  let lambda := if p1 = p2 then 3 * p1.x ^ 2 * inv else (p2.y - p1.y) * inv
  let x := lambda ^ 2 - p1.x - p2.x
  let y := lambda * (p1.x - x) - p1.y
  ⟨x, y⟩

/-- `choose_add_or_double`, batch_addition.rs:34-40 -/
def chooseAddOrDouble (p1 p2 : Aff K) : K := if p1 = p2 then 2 * p2.y else p2.x - p1.x

/-- batch_addition.rs:44 -/
def BATCH_INVERSE_THRESHOLD : Nat := 16

/-- The denominators of one bucket, batch_addition.rs:73-77 and 161-163:
`for i in (0..=points.len() - 2).step_by(2)` -/
def pairDenominators (points : List (Aff K)) : Outcome ε (List K) :=
  (stepBy (points.length - 1) 2).mapM (fun i => do
    let p1 ← idx points i
    let p2 ← idx points (i + 1)
    pure (chooseAddOrDouble p1 p2))

/-- The in-place pairwise additions, batch_addition.rs:80-84 and 174-181 -/
def pairAdd (points : List (Aff K)) (invs : List K) : Outcome ε (List (Aff K)) :=
  ((stepBy (points.length - 1) 2).zip invs).foldlM (fun (points : List (Aff K)) (q : Nat × K) => do
    let p1 ← idx points q.1
    let p2 ← idx points (q.1 + 1)
    setIdx points (q.1 / 2) (pointAddDouble p1 p2 q.2)) points

/-- `sum += points.pop()` if the length is odd, batch_addition.rs:66-70 and 147-149 -/
def popOdd (st : List (Aff K) × G) : Outcome ε (List (Aff K) × G) :=
  if st.1.length % 2 ≠ 0 then do
    let p ← expect st.1.getLast?
    pure (st.1.dropLast, st.2 + ofAff p)
  else pure st

/-- Final mixed additions, batch_addition.rs:91-93 and 194-196 -/
def addRest (st : List (Aff K) × G) : G := st.1.foldl (fun s p => s + ofAff p) st.2

/-- The `while` loop of the single version, batch_addition.rs:65-95. `fuel` bounds the number of
iterations; running out of it is a panic (the theorems show that this does not happen). -/
def batchAdditionLoop : Nat → List (Aff K) × G → Outcome ε G
  | 0, _ => .panic
  | fuel + 1, st =>
    if st.1.length > BATCH_INVERSE_THRESHOLD then do
      let st ← popOdd st
      let denominators ← pairDenominators st.1
      let invs ← batchInverse denominators
      let points ← pairAdd st.1 invs
      batchAdditionLoop fuel (points.take invs.length, st.2)
    else pure (addRest st)

/-- `batch_addition_binary_tree_stride`, batch_addition.rs:53-96 -/
def batchAddition (points : List (Aff K)) : Outcome ε G :=
  if points.isEmpty then pure 0
  else batchAdditionLoop (points.length + 1) (points, (0 : G))

/-- `compute_threshold`, batch_addition.rs:119-130 -/
def computeThreshold (buckets : List (List (Aff K) × G)) : Nat :=
  (buckets.map (fun b => if b.1.length % 2 = 0 then b.1.length / 2 else (b.1.length - 1) / 2)).sum

/-- Collecting all denominators, batch_addition.rs:157-164 -/
def allDenominators (buckets : List (List (Aff K) × G)) : Outcome ε (List K) := do
  let ds ← buckets.mapM (fun b => if b.1.length < 2 then pure [] else pairDenominators b.1)
  pure ds.flatten

/-- The update loop, batch_addition.rs:168-188. State: result so far and `denominators_offset`. -/
def updateBuckets (denominators : List K) (buckets : List (List (Aff K) × G)) :
    Outcome ε (List (List (Aff K) × G)) := do
  let st ← buckets.foldlM (fun (st : List (List (Aff K) × G) × Nat) b =>
    if b.1.length < 2 then pure (st.1 ++ [b], st.2)
    else do
      let ds ← slice denominators st.2 denominators.length
      let points ← pairAdd b.1 ds
      let numPoints := points.length / 2
      pure (st.1 ++ [(points.take numPoints, b.2)], st.2 + numPoints)) ([], 0)
  pure st.1

/-- The `while` loop of the multi version, batch_addition.rs:142-199, with fuel as above. The vectors
`multi_points` and `sums` always have equal length and are kept as a list of pairs. -/
def multiBatchLoop : Nat → List (List (Aff K) × G) → Outcome ε (List G)
  | 0, _ => .panic
  | fuel + 1, buckets =>
    if computeThreshold buckets > BATCH_INVERSE_THRESHOLD then do
      let buckets ← buckets.mapM popOdd
      let denominators ← allDenominators buckets
      let invs ← batchInverse denominators
      let buckets ← updateBuckets invs buckets
      multiBatchLoop fuel buckets
    else pure (buckets.map addRest)

/-- `multi_batch_addition_binary_tree_stride`, batch_addition.rs:103-200 -/
def multiBatchAddition (multiPoints : List (List (Aff K))) : Outcome ε (List G) :=
  multiBatchLoop ((multiPoints.map List.length).sum + 1) (multiPoints.map (fun p => (p, (0 : G))))

end

end Verif
