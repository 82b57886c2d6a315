import Mathlib.Algebra.Group.Defs
import Mathlib.Algebra.BigOperators.Group.List.Defs

/-! Specification of the pairing trees of batch addition. -/
namespace Verif.Spec

/-- Neighbours at even positions; an odd last element has no partner. -/
def pairs {α : Type} : List α → List (α × α)
  | a :: b :: t => (a, b) :: pairs t
  | _ => []

/-- The next level of a tree. -/
def halve {G : Type} [Add G] (l : List G) : List G := (pairs l).map (fun q => q.1 + q.2)

/-- Two neighbours are opposite on some level that is processed; a level is processed as long as all levels up to it satisfy
`big`. -/
inductive Clash {G : Type} [AddCommGroup G] (big : List (List G) → Prop) : List (List G) → Prop
  | here (ls : List (List G)) (hb : big ls) (l : List G) (hl : l ∈ ls) (q : G × G) (hq : q ∈ pairs l)
      (h : q.1 + q.2 = 0) : Clash big ls
  | later (ls : List (List G)) (hb : big ls) (h : Clash big (ls.map halve)) : Clash big ls

/-- More than 16 pairs in total. -/
def bigMulti {G : Type} (ls : List (List G)) : Prop := 16 < (ls.map (fun l => l.length / 2)).sum

/-- More than 16 points in a single list. -/
def bigSingle {G : Type} (ls : List (List G)) : Prop := ∀ l ∈ ls, 16 < l.length

end Verif.Spec
