import Mathlib.Data.List.Basic

/-! Specification of Rust's aliasing rules, in the two formulations that exist. Neither is part of the language reference yet; the
compiler guarantees correct code for programs that respect both.

* Stacked Borrows: R. Jung, H.-H. Dang, J. Kang, D. Dreyer, POPL 2020, with the reborrow rule for raw pointers as in Miri.
* Tree Borrows: N. Villani, J. Hostert, D. Dreyer, R. Jung, PLDI 2025.

Left out: protectors (the references that are passed as arguments are only read from), interior mutability, two-phase borrows and
deallocation. Tag 0 belongs to the foreign code: all pointers that come from it carry this tag. -/
namespace Verif.Spec

/-- what is created: `&mut`, `&`, or a raw pointer to the target of a reference -/
inductive RefKind where
  | unique
  | shared
  | raw
  deriving DecidableEq

/-- A formulation of the aliasing rules. `retag` creates a reference to `size` bytes from a pointer with the given tag, `access` reads
(`write = false`) or writes one byte; `none` is a violation. `FromC` holds for the states in which the foreign code may access all
memory. -/
structure AliasModel where
  State : Type
  init : State
  retag : (k : RefKind) → (addr size tag : Nat) → State → Option (Nat × State)
  access : (write : Bool) → (addr tag : Nat) → State → Option State
  FromC : State → Prop

/-- `g` with the value `v` at `a` -/
def updateAt {α : Type} (g : Nat → α) (a : Nat) (v : α) : Nat → α := fun x => if x = a then v else g x

namespace StackedBorrows

inductive Perm where
  | unique
  | sharedRW
  | sharedRO
  | disabled
  deriving DecidableEq

structure Item where
  perm : Perm
  tag : Nat
  deriving DecidableEq

/-- the permission allows a write, or a read -/
def Perm.allows : Perm → (write : Bool) → Bool
  | .unique, _ => true
  | .sharedRW, _ => true
  | .sharedRO, write => !write
  | .disabled, _ => false

def Item.grants (write : Bool) (tag : Nat) (i : Item) : Bool := i.tag == tag && i.perm.allows write

/-- Each byte has a stack of items, the top first. -/
structure State where
  stacks : Nat → List Item
  next : Nat

/-- what remains of an item above the granting item of a read -/
def Item.disableUnique (i : Item) : Item := if i.perm = .unique then { i with perm := .disabled } else i

/-- the stack split at the topmost item that grants the access: what is above it, the item, what is below it -/
def split (write : Bool) (tag : Nat) : List Item → Option (List Item × Item × List Item)
  | [] => none
  | i :: rest =>
    if i.grants write tag then some ([], i, rest)
    else (split write tag rest).map (fun r => (i :: r.1, r.2.1, r.2.2))

/-- the block of `sharedRW` items directly above a granting item that is `sharedRW` itself -/
def block (above : List Item) (granting : Item) : List Item :=
  if granting.perm = .sharedRW then (above.reverse.takeWhile (fun i => i.perm = .sharedRW)).reverse else []

/-- a read: the unique items above the granting item are disabled -/
def read (tag : Nat) (stack : List Item) : Option (List Item) :=
  (split false tag stack).map (fun r => r.1.map Item.disableUnique ++ r.2.1 :: r.2.2)

/-- a write: the items above the granting item and its block are removed -/
def write (tag : Nat) (stack : List Item) : Option (List Item) :=
  (split true tag stack).map (fun r => block r.1 r.2.1 ++ r.2.1 :: r.2.2)

/-- a raw pointer: its item is inserted directly above the granting item and its block -/
def insertRaw (new tag : Nat) (stack : List Item) : Option (List Item) :=
  (split true tag stack).map (fun r =>
    r.1.take (r.1.length - (block r.1 r.2.1).length) ++ ⟨.sharedRW, new⟩ :: (block r.1 r.2.1 ++ r.2.1 :: r.2.2))

/-- the change of the stack of each byte when a reference is created -/
def reborrow (k : RefKind) (new tag : Nat) (stack : List Item) : Option (List Item) :=
  match k with
  | .unique => (write tag stack).map (⟨.unique, new⟩ :: ·)
  | .shared => (read tag stack).map (⟨.sharedRO, new⟩ :: ·)
  | .raw => insertRaw new tag stack

/-- `f` on the stacks of `size` bytes from `addr` -/
def eachByte (f : List Item → Option (List Item)) : (addr size : Nat) → (Nat → List Item) → Option (Nat → List Item)
  | _, 0, s => some s
  | addr, size + 1, s => do
    let x ← f (s addr)
    eachByte f (addr + 1) size (updateAt s addr x)

end StackedBorrows

open StackedBorrows in
def stackedBorrows : AliasModel where
  State := StackedBorrows.State
  init := { stacks := fun _ => [⟨.sharedRW, 0⟩], next := 1 }
  retag k addr size tag st := do
    let stacks ← eachByte (reborrow k st.next tag) addr size st.stacks
    pure (st.next, { stacks := stacks, next := st.next + 1 })
  access w addr tag st := do
    let x ← (if w then write tag else read tag) (st.stacks addr)
    pure { st with stacks := updateAt st.stacks addr x }
  FromC st := 0 < st.next ∧ ∀ a, ∃ items, st.stacks a = items ++ [⟨.sharedRW, 0⟩] ∧ ∀ i ∈ items, 0 < i.tag ∧ i.tag < st.next

namespace TreeBorrows

inductive Perm where
  | reserved
  | active
  | frozen
  | disabled
  deriving DecidableEq

/-- an access through the reference or through one derived from it is allowed -/
def Perm.allows : Perm → (write : Bool) → Bool
  | .reserved, _ => true
  | .active, _ => true
  | .frozen, write => !write
  | .disabled, _ => false

/-- the permission after such an access -/
def Perm.afterLocal : Perm → (write : Bool) → Perm
  | .reserved, true => .active
  | p, _ => p

/-- the permission after an access through any other pointer -/
def Perm.afterForeign : Perm → (write : Bool) → Perm
  | _, true => .disabled
  | .active, false => .frozen
  | p, false => p

/-- The tree of references: `ancestors t` are those from which `t` is derived and `t` itself; each has a permission for each byte. -/
structure State where
  ancestors : Nat → List Nat
  perm : (tag addr : Nat) → Perm
  next : Nat

/-- the permission of the reference `k` at `addr` after an access through `tag` -/
def State.after (st : State) (w : Bool) (addr tag k : Nat) : Perm :=
  if k ∈ st.ancestors tag then (st.perm k addr).afterLocal w else (st.perm k addr).afterForeign w

def access (w : Bool) (addr tag : Nat) (st : State) : Option State :=
  if tag < st.next ∧ ∀ k ∈ st.ancestors tag, (st.perm k addr).allows w then
    some { st with perm := fun k => updateAt (st.perm k) addr (st.after w addr tag k) }
  else none

/-- a new reference derived from `tag` -/
def derive (tag : Nat) (p : Perm) (st : State) : State where
  ancestors := updateAt st.ancestors st.next (st.next :: st.ancestors tag)
  perm := updateAt st.perm st.next (fun _ => p)
  next := st.next + 1

/-- reads of `size` bytes from `addr` -/
def readAll (tag : Nat) : (addr size : Nat) → State → Option State
  | _, 0, st => some st
  | addr, size + 1, st => do
    let st ← access false addr tag st
    readAll tag (addr + 1) size st

end TreeBorrows

open TreeBorrows in
def treeBorrows : AliasModel where
  State := TreeBorrows.State
  init := { ancestors := fun _ => [0], perm := fun _ _ => .active, next := 1 }
  retag k addr size tag st :=
    if tag < st.next then
      match k with
      | .unique => (readAll st.next addr size (derive tag .reserved st)).map (st.next, ·)
      | .shared => (readAll st.next addr size (derive tag .frozen st)).map (st.next, ·)
      | .raw => some (tag, st)
    else none
  access := TreeBorrows.access
  FromC st := 0 < st.next ∧ st.ancestors 0 = [0] ∧ (∀ a, st.perm 0 a = .active) ∧
    ∀ t < st.next, 0 ∈ st.ancestors t ∧ ∀ k ∈ st.ancestors t, k < st.next

end Verif.Spec
