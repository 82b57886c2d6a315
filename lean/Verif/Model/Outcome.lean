/-
Result type of modelled Rust functions and the loop/index primitives used by the model.
-/
namespace Verif

/-- Result of a Rust function: normal return, `Err(e)`, or a panic (assert, unwrap/expect, index out of
bounds, division by zero, integer underflow). -/
inductive Outcome (ε α : Type) where
  | ok (a : α)
  | err (e : ε)
  | panic
  deriving DecidableEq, Repr

namespace Outcome

variable {ε α β σ : Type}

protected def bind (x : Outcome ε α) (f : α → Outcome ε β) : Outcome ε β :=
  match x with
  | .ok a => f a
  | .err e => .err e
  | .panic => .panic

instance : Monad (Outcome ε) where
  pure := Outcome.ok
  bind := Outcome.bind

@[simp] theorem pure_eq (a : α) : (pure a : Outcome ε α) = .ok a := rfl
@[simp] theorem ok_bind (a : α) (f : α → Outcome ε β) : ((Outcome.ok a : Outcome ε α) >>= f) = f a := rfl
@[simp] theorem err_bind (e : ε) (f : α → Outcome ε β) :
    ((Outcome.err e : Outcome ε α) >>= f) = .err e := rfl
@[simp] theorem panic_bind (f : α → Outcome ε β) : ((Outcome.panic : Outcome ε α) >>= f) = .panic := rfl
@[simp] theorem map_ok (g : α → β) (a : α) : (g <$> (Outcome.ok a : Outcome ε α)) = .ok (g a) := rfl
@[simp] theorem map_err (g : α → β) (e : ε) : (g <$> (Outcome.err e : Outcome ε α)) = .err e := rfl
@[simp] theorem map_panic (g : α → β) : (g <$> (Outcome.panic : Outcome ε α)) = .panic := rfl

instance : LawfulMonad (Outcome ε) := LawfulMonad.mk'
  (id_map := by intro α x; cases x <;> rfl)
  (pure_bind := by intros; rfl)
  (bind_assoc := by intro α β γ x f g; cases x <;> rfl)

/-- `x.map_err(f)` -/
def mapErr {ε' : Type} (f : ε → ε') : Outcome ε α → Outcome ε' α
  | .ok a => .ok a
  | .err e => .err (f e)
  | .panic => .panic

@[simp] theorem mapErr_ok {ε' : Type} (f : ε → ε') (a : α) : mapErr f (.ok a) = .ok a := rfl
@[simp] theorem mapErr_err {ε' : Type} (f : ε → ε') (e : ε) :
    mapErr f (.err e : Outcome ε α) = .err (f e) := rfl
@[simp] theorem mapErr_panic {ε' : Type} (f : ε → ε') :
    mapErr f (.panic : Outcome ε α) = .panic := rfl

end Outcome

section prims
variable {ε α σ : Type}

/-- `assert!(b)` -/
def assertP (b : Prop) [Decidable b] : Outcome ε Unit := if b then .ok () else .panic

/-- `o.unwrap()` / `o.expect(..)` -/
def expect : Option α → Outcome ε α
  | some a => .ok a
  | none => .panic

/-- `a[i]` (read) -/
def idx (a : List α) (i : Nat) : Outcome ε α := expect a[i]?

/-- `a[i] = x` -/
def setIdx (a : List α) (i : Nat) (x : α) : Outcome ε (List α) :=
  if i < a.length then .ok (a.set i x) else .panic

/-- `a.swap(i, j)` -/
def swapIdx (a : List α) (i j : Nat) : Outcome ε (List α) := do
  let x ← idx a i
  let y ← idx a j
  let a ← setIdx a i y
  setIdx a j x

/-- `&a[lo..hi]` -/
def slice (a : List α) (lo hi : Nat) : Outcome ε (List α) :=
  if lo ≤ hi ∧ hi ≤ a.length then .ok ((a.drop lo).take (hi - lo)) else .panic

/-- `v.resize(n, z)`: pads with `z` or truncates -/
def resize (a : List α) (n : Nat) (z : α) : List α := a.take n ++ List.replicate (n - a.length) z

/-- the values of `(0..n).step_by(s)`, `s > 0` -/
def stepBy (n s : Nat) : List Nat := (List.range ((n + s - 1) / s)).map (· * s)

@[simp] theorem assertP_true {b : Prop} [Decidable b] (h : b) : (assertP b : Outcome ε Unit) = .ok () := by
  simp [assertP, h]

theorem assertP_false {b : Prop} [Decidable b] (h : ¬ b) : (assertP b : Outcome ε Unit) = .panic := by
  simp [assertP, h]

@[simp] theorem expect_some (a : α) : (expect (some a) : Outcome ε α) = .ok a := rfl
@[simp] theorem expect_none : (expect (none : Option α) : Outcome ε α) = .panic := rfl

theorem idx_ok {a : List α} {i : Nat} {x : α} (h : a[i]? = some x) : (idx a i : Outcome ε α) = .ok x := by
  simp [idx, h]

theorem idx_lt {a : List α} {i : Nat} (h : i < a.length) : (idx a i : Outcome ε α) = .ok a[i] := by
  simp [idx, h]

theorem idx_panic {a : List α} {i : Nat} (h : a.length ≤ i) : (idx a i : Outcome ε α) = .panic := by
  simp [idx, List.getElem?_eq_none h]

theorem setIdx_lt {a : List α} {i : Nat} (x : α) (h : i < a.length) :
    (setIdx a i x : Outcome ε (List α)) = .ok (a.set i x) := by
  simp [setIdx, h]

@[simp] theorem length_resize (a : List α) (n : Nat) (z : α) : (resize a n z).length = n := by
  simp [resize]; omega

theorem resize_eq_self {a : List α} {n : Nat} (z : α) (h : a.length = n) : resize a n z = a := by
  simp [resize, ← h]

theorem getElem?_resize (a : List α) (n : Nat) (z : α) (i : Nat) (h : i < n) :
    (resize a n z)[i]? = some (a[i]?.getD z) := by
  simp only [resize, List.getElem?_append, List.length_take]
  by_cases hi : i < a.length
  · have h2 : i < min n a.length := by omega
    simp [hi, h2]
  · have h2 : ¬ (i < min n a.length) := by omega
    simp [h2, List.getElem?_replicate]
    have : i - min n a.length < n - a.length := by omega
    simp [this, List.getElem?_eq_none (Nat.le_of_not_lt hi)]

/-- Loop rule for `for i in 0..n`. -/
theorem foldlM_range_inv {n : Nat} {s : σ} {body : σ → Nat → Outcome ε σ} (Inv : Nat → σ → Prop)
    (h0 : Inv 0 s)
    (hs : ∀ i s, i < n → Inv i s → ∃ s', body s i = .ok s' ∧ Inv (i + 1) s') :
    ∃ s', (List.range n).foldlM body s = .ok s' ∧ Inv n s' := by
  induction n with
  | zero => exact ⟨s, rfl, h0⟩
  | succ n ih =>
    obtain ⟨s1, h1, hI⟩ := ih (fun i s hi => hs i s (by omega))
    obtain ⟨s2, h2, hI2⟩ := hs n s1 (by omega) hI
    refine ⟨s2, ?_, hI2⟩
    rw [List.range_succ, List.foldlM_append, h1]
    simp [h2]

/-- Loop rule for `for x in list`. -/
theorem foldlM_list_inv {β : Type} {l : List β} {s : σ} {body : σ → β → Outcome ε σ}
    (Inv : Nat → σ → Prop) (h0 : Inv 0 s)
    (hs : ∀ i s (hi : i < l.length), Inv i s → ∃ s', body s l[i] = .ok s' ∧ Inv (i + 1) s') :
    ∃ s', l.foldlM body s = .ok s' ∧ Inv l.length s' := by
  induction l generalizing s Inv with
  | nil => exact ⟨s, rfl, h0⟩
  | cons x l ih =>
    obtain ⟨s1, h1, hI1⟩ := hs 0 s (by simp) h0
    obtain ⟨s2, h2, hI2⟩ := ih (s := s1) (fun i => Inv (i + 1)) hI1
      (fun i s hi hI => hs (i + 1) s (by simpa using hi) hI)
    refine ⟨s2, ?_, hI2⟩
    simp only [List.getElem_cons_zero] at h1
    simp [List.foldlM_cons, h1, h2]

end prims

end Verif
