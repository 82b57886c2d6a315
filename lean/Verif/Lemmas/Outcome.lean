import Mathlib.Data.List.Basic
import Mathlib.Data.List.Forall2
import Verif.Model.Outcome

/-! Lemmas on `mapM`, slices and folds in the `Outcome` monad. -/
namespace Verif

variable {ε α β γ : Type}

@[simp] theorem mapM_nil_ok (f : α → Outcome ε β) : ([] : List α).mapM f = .ok [] := by
  simp

theorem mapM_ok {f : α → Outcome ε β} {g : α → β} {l : List α} (h : ∀ x ∈ l, f x = .ok (g x)) :
    l.mapM f = .ok (l.map g) := by
  induction l with
  | nil => simp
  | cons a l ih =>
    rw [List.mapM_cons, h a (by simp), ih (fun x hx => h x (by simp [hx]))]
    simp

/-- `mapM` succeeds exactly if each call succeeds. -/
theorem mapM_eq_ok_iff {f : α → Outcome ε β} {l : List α} {r : List β} :
    l.mapM f = .ok r ↔ List.Forall₂ (fun x y => f x = .ok y) l r := by
  induction l generalizing r with
  | nil =>
    simp only [List.mapM_nil, Outcome.pure_eq, Outcome.ok.injEq, List.forall₂_nil_left_iff]
    exact eq_comm
  | cons a l ih =>
    rw [List.mapM_cons, List.forall₂_cons_left_iff]
    cases ha : f a with
    | ok b =>
      cases hl : l.mapM f with
      | ok bs =>
        simp only [Outcome.ok_bind, Outcome.pure_eq, Outcome.ok.injEq]
        constructor
        · rintro rfl
          exact ⟨b, bs, rfl, ih.1 hl, rfl⟩
        · rintro ⟨b', u, rfl, hu, rfl⟩
          rw [ih.2 hu] at hl
          cases hl; rfl
      | err e =>
        simp only [Outcome.ok_bind, Outcome.err_bind, reduceCtorEq, false_iff]
        rintro ⟨b', u, _, hu, _⟩
        rw [ih.2 hu] at hl; cases hl
      | panic =>
        simp only [Outcome.ok_bind, Outcome.panic_bind, reduceCtorEq, false_iff]
        rintro ⟨b', u, _, hu, _⟩
        rw [ih.2 hu] at hl; cases hl
    | err e => simp
    | panic => simp

/-- `mapM` stops at the first failing element. -/
theorem mapM_err {f : α → Outcome ε β} {pre post : List α} {x : α} {e : ε}
    (hpre : ∀ y ∈ pre, ∃ b, f y = .ok b) (hx : f x = .err e) : (pre ++ x :: post).mapM f = .err e := by
  induction pre with
  | nil => simp [List.mapM_cons, hx]
  | cons a pre ih =>
    obtain ⟨b, hb⟩ := hpre a (by simp)
    rw [List.cons_append, List.mapM_cons, hb, ih (fun y hy => hpre y (by simp [hy]))]
    simp

/-- If no call panics, `mapM` returns all results or the error of the first failing element. -/
theorem mapM_cases {f : α → Outcome ε β} {l : List α} (h : ∀ x ∈ l, f x ≠ .panic) :
    (∃ r, l.mapM f = .ok r) ∨
    ∃ pre x post e, l = pre ++ x :: post ∧ (∀ y ∈ pre, ∃ b, f y = .ok b) ∧ f x = .err e ∧ l.mapM f = .err e := by
  induction l with
  | nil => left; exact ⟨[], by simp⟩
  | cons a l ih =>
    cases ha : f a with
    | panic => exact absurd ha (h a (by simp))
    | err e =>
      right
      exact ⟨[], a, l, e, rfl, by simp, ha, by simp [List.mapM_cons, ha]⟩
    | ok b =>
      rcases ih (fun x hx => h x (by simp [hx])) with ⟨r, hr⟩ | ⟨pre, x, post, e, rfl, hp, hx, hm⟩
      · left; exact ⟨b :: r, by simp [List.mapM_cons, ha, hr]⟩
      · right
        refine ⟨a :: pre, x, post, e, rfl, ?_, hx, by simp [List.mapM_cons, ha, hm]⟩
        intro y hy
        rcases List.mem_cons.1 hy with rfl | hy
        · exact ⟨b, ha⟩
        · exact hp y hy

theorem mapM_length {f : α → Outcome ε β} {l : List α} {r : List β} (h : l.mapM f = .ok r) :
    r.length = l.length := (mapM_eq_ok_iff.1 h).length_eq.symm

theorem mapM_ne_panic {f : α → Outcome ε β} {l : List α} (h : ∀ x ∈ l, f x ≠ .panic) : l.mapM f ≠ .panic := by
  rcases mapM_cases h with ⟨r, hr⟩ | ⟨_, _, _, e, _, _, _, hm⟩
  · simp [hr]
  · simp [hm]

theorem mapM_getElem {f : α → Outcome ε β} {l : List α} {r : List β} (h : l.mapM f = .ok r) {i : Nat}
    (hi : i < l.length) (hi' : i < r.length) : f l[i] = .ok r[i] := by
  have := (List.forall₂_iff_get.1 (mapM_eq_ok_iff.1 h)).2 i hi hi'
  simpa using this

theorem bind_eq_ok {x : Outcome ε α} {f : α → Outcome ε β} {b : β} :
    (x >>= f) = .ok b ↔ ∃ a, x = .ok a ∧ f a = .ok b := by
  cases x with
  | ok a => simp
  | err e => simp
  | panic => simp

theorem slice_zero {a : List α} {n : Nat} (h : n ≤ a.length) : (slice a 0 n : Outcome ε (List α)) = .ok (a.take n) := by
  simp [slice, h]

theorem assertP_eq_ok {b : Prop} [Decidable b] {u : Unit} : (assertP b : Outcome ε Unit) = .ok u ↔ b := by
  unfold assertP; split_ifs <;> simp_all

theorem expect_eq_ok {o : Option α} {a : α} : (expect o : Outcome ε α) = .ok a ↔ o = some a := by
  cases o <;> simp [expect]

theorem mapM_panic_or_ok {ε α β : Type} {f : α → Outcome ε β} {g : α → β} {l : List α}
    (h : ∀ x ∈ l, f x = .panic ∨ f x = .ok (g x)) : l.mapM f = .panic ∨ l.mapM f = .ok (l.map g) := by
  induction l with
  | nil => right; rfl
  | cons x l ih =>
    rw [List.mapM_cons]
    rcases h x (by simp) with h1 | h1
    · left; rw [h1]; rfl
    · rw [h1]
      rcases ih (fun y hy => h y (by simp [hy])) with h2 | h2
      · left; rw [h2]; rfl
      · right; rw [h2]; rfl

end Verif
