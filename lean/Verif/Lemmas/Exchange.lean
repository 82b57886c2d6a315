import Verif.Lemmas.Bindings
import Verif.Lemmas.Managed
import Verif.Spec.Exchange

/-! Lemmas about the reports of calls. -/
namespace Verif
open Spec

variable {Ctx ε α : Type}

theorem reports_iff {x : Outcome ε α} {r : Option α} :
    Reports x r ↔ (∃ v, x = .ok v ∧ r = some v) ∨ ∃ e, x = .err e ∧ r = none := by
  constructor
  · rintro (v | e)
    · exact .inl ⟨v, rfl, rfl⟩
    · exact .inr ⟨e, rfl, rfl⟩
  · rintro (⟨v, rfl, rfl⟩ | ⟨e, rfl, rfl⟩)
    · exact .value v
    · exact .error e

theorem reports_mapErr {ε' : Type} {x : Outcome ε α} {f : ε → ε'} {r : Option α} (h : Reports (x.mapErr f) r) : Reports x r := by
  rcases x with v | e | _ <;> cases h
  · exact .value v
  · exact .error e

theorem reports_functional {x : Outcome ε α} {r r' : Option α} (h : Reports x r) (h' : Reports x r') : r = r' := by
  cases h <;> cases h' <;> rfl

theorem reports_of_answers {H : Heap Ctx} {A : Allocator Ctx} {s : CState Ctx} {sizes : List Nat} {lib : Outcome Error α}
    {exception : Error → ε} {call : CM Ctx ε α} {r : Option α} (h : Answers H A s sizes lib exception call)
    (hr : CReports (call s) r) : Reports lib r := by
  rcases h with ⟨-, h⟩ | h
  · rw [h] at hr; cases hr
  · rcases lib with v | e | _
    · obtain ⟨s', h, -⟩ := h
      rw [h] at hr; cases hr
      exact .value v
    · obtain ⟨s', h, -⟩ := h
      rw [h] at hr; cases hr
      exact .error e
    · rw [show call s = .panic from h] at hr; cases hr

theorem reports_of_answersText {H : Heap Ctx} {A : Allocator Ctx} {s : CState Ctx} {sizes : List Nat} {lib : Outcome Error α}
    {render : CResult → List UInt8} {call : CM Ctx (List UInt8) α} {r : Option α} (h : AnswersText H A s sizes lib render call)
    (hr : CReports (call s) r) : Reports lib r := by
  rcases h with ⟨-, h⟩ | h
  · rw [h] at hr; cases hr
  · rcases lib with v | e | _
    · obtain ⟨s', h, -⟩ := h
      rw [h] at hr; cases hr
      exact .value v
    · obtain ⟨p, s', -, h, -⟩ := h
      rw [h] at hr; cases hr
      exact .error e
    · rw [show call s = .panic from h] at hr; cases hr

theorem javaBytes_unique {l : List Int8} {b b' : List UInt8} (h : JavaBytes l b) (h' : JavaBytes l b') : b = b' := by
  rw [javaBytes_iff] at h h'
  rw [← h, h']

theorem javaItems_unique {l : List (List Int8)} {b b' : List (List UInt8)} (h : JavaItems l b) (h' : JavaItems l b') : b = b' := by
  unfold JavaItems at h h'
  rw [forall₂_javaBytes_iff] at h h'
  rw [← h, h']

/-- the bytes of a region of known length are unique -/
theorem holds_unique {mem : Memory} {p : Nat} {b b' : List UInt8} (hl : b.length = b'.length) (h : Holds mem p b)
    (h' : Holds mem p b') : b = b' := by
  refine List.ext_getElem hl fun i hi hi' => ?_
  have h1 := h i b[i] (List.getElem?_eq_getElem hi)
  have h2 := h' i b'[i] (List.getElem?_eq_getElem hi')
  rw [h1] at h2
  exact Option.some.inj h2

theorem buffersHold_unique {mem : Memory} {n : Nat} {ptrs : List Nat} {items items' : List (List UInt8)}
    (h : BuffersHold mem n ptrs items) (h' : BuffersHold mem n ptrs items') : items = items' := by
  induction h generalizing items' with
  | nil => cases h'; rfl
  | cons hd _ ih =>
    cases h' with
    | cons hd' tl' => rw [holds_unique (hd.1.trans hd'.1.symm) hd.2 hd'.2, ih tl']

theorem buffersHold_of {mem : Memory} {n : Nat} {ptrs : List Nat} {items : List (List UInt8)} (hl : ptrs.length = items.length)
    (hs : ∀ c ∈ items, c.length = n) (h : ∀ r ∈ ptrs.zip items, Holds mem r.1 r.2) : BuffersHold mem n ptrs items := by
  unfold BuffersHold
  rw [List.forall₂_iff_zip]
  exact ⟨hl, fun {a b} hab => ⟨hs b (List.of_mem_zip hab).2, h (a, b) hab⟩⟩

/-- an item of the wrong size comes first -/
theorem firstWrong_of_not_sized {α : Type} {n : Nat} {l : List (List α)} (h : ¬ Sized n l) : ∃ got, FirstWrong n got l := by
  induction l with
  | nil => exact absurd (fun x hx => by simp at hx) h
  | cons a l ih =>
    by_cases ha : a.length = n
    · have : ¬ Sized n l := fun hl => h (by
        intro x hx
        rcases List.mem_cons.1 hx with rfl | hx
        · exact ha
        · exact hl x hx)
      obtain ⟨got, pre, x, post, rfl, hp, hx⟩ := ih this
      refine ⟨got, a :: pre, x, post, rfl, ?_, hx⟩
      intro y hy
      rcases List.mem_cons.1 hy with rfl | hy
      · exact ha
      · exact hp y hy
    · exact ⟨a.length, [], a, l, rfl, (fun x hx => by simp at hx), rfl, ha⟩

/-- the same for arrays -/
theorem firstWrong_arrays {n : Nat} {l : List CsArray} (h : ¬ ∀ a ∈ l, a.length = n) :
    ∃ pre a post, l = pre ++ a :: post ∧ (∀ b ∈ pre, b.length = n) ∧ a.length ≠ n := by
  induction l with
  | nil => exact absurd (fun x hx => by simp at hx) h
  | cons a l ih =>
    by_cases ha : a.length = n
    · have : ¬ ∀ b ∈ l, b.length = n := fun hl => h (by
        intro x hx
        rcases List.mem_cons.1 hx with rfl | hx
        · exact ha
        · exact hl x hx)
      obtain ⟨pre, x, post, rfl, hp, hx⟩ := ih this
      refine ⟨a :: pre, x, post, rfl, ?_, hx⟩
      intro y hy
      rcases List.mem_cons.1 hy with rfl | hy
      · exact ha
      · exact hp y hy
    · exact ⟨[], a, l, rfl, (fun x hx => by simp at hx), ha⟩

theorem sized_javaItems {n : Nat} {l : List (List Int8)} {b : List (List UInt8)} (h : JavaItems l b) : Sized n l ↔ Sized n b := by
  unfold JavaItems at h
  rw [forall₂_javaBytes_iff] at h
  rw [← h]
  exact sized_map.symm

theorem sized_csItems {mem : Memory} {n : Nat} {l : List CsArray} {b : List (List UInt8)} (h : CsItemsHold mem l b) :
    (∀ a ∈ l, a.length = n) ↔ Sized n b := by
  induction h with
  | nil => simp [Sized]
  | cons hd _ ih =>
    unfold Sized at ih ⊢
    rw [List.forall_mem_cons, List.forall_mem_cons, ih, hd.length]

theorem verdict_exists (lib : Outcome Error Unit) : ∃ v, Verdict lib v := by
  rcases lib with ⟨⟩ | e | _
  · exact ⟨_, .valid⟩
  · by_cases h : ∃ e', e = .Verifier (.FK20 e')
    · obtain ⟨e', rfl⟩ := h
      exact ⟨_, .invalid e'⟩
    · exact ⟨_, .error e (fun e' he => h ⟨e', he⟩)⟩
  · exact ⟨_, .panic⟩

theorem verdict_functional {lib : Outcome Error Unit} {v v' : Outcome Error Bool} (h : Verdict lib v) (h' : Verdict lib v') : v = v' := by
  cases h with
  | valid => cases h'; rfl
  | invalid e =>
    cases h' with
    | invalid => rfl
    | error _ hne => exact absurd rfl (hne e)
  | error e hne =>
    cases h' with
    | invalid e' => exact absurd rfl (hne e')
    | error => rfl
  | panic => cases h'; rfl

end Verif
