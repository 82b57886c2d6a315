import Verif.Model.JavaLoading
import Mathlib.Data.List.Basic
import Mathlib.Algebra.BigOperators.Group.List.Basic
import Mathlib.Tactic.Ring

/-! Invariant of the constructors of `LibEthKZG` in several threads. -/
namespace Verif

/-- inside the synchronized block -/
def LPc.inLock : LPc → Bool
  | .locked | .loading | .loaded | .leave _ => true
  | _ => false

/-- the constructor call has ended -/
def LPc.finished : LPc → Bool
  | .done | .threw | .linkError => true
  | _ => false

/-- steps that are left at most -/
def LPc.left : LPc → Nat
  | .start => 7
  | .wait => 6
  | .locked => 5
  | .loading => 4
  | .loaded => 3
  | .leave _ => 2
  | .ready => 1
  | .done | .threw | .linkError => 0

structure LInv (mayFail : Bool) (w : LWorld) : Prop where
  owner : ∀ (i : Nat) (pc : LPc), w.threads[i]? = some pc → (pc.inLock = true ↔ w.lock = some i)
  ownerLt : ∀ i, w.lock = some i → i < w.threads.length
  flag : w.libraryLoaded = true → w.loads = 1
  noFlag : w.libraryLoaded = false → (∀ i : Nat, w.threads[i]? ≠ some .loaded) → w.loads = 0
  loading : ∀ i : Nat, w.threads[i]? = some .loading → w.libraryLoaded = false
  loaded : ∀ i : Nat, w.threads[i]? = some .loaded → w.libraryLoaded = false ∧ w.loads = 1
  after : ∀ (i : Nat) (pc : LPc), w.threads[i]? = some pc → pc = .leave false ∨ pc = .ready ∨ pc = .done → w.libraryLoaded = true
  noLinkError : ∀ i : Nat, w.threads[i]? ≠ some .linkError
  noThrow : mayFail = false → ∀ (i : Nat) (pc : LPc), w.threads[i]? = some pc → pc ≠ .leave true ∧ pc ≠ .threw

theorem LInv.init (mayFail : Bool) (n : Nat) : LInv mayFail (LWorld.init n) := by
  have h : ∀ (i : Nat) (pc : LPc), (LWorld.init n).threads[i]? = some pc → pc = .start := by
    intro i pc h
    simp only [LWorld.init, List.getElem?_replicate] at h
    split_ifs at h
    exact (Option.some.inj h).symm
  refine ⟨?_, ?_, ?_, ?_, ?_, ?_, ?_, ?_, ?_⟩
  · intro i pc hp; rw [h i pc hp]; simp [LPc.inLock, LWorld.init]
  · intro i hi; simp [LWorld.init] at hi
  · intro hf; simp [LWorld.init] at hf
  · intro _ _; rfl
  · intro i hp; exact absurd (h i _ hp) (by simp)
  · intro i hp; exact absurd (h i _ hp) (by simp)
  · intro i pc hp hq; rw [h i pc hp] at hq; simp at hq
  · intro i hp; exact absurd (h i _ hp) (by simp)
  · intro _ i pc hp; rw [h i pc hp]; simp

theorem LInv.step {mayFail : Bool} {w w' : LWorld} (h : LInv mayFail w) (hs : LStep mayFail w w') : LInv mayFail w' := by
  cases hs with | @step i pc pc' f l n hi ht =>
    obtain ⟨f₀, l₀, n₀, ts⟩ := w
    simp only at hi ht ⊢
    have hlt : i < ts.length := (List.getElem?_eq_some_iff.1 hi).1
    have hset : ∀ j q, (ts.set i pc')[j]? = some q ↔ (i = j ∧ q = pc') ∨ (i ≠ j ∧ ts[j]? = some q) := by
      intro j q
      rw [List.getElem?_set]
      by_cases hij : i = j
      · subst hij; simp [hlt, eq_comm]
      · simp [hij]
    have hown := h.owner i pc hi
    have hmut : ∀ (j : Nat) (q : LPc), i ≠ j → ts[j]? = some q → l₀ = some i → q.inLock = false := by
      intro j q hij hj hl
      have := h.owner j q hj
      rw [show (LWorld.mk f₀ l₀ n₀ ts).lock = some i from hl] at this
      by_contra hc
      exact hij (Option.some.inj (this.1 (by simpa using hc)))
    obtain ⟨h1, h2, h3, h4, h5, h6, h7, h8, h9⟩ := h
    simp only at h1 h2 h3 h4 h5 h6 h7 h8 h9 hown
    cases ht with
    | first => refine ⟨?_, ?_, ?_, ?_, ?_, ?_, ?_, ?_, ?_⟩ <;> (try simp only [hset, ne_eq]) <;> grind [LPc.inLock]
    | lock => refine ⟨?_, ?_, ?_, ?_, ?_, ?_, ?_, ?_, ?_⟩ <;> (try simp only [hset, ne_eq]) <;> grind [LPc.inLock]
    | second => refine ⟨?_, ?_, ?_, ?_, ?_, ?_, ?_, ?_, ?_⟩ <;> (try simp only [hset, ne_eq]) <;> grind [LPc.inLock]
    | load => refine ⟨?_, ?_, ?_, ?_, ?_, ?_, ?_, ?_, ?_⟩ <;> (try simp only [hset, ne_eq]) <;> grind [LPc.inLock]
    | loadThrows hm => refine ⟨?_, ?_, ?_, ?_, ?_, ?_, ?_, ?_, ?_⟩ <;> (try simp only [hset, ne_eq]) <;> grind [LPc.inLock]
    | set => refine ⟨?_, ?_, ?_, ?_, ?_, ?_, ?_, ?_, ?_⟩ <;> (try simp only [hset, ne_eq]) <;> grind [LPc.inLock]
    | unlock => refine ⟨?_, ?_, ?_, ?_, ?_, ?_, ?_, ?_, ?_⟩ <;> (try simp only [hset, ne_eq]) <;> grind [LPc.inLock]
    | native => refine ⟨?_, ?_, ?_, ?_, ?_, ?_, ?_, ?_, ?_⟩ <;> (try simp only [hset, ne_eq]) <;> grind [LPc.inLock]

theorem sum_left_set (ts : List LPc) (i : Nat) (p q : LPc) (hi : ts[i]? = some p) (hq : q.left + 1 ≤ p.left) :
    ((ts.set i q).map LPc.left).sum + 1 ≤ (ts.map LPc.left).sum := by
  induction ts generalizing i with
  | nil => simp at hi
  | cons t ts ih =>
    cases i with
    | zero =>
      simp only [List.getElem?_cons_zero, Option.some.injEq] at hi
      subst hi
      simp only [List.set_cons_zero, List.map_cons, List.sum_cons]
      omega
    | succ i =>
      simp only [List.getElem?_cons_succ] at hi
      have := ih i hi
      simp only [List.set_cons_succ, List.map_cons, List.sum_cons]
      omega

theorem LThreadStep.left_lt {mayFail : Bool} {i : Nat} {f l n p f' l' n' q} (h : LThreadStep mayFail i f l n p f' l' n' q) :
    q.left + 1 ≤ p.left := by
  cases h <;> simp only [LPc.left] <;> (try split_ifs) <;> simp [LPc.left]

theorem left_step {mayFail : Bool} {w w' : LWorld} (hs : LStep mayFail w w') :
    (w'.threads.map LPc.left).sum + 1 ≤ (w.threads.map LPc.left).sum := by
  cases hs with | @step i pc pc' f l n hi ht => exact sum_left_set w.threads i pc pc' hi ht.left_lt

/-- a thread that has found the library loaded -/
def LWinner (w : LWorld) : Prop :=
  w.libraryLoaded = true → ∃ (i : Nat) (pc : LPc), w.threads[i]? = some pc ∧ (pc = .leave false ∨ pc = .ready ∨ pc = .done)

theorem LInv.winner_step {mayFail : Bool} {w w' : LWorld} (h : LInv mayFail w) (hw : LWinner w) (hs : LStep mayFail w w') :
    LWinner w' := by
  cases hs with | @step i pc pc' f l n hi ht =>
  intro hf
  simp only at hf
  have hlt : i < w.threads.length := (List.getElem?_eq_some_iff.1 hi).1
  have hself : (w.threads.set i pc')[i]? = some pc' := by simp [hlt]
  by_cases hp' : pc' = .leave false ∨ pc' = .ready ∨ pc' = .done
  · exact ⟨i, pc', hself, hp'⟩
  · have hfw : w.libraryLoaded = true := by
      generalize w.libraryLoaded = f₀ at ht
      generalize w.lock = l₀ at ht
      cases ht <;> simp_all
    obtain ⟨j, q, hj, hq⟩ := hw hfw
    have hij : i ≠ j := by
      rintro rfl
      rw [hi] at hj
      have hpq : pc = q := Option.some.inj hj
      subst hpq
      apply hp'
      have hn := h.flag hfw
      generalize w.libraryLoaded = f₀ at ht
      generalize w.lock = l₀ at ht
      rw [hn] at ht
      rcases hq with rfl | rfl | rfl <;> cases ht <;> simp
    exact ⟨j, q, by simpa [List.getElem?_set, hij] using hj, hq⟩

end Verif
