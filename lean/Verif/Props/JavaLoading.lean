import Verif.Lemmas.JavaLoading
import Mathlib.Tactic.IntervalCases

/-! C64: constructors of the Java class in several threads load the native library once and before it is used. -/
namespace Verif

theorem LReach.inv {mayFail : Bool} {n k : Nat} {w : LWorld} (h : LReach mayFail (LWorld.init n) k w) : LInv mayFail w := by
  induction h with
  | refl => exact LInv.init mayFail n
  | step _ hs ih => exact ih.step hs

theorem LReach.winner {mayFail : Bool} {n k : Nat} {w : LWorld} (h : LReach mayFail (LWorld.init n) k w) : LWinner w := by
  induction h with
  | refl => intro hf; simp [LWorld.init] at hf
  | step hr hs ih => exact hr.inv.winner_step ih hs

theorem LReach.length {mayFail : Bool} {n k : Nat} {w : LWorld} (h : LReach mayFail (LWorld.init n) k w) : w.threads.length = n := by
  induction h with
  | refl => simp [LWorld.init]
  | step _ hs ih => cases hs with | step hi ht => simpa using ih

/-- C64: any number of threads construct objects, interleaved in any way, and loading may fail: the library is loaded at most once. -/
theorem C64_once {mayFail : Bool} {n k : Nat} {w : LWorld} (h : LReach mayFail (LWorld.init n) k w) : w.loads ≤ 1 := by
  have hi := h.inv
  cases hf : w.libraryLoaded
  · by_cases hl : ∃ i : Nat, w.threads[i]? = some .loaded
    · obtain ⟨i, hi'⟩ := hl
      exact (hi.loaded i hi').2.le
    · push Not at hl
      rw [hi.noFlag hf hl]
      omega
  · exact (hi.flag hf).le

/-- C64: no native method is called before the library is loaded; a constructor that returns has found it loaded. -/
theorem C64_linked {mayFail : Bool} {n k : Nat} {w : LWorld} (h : LReach mayFail (LWorld.init n) k w) (i : Nat) :
    w.threads[i]? ≠ some .linkError ∧
      (w.threads[i]? = some .ready ∨ w.threads[i]? = some .done → w.loads = 1 ∧ w.libraryLoaded = true) := by
  have hi := h.inv
  refine ⟨hi.noLinkError i, ?_⟩
  intro hp
  have hf : w.libraryLoaded = true := by
    rcases hp with hp | hp
    · exact hi.after i _ hp (Or.inr (Or.inl rfl))
    · exact hi.after i _ hp (Or.inr (Or.inr rfl))
  exact ⟨hi.flag hf, hf⟩

/-- C64: at most one thread is inside the synchronized block. -/
theorem C64_exclusive {mayFail : Bool} {n k : Nat} {w : LWorld} (h : LReach mayFail (LWorld.init n) k w) (i j : Nat) (p q : LPc)
    (hp : w.threads[i]? = some p) (hq : w.threads[j]? = some q) (hpl : p.inLock = true) (hql : q.inLock = true) : i = j := by
  have h1 := (h.inv.owner i p hp).1 hpl
  have h2 := (h.inv.owner j q hq).1 hql
  exact Option.some.inj (h1.symm.trans h2)

/-- C64: the threads cannot block each other: as long as a constructor has not ended, some thread can make a step. -/
theorem C64_progress {mayFail : Bool} {n k : Nat} {w : LWorld} (h : LReach mayFail (LWorld.init n) k w)
    (hu : ∃ (i : Nat) (pc : LPc), w.threads[i]? = some pc ∧ pc.finished = false) : ∃ w', LStep mayFail w w' := by
  obtain ⟨i, pc, hi, hpc⟩ := hu
  have hinv := h.inv
  by_cases hlock : ∃ o, w.lock = some o
  · obtain ⟨o, ho⟩ := hlock
    obtain ⟨q, hq⟩ : ∃ q, w.threads[o]? = some q := ⟨_, List.getElem?_eq_getElem (hinv.ownerLt o ho)⟩
    have hin := (hinv.owner o q hq).2 ho
    cases q with
    | locked => exact ⟨_, .step hq .second⟩
    | loading => exact ⟨_, .step hq .load⟩
    | loaded => exact ⟨_, .step hq .set⟩
    | leave t => exact ⟨_, .step hq .unlock⟩
    | _ => simp [LPc.inLock] at hin
  · have hn : w.lock = none := by
      cases hl : w.lock with
      | none => rfl
      | some o => exact absurd ⟨o, hl⟩ hlock
    cases pc with
    | start => exact ⟨_, .step hi .first⟩
    | wait =>
      have ht : LThreadStep mayFail i w.libraryLoaded w.lock w.loads .wait w.libraryLoaded (some i) w.loads .locked := by
        rw [hn]; exact .lock
      exact ⟨_, .step hi ht⟩
    | ready => exact ⟨_, .step hi .native⟩
    | locked => exact ⟨_, .step hi .second⟩
    | loading => exact ⟨_, .step hi .load⟩
    | loaded => exact ⟨_, .step hi .set⟩
    | leave t => exact ⟨_, .step hi .unlock⟩
    | done => simp [LPc.finished] at hpc
    | threw => simp [LPc.finished] at hpc
    | linkError => simp [LPc.finished] at hpc

/-- C64: every execution ends: `n` constructor calls make at most `7 n` steps. -/
theorem C64_terminates {mayFail : Bool} {n k : Nat} {w : LWorld} (h : LReach mayFail (LWorld.init n) k w) : k ≤ 7 * n := by
  have key : k + (w.threads.map LPc.left).sum ≤ 7 * n := by
    induction h with
    | refl => simp [LWorld.init, LPc.left, mul_comm]
    | step _ hs ih => have := left_step hs; omega
  omega

/-- C64: if loading does not fail, every constructor returns. -/
theorem C64_all_return {n k : Nat} {w : LWorld} (h : LReach false (LWorld.init n) k w) (hend : ¬ ∃ w', LStep false w w') (i : Nat)
    (hi : i < n) : w.threads[i]? = some .done := by
  have hlt : i < w.threads.length := by rw [h.length]; exact hi
  have hq : w.threads[i]? = some w.threads[i] := List.getElem?_eq_getElem hlt
  have hfin : w.threads[i].finished = true := by
    by_contra hc
    exact hend (C64_progress h ⟨i, _, hq, by simpa using hc⟩)
  rw [hq]
  generalize w.threads[i] = q at hq hfin
  cases q with
  | done => rfl
  | threw => exact absurd rfl (h.inv.noThrow rfl i _ hq).2
  | linkError => exact absurd hq (C64_linked h i).1
  | _ => simp [LPc.finished] at hfin

/-- C64: a failed attempt leaves the class as it was: once every constructor has ended and none returned, the lock is free, nothing is
loaded and the next constructor tries again. -/
theorem C64_retry {mayFail : Bool} {n k : Nat} {w : LWorld} (h : LReach mayFail (LWorld.init n) k w)
    (hall : ∀ i < n, w.threads[i]? = some .threw) : w.lock = none ∧ w.loads = 0 ∧ w.libraryLoaded = false := by
  have hi := h.inv
  have hlen := h.length
  have hpc : ∀ (i : Nat) (pc : LPc), w.threads[i]? = some pc → pc = .threw := by
    intro i pc hp
    have : i < n := by rw [← hlen]; exact (List.getElem?_eq_some_iff.1 hp).1
    rw [hall i this] at hp
    exact (Option.some.inj hp).symm
  have hf : w.libraryLoaded = false := by
    by_contra hc
    obtain ⟨i, pc, hp, hq⟩ := h.winner (by simpa using hc)
    rw [hpc i pc hp] at hq
    simp at hq
  refine ⟨?_, hi.noFlag hf (fun i hp => absurd (hpc i _ hp) (by simp)), hf⟩
  cases hl : w.lock with
  | none => rfl
  | some o =>
    have ho := List.getElem?_eq_getElem (hi.ownerLt o hl)
    have := (hi.owner o _ ho).2 hl
    rw [hpc o _ ho] at this
    simp [LPc.inLock] at this

/-! Non-vacuity: two threads; the first loads the library while the second waits, then both return. -/

example : ∃ k w, LReach true (LWorld.init 2) k w ∧ w.threads = [.done, .done] ∧ w.loads = 1 ∧ w.libraryLoaded = true := by
  have h0 : LReach true (LWorld.init 2) 0 ⟨false, none, 0, [.start, .start]⟩ := .refl
  have h1 : LReach true (LWorld.init 2) 1 ⟨false, none, 0, [.wait, .start]⟩ := h0.step (.step (i := 0) rfl .first)
  have h2 : LReach true (LWorld.init 2) 2 ⟨false, none, 0, [.wait, .wait]⟩ := h1.step (.step (i := 1) rfl .first)
  have h3 : LReach true (LWorld.init 2) 3 ⟨false, some 0, 0, [.locked, .wait]⟩ := h2.step (.step (i := 0) rfl .lock)
  have h4 : LReach true (LWorld.init 2) 4 ⟨false, some 0, 0, [.loading, .wait]⟩ := h3.step (.step (i := 0) rfl .second)
  have h5 : LReach true (LWorld.init 2) 5 ⟨false, some 0, 1, [.loaded, .wait]⟩ := h4.step (.step (i := 0) rfl .load)
  have h6 : LReach true (LWorld.init 2) 6 ⟨true, some 0, 1, [.leave false, .wait]⟩ := h5.step (.step (i := 0) rfl .set)
  have h7 : LReach true (LWorld.init 2) 7 ⟨true, none, 1, [.ready, .wait]⟩ := h6.step (.step (i := 0) rfl .unlock)
  have h8 : LReach true (LWorld.init 2) 8 ⟨true, some 1, 1, [.ready, .locked]⟩ := h7.step (.step (i := 1) rfl .lock)
  have h9 : LReach true (LWorld.init 2) 9 ⟨true, some 1, 1, [.ready, .leave false]⟩ := h8.step (.step (i := 1) rfl .second)
  have h10 : LReach true (LWorld.init 2) 10 ⟨true, none, 1, [.ready, .ready]⟩ := h9.step (.step (i := 1) rfl .unlock)
  have h11 : LReach true (LWorld.init 2) 11 ⟨true, none, 1, [.done, .ready]⟩ := h10.step (.step (i := 0) rfl .native)
  have h12 : LReach true (LWorld.init 2) 12 ⟨true, none, 1, [.done, .done]⟩ := h11.step (.step (i := 1) rfl .native)
  exact ⟨12, _, h12, rfl, rfl, rfl⟩

/-- one thread whose attempt fails -/
example : ∃ k w, LReach true (LWorld.init 1) k w ∧ ∀ i < 1, w.threads[i]? = some .threw := by
  have h0 : LReach true (LWorld.init 1) 0 ⟨false, none, 0, [.start]⟩ := .refl
  have h1 : LReach true (LWorld.init 1) 1 ⟨false, none, 0, [.wait]⟩ := h0.step (.step (i := 0) rfl .first)
  have h2 : LReach true (LWorld.init 1) 2 ⟨false, some 0, 0, [.locked]⟩ := h1.step (.step (i := 0) rfl .lock)
  have h3 : LReach true (LWorld.init 1) 3 ⟨false, some 0, 0, [.loading]⟩ := h2.step (.step (i := 0) rfl .second)
  have h4 : LReach true (LWorld.init 1) 4 ⟨false, some 0, 0, [.leave true]⟩ := h3.step (.step (i := 0) rfl (.loadThrows rfl))
  have h5 : LReach true (LWorld.init 1) 5 ⟨false, none, 0, [.threw]⟩ := h4.step (.step (i := 0) rfl .unlock)
  exact ⟨5, _, h5, by intro i hi; interval_cases i; rfl⟩

end Verif
