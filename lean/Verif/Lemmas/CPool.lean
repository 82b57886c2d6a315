import Verif.Lemmas.CThreads
import Mathlib.Logic.Relation

set_option linter.unusedSectionVars false

/-! The invariant of a process whose threads have separate footprints. -/
namespace Verif
open Spec (Holds Mapped Span Request NoConflict Effect Finished Race)

namespace CPool
open CProg (Safe Own Mem safe_congr)
variable {Ctx : Type}

/-- the postcondition of a call -/
def Post : Effect → CResult → Own → Mem → Prop
  | .ok regions, r, _, m => r = ⟨.Ok, 0⟩ ∧ ∀ g ∈ regions, Holds m g.1 g.2
  | .err e, r, o, _ => ∃ p, p ≠ 0 ∧ o = some (p, e.debug) ∧ r = ⟨.Err, p⟩
  | .panic, _, _, _ => False

/-- the call is safe with the footprint of the request -/
def SafeFor (ctxs : Nat → Option Ctx) (r : Request) (x : CProg Ctx Empty CResult) (o : Own) (m : Mem) : Prop :=
  Safe r.reads r.writes ctxs (fun e _ _ => e.elim) (∀ regions, r.effect ≠ .ok regions) (Post r.effect) x o m

/-- the outputs lie in the footprint -/
def Local (r : Request) : Prop := ∀ regions, r.effect = .ok regions → ∀ g ∈ regions, ∀ a, Span g.1 g.2.length a → r.writes a

theorem SafeFor.congr {ctxs : Nat → Option Ctx} {r : Request} (hl : Local r) {x : CProg Ctx Empty CResult} {o : Own} {m m' : Mem}
    (hm : ∀ p, r.reads p ∨ r.writes p → m p = m' p) (h : SafeFor ctxs r x o m) : SafeFor ctxs r x o m' := by
  refine safe_congr ?_ (fun e => e.elim) hm h
  intro res o m m' hm h
  cases he : r.effect with
  | ok regions =>
    rw [he] at h
    refine ⟨h.1, fun g hg i b hb => ?_⟩
    rw [← hm _ (.inr (hl _ he g hg _ ⟨by omega, ?_⟩))]
    · exact h.2 g hg i b hb
    · have := (List.getElem?_eq_some_iff.1 hb).1
      omega
  | err e =>
    rw [he] at h
    exact h
  | panic =>
    rw [he] at h
    exact h

/-- the invariant -/
structure Inv (s₀ : CState Ctx) (rs : List Request) (w : CPool Ctx) (o : Nat → Own) : Prop where
  ctxs : w.s.ctxs = s₀.ctxs
  length : w.threads.length = rs.length
  mapped : ∀ a, s₀.mem a ≠ none → w.s.mem a ≠ none
  frame : ∀ a, s₀.mem a ≠ none → (∀ r ∈ rs, ¬ r.writes a) → w.s.mem a = s₀.mem a
  safe : ∀ (i : Nat) r x, rs[i]? = some r → w.threads[i]? = some x → SafeFor s₀.ctxs r x (o i) w.s.mem
  owned : ∀ (i : Nat) p msg, o i = some (p, msg) →
    w.s.strings p = some (msg.length + 1) ∧ Holds w.s.mem p (msg ++ [0]) ∧ ∀ a, Span p (msg.length + 1) a → s₀.mem a = none
  apart : ∀ (i j : Nat) p q msg msg', i ≠ j → o i = some (p, msg) → o j = some (q, msg') → p ≠ q

variable {s₀ : CState Ctx} {rs : List Request}

/-- a step that changes memory only where no other thread looks keeps the invariant -/
theorem Inv.step {w w' : CPool Ctx} {o : Nat → Own} (hn : NoConflict rs)
    (hmap : ∀ r ∈ rs, ∀ a, r.reads a ∨ r.writes a → s₀.mem a ≠ none) (hl : ∀ r ∈ rs, Local r)
    (h : Inv s₀ rs w o) (hs : CPoolStep w w') : ∃ o', Inv s₀ rs w' o' := by
  cases hs with
  | @mk s s' i x x' threads hx hst =>
    have hi := (List.getElem?_eq_some_iff.1 hx).1
    have hir : i < rs.length := by have := h.length; simp only at this; omega
    obtain ⟨r, hr⟩ : ∃ r, rs[i]? = some r := ⟨rs[i], List.getElem?_eq_getElem hir⟩
    have hsafe := h.safe i r x hr hx
    have hrm := List.mem_of_getElem? hr
    have hset : (threads.set i x')[i]? = some x' := by simp [hi]
    obtain ⟨hc, hlen, hmapd, hfr, hsf, how, hap⟩ := h
    simp only at hc hlen hmapd hfr hsf how hsafe
    -- the state is unchanged
    have same : SafeFor s₀.ctxs r x' (o i) s.mem → s' = s → ∃ o', Inv s₀ rs ⟨s', threads.set i x'⟩ o' := by
      rintro hx' rfl
      refine ⟨o, hc, by simpa using hlen, hmapd, hfr, ?_, how, hap⟩
      intro j r' y hj hy
      by_cases hij : i = j
      · subst hij
        simp only [hset] at hy
        cases hy
        rw [hr] at hj
        cases hj
        exact hx'
      · simp only [List.getElem?_set_ne hij] at hy
        exact hsf j r' y hj hy
    cases hst with
    | read hb =>
      obtain ⟨-, b, hb', hk⟩ := hsafe
      rw [hb] at hb'
      cases hb'
      exact same hk rfl
    | badRead hb =>
      obtain ⟨-, b, hb', hk⟩ := hsafe
      rw [hb] at hb'
      cases hb'
    | write hb =>
      obtain ⟨hw, -, hk⟩ := hsafe
      refine ⟨o, hc, by simpa using hlen, ?_, ?_, ?_, ?_, hap⟩
      · intro a ha
        simp only
        split_ifs
        · simp
        · exact hmapd a ha
      · intro a ha hnw
        simp only
        rw [if_neg, hfr a ha hnw]
        rintro rfl
        exact hnw r hrm hw
      · intro j r' y hj hy
        by_cases hij : i = j
        · subst hij
          simp only [hset] at hy
          cases hy
          rw [hr] at hj
          cases hj
          exact hk
        · simp only [List.getElem?_set_ne hij] at hy
          refine (hsf j r' y hj hy).congr (hl r' (List.mem_of_getElem? hj)) fun a ha => ?_
          simp only
          rw [if_neg]
          rintro rfl
          have := hn i j r r' hr hj hij _ hw
          tauto
      · intro j q msg hq
        obtain ⟨h1, h2, h3⟩ := how j q msg hq
        refine ⟨h1, fun n c hnc => ?_, h3⟩
        simp only
        rw [if_neg, h2 n c hnc]
        intro he
        have hlt := (List.getElem?_eq_some_iff.1 hnc).1
        simp only [List.length_append, List.length_singleton] at hlt
        exact hmap r hrm _ (.inr hw) (he ▸ h3 (q + n) ⟨by omega, by omega⟩)
    | badWrite hb =>
      obtain ⟨-, hb', -⟩ := hsafe
      exact absurd hb hb'
    | ctx hb =>
      obtain ⟨c, hb', hk⟩ := hsafe
      rw [← hc, hb] at hb'
      cases hb'
      exact same hk rfl
    | badCtx hb =>
      obtain ⟨c, hb', hk⟩ := hsafe
      rw [← hc, hb] at hb'
      cases hb'
    | @alloc msg p k h0 h64 hstr hfree =>
      obtain ⟨ho, -, hk⟩ := hsafe
      have hout : ∀ a, s.mem a ≠ none → overwrite s.mem p (msg ++ [0]) a = s.mem a := by
        intro a ha
        apply overwrite_outside
        by_contra hcon
        simp only [List.length_append, List.length_singleton] at hcon
        apply ha
        have := hfree (a - p) (by omega)
        rwa [show p + (a - p) = a by omega] at this
      refine ⟨fun j => if j = i then some (p, msg) else o j, hc, by simpa using hlen, ?_, ?_, ?_, ?_, ?_⟩
      · intro a ha
        simp only
        rw [hout a (hmapd a ha)]
        exact hmapd a ha
      · intro a ha hnw
        simp only
        rw [hout a (hmapd a ha)]
        exact hfr a ha hnw
      · intro j r' y hj hy
        have hcongr : ∀ a, r'.reads a ∨ r'.writes a → s.mem a = overwrite s.mem p (msg ++ [0]) a := fun a ha =>
          (hout a (hmapd a (hmap r' (List.mem_of_getElem? hj) a ha))).symm
        by_cases hij : i = j
        · subst hij
          simp only [hset] at hy
          cases hy
          rw [hr] at hj
          cases hj
          simp only [if_true]
          exact SafeFor.congr (hl r hrm) hcongr (hk p h0)
        · simp only [List.getElem?_set_ne hij] at hy
          simp only [if_neg (Ne.symm hij)]
          exact (hsf j r' y hj hy).congr (hl r' (List.mem_of_getElem? hj)) hcongr
      · intro j q msg' hq
        simp only at hq ⊢
        split_ifs at hq with hji
        · simp only [Option.some.injEq, Prod.mk.injEq] at hq
          obtain ⟨rfl, rfl⟩ := hq
          refine ⟨by simp, holds_overwrite_self _ _ _, fun a ha => ?_⟩
          by_contra hcon
          refine hmapd a hcon ?_
          have := hfree (a - p) (by have := ha.1; have := ha.2; omega)
          rwa [show p + (a - p) = a by have := ha.1; omega] at this
        · obtain ⟨h1, h2, h3⟩ := how j q msg' hq
          refine ⟨?_, fun n c hnc => ?_, h3⟩
          · rw [if_neg, h1]
            rintro rfl
            rw [hstr] at h1
            cases h1
          · rw [hout, h2 n c hnc]
            rw [h2 n c hnc]
            simp
      · intro j j' q q' m m' hjj hq hq'
        split_ifs at hq hq' with h1 h2 h2
        · exact absurd (h1.trans h2.symm) hjj
        · cases hq
          rintro rfl
          rw [(how j' _ _ hq').1] at hstr
          cases hstr
        · cases hq'
          rintro rfl
          rw [(how j _ _ hq).1] at hstr
          cases hstr
        · exact hap j j' q q' m m' hjj hq hq'
    | noMemory =>
      obtain ⟨-, hp, -⟩ := hsafe
      exact same hp rfl

theorem Inv.reach {w w' : CPool Ctx} {o : Nat → Own} (hn : NoConflict rs)
    (hmap : ∀ r ∈ rs, ∀ a, r.reads a ∨ r.writes a → s₀.mem a ≠ none) (hl : ∀ r ∈ rs, Local r)
    (h : Inv s₀ rs w o) (hs : Relation.ReflTransGen CPoolStep w w') : ∃ o', Inv s₀ rs w' o' := by
  induction hs with
  | refl => exact ⟨o, h⟩
  | tail _ hst ih =>
    obtain ⟨o', h'⟩ := ih
    exact h'.step hn hmap hl hst

end CPool
end Verif
