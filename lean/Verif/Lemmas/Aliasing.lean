import Verif.Spec.Aliasing
import Verif.Spec.CThreads
import Mathlib.Tactic.Common

/-! What both formulations of the aliasing rules allow. -/
namespace Verif
open Spec (AliasModel RefKind Span updateAt stackedBorrows treeBorrows)

/-- Facts that hold for both formulations. `Readable st u a`: the byte may be read through `u`, and further reads do not change this.
`Own st u a`: the byte may be read and written through `u`, and accesses to other bytes do not change this. -/
structure AliasLaws (B : AliasModel) where
  Readable : B.State → (tag addr : Nat) → Prop
  Own : B.State → (tag addr : Nat) → Prop
  /-- a new mutable reference does not end shared ones before it is written to -/
  tolerant : Bool
  init : B.FromC B.init
  base : ∀ {st} (a : Nat), B.FromC st → Own st 0 a
  shared : ∀ {st} (p n : Nat), B.FromC st → ∃ t st', B.retag .shared p n 0 st = some (t, st') ∧ B.FromC st' ∧
    (∀ a, Span p n a → Readable st' t a) ∧ ∀ u a, Readable st u a → Readable st' u a
  unique : ∀ {st} (p n u : Nat), B.FromC st → 0 < n → (∀ a, Span p n a → Own st u a) → ∃ t st', B.retag .unique p n u st = some (t, st') ∧
    B.FromC st' ∧ (∀ a, Span p n a → Own st' t a) ∧
    ∀ v a, (¬ Span p n a ∨ tolerant = true → Readable st v a → Readable st' v a) ∧ (¬ Span p n a → Own st v a → Own st' v a)
  read : ∀ {st} {a t : Nat}, B.FromC st → Readable st t a ∨ Own st t a → ∃ st', B.access false a t st = some st' ∧ B.FromC st' ∧
    (∀ v x, Readable st v x → Readable st' v x) ∧ ∀ v x, x ≠ a ∨ v = t → Own st v x → Own st' v x
  write : ∀ {st} {a t : Nat}, B.FromC st → Own st t a → ∃ st', B.access true a t st = some st' ∧ B.FromC st' ∧
    (∀ v x, x ≠ a → Readable st v x → Readable st' v x) ∧ ∀ v x, x ≠ a ∨ v = t → Own st v x → Own st' v x
  /-- a new mutable reference that nothing was written through: reads through other references do not end it -/
  Pending : B.State → (tag addr : Nat) → Prop
  pendingOwn : ∀ {st} {t a : Nat}, B.FromC st → Pending st t a → Own st t a
  pendingNew : tolerant = true → ∀ {st st'} {p n t : Nat}, B.FromC st → B.retag .unique p n 0 st = some (t, st') → ∀ a, Pending st' t a
  pendingRead : ∀ {st st'} {a t : Nat}, B.access false a t st = some st' → ∀ v x, Pending st v x → Pending st' v x

theorem updateAt_self {α : Type} (g : Nat → α) (a : Nat) (v : α) : updateAt g a v a = v := if_pos rfl
theorem updateAt_ne {α : Type} (g : Nat → α) {a x : Nat} (v : α) (h : x ≠ a) : updateAt g a v x = g x := if_neg h

theorem span_succ {p n a : Nat} : Span p (n + 1) a ↔ a = p ∨ Span (p + 1) n a := by unfold Span; omega

namespace Stacked
open Spec.StackedBorrows

/-- the stack of a byte that the foreign code may access, with tags below `n` -/
def Good (n : Nat) (stack : List Item) : Prop := ∃ items, stack = items ++ [⟨.sharedRW, 0⟩] ∧ ∀ i ∈ items, 0 < i.tag ∧ i.tag < n

theorem Good.mono {n m : Nat} {stack : List Item} (h : Good n stack) (hnm : n ≤ m) : Good m stack := by
  obtain ⟨items, rfl, hi⟩ := h
  exact ⟨items, rfl, fun i h => ⟨(hi i h).1, (hi i h).2.trans_le hnm⟩⟩

theorem Good.cons {n : Nat} {stack : List Item} (h : Good n stack) {i : Item} (h0 : 0 < i.tag) (hn : i.tag < n) : Good n (i :: stack) := by
  obtain ⟨items, rfl, hi⟩ := h
  exact ⟨i :: items, rfl, by simpa [h0, hn] using hi⟩

theorem Good.tag_lt {n : Nat} {stack : List Item} (h : Good n stack) (hn : 0 < n) {i : Item} (hi : i ∈ stack) : i.tag < n := by
  obtain ⟨items, rfl, h⟩ := h
  rcases List.mem_append.1 hi with hi | hi
  · exact (h i hi).2
  · rw [List.mem_singleton.1 hi]; exact hn

theorem Good.append {n : Nat} {stack : List Item} (h : Good n stack) {l : List Item} (hl : ∀ i ∈ l, 0 < i.tag ∧ i.tag < n) :
    Good n (l ++ stack) := by
  obtain ⟨items, rfl, hi⟩ := h
  refine ⟨l ++ items, by simp, fun i h => ?_⟩
  rcases List.mem_append.1 h with h | h
  · exact hl i h
  · exact hi i h

theorem split_some {w : Bool} {t : Nat} {stack above below : List Item} {g : Item} (h : split w t stack = some (above, g, below)) :
    stack = above ++ g :: below ∧ g.grants w t ∧ ∀ i ∈ above, ¬ i.grants w t := by
  induction stack generalizing above with
  | nil => cases h
  | cons i rest ih =>
    unfold split at h
    split_ifs at h with hi
    · cases h
      exact ⟨rfl, hi, by simp⟩
    · rw [Option.map_eq_some_iff] at h
      obtain ⟨⟨a', g', b'⟩, hr, he⟩ := h
      cases he
      obtain ⟨h1, h2, h3⟩ := ih hr
      exact ⟨by rw [h1]; rfl, h2, by simpa [hi] using h3⟩

theorem split_of_mem {w : Bool} {t : Nat} {stack : List Item} {i : Item} (hi : i ∈ stack) (hg : i.grants w t) :
    ∃ above g below, split w t stack = some (above, g, below) ∧ i ∈ g :: below := by
  induction stack with
  | nil => cases hi
  | cons j rest ih =>
    unfold split
    split_ifs with hj
    · exact ⟨_, _, _, rfl, hi⟩
    · rcases List.mem_cons.1 hi with rfl | hi
      · exact absurd hg hj
      · obtain ⟨above, g, below, h, hm⟩ := ih hi
        exact ⟨_, _, _, by rw [h]; rfl, hm⟩

theorem split_none {w : Bool} {t : Nat} {stack : List Item} (h : ∀ i ∈ stack, i.tag ≠ t) : split w t stack = none := by
  induction stack with
  | nil => rfl
  | cons j rest ih =>
    unfold split
    rw [if_neg (by simp [Item.grants, h j List.mem_cons_self]), ih fun i hi => h i (List.mem_cons_of_mem _ hi)]
    rfl

theorem Good.split {n : Nat} {w : Bool} {t : Nat} {stack above below : List Item} {g : Item} (hs : Good n stack)
    (h : split w t stack = some (above, g, below)) : Good n (g :: below) ∧ ∀ i ∈ above, 0 < i.tag ∧ i.tag < n := by
  obtain ⟨items, rfl, hi⟩ := hs
  obtain ⟨h1, -, -⟩ := split_some h
  rcases List.append_eq_append_iff.1 h1 with ⟨l, rfl, h2⟩ | ⟨l, rfl, h2⟩
  · cases l with
    | nil =>
      refine ⟨⟨[], h2.symm ▸ rfl, by simp⟩, by simpa using hi⟩
    | cons x l =>
      exfalso
      have := congrArg List.length h2
      simp at this
  · exact ⟨⟨l, h2, fun i h => hi i (List.mem_append_right _ h)⟩, fun i h => hi i (List.mem_append_left _ h)⟩

theorem takeWhile_holds {p : Item → Bool} {l : List Item} {i : Item} (h : i ∈ l.takeWhile p) : p i = true := by
  induction l with
  | nil => cases h
  | cons j l ih =>
    rw [List.takeWhile_cons] at h
    split_ifs at h with hj
    · rcases List.mem_cons.1 h with rfl | h
      · exact hj
      · exact ih h
    · cases h

theorem block_subset {above : List Item} {g i : Item} (h : i ∈ block above g) : i ∈ above ∧ i.perm = .sharedRW := by
  unfold block at h
  split_ifs at h
  · rw [List.mem_reverse] at h
    have h1 := List.takeWhile_subset _ h
    exact ⟨List.mem_reverse.1 h1, by simpa using takeWhile_holds h⟩
  · cases h

theorem tag_disableUnique (i : Item) : i.disableUnique.tag = i.tag := by unfold Item.disableUnique; split_ifs <;> rfl

/-- a read through an item that allows it -/
theorem read_of_mem {n t : Nat} {stack : List Item} {i : Item} (hs : Good n stack) (hi : i ∈ stack) (hg : i.grants false t) :
    ∃ stack', read t stack = some stack' ∧ Good n stack' ∧ (∀ j ∈ stack, j.perm = .sharedRO → j ∈ stack') ∧
      (∀ j ∈ stack, j.grants false t → j ∈ stack') ∧
      ∀ j ∈ stack', ∃ k ∈ stack, k.tag = j.tag ∧ (k.perm = .sharedRO → j.perm = .sharedRO) := by
  obtain ⟨above, g, below, h, hm⟩ := split_of_mem hi hg
  obtain ⟨h1, h2, h3⟩ := split_some h
  obtain ⟨hgood, ha⟩ := hs.split h
  refine ⟨above.map Item.disableUnique ++ g :: below, by unfold Spec.StackedBorrows.read; rw [h]; rfl, hgood.append ?_, ?_, ?_, ?_⟩
  · intro j hj
    obtain ⟨k, hk, rfl⟩ := List.mem_map.1 hj
    rw [tag_disableUnique]
    exact ha k hk
  · intro j hj hp
    rw [h1] at hj
    rcases List.mem_append.1 hj with hj | hj
    · exact List.mem_append_left _ (List.mem_map.2 ⟨j, hj, by simp [Item.disableUnique, hp]⟩)
    · exact List.mem_append_right _ hj
  · intro j hj hjg
    rw [h1] at hj
    rcases List.mem_append.1 hj with hj | hj
    · exact absurd hjg (h3 j hj)
    · exact List.mem_append_right _ hj
  · intro j hj
    rw [h1]
    rcases List.mem_append.1 hj with hj | hj
    · obtain ⟨k, hk, rfl⟩ := List.mem_map.1 hj
      exact ⟨k, List.mem_append_left _ hk, (tag_disableUnique k).symm, fun hp => by simp [Item.disableUnique, hp]⟩
    · exact ⟨j, List.mem_append_right _ hj, rfl, id⟩

/-- a write through an item that allows it -/
theorem write_of_mem {n t : Nat} {stack : List Item} {i : Item} (hs : Good n stack) (hi : i ∈ stack) (hg : i.grants true t) :
    ∃ stack', write t stack = some stack' ∧ Good n stack' ∧ ∀ j ∈ stack, j.grants true t → j ∈ stack' := by
  obtain ⟨above, g, below, h, hm⟩ := split_of_mem hi hg
  obtain ⟨h1, h2, h3⟩ := split_some h
  obtain ⟨hgood, ha⟩ := hs.split h
  refine ⟨block above g ++ g :: below, by unfold Spec.StackedBorrows.write; rw [h]; rfl, hgood.append fun j hj => ha j (block_subset hj).1, ?_⟩
  intro j hj hjg
  rw [h1] at hj
  rcases List.mem_append.1 hj with hj | hj
  · exact absurd hjg (h3 j hj)
  · exact List.mem_append_right _ hj

theorem Good.base_mem {n : Nat} {stack : List Item} (hs : Good n stack) : (⟨.sharedRW, 0⟩ : Item) ∈ stack := by
  obtain ⟨items, rfl, -⟩ := hs
  simp

/-- the foreign tag at a good stack -/
theorem Good.split_base {n : Nat} {stack : List Item} (hs : Good n stack) (w : Bool) :
    ∃ items, Spec.StackedBorrows.split w 0 stack = some (items, ⟨.sharedRW, 0⟩, []) ∧ stack = items ++ [⟨.sharedRW, 0⟩] ∧
      ∀ i ∈ items, 0 < i.tag ∧ i.tag < n := by
  obtain ⟨items, rfl, hi⟩ := hs
  refine ⟨items, ?_, rfl, hi⟩
  induction items with
  | nil => cases w <;> rfl
  | cons j rest ih =>
    have hj := hi j List.mem_cons_self
    rw [List.cons_append, Spec.StackedBorrows.split, if_neg (by simp [Item.grants]; omega), ih fun i h => hi i (List.mem_cons_of_mem _ h)]
    rfl

theorem eachByte_ok (f : List Item → Option (List Item)) (p n : Nat) (s : Nat → List Item)
    (h : ∀ a, Span p n a → ∃ x, f (s a) = some x) : ∃ s', eachByte f p n s = some s' ∧ (∀ a, Span p n a → f (s a) = some (s' a)) ∧
      ∀ a, ¬ Span p n a → s' a = s a := by
  induction n generalizing p s with
  | zero => exact ⟨s, rfl, fun a ha => by unfold Span at ha; omega, fun _ _ => rfl⟩
  | succ n ih =>
    obtain ⟨x, hx⟩ := h p (span_succ.2 (.inl rfl))
    have hne : ∀ a, Span (p + 1) n a → a ≠ p := fun a ha => by unfold Span at ha; omega
    obtain ⟨s', h1, h2, h3⟩ := ih (p + 1) (updateAt s p x) fun a ha => by
      rw [updateAt_ne _ _ (hne a ha)]
      exact h a (span_succ.2 (.inr ha))
    refine ⟨s', by rw [eachByte, hx]; exact h1, ?_, ?_⟩
    · intro a ha
      rcases span_succ.1 ha with rfl | ha
      · rw [h3 a (by unfold Span; omega), updateAt_self]; exact hx
      · rw [← h2 a ha, updateAt_ne _ _ (hne a ha)]
    · intro a ha
      rw [span_succ, not_or] at ha
      rw [h3 a ha.2, updateAt_ne _ _ ha.1]

theorem eachByte_none (f : List Item → Option (List Item)) (p n : Nat) (s : Nat → List Item) {a : Nat} (ha : Span p n a)
    (h : f (s a) = none) : eachByte f p n s = none := by
  induction n generalizing p s with
  | zero => unfold Span at ha; omega
  | succ n ih =>
    rw [eachByte]
    by_cases hap : a = p
    · subst hap; rw [h]; rfl
    · cases hx : f (s p) with
      | none => rfl
      | some x => exact ih (p + 1) (updateAt s p x) ((span_succ.1 ha).resolve_left hap) (by rw [updateAt_ne _ _ hap]; exact h)

/-- Stacked Borrows: `Readable` if there is a shared item, `Own` if there is an item that allows writes. -/
def laws : AliasLaws stackedBorrows where
  Readable st u a := ⟨.sharedRO, u⟩ ∈ st.stacks a ∧ ∀ i ∈ st.stacks a, i.tag = u → i.perm = .sharedRO
  Own st u a := ∃ i ∈ st.stacks a, i.grants true u
  tolerant := false
  init := ⟨Nat.one_pos, fun _ => ⟨[], rfl, by simp⟩⟩
  base a h := ⟨_, Good.base_mem (h.2 a), rfl⟩
  shared {st} p n h := by
    obtain ⟨h0, hg⟩ := h
    have hr := fun a => read_of_mem (t := 0) (hg a) (Good.base_mem (hg a)) rfl
    obtain ⟨s', h1, h2, h3⟩ := eachByte_ok (reborrow .shared st.next 0) p n st.stacks fun a _ => by
      obtain ⟨x, hx, -⟩ := hr a
      exact ⟨_, by rw [reborrow, hx]; rfl⟩
    have hs : ∀ a, Span p n a → ∃ x, s' a = ⟨.sharedRO, st.next⟩ :: x ∧ Good st.next x ∧
        (∀ j ∈ st.stacks a, j.perm = .sharedRO → j ∈ x) ∧
        ∀ j ∈ x, ∃ k ∈ st.stacks a, k.tag = j.tag ∧ (k.perm = .sharedRO → j.perm = .sharedRO) := fun a ha => by
      obtain ⟨x, hx, hgx, hk, -, hk'⟩ := hr a
      refine ⟨x, ?_, hgx, hk, hk'⟩
      have := h2 a ha
      rw [reborrow, hx] at this
      exact (Option.some.inj this).symm
    refine ⟨st.next, ⟨s', st.next + 1⟩, by show Option.bind _ _ = _; rw [h1]; rfl, ⟨Nat.succ_pos _, fun a => ?_⟩, fun a ha => ?_, fun u a hu => ?_⟩
    · by_cases ha : Span p n a
      · obtain ⟨x, hx, hgx, -⟩ := hs a ha
        show Good (st.next + 1) (s' a)
        rw [hx]
        exact (hgx.mono (Nat.le_succ _)).cons h0 (Nat.lt_succ_self _)
      · show Good (st.next + 1) (s' a)
        rw [h3 a ha]
        exact Good.mono (hg a) (Nat.le_succ _)
    · obtain ⟨x, hx, hgx, -⟩ := hs a ha
      show _ ∈ s' a ∧ ∀ i ∈ s' a, _
      rw [hx]
      refine ⟨List.mem_cons_self, fun i hi ht => ?_⟩
      rcases List.mem_cons.1 hi with rfl | hi
      · rfl
      · have := hgx.tag_lt h0 hi; omega
    · show _ ∈ s' a ∧ ∀ i ∈ s' a, _
      by_cases ha : Span p n a
      · obtain ⟨x, hx, -, hk, hk'⟩ := hs a ha
        rw [hx]
        refine ⟨List.mem_cons_of_mem _ (hk _ hu.1 rfl), fun i hi ht => ?_⟩
        rcases List.mem_cons.1 hi with rfl | hi
        · rfl
        · obtain ⟨k, hk1, hk2, hk3⟩ := hk' i hi
          exact hk3 (hu.2 k hk1 (hk2.trans ht))
      · rw [h3 a ha]; exact hu
  unique {st} p n u h _ hown := by
    obtain ⟨h0, hg⟩ := h
    have hw : ∀ a, Span p n a → ∃ x, write u (st.stacks a) = some x ∧ Good st.next x := fun a ha => by
      obtain ⟨i, hi, hgi⟩ := hown a ha
      obtain ⟨x, hx, hgx, -⟩ := write_of_mem (hg a) hi hgi
      exact ⟨x, hx, hgx⟩
    obtain ⟨s', h1, h2, h3⟩ := eachByte_ok (reborrow .unique st.next u) p n st.stacks fun a ha => by
      obtain ⟨x, hx, -⟩ := hw a ha
      exact ⟨_, by rw [reborrow, hx]; rfl⟩
    have hs : ∀ a, Span p n a → ∃ x, s' a = ⟨.unique, st.next⟩ :: x ∧ Good st.next x := fun a ha => by
      obtain ⟨x, hx, hgx⟩ := hw a ha
      refine ⟨x, ?_, hgx⟩
      have := h2 a ha
      rw [reborrow, hx] at this
      exact (Option.some.inj this).symm
    refine ⟨st.next, ⟨s', st.next + 1⟩, by show Option.bind _ _ = _; rw [h1]; rfl, ⟨Nat.succ_pos _, fun a => ?_⟩, fun a ha => ?_, fun v a => ?_⟩
    · by_cases ha : Span p n a
      · obtain ⟨x, hx, hgx⟩ := hs a ha
        show Good (st.next + 1) (s' a)
        rw [hx]
        exact (hgx.mono (Nat.le_succ _)).cons h0 (Nat.lt_succ_self _)
      · show Good (st.next + 1) (s' a)
        rw [h3 a ha]
        exact Good.mono (hg a) (Nat.le_succ _)
    · obtain ⟨x, hx, -⟩ := hs a ha
      refine ⟨⟨.unique, st.next⟩, ?_, by simp [Item.grants, Perm.allows]⟩
      show _ ∈ s' a
      rw [hx]
      exact List.mem_cons_self
    · show (_ → _ → _ ∈ s' a ∧ ∀ i ∈ s' a, _) ∧ (_ → _ → ∃ i ∈ s' a, _)
      refine ⟨fun ha => ?_, fun ha => ?_⟩
      · rw [h3 a (ha.resolve_right (by simp))]
        exact id
      · rw [h3 a ha]
        exact id
  read {st a t} h ho := by
    obtain ⟨h0, hg⟩ := h
    have : ∃ i ∈ st.stacks a, i.grants false t := by
      rcases ho with h | ⟨i, hi, hgi⟩
      · exact ⟨_, h.1, by simp [Item.grants, Perm.allows]⟩
      · refine ⟨i, hi, ?_⟩
        simp only [Item.grants, Bool.and_eq_true] at hgi ⊢
        refine ⟨hgi.1, ?_⟩
        revert hgi
        cases i.perm <;> simp [Perm.allows]
    obtain ⟨i, hi, hgi⟩ := this
    obtain ⟨x, hx, hgx, hro, hk, hk'⟩ := read_of_mem (hg a) hi hgi
    refine ⟨⟨updateAt st.stacks a x, st.next⟩, by show Option.bind _ _ = _; simp only [Bool.false_eq_true, if_false]; rw [hx]; rfl,
      ⟨h0, fun y => ?_⟩, fun v y hv => ?_, fun v y hvy hv => ?_⟩
    · show Good st.next (updateAt st.stacks a x y)
      unfold updateAt
      split_ifs
      · exact hgx
      · exact hg y
    · show _ ∈ updateAt st.stacks a x y ∧ ∀ i ∈ updateAt st.stacks a x y, _
      unfold updateAt
      split_ifs with hy
      · subst hy
        refine ⟨hro _ hv.1 rfl, fun i hi ht => ?_⟩
        obtain ⟨k, hk1, hk2, hk3⟩ := hk' i hi
        exact hk3 (hv.2 k hk1 (hk2.trans ht))
      · exact hv
    · show ∃ i ∈ updateAt st.stacks a x y, _
      unfold updateAt
      split_ifs with hy
      · subst hy
        obtain rfl : v = t := hvy.resolve_left (fun h => h rfl)
        obtain ⟨j, hj, hjg⟩ := hv
        refine ⟨j, hk j hj ?_, hjg⟩
        simp only [Item.grants, Bool.and_eq_true] at hjg ⊢
        refine ⟨hjg.1, ?_⟩
        revert hjg
        cases j.perm <;> simp [Perm.allows]
      · exact hv
  write {st a t} h ho := by
    obtain ⟨h0, hg⟩ := h
    obtain ⟨i, hi, hgi⟩ := ho
    obtain ⟨x, hx, hgx, hk⟩ := write_of_mem (hg a) hi hgi
    refine ⟨⟨updateAt st.stacks a x, st.next⟩, by show Option.bind _ _ = _; simp only [if_true]; rw [hx]; rfl,
      ⟨h0, fun y => ?_⟩, fun v y hy hv => ?_, fun v y hvy hv => ?_⟩
    · show Good st.next (updateAt st.stacks a x y)
      unfold updateAt
      split_ifs
      · exact hgx
      · exact hg y
    · show _ ∈ updateAt st.stacks a x y ∧ ∀ i ∈ updateAt st.stacks a x y, _
      rw [updateAt_ne _ _ hy]
      exact hv
    · show ∃ i ∈ updateAt st.stacks a x y, _
      unfold updateAt
      split_ifs with hy
      · subst hy
        obtain rfl : v = t := hvy.resolve_left (fun h => h rfl)
        obtain ⟨j, hj, hjg⟩ := hv
        exact ⟨j, hk j hj hjg, hjg⟩
      · exact hv
  Pending _ _ _ := False
  pendingOwn _ h := h.elim
  pendingNew h := by cases h
  pendingRead _ _ _ h := h

/-- a mutable reference made from the foreign pointer ends the shared references to its bytes -/
theorem unique_ends {st st' : State} {p n t u a : Nat} (hc : stackedBorrows.FromC st)
    (h : stackedBorrows.retag .unique p n 0 st = some (t, st')) (ha : Span p n a) (hr : laws.Readable st u a) (i : Item)
    (hi : i ∈ st'.stacks a) : i.tag ≠ u := by
  obtain ⟨h0, hg⟩ := hc
  obtain ⟨hr1, hr2⟩ := hr
  obtain ⟨s', h1, h2, -⟩ := eachByte_ok (reborrow .unique st.next 0) p n st.stacks fun a _ => by
    obtain ⟨items, hs, -⟩ := Good.split_base (hg a) true
    exact ⟨_, by rw [reborrow, Spec.StackedBorrows.write, hs]; rfl⟩
  have h' : (Option.bind (eachByte (reborrow .unique st.next 0) p n st.stacks) fun g =>
      some (st.next, (⟨g, st.next + 1⟩ : State))) = some (t, st') := h
  rw [h1] at h'
  cases h'
  have hi : i ∈ s' a := hi
  have h2 := h2 a ha
  obtain ⟨items, hs, he, hit⟩ := Good.split_base (hg a) true
  rw [reborrow, Spec.StackedBorrows.write, hs] at h2
  have hs' : ⟨.unique, st.next⟩ :: (block items ⟨.sharedRW, 0⟩ ++ [⟨.sharedRW, 0⟩]) = s' a := Option.some.inj h2
  rw [← hs'] at hi
  have hu := Good.tag_lt (hg a) h0 hr1
  rcases List.mem_cons.1 hi with rfl | hi
  · exact fun h => absurd h (by simp only at hu ⊢; omega)
  · have hmem : i ∈ st.stacks a ∧ i.perm = .sharedRW := by
      rcases List.mem_append.1 hi with hi | hi
      · have := block_subset hi
        exact ⟨he ▸ List.mem_append_left _ this.1, this.2⟩
      · rw [List.mem_singleton.1 hi]
        exact ⟨Good.base_mem (hg a), rfl⟩
    intro ht
    have := hr2 i hmem.1 ht
    rw [hmem.2] at this
    cases this

theorem access_none {st : State} {w : Bool} {u a : Nat} (h : ∀ i ∈ st.stacks a, i.tag ≠ u) : stackedBorrows.access w a u st = none := by
  show Option.bind _ _ = none
  cases w
  · simp only [Bool.false_eq_true, if_false, Spec.StackedBorrows.read, split_none h]; rfl
  · simp only [if_true, Spec.StackedBorrows.write, split_none h]; rfl

theorem access_other {st st' : State} {w : Bool} {u a x : Nat} (h : stackedBorrows.access w a u st = some st') (hx : x ≠ a) :
    st'.stacks x = st.stacks x := by
  have h' : Option.bind ((if w then Spec.StackedBorrows.write u else Spec.StackedBorrows.read u) (st.stacks a))
    (fun x => some (⟨updateAt st.stacks a x, st.next⟩ : State)) = some st' := h
  cases hr : (if w then Spec.StackedBorrows.write u else Spec.StackedBorrows.read u) (st.stacks a) with
  | none => rw [hr] at h'; cases h'
  | some y =>
    rw [hr] at h'
    cases h'
    exact updateAt_ne _ _ hx

end Stacked

namespace Tree
open Spec.TreeBorrows

def Readable (st : State) (u a : Nat) : Prop := u < st.next ∧ ∀ k ∈ st.ancestors u, st.perm k a ≠ .disabled
def Own (st : State) (u a : Nat) : Prop := u < st.next ∧ ∀ k ∈ st.ancestors u, st.perm k a = .reserved ∨ st.perm k a = .active

theorem Own.readable {st : State} {u a : Nat} (h : Own st u a) : Readable st u a :=
  ⟨h.1, fun k hk => by rcases h.2 k hk with h | h <;> rw [h] <;> simp⟩

theorem access_read {st : State} {a t : Nat} (hc : treeBorrows.FromC st) (h : Readable st t a) :
    ∃ st', access false a t st = some st' ∧ treeBorrows.FromC st' ∧ st'.next = st.next ∧ st'.ancestors = st.ancestors ∧
      (∀ v x, Readable st v x → Readable st' v x) ∧ ∀ v x, x ≠ a ∨ v = t → Own st v x → Own st' v x := by
  obtain ⟨h0, h1, h2, h3⟩ := hc
  have ha : t < st.next ∧ ∀ k ∈ st.ancestors t, (st.perm k a).allows false = true := by
    refine ⟨h.1, fun k hk => ?_⟩
    have := h.2 k hk
    revert this
    cases st.perm k a <;> simp [Perm.allows]
  refine ⟨⟨st.ancestors, fun k => updateAt (st.perm k) a (st.after false a t k), st.next⟩, if_pos ha, ⟨h0, h1, fun x => ?_, h3⟩, rfl, rfl, fun v x hv => ⟨hv.1, fun k hk => ?_⟩,
    fun v x hx hv => ⟨hv.1, fun k hk => ?_⟩⟩
  · show updateAt (st.perm 0) a (st.after false a t 0) x = _
    unfold updateAt
    split_ifs with hx
    · rw [State.after, if_pos (h3 t h.1).1, h2]; rfl
    · exact h2 x
  · show updateAt (st.perm k) a (st.after false a t k) x ≠ _
    have := hv.2 k hk
    unfold updateAt
    split_ifs with hx
    · subst hx
      unfold State.after
      revert this
      cases st.perm k x <;> split_ifs <;> simp [Perm.afterLocal, Perm.afterForeign]
    · exact this
  · show updateAt (st.perm k) a (st.after false a t k) x = _ ∨ updateAt (st.perm k) a (st.after false a t k) x = _
    have := hv.2 k hk
    unfold updateAt
    split_ifs with hxa
    · subst hxa
      obtain rfl : v = t := hx.resolve_left (fun h => h rfl)
      unfold State.after
      rw [if_pos hk]
      rcases this with h | h <;> rw [h] <;> simp [Perm.afterLocal]
    · exact this

theorem access_write {st : State} {a t : Nat} (hc : treeBorrows.FromC st) (h : Own st t a) :
    ∃ st', access true a t st = some st' ∧ treeBorrows.FromC st' ∧
      (∀ v x, x ≠ a → Readable st v x → Readable st' v x) ∧ ∀ v x, x ≠ a ∨ v = t → Own st v x → Own st' v x := by
  obtain ⟨h0, h1, h2, h3⟩ := hc
  have ha : t < st.next ∧ ∀ k ∈ st.ancestors t, (st.perm k a).allows true = true := by
    refine ⟨h.1, fun k hk => ?_⟩
    rcases h.2 k hk with h | h <;> rw [h] <;> rfl
  refine ⟨⟨st.ancestors, fun k => updateAt (st.perm k) a (st.after true a t k), st.next⟩, if_pos ha, ⟨h0, h1, fun x => ?_, h3⟩, fun v x hx hv => ⟨hv.1, fun k hk => ?_⟩,
    fun v x hx hv => ⟨hv.1, fun k hk => ?_⟩⟩
  · show updateAt (st.perm 0) a (st.after true a t 0) x = _
    unfold updateAt
    split_ifs with hx
    · rw [State.after, if_pos (h3 t h.1).1, h2]; rfl
    · exact h2 x
  · show updateAt (st.perm k) a (st.after true a t k) x ≠ _
    rw [updateAt_ne _ _ hx]
    exact hv.2 k hk
  · show updateAt (st.perm k) a (st.after true a t k) x = _ ∨ updateAt (st.perm k) a (st.after true a t k) x = _
    have := hv.2 k hk
    unfold updateAt
    split_ifs with hxa
    · subst hxa
      obtain rfl : v = t := hx.resolve_left (fun h => h rfl)
      unfold State.after
      rw [if_pos hk]
      rcases this with h | h <;> rw [h] <;> simp [Perm.afterLocal]
    · exact this

theorem derive_fromC {st : State} {t : Nat} (p : Perm) (hc : treeBorrows.FromC st) (ht : t < st.next) :
    treeBorrows.FromC (derive t p st) := by
  obtain ⟨h0, h1, h2, h3⟩ := hc
  have hne : 0 ≠ st.next := by omega
  refine ⟨Nat.succ_pos _, ?_, fun a => ?_, fun u hu => ?_⟩
  · show updateAt st.ancestors st.next _ 0 = _
    rw [updateAt_ne _ _ hne, h1]
  · show updateAt st.perm st.next _ 0 a = _
    rw [updateAt_ne _ _ hne, h2]
  · show 0 ∈ updateAt st.ancestors st.next (st.next :: st.ancestors t) u ∧
      ∀ k ∈ updateAt st.ancestors st.next (st.next :: st.ancestors t) u, k < st.next + 1
    by_cases hu' : u = st.next
    · subst hu'
      rw [updateAt_self]
      refine ⟨List.mem_cons_of_mem _ (h3 t ht).1, fun k hk => ?_⟩
      rcases List.mem_cons.1 hk with rfl | hk
      · omega
      · have := (h3 t ht).2 k hk; omega
    · rw [updateAt_ne _ _ hu']
      have hu : u < st.next + 1 := hu
      have := h3 u (by omega)
      exact ⟨this.1, fun k hk => by have := this.2 k hk; omega⟩

theorem derive_old {st : State} {t u : Nat} (p : Perm) (hc : treeBorrows.FromC st) (hu : u < st.next) (a : Nat) :
    (Readable st u a → Readable (derive t p st) u a) ∧ (Own st u a → Own (derive t p st) u a) := by
  have h3 := (hc.2.2.2 u hu).2
  have ha : (derive t p st).ancestors u = st.ancestors u := updateAt_ne _ _ (by omega)
  have hp : ∀ k ∈ st.ancestors u, (derive t p st).perm k a = st.perm k a := fun k hk => by
    have := h3 k hk
    exact congrFun (updateAt_ne _ _ (by omega)) a
  constructor
  · intro h
    refine ⟨Nat.lt_succ_of_lt hu, fun k hk => ?_⟩
    rw [ha] at hk
    rw [hp k hk]
    exact h.2 k hk
  · intro h
    refine ⟨Nat.lt_succ_of_lt hu, fun k hk => ?_⟩
    rw [ha] at hk
    rw [hp k hk]
    exact h.2 k hk

theorem derive_new {st : State} {t : Nat} {p : Perm} (hc : treeBorrows.FromC st) (ht : t < st.next) (a : Nat) :
    (p ≠ .disabled → Readable st t a → Readable (derive t p st) st.next a) ∧
      (p = .reserved → Own st t a → Own (derive t p st) st.next a) := by
  have h3 := (hc.2.2.2 t ht).2
  have ha : (derive t p st).ancestors st.next = st.next :: st.ancestors t := updateAt_self _ _ _
  have hp : ∀ k ∈ st.ancestors t, (derive t p st).perm k a = st.perm k a := fun k hk => by
    have := h3 k hk
    exact congrFun (updateAt_ne _ _ (by omega)) a
  have hn : (derive t p st).perm st.next a = p := congrFun (updateAt_self _ _ _) a
  constructor
  · intro hpp h
    refine ⟨Nat.lt_succ_self _, fun k hk => ?_⟩
    rw [ha] at hk
    rcases List.mem_cons.1 hk with rfl | hk
    · rw [hn]; exact hpp
    · rw [hp k hk]; exact h.2 k hk
  · intro hpp h
    refine ⟨Nat.lt_succ_self _, fun k hk => ?_⟩
    rw [ha] at hk
    rcases List.mem_cons.1 hk with rfl | hk
    · rw [hn]; exact .inl hpp
    · rw [hp k hk]; exact h.2 k hk

theorem readAll_ok {st : State} {t : Nat} (p n : Nat) (hc : treeBorrows.FromC st) (h : ∀ a, Span p n a → Readable st t a) :
    ∃ st', readAll t p n st = some st' ∧ treeBorrows.FromC st' ∧ (∀ v x, Readable st v x → Readable st' v x) ∧
      ∀ v x, ¬ Span p n x ∨ v = t → Own st v x → Own st' v x := by
  induction n generalizing p st with
  | zero => exact ⟨st, rfl, hc, fun _ _ => id, fun _ _ _ => id⟩
  | succ n ih =>
    obtain ⟨st1, h1, hc1, -, -, hr1, ho1⟩ := access_read hc (h p (span_succ.2 (.inl rfl)))
    obtain ⟨st2, h2, hc2, hr2, ho2⟩ := ih (p + 1) hc1 fun a ha => hr1 _ _ (h a (span_succ.2 (.inr ha)))
    refine ⟨st2, by rw [readAll, h1]; exact h2, hc2, fun v x hv => hr2 v x (hr1 v x hv), fun v x hx hv => ?_⟩
    rw [span_succ, not_or] at hx
    exact ho2 v x (hx.imp And.right id) (ho1 v x (hx.imp And.left id) hv)

/-- a new reference, in general -/
theorem retag_ok {st : State} {p n u : Nat} {perm : Perm} (hc : treeBorrows.FromC st) (hu : u < st.next) (hp : perm ≠ .disabled)
    (h : ∀ a, Span p n a → Readable st u a) : ∃ st', readAll st.next p n (derive u perm st) = some st' ∧ treeBorrows.FromC st' ∧
      (∀ a, Readable st u a → Readable st' st.next a) ∧ (perm = .reserved → ∀ a, Own st u a → Own st' st.next a) ∧
      (∀ v a, Readable st v a → Readable st' v a) ∧ ∀ v a, ¬ Span p n a → Own st v a → Own st' v a := by
  obtain ⟨st', h1, h2, h3, h4⟩ := readAll_ok p n (derive_fromC perm hc hu) fun a ha => (derive_new hc hu a).1 hp (h a ha)
  exact ⟨st', h1, h2, fun a ha => h3 _ _ ((derive_new hc hu a).1 hp ha), fun hr a ha => h4 _ _ (.inr rfl) ((derive_new hc hu a).2 hr ha),
    fun v a hv => h3 v a ((derive_old perm hc hv.1 a).1 hv), fun v a ha hv => h4 v a (.inl ha) ((derive_old perm hc hv.1 a).2 hv)⟩

theorem own_base {st : State} (hc : treeBorrows.FromC st) (a : Nat) : Own st 0 a :=
  ⟨hc.1, fun k hk => by rw [hc.2.1, List.mem_singleton] at hk; subst hk; exact .inr (hc.2.2.1 a)⟩

def Pending (st : State) (u a : Nat) : Prop := u < st.next ∧ ∀ k ∈ st.ancestors u, k = 0 ∨ st.perm k a = .reserved

theorem pending_access {st st' : State} {a t : Nat} (h : access false a t st = some st') (v x : Nat) (hp : Pending st v x) :
    Pending st' v x := by
  unfold access at h
  split_ifs at h
  cases h
  refine ⟨hp.1, fun k hk => (hp.2 k hk).imp id fun hk' => ?_⟩
  show updateAt (st.perm k) a (st.after false a t k) x = _
  unfold updateAt
  split_ifs with hx
  · subst hx
    unfold State.after
    rw [hk']
    split_ifs <;> rfl
  · exact hk'

theorem pending_readAll {t : Nat} {p n : Nat} {st st' : State} (h : readAll t p n st = some st') (v x : Nat) (hp : Pending st v x) :
    Pending st' v x := by
  induction n generalizing p st with
  | zero => cases h; exact hp
  | succ n ih =>
    rw [readAll] at h
    cases h1 : access false p t st with
    | none => rw [h1] at h; cases h
    | some st1 =>
      rw [h1] at h
      exact ih (p := p + 1) (st := st1) h (pending_access h1 v x hp)

/-- Tree Borrows: all references from which the tag is derived allow the access. -/
def laws : AliasLaws treeBorrows where
  Readable := Readable
  Own := Own
  tolerant := true
  init := ⟨Nat.one_pos, rfl, fun _ => rfl, fun t _ => ⟨List.mem_singleton.2 rfl, fun k hk => by
    rw [List.mem_singleton.1 hk]; exact Nat.one_pos⟩⟩
  base a h := own_base h a
  shared {st} p n hc := by
    obtain ⟨st', h1, h2, h3, -, h5, -⟩ := retag_ok (perm := .frozen) (p := p) (n := n) hc hc.1 (by simp) fun a _ => (own_base hc a).readable
    refine ⟨st.next, st', ?_, h2, fun a _ => h3 a (own_base hc a).readable, h5⟩
    exact (if_pos hc.1).trans (congrArg (Option.map (Prod.mk st.next)) h1)
  unique {st} p n u hc hn ho := by
    have hu : u < st.next := (ho p ⟨Nat.le_refl _, by omega⟩).1
    · obtain ⟨st', h1, h2, h3, h4, h5, h6⟩ := retag_ok (perm := .reserved) (p := p) (n := n) hc hu (by simp) fun a ha => (ho a ha).readable
      refine ⟨st.next, st', ?_, h2, fun a ha => h4 rfl a (ho a ha), fun v a => ⟨fun _ => h5 v a, h6 v a⟩⟩
      exact (if_pos hu).trans (congrArg (Option.map (Prod.mk st.next)) h1)
  read {st a t} hc h := by
    obtain ⟨st', h1, h2, -, -, h3, h4⟩ := access_read hc (h.elim id Own.readable)
    exact ⟨st', h1, h2, h3, h4⟩
  write {st a t} hc h := access_write hc h
  Pending := Pending
  pendingOwn {st t a} hc h := ⟨h.1, fun k hk => (h.2 k hk).elim (fun h => .inr (h ▸ hc.2.2.1 a)) .inl⟩
  pendingNew _ {st st' p n t} hc h a := by
    have h' : (if 0 < st.next then (readAll st.next p n (derive 0 .reserved st)).map (st.next, ·) else none) = some (t, st') := h
    rw [if_pos hc.1] at h'
    obtain ⟨x, hx, he⟩ := Option.map_eq_some_iff.1 h'
    cases he
    refine pending_readAll hx _ _ ⟨Nat.lt_succ_self _, fun k hk => ?_⟩
    rw [show (derive 0 .reserved st).ancestors st.next = st.next :: st.ancestors 0 from updateAt_self _ _ _, hc.2.1] at hk
    rcases List.mem_cons.1 hk with rfl | hk
    · exact .inr (congrFun (updateAt_self _ _ _) a)
    · exact .inl (List.mem_singleton.1 hk)
  pendingRead h v x := pending_access h v x

end Tree
end Verif
