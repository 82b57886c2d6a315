import Verif.Lemmas.Managed
import Verif.Props.CApi

/-! Concrete allocators, used only to show that the hypotheses of the property theorems can be met: they place everything above the
highest used address. -/
namespace Verif.ToyHeap
open Spec (Holds Mapped Extends OutOfMemory)

variable {Ctx : Type}

/-- nothing is used at or above `b` -/
def Top (s : CState Ctx) (b : Nat) : Prop := ∀ a, b ≤ a → s.mem a = none ∧ s.strings a = none

open Classical in
/-- the first multiple of 8 above the used addresses, if `n` bytes fit there below 2^62 -/
noncomputable def bump (s : CState Ctx) (n : Nat) : Option Nat :=
  if h : ∃ b, Top s b then
    if 8 * (Nat.find h / 8 + 1) + n ≤ 2 ^ 62 then some (8 * (Nat.find h / 8 + 1)) else none
  else none

theorem bump_some {s : CState Ctx} {n p : Nat} (h : bump s n = some p) :
    p ≠ 0 ∧ p % 8 = 0 ∧ p + n ≤ 2 ^ 62 ∧ Top s p := by
  classical
  unfold bump at h
  split_ifs at h with h1 h2
  cases h
  refine ⟨by omega, by omega, by convert h2, fun a ha => ?_⟩
  refine Nat.find_spec h1 a (le_trans ?_ ha)
  convert (show Nat.find h1 ≤ 8 * (Nat.find h1 / 8 + 1) by omega)

theorem bump_ok {s : CState Ctx} {b n : Nat} (h : Top s b) (hb : b + 8 + n ≤ 2 ^ 62) : ∃ p, bump s n = some p ∧ p ≤ b + 8 := by
  classical
  have hex : ∃ b, Top s b := ⟨b, h⟩
  have hle : Nat.find hex ≤ b := Nat.find_min' hex h
  refine ⟨8 * (Nat.find hex / 8 + 1), ?_, by omega⟩
  unfold bump
  rw [dif_pos hex, if_pos]
  have : 8 * (Nat.find hex / 8 + 1) + n ≤ 2 ^ 62 := by omega
  convert this

noncomputable def heap (Ctx : Type) : Heap Ctx where
  place := bump
  fresh s n p h := by
    obtain ⟨h1, h2, h3, h4⟩ := bump_some h
    exact ⟨h1, h2, by omega, fun i _ => (h4 _ (by omega)).1⟩

noncomputable def allocator (Ctx : Type) : Allocator Ctx where
  place := bump
  fresh s n p h := by
    obtain ⟨h1, h2, h3, h4⟩ := bump_some h
    exact ⟨h1, by omega, (h4 p le_rfl).2, fun i _ => (h4 _ (by omega)).1⟩
  placeCtx s := match s.ctxs 16 with
    | none => some 16
    | some _ => none
  freshCtx s p h := by
    split at h
    · cases h
      exact ⟨by decide, by norm_num, by assumption⟩
    · cases h

/-- This heap does not fail while the address space has room, with any allocator that can place a message above `c`. -/
theorem not_outOfMemory_of {A : Allocator Ctx} {c : Nat} {s : CState Ctx} {sizes : List Nat} {m : Option Nat} {b : Nat} (h : Top s b)
    (hc : b + (sizes.map (· + 8)).sum ≤ c) (hc' : c ≤ 2 ^ 61) (hA : ∀ t, Top t c → ∀ n, m = some n → A.place t n ≠ none) :
    ¬ OutOfMemory (heap Ctx) A s sizes m := by
  intro ho
  induction ho generalizing b with
  | @array s n ns m hp =>
    obtain ⟨p, hp', -⟩ := bump_ok (n := n) h (by simp only [List.map_cons, List.sum_cons] at hc; omega)
    rw [show (heap Ctx).place s n = some p from hp'] at hp
    cases hp
  | @later s n ns m p mem hp hsame _ _ ih =>
    obtain ⟨p', hp', hle⟩ := bump_ok (n := n) h (by simp only [List.map_cons, List.sum_cons] at hc; omega)
    rw [show (heap Ctx).place s n = some p' from hp'] at hp
    cases hp
    refine ih (b := b + 8 + n) (fun a ha => ⟨?_, ?_⟩) (by simp only [List.map_cons, List.sum_cons] at hc; omega) hA
    · show mem a = none
      rw [hsame a (Or.inr (by omega))]
      exact (h a (by omega)).1
    · exact (h a (by omega)).2
  | @message s m hp => exact hA s (fun a ha => h a (le_trans (by simpa using hc) ha)) m rfl hp

/-- These allocators do not fail while the address space has room. -/
theorem not_outOfMemory {s : CState Ctx} {sizes : List Nat} {m : Option Nat} {b : Nat} (h : Top s b)
    (hb : b + (sizes.map (· + 8)).sum + 8 + m.getD 0 ≤ 2 ^ 61) : ¬ OutOfMemory (heap Ctx) (allocator Ctx) s sizes m := by
  refine not_outOfMemory_of h le_rfl (by omega) ?_
  rintro t ht n rfl hp
  obtain ⟨p, hp', -⟩ := bump_ok (n := n) ht (by simp only [Option.getD_some] at hb; omega)
  rw [show (allocator Ctx).place t n = some p from hp'] at hp
  cases hp

open Classical in
/-- an allocator that places every message at 2^60 -/
noncomputable def fixedAllocator (Ctx : Type) : Allocator Ctx where
  place s n := if n ≤ 2 ^ 60 ∧ s.strings (2 ^ 60) = none ∧ ∀ i < n, s.mem (2 ^ 60 + i) = none then some (2 ^ 60) else none
  fresh s n p h := by
    split_ifs at h with h1
    cases h
    exact ⟨by norm_num, by omega, h1.2.1, h1.2.2⟩
  placeCtx := (allocator Ctx).placeCtx
  freshCtx := (allocator Ctx).freshCtx

theorem fixedAllocator_place {s : CState Ctx} {n p : Nat} (h : (fixedAllocator Ctx).place s n = some p) : p = 2 ^ 60 := by
  simp only [fixedAllocator] at h
  split_ifs at h
  cases h
  rfl

theorem fixedAllocator_ok {s : CState Ctx} (h : Top s (2 ^ 60)) {n : Nat} (hn : n ≤ 2 ^ 60) : (fixedAllocator Ctx).place s n ≠ none := by
  have : n ≤ 2 ^ 60 ∧ s.strings (2 ^ 60) = none ∧ ∀ i < n, s.mem (2 ^ 60 + i) = none :=
    ⟨hn, (h _ le_rfl).2, fun i _ => (h _ (by omega)).1⟩
  simp only [fixedAllocator]
  rw [if_pos this]
  simp

/-- a process with the given bytes at address 4096, one context at address 16 and no messages -/
def start {Ctx : Type} (ctx : Ctx) (bytes : List UInt8) : CState Ctx :=
  ⟨fun a => if 4096 ≤ a then bytes[a - 4096]? else none, fun a => if a = 16 then some ctx else none, fun _ => none⟩

theorem start_holds (ctx : Ctx) (bytes : List UInt8) : Holds (start ctx bytes).mem 4096 bytes := by
  intro i b hb
  show (if 4096 ≤ 4096 + i then bytes[4096 + i - 4096]? else none) = some b
  rw [if_pos (by omega), Nat.add_sub_cancel_left, hb]

theorem start_top (ctx : Ctx) (bytes : List UInt8) : Top (start ctx bytes) (4096 + bytes.length) := by
  intro a ha
  refine ⟨?_, rfl⟩
  show (if 4096 ≤ a then bytes[a - 4096]? else none) = none
  rw [if_pos (by omega)]
  exact List.getElem?_eq_none (by omega)

end Verif.ToyHeap
