import Mathlib.Data.Fintype.BigOperators
import Verif.Spec.RandomOracle

/-! Adaptive questions to a random table seldom hit a small set of bad answers. -/
namespace Verif
open Finset

section
variable {X Y : Type} [Fintype X] [DecidableEq X] [Fintype Y] [DecidableEq Y]

/-- questions only -/
inductive Asks (X Y : Type) where
  | stop
  | ask (x : X) (next : Y → Asks X Y)

/-- some answer is bad -/
def Asks.Hits (bad : X → Finset Y) (f : X → Y) : Asks X Y → Prop
  | .stop => False
  | .ask x next => f x ∈ bad x ∨ (next (f x)).Hits bad f

def Asks.AtMost : Nat → Asks X Y → Prop
  | _, .stop => True
  | 0, .ask _ _ => False
  | q + 1, .ask _ next => ∀ d, (next d).AtMost q

open Classical in
/-- Among the tables that agree with known good answers, a fraction of at most `q B / |Y|` gives a bad answer to one of `q`
questions. -/
theorem Asks.few_hits (bad : X → Finset Y) (B : Nat) (hB : ∀ x, (bad x).card ≤ B) (t : Asks X Y) :
    ∀ (q : Nat), t.AtMost q → ∀ S : X → Finset Y, (∀ x, S x = univ ∨ ∃ d, S x = {d} ∧ d ∉ bad x) →
    ((Fintype.piFinset S).filter (t.Hits bad)).card * Fintype.card Y ≤ q * B * (Fintype.piFinset S).card := by
  induction t with
  | stop =>
    intro q _ S _
    have : (Fintype.piFinset S).filter (Asks.Hits bad · .stop) = ∅ := filter_eq_empty_iff.2 fun f _ h => h
    rw [this]
    simp
  | ask x next ih =>
    intro q hq S hS
    obtain _ | q := q
    · exact hq.elim
    rcases hS x with hx | ⟨d, hx, hd⟩
    · -- a new question
      have hfib : ∀ d : Y, (Fintype.piFinset S).filter (fun f => f x = d) = Fintype.piFinset (Function.update S x {d}) := fun d =>
        (Fintype.piFinset_update_singleton_eq_filter_piFinset_eq S x (by rw [hx]; exact mem_univ d)).symm
      obtain ⟨e, he⟩ : ∃ e, ∀ d : Y, (Fintype.piFinset (Function.update S x {d})).card = e :=
        ⟨_, fun d => by rw [← hfib, Fintype.card_filter_piFinset_eq_of_mem S x (by rw [hx]; exact mem_univ d)]⟩
      have hall : (Fintype.piFinset S).card = Fintype.card Y * e := by
        rw [card_eq_sum_card_fiberwise (f := fun f => f x) (t := univ) (fun _ _ => by simp)]
        rw [sum_congr rfl fun d _ => by rw [hfib d, he d]]
        simp
      have hsplit : ((Fintype.piFinset S).filter ((Asks.ask x next).Hits bad)).card =
          ∑ d : Y, ((Fintype.piFinset (Function.update S x {d})).filter ((Asks.ask x next).Hits bad)).card := by
        rw [card_eq_sum_card_fiberwise (f := fun f => f x) (t := univ) (fun _ _ => by simp)]
        refine sum_congr rfl fun d _ => ?_
        rw [← hfib, filter_filter, filter_filter]
        congr 1
        ext f
        simp only [mem_filter, and_comm]
      have hone : ∀ d : Y, ((Fintype.piFinset (Function.update S x {d})).filter ((Asks.ask x next).Hits bad)).card *
          Fintype.card Y ≤ (if d ∈ bad x then Fintype.card Y * e else 0) + q * B * e := by
        intro d
        by_cases hd : d ∈ bad x
        · rw [if_pos hd]
          have := card_filter_le (Fintype.piFinset (Function.update S x {d})) ((Asks.ask x next).Hits bad)
          rw [he d] at this
          calc _ ≤ e * Fintype.card Y := Nat.mul_le_mul_right _ this
            _ ≤ _ := by rw [Nat.mul_comm]; exact Nat.le_add_right _ _
        · rw [if_neg hd, Nat.zero_add]
          have := ih d q (hq d) (Function.update S x {d}) (fun y => by
            by_cases hy : y = x
            · subst hy
              exact .inr ⟨d, by simp, hd⟩
            · rw [Function.update_of_ne hy]
              exact hS y)
          rw [he d] at this
          refine le_trans (Nat.mul_le_mul_right _ (card_le_card ?_)) this
          intro f hf
          rw [mem_filter] at hf ⊢
          have hfx : f x = d := by
            have := Fintype.mem_piFinset.1 hf.1 x
            simpa using this
          refine ⟨hf.1, ?_⟩
          rcases hf.2 with h | h
          · rw [hfx] at h
            exact absurd h hd
          · rwa [hfx] at h
      rw [hsplit, sum_mul, hall]
      calc _ ≤ ∑ d : Y, ((if d ∈ bad x then Fintype.card Y * e else 0) + q * B * e) := sum_le_sum fun d _ => hone d
        _ = (bad x).card * (Fintype.card Y * e) + Fintype.card Y * (q * B * e) := by
          rw [sum_add_distrib, ← sum_filter]
          simp
        _ ≤ B * (Fintype.card Y * e) + Fintype.card Y * (q * B * e) :=
          Nat.add_le_add_right (Nat.mul_le_mul_right _ (hB x)) _
        _ = (q + 1) * B * (Fintype.card Y * e) := by ring
    · -- the answer is known
      refine le_trans ?_ (Nat.mul_le_mul_right _ (Nat.mul_le_mul_right B (Nat.le_succ q)))
      refine le_trans (Nat.mul_le_mul_right _ (card_le_card ?_)) (ih d q (hq d) S hS)
      intro f hf
      rw [mem_filter] at hf ⊢
      have hfx : f x = d := by
        have := Fintype.mem_piFinset.1 hf.1 x
        rw [hx] at this
        simpa using this
      refine ⟨hf.1, ?_⟩
      rcases hf.2 with h | h
      · rw [hfx] at h
        exact absurd h hd
      · rwa [hfx] at h

end
theorem Asks.AtMost.mono {X Y : Type} {t : Asks X Y} : ∀ {q q' : Nat}, t.AtMost q → q ≤ q' → t.AtMost q' := by
  induction t with
  | stop => intro q q' _ _; cases q' <;> trivial
  | ask x next ih =>
    intro q q' h hle
    obtain _ | q := q
    · exact h.elim
    obtain _ | q' := q'
    · omega
    exact fun d => ih d (h d) (by omega)

section
variable {D : Finset (List UInt8)} {α : Type}

/-- questions for a list of strings, whatever the answers -/
def askAll : List (List UInt8) → Asks {x // x ∈ D} Spec.Digest
  | [] => .stop
  | x :: xs => if h : x ∈ D then .ask ⟨x, h⟩ (fun _ => askAll xs) else askAll xs

/-- the questions of an attacker that concern the table, followed by those of `final` -/
def asksOf (rest : List UInt8 → Spec.Digest) (final : α → List (List UInt8)) : Spec.Attacker α → Asks {x // x ∈ D} Spec.Digest
  | .output a => askAll (final a)
  | .ask x next => if h : x ∈ D then .ask ⟨x, h⟩ (fun d => asksOf rest final (next d)) else asksOf rest final (next (rest x))

theorem askAll_atMost (l : List (List UInt8)) : (askAll (D := D) l).AtMost l.length := by
  induction l with
  | nil => trivial
  | cons x xs ih =>
    unfold askAll
    split_ifs
    · exact fun _ => ih
    · exact ih.mono (by simp)

theorem askAll_hits (bad : {x // x ∈ D} → Finset Spec.Digest) (ω : Spec.Table D) (l : List (List UInt8)) (x : List UInt8)
    (hx : x ∈ l) (hD : x ∈ D) (hb : ω ⟨x, hD⟩ ∈ bad ⟨x, hD⟩) : (askAll l).Hits bad ω := by
  induction l with
  | nil => simp at hx
  | cons y ys ih =>
    unfold askAll
    rcases List.mem_cons.1 hx with rfl | hx
    · rw [dif_pos hD]
      exact .inl hb
    · split_ifs
      · exact .inr (ih hx)
      · exact ih hx

theorem asksOf_atMost (rest : List UInt8 → Spec.Digest) (final : α → List (List UInt8)) (m : Nat) (hm : ∀ a, (final a).length ≤ m)
    (A : Spec.Attacker α) : ∀ {q : Nat}, A.AtMost q → (asksOf (D := D) rest final A).AtMost (q + m) := by
  induction A with
  | output a =>
    intro q _
    exact (askAll_atMost (final a)).mono ((hm a).trans (by omega))
  | ask x next ih =>
    intro q h
    obtain _ | q := q
    · exact h.elim
    unfold asksOf
    split_ifs
    · rw [Nat.add_right_comm]
      exact fun d => ih d (h d)
    · exact (ih _ (h _)).mono (by omega)

theorem asksOf_hits (rest : List UInt8 → Spec.Digest) (final : α → List (List UInt8)) (bad : {x // x ∈ D} → Finset Spec.Digest)
    (ω : Spec.Table D) (A : Spec.Attacker α) (x : List UInt8) (hx : x ∈ final (A.run (ω.hash rest))) (hD : x ∈ D)
    (hb : ω ⟨x, hD⟩ ∈ bad ⟨x, hD⟩) : (asksOf rest final A).Hits bad ω := by
  induction A with
  | output a => exact askAll_hits bad ω _ x hx hD hb
  | ask y next ih =>
    unfold asksOf
    have hy : ω.hash rest y = if h : y ∈ D then ω ⟨y, h⟩ else rest y := rfl
    have := ih (ω.hash rest y) hx
    split_ifs with h
    · rw [hy, dif_pos h] at this
      exact .inr this
    · rw [hy, dif_neg h] at this
      exact this

open Classical in
/-- The fraction of tables for which one of at most `m` strings, put out after `q` questions, has a bad hash. -/
theorem few_tables (rest : List UInt8 → Spec.Digest) (final : α → List (List UInt8)) (m : Nat) (hm : ∀ a, (final a).length ≤ m)
    (bad : List UInt8 → Finset Spec.Digest) (B : Nat) (hB : ∀ x, (bad x).card ≤ B) (A : Spec.Attacker α) (q : Nat) (hA : A.AtMost q) :
    (univ.filter (fun ω : Spec.Table D => ∃ x ∈ final (A.run (ω.hash rest)), x ∈ D ∧ ω.hash rest x ∈ bad x)).card * 2 ^ 256 ≤
      (q + m) * B * Fintype.card (Spec.Table D) := by
  have h := Asks.few_hits (fun x : {x // x ∈ D} => bad x.1) B (fun x => hB x.1) (asksOf rest final A) (q + m)
    (asksOf_atMost rest final m hm A hA) (fun _ => univ) (fun _ => .inl rfl)
  have hc : Fintype.card Spec.Digest = 2 ^ 256 := by
    rw [Fintype.card_fun, Fintype.card_fin, Fintype.card_fin]
    norm_num
  rw [hc, Fintype.piFinset_univ, card_univ] at h
  refine le_trans (Nat.mul_le_mul_right _ (card_le_card ?_)) h
  intro ω hω
  obtain ⟨-, x, hx, hD, hb⟩ := mem_filter.1 hω
  refine mem_filter.2 ⟨mem_univ _, asksOf_hits rest final _ ω A x hx hD ?_⟩
  unfold Spec.Table.hash at hb
  rwa [dif_pos hD] at hb

open Classical in
theorem exists_preimage {α β : Type} [Fintype α] {f : α → β} (hf : Function.Injective f) (bad : Finset β) :
    ∃ s : Finset α, s.card ≤ bad.card ∧ ∀ a, f a ∈ bad → a ∈ s :=
  ⟨univ.filter (fun a => f a ∈ bad), card_le_card_of_injOn f (fun _ h => (mem_filter.1 h).2) (fun _ _ _ _ h => hf h),
    fun a h => mem_filter.2 ⟨mem_univ a, h⟩⟩

theorem bytes_length (d : Spec.Digest) : d.bytes.length = 32 := by simp [Spec.Digest.bytes]

theorem bytes_injective : Function.Injective Spec.Digest.bytes := by
  intro d d' h
  unfold Spec.Digest.bytes at h
  rw [List.ofFn_inj] at h
  funext i
  have := congrFun h i
  have h2 := congrArg UInt8.toNat this
  simp only [UInt8.toNat_ofNat'] at h2
  apply Fin.ext
  have := (d i).2
  have := (d' i).2
  omega

end
end Verif
