import Mathlib.Logic.Function.Basic
import Mathlib.Data.List.Basic
import Mathlib.Data.Nat.Log
import Verif.Model.Ints
import Verif.Spec.BitRev

/-! Lists described by their length and index function; machine-integer lemmas. -/
namespace Verif

section
variable {α ε : Type}

/-- `A` has length `n` and entry `f i` at each `i < n`. -/
def Rep (A : List α) (n : Nat) (f : Nat → α) : Prop := A.length = n ∧ ∀ i, i < n → A[i]? = some (f i)

theorem Rep.eq_map {A : List α} {n : Nat} {f : Nat → α} (h : Rep A n f) : A = (List.range n).map f := by
  apply List.ext_getElem?
  intro i
  by_cases hi : i < n
  · rw [h.2 i hi]; simp [hi]
  · rw [List.getElem?_eq_none (by rw [h.1]; omega), List.getElem?_eq_none (by simp; omega)]

theorem rep_map_range (n : Nat) (f : Nat → α) : Rep ((List.range n).map f) n f := by
  constructor
  · simp
  · intro i hi; simp [hi]

theorem rep_iff {A : List α} {n : Nat} {f : Nat → α} : Rep A n f ↔ A = (List.range n).map f :=
  ⟨Rep.eq_map, fun h => h ▸ rep_map_range n f⟩

theorem Rep.congr {A : List α} {n : Nat} {f g : Nat → α} (h : Rep A n f) (hfg : ∀ i, i < n → f i = g i) :
    Rep A n g := ⟨h.1, fun i hi => by rw [h.2 i hi, hfg i hi]⟩

theorem rep_getD (A : List α) (z : α) : Rep A A.length (fun i => A.getD i z) := by
  refine ⟨rfl, fun i hi => ?_⟩
  simp [List.getD, hi]

theorem Rep.idx {A : List α} {n : Nat} {f : Nat → α} (h : Rep A n f) {i : Nat} (hi : i < n) :
    (idx A i : Outcome ε α) = .ok (f i) := idx_ok (h.2 i hi)

theorem Rep.set {A : List α} {n : Nat} {f : Nat → α} (h : Rep A n f) {i : Nat} (x : α) :
    Rep (A.set i x) n (Function.update f i x) := by
  refine ⟨by simp [h.1], fun j hj => ?_⟩
  by_cases hij : i = j
  · subst hij; simp [h.1, hj]
  · rw [List.getElem?_set_ne hij, h.2 j hj, Function.update_of_ne (Ne.symm hij)]

theorem Rep.setIdx {A : List α} {n : Nat} {f : Nat → α} (h : Rep A n f) {i : Nat} (hi : i < n) (x : α) :
    (setIdx A i x : Outcome ε (List α)) = .ok (A.set i x) := setIdx_lt x (by rw [h.1]; exact hi)

theorem Rep.swap {A : List α} {n : Nat} {f : Nat → α} (h : Rep A n f) {i j : Nat} (hi : i < n) (hj : j < n) :
    ∃ B, (swapIdx A i j : Outcome ε (List α)) = .ok B ∧
      Rep B n (Function.update (Function.update f i (f j)) j (f i)) := by
  refine ⟨(A.set i (f j)).set j (f i), ?_, (h.set (f j)).set (f i)⟩
  simp [swapIdx, h.idx hi, h.idx hj, h.setIdx hi, (h.set (i := i) (f j)).setIdx hj]

theorem rep_resize (A : List α) (n : Nat) (z : α) : Rep (resize A n z) n (fun i => A.getD i z) :=
  ⟨length_resize A n z, fun i hi => by rw [getElem?_resize A n z i hi]; simp [List.getD]⟩

theorem Rep.length {A : List α} {n : Nat} {f : Nat → α} (h : Rep A n f) : A.length = n := h.1

theorem Rep.map {β : Type} {A : List α} {n : Nat} {f : Nat → α} (h : Rep A n f) (g : α → β) :
    Rep (A.map g) n (fun i => g (f i)) := by
  refine ⟨by simp [h.1], fun i hi => by simp [h.2 i hi]⟩

theorem Rep.getD {A : List α} {n : Nat} {f : Nat → α} (h : Rep A n f) (z : α) {i : Nat} (hi : i < n) :
    A.getD i z = f i := by
  simp [List.getD, h.2 i hi]

theorem Rep.getElem {A : List α} {n : Nat} {f : Nat → α} (h : Rep A n f) {i : Nat} (hi : i < A.length) :
    A[i] = f i := by
  have := h.2 i (by rw [← h.1]; exact hi)
  rw [List.getElem?_eq_getElem hi] at this
  exact Option.some.inj this

/-- The swap loop with an involution `ρ` applies the permutation `ρ`. -/
theorem swapLoop_spec {A : List α} {n : Nat} {f : Nat → α} (h : Rep A n f) (ρ : Nat → Nat)
    (hlt : ∀ i, i < n → ρ i < n) (hinv : ∀ i, i < n → ρ (ρ i) = i) :
    ∃ B, ((List.range n).foldlM (fun a k => if k < ρ k then swapIdx a (ρ k) k else pure a) A
      : Outcome ε (List α)) = .ok B ∧ Rep B n (fun i => f (ρ i)) := by
  obtain ⟨B, hB, hR⟩ := foldlM_range_inv (ε := ε) (n := n) (s := A)
    (body := fun a k => if k < ρ k then swapIdx a (ρ k) k else pure a)
    (fun k a => Rep a n (fun i => if min i (ρ i) < k then f (ρ i) else f i))
    (by simpa using h)
    (by
      intro k a hk ha
      by_cases hc : k < ρ k
      · obtain ⟨B, hB, hR⟩ := ha.swap (ε := ε) (hlt k hk) hk
        refine ⟨B, by simp [hc, hB], hR.congr ?_⟩
        intro i hi
        have h1 : ¬ (min k (ρ k) < k) := by omega
        have h2 : ¬ (min (ρ k) (ρ (ρ k)) < k) := by rw [hinv k hk]; omega
        by_cases hik : i = k
        · subst hik
          simp [h2]
        · rw [Function.update_of_ne hik]
          by_cases hir : i = ρ k
          · subst hir
            rw [Function.update_self, hinv k hk]
            simp; omega
          · rw [Function.update_of_ne hir]
            have : min i (ρ i) ≠ k := by
              intro hm
              rcases Nat.le_total i (ρ i) with hl | hl
              · rw [Nat.min_eq_left hl] at hm; exact hik hm
              · rw [Nat.min_eq_right hl] at hm
                apply hir; rw [← hm, hinv i hi]
            by_cases hm : min i (ρ i) < k
            · simp [hm]; omega
            · have : ¬ min i (ρ i) < k + 1 := by omega
              simp only [hm, this, if_false]
      · refine ⟨a, by simp [hc], ha.congr ?_⟩
        intro i hi
        by_cases hm : min i (ρ i) < k
        · have : min i (ρ i) < k + 1 := by omega
          simp only [hm, this, if_true]
        · by_cases hm' : min i (ρ i) < k + 1
          · simp only [hm, hm', if_true, if_false]
            have hmk : min i (ρ i) = k := by omega
            rcases Nat.le_total i (ρ i) with hl | hl
            · rw [Nat.min_eq_left hl] at hmk; subst hmk
              have : ρ i = i := by omega
              rw [this]
            · rw [Nat.min_eq_right hl] at hmk
              have : i = ρ k := by rw [← hmk, hinv i hi]
              have : i = k := by omega
              subst this; rw [hmk]
          · simp only [hm, hm', if_false])
  refine ⟨B, hB, hR.congr ?_⟩
  intro i hi
  have : min i (ρ i) < n := by omega
  simp [this]

end

/-! machine integers -/

theorem ctz_two_pow (f k : Nat) (h : k < f) : ctz f (2 ^ k) = k := by
  induction f generalizing k with
  | zero => omega
  | succ f ih =>
    cases k with
    | zero => simp [ctz]
    | succ k =>
      have h1 : 2 ^ (k + 1) % 2 = 0 := by rw [pow_succ]; omega
      have h2 : 2 ^ (k + 1) / 2 = 2 ^ k := by rw [pow_succ]; omega
      simp [ctz, h1, h2, ih k (by omega)]

theorem trailingZeros_two_pow (k : Nat) (h : k < 64) : trailingZeros (2 ^ k) = k := ctz_two_pow _ _ h
theorem trailingZeros32_two_pow (k : Nat) (h : k < 32) : trailingZeros32 (2 ^ k) = k := ctz_two_pow _ _ h

@[simp] theorem isPow2_two_pow (k : Nat) : isPow2 (2 ^ k) = true := by
  simp [isPow2, Nat.log2_two_pow]

theorem isPow2_iff (n : Nat) : isPow2 n = true ↔ ∃ k, n = 2 ^ k := by
  constructor
  · intro h
    simp [isPow2] at h
    exact ⟨n.log2, h.2.symm⟩
  · rintro ⟨k, rfl⟩; simp

theorem bitrev_or (r b w : Nat) (hb : b < 2) (h : r * 2 < 2 ^ w) :
    ((r * 2) % 2 ^ w) ||| b = 2 * r + b := by
  rw [Nat.mod_eq_of_lt h, Nat.mul_comm]
  have := Nat.two_pow_add_eq_or_of_lt (i := 1) (b := b) (by simpa using hb) r
  simpa using this.symm

theorem bitrev_loop_spec (w : Nat) (l n : Nat) (hl : l ≤ w) :
    ((List.range l).foldl (fun (st : Nat × Nat) _ =>
      (((st.1 <<< 1) % 2 ^ w) ||| (st.2 &&& 1), st.2 >>> 1)) (0, n)) =
      (Spec.brev l n, n / 2 ^ l) := by
  induction l with
  | zero => simp [Spec.brev]
  | succ l ih =>
    rw [List.range_succ, List.foldl_append, ih (by omega)]
    simp only [List.foldl_cons, List.foldl_nil]
    have hlt := Spec.brev_lt l n
    have h2 : Spec.brev l n * 2 < 2 ^ w := by
      have : 2 ^ (l + 1) ≤ 2 ^ w := Nat.pow_le_pow_right (by norm_num) hl
      rw [pow_succ] at this; omega
    ext
    · simp only [Nat.shiftLeft_eq, pow_one, Nat.and_one_is_mod]
      rw [bitrev_or _ _ _ (by omega) h2, Spec.brev_succ', Spec.brev_mod]; ring
    · simp only [Nat.shiftRight_eq_div_pow, Nat.div_div_eq_div_mul, ← pow_add]

end Verif
