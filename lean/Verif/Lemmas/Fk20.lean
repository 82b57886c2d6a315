import Mathlib.RingTheory.RootsOfUnity.Lemmas
import Mathlib.RingTheory.Polynomial.Cyclotomic.Basic
import Mathlib.FieldTheory.KummerPolynomial
import Verif.Model.Fk20Prover
import Verif.Lemmas.Toeplitz
import Verif.Lemmas.Cosets
import Verif.Lemmas.Bytes
import Verif.Spec.Kzg

/-! FK20: the computed proofs are commitments to the quotient polynomials. -/
set_option linter.unusedSectionVars false

namespace Verif
open Finset Polynomial

variable {ε : Type}

/-! ### vanishing polynomials -/

theorem point_split (e q k j : Nat) (hq : q ≤ e) (he : e ≤ 32) (hj : j < 2 ^ q) :
    Spec.point e (2 ^ q * k + j) = Spec.omega q ^ Spec.brev q j * Spec.omega e ^ Spec.brev (e - q) k := by
  unfold Spec.point
  obtain ⟨d, rfl⟩ := Nat.exists_eq_add_of_le hq
  rw [Nat.add_comm (2 ^ q * k) j, Spec.brev_concat q d j k hj, pow_add, mul_comm, Nat.add_sub_cancel_left, pow_mul]
  have := omega_pow q (q + d) (by omega) he
  rw [Nat.add_sub_cancel_left] at this
  rw [this]

theorem sum_brev {M : Type} [CommMonoid M] (q : Nat) (f : Nat → M) :
    ∏ j ∈ range (2 ^ q), f (Spec.brev q j) = ∏ j ∈ range (2 ^ q), f j := by
  refine prod_nbij' (Spec.brev q) (Spec.brev q) ?_ ?_ ?_ ?_ ?_
  · intro a _; exact mem_range.2 (Spec.brev_lt _ _)
  · intro a _; exact mem_range.2 (Spec.brev_lt _ _)
  · intro a ha; exact Spec.brev_brev _ _ (mem_range.1 ha)
  · intro a ha; exact Spec.brev_brev _ _ (mem_range.1 ha)
  · intro a _; rfl

theorem vanishing_eq (e q k : Nat) (hq : q ≤ e) (he : e ≤ 32) :
    Spec.vanishing e q k = X ^ 2 ^ q - C (Spec.omega (e - q) ^ Spec.brev (e - q) k) := by
  have h1 : (Spec.omega e ^ Spec.brev (e - q) k) ^ 2 ^ q = Spec.omega (e - q) ^ Spec.brev (e - q) k := by
    rw [← pow_mul, mul_comm, pow_mul]
    have := omega_pow (e - q) e (by omega) he
    rw [show e - (e - q) = q by omega] at this
    rw [this]
  rw [X_pow_sub_C_eq_prod (omega_primitive q (by omega)) (Nat.two_pow_pos q) h1]
  unfold Spec.vanishing
  rw [← sum_brev q (fun j => X - C (Spec.omega q ^ j * Spec.omega e ^ Spec.brev (e - q) k))]
  apply prod_congr rfl
  intro j hj
  rw [point_split e q k j hq he (mem_range.1 hj)]

/-! ### quotient -/

/-- coefficient `i` of the quotient by `X^l - c`, as computed -/
def quotCoeff (f : Nat → Fr) (l m : Nat) (c : Fr) (i : Nat) : Fr := ∑ a ∈ range m, c ^ a * f (i + l * (a + 1))

theorem quotCoeff_rec (f : Nat → Fr) (l m : Nat) (c : Fr) (hf : ∀ i, l * m ≤ i → f i = 0) (i : Nat) :
    quotCoeff f l m c i = f (i + l) + c * quotCoeff f l m c (i + l) := by
  unfold quotCoeff
  cases m with
  | zero => simp [hf (i + l) (by omega)]
  | succ m =>
    rw [sum_range_succ', mul_sum, sum_range_succ]
    have h0 : f (i + l + l * (m + 1)) = 0 := hf _ (by rw [add_assoc]; omega)
    rw [h0]
    simp only [pow_zero, one_mul, zero_add, mul_one, mul_zero, add_zero]
    rw [add_comm]
    congr 1
    apply sum_congr rfl
    intro a _
    rw [pow_succ, show i + l + l * (a + 1) = i + l * (a + 1 + 1) by ring]; ring

theorem coeff_div (f : Fr[X]) (l m : Nat) (hl : 0 < l) (hf : f.degree < (l * m : Nat)) (c : Fr) (i : Nat) :
    (f /ₘ (X ^ l - C c)).coeff i = quotCoeff f.coeff l m c i := by
  have hf0 : ∀ i, l * m ≤ i → f.coeff i = 0 := fun i hi => (degree_lt_iff_coeff_zero _ _).1 hf i hi
  set q : Fr[X] := ∑ i ∈ range (l * m), monomial i (quotCoeff f.coeff l m c i) with hq
  have hbig : ∀ i, l * m ≤ i → quotCoeff f.coeff l m c i = 0 := by
    intro i hi
    unfold quotCoeff
    apply sum_eq_zero
    intro a _
    rw [hf0 _ (by omega), mul_zero]
  have hqc : ∀ i, q.coeff i = quotCoeff f.coeff l m c i := by
    intro i
    rw [hq, finsetSum_coeff]
    simp only [coeff_monomial]
    rw [sum_ite_eq' (range (l * m)) i]
    split_ifs with h
    · rfl
    · rw [hbig i (by simpa using h)]
  have hmonic : (X ^ l - C c : Fr[X]).Monic := monic_X_pow_sub_C c (by omega)
  have := (div_modByMonic_unique (f := f) (g := X ^ l - C c) q (f - (X ^ l - C c) * q) hmonic
    ⟨by ring, by
      rw [degree_X_pow_sub_C hl, degree_lt_iff_coeff_zero]
      intro n hn
      obtain ⟨i, rfl⟩ := Nat.exists_eq_add_of_le hn
      rw [sub_mul, coeff_sub, coeff_sub, add_comm l i, coeff_X_pow_mul, coeff_C_mul, hqc, hqc,
        quotCoeff_rec f.coeff l m c hf0 i]
      ring⟩).1
  rw [this, hqc]

/-! ### slicing lemmas -/

theorem stepByList_eq {α : Type} (z : α) (l : List α) (n m : Nat) (hn : 0 < n) (h1 : n * m < l.length + n)
    (h2 : l.length ≤ n * m) :
    stepByList l n = (List.range m).map (fun t => l.getD (t * n) z) := by
  unfold stepByList
  have hm : (l.length + n - 1) / n = m := by
    rw [Nat.div_eq_iff hn]
    rw [mul_comm m n]
    constructor <;> omega
  rw [hm, ← List.filterMap_eq_map]
  apply List.filterMap_congr
  intro t ht
  have ht : t < m := List.mem_range.1 ht
  have : t * n < l.length := by
    have : (t + 1) * n ≤ m * n := Nat.mul_le_mul_right _ ht
    rw [mul_comm m n, add_mul, one_mul] at this
    omega
  simp [List.getD, this]

theorem takeEveryNth_eq {α : Type} (z : α) (l : List α) (n m : Nat) (hn : 0 < n) (hl : l.length = n * m) :
    takeEveryNth l n = (List.range n).map (fun j => (List.range m).map (fun t => l.getD (j + t * n) z)) := by
  unfold takeEveryNth
  apply List.map_congr_left
  intro j hj
  have hj : j < n := List.mem_range.1 hj
  by_cases hm : m = 0
  · subst hm
    simp [stepByList, hl]
  have hnm : n ≤ n * m := Nat.le_mul_of_pos_right _ (by omega)
  rw [stepByList_eq z _ n m hn (by simp; omega) (by simp; omega)]
  apply List.map_congr_left
  intro t _
  simp [List.getD]

theorem sum_stride {M : Type} [AddCommMonoid M] (l m : Nat) (F : Nat → M) :
    ∑ j ∈ range l, ∑ b ∈ range m, F (j + b * l) = ∑ i ∈ range (l * m), F i := by
  induction m with
  | zero => simp
  | succ m ih =>
    simp only [sum_range_succ, sum_add_distrib]
    rw [ih, mul_add, mul_one, sum_range_add]
    congr 1
    apply sum_congr rfl
    intro j _
    congr 1; ring

theorem nextPow2_pred (s : Nat) (hs : 2 ≤ s) : nextPow2 (2 ^ s - 1) = 2 ^ s := by
  unfold nextPow2
  congr 1
  have h2 : 2 ^ s = 2 * 2 ^ (s - 1) := by rw [← pow_succ']; congr 1; omega
  have h4 : 2 ≤ 2 ^ (s - 1) := by
    calc 2 = 2 ^ 1 := rfl
    _ ≤ 2 ^ (s - 1) := Nat.pow_le_pow_right (by norm_num) (by omega)
  apply le_antisymm
  · exact Nat.clog_le_of_le_pow (by omega)
  · have : s - 1 < Nat.clog 2 (2 ^ s - 1) := (Nat.lt_clog_iff_pow_lt (by norm_num)).2 (by omega)
    omega

/-! ### the prover -/
section
variable {K G : Type} [Field K] [DecidableEq K] [AddCommGroup G] [Module Fr G] [DecidableEq G] [Curve K G]

omit [Module Fr G] [DecidableEq G] in
/-- SRS vectors as index functions -/
theorem srsVectors_eq (g : List G) (q s : Nat) (hs : 2 ≤ s) (hg : g.length = 2 ^ (q + s)) :
    srsVectors g (2 ^ q) = (List.range (2 ^ q)).map (fun j => (List.range (2 ^ s)).map (fun b =>
      if b + 1 < 2 ^ s then g.getD (2 ^ (q + s) - 1 - (2 ^ q + (j + b * 2 ^ q))) 0 else 0)) := by
  have hq := Nat.two_pow_pos q
  have hs0 := Nat.two_pow_pos s
  have hmul : 2 ^ (q + s) = 2 ^ q * 2 ^ s := pow_add _ _ _
  have hlen : (g.reverse.drop (2 ^ q)).length = 2 ^ q * (2 ^ s - 1) := by
    rw [List.length_drop, List.length_reverse, hg, hmul, Nat.mul_sub, mul_one]
  unfold srsVectors
  simp only
  rw [takeEveryNth_eq 0 _ (2 ^ q) (2 ^ s - 1) hq hlen, List.map_map]
  apply List.map_congr_left
  intro j hj
  have hj : j < 2 ^ q := List.mem_range.1 hj
  simp only [Function.comp_apply, List.length_map, List.length_range, nextPow2_pred s hs]
  rw [(rep_resize _ _ _).eq_map]
  apply List.map_congr_left
  intro b _
  by_cases hb : b + 1 < 2 ^ s
  · rw [if_pos hb]
    have hb' : b < 2 ^ s - 1 := by omega
    have hlt : j + b * 2 ^ q < 2 ^ q * (2 ^ s - 1) := by
      have : (b + 1) * 2 ^ q ≤ (2 ^ s - 1) * 2 ^ q := Nat.mul_le_mul_right _ hb'
      rw [mul_comm (2 ^ s - 1), add_mul, one_mul] at this
      omega
    have hlt2 : 2 ^ q + (j + b * 2 ^ q) < g.length := by
      rw [hg, hmul]
      rw [Nat.mul_sub, mul_one] at hlt
      omega
    simp only [List.getD, List.getElem?_map, List.getElem?_range hb', Option.map_some, Option.getD_some,
      List.getElem?_drop]
    rw [List.getElem?_reverse hlt2, hg]
  · rw [if_neg hb]
    simp only [List.getD, List.getElem?_map]
    rw [List.getElem?_eq_none (by simp; omega)]
    rfl

/-- Toeplitz matrices of the prover -/
theorem hPolyMatrices (f : List Fr) (q s : Nat) (hf : f.length = 2 ^ (q + s)) :
    ((takeEveryNth f.reverse (2 ^ q)).mapM hPolyMatrix : Outcome ε (List ToeplitzMatrix)) =
      .ok ((List.range (2 ^ q)).map (fun j =>
        (⟨(List.range (2 ^ s)).map (fun t => f.getD (2 ^ (q + s) - 1 - (j + t * 2 ^ q)) 0),
          (List.range (2 ^ s)).map (fun t => if t = 0 then f.getD (2 ^ (q + s) - 1 - j) 0 else 0)⟩ : ToeplitzMatrix))) := by
  have hq := Nat.two_pow_pos q
  have hs0 := Nat.two_pow_pos s
  have hmul : 2 ^ (q + s) = 2 ^ q * 2 ^ s := pow_add _ _ _
  rw [takeEveryNth_eq 0 _ (2 ^ q) (2 ^ s) hq (by rw [List.length_reverse, hf, hmul]), List.mapM_map]
  apply mapM_ok
  intro j hj
  have hj : j < 2 ^ q := List.mem_range.1 hj
  have hrow : (List.range (2 ^ s)).map (fun t => f.reverse.getD (j + t * 2 ^ q) 0) =
      (List.range (2 ^ s)).map (fun t => f.getD (2 ^ (q + s) - 1 - (j + t * 2 ^ q)) 0) := by
    apply List.map_congr_left
    intro t ht
    have ht : t < 2 ^ s := List.mem_range.1 ht
    have hlt : j + t * 2 ^ q < f.length := by
      have : (t + 1) * 2 ^ q ≤ 2 ^ s * 2 ^ q := Nat.mul_le_mul_right _ ht
      rw [mul_comm (2 ^ s), add_mul, one_mul] at this
      omega
    simp only [List.getD]
    rw [List.getElem?_reverse hlt, hf]
  simp only [Function.comp_apply, hrow]
  unfold hPolyMatrix
  have hR := rep_map_range (2 ^ s) (fun t => f.getD (2 ^ (q + s) - 1 - (j + t * 2 ^ q)) 0)
  have hz : Rep (List.replicate (2 ^ s) (0 : Fr)) (2 ^ s) (fun _ => 0) :=
    ⟨by simp, fun i hi => by simp [hi]⟩
  simp only [List.length_map, List.length_range, hR.idx hs0, Outcome.ok_bind, hz.setIdx hs0]
  unfold ToeplitzMatrix.new
  have hcol := (hz.set (i := 0) (f.getD (2 ^ (q + s) - 1 - (j + 0 * 2 ^ q)) 0)).eq_map
  rw [assertP_true]
  · simp only [Outcome.ok_bind, Outcome.pure_eq, hcol]
    congr 2
    apply List.map_congr_left
    intro t _
    by_cases h : t = 0
    · subst h; simp
    · simp [h]
  · constructor
    · intro h; have := congrArg List.length h; simp at this
    · intro h; have := congrArg List.length h; simp at this

omit [DecidableEq G] in
/-- one entry of the product, summed over the matrices: the commitment to a shift of `f` -/
theorem hPoly_value (g : List G) (f : List Fr) (q s : Nat) (hf : f.length = 2 ^ (q + s))
    (hg : g.length = 2 ^ (q + s)) (a : Nat) (ha : a < 2 ^ s) :
    ∑ j ∈ range (2 ^ q), ∑ b ∈ range (2 ^ s),
      (if a ≤ b then f.getD (2 ^ (q + s) - 1 - (j + (b - a) * 2 ^ q)) 0 else 0) •
        (if b + 1 < 2 ^ s then g.getD (2 ^ (q + s) - 1 - (2 ^ q + (j + b * 2 ^ q))) 0 else 0) =
      ∑ i ∈ range (2 ^ (q + s)), f.getD (i + 2 ^ q * (a + 1)) 0 • g.getD i 0 := by
  have hq := Nat.two_pow_pos q
  have hs0 := Nat.two_pow_pos s
  have hmul : 2 ^ (q + s) = 2 ^ q * 2 ^ s := pow_add _ _ _
  set n := 2 ^ (q + s) with hn
  set l := 2 ^ q with hl
  set m := 2 ^ s with hm
  have e1 : ∑ j ∈ range l, ∑ b ∈ range m,
      (if a ≤ b then f.getD (n - 1 - (j + (b - a) * l)) 0 else 0) •
        (if b + 1 < m then g.getD (n - 1 - (l + (j + b * l))) 0 else 0) =
      ∑ j ∈ range l, ∑ b ∈ range m, (fun i => if a * l ≤ i ∧ i + l < n then
        f.getD (n - 1 - (i - a * l)) 0 • g.getD (n - 1 - (l + i)) 0 else 0) (j + b * l) := by
    apply sum_congr rfl
    intro j hj
    have hj : j < l := mem_range.1 hj
    apply sum_congr rfl
    intro b hb
    have hb : b < m := mem_range.1 hb
    have h1 : (a * l ≤ j + b * l) ↔ a ≤ b := by
      constructor
      · intro h
        by_contra hlt
        have : (b + 1) * l ≤ a * l := Nat.mul_le_mul_right _ (by omega)
        rw [add_mul, one_mul] at this
        omega
      · intro h
        have : a * l ≤ b * l := Nat.mul_le_mul_right _ h
        omega
    have h2 : (j + b * l + l < n) ↔ b + 1 < m := by
      constructor
      · intro h
        by_contra hlt
        have : m * l ≤ (b + 1) * l := Nat.mul_le_mul_right _ (by omega)
        rw [mul_comm m, add_mul, one_mul] at this
        omega
      · intro h
        have : (b + 1 + 1) * l ≤ m * l := Nat.mul_le_mul_right _ h
        rw [mul_comm m, add_mul, add_mul, one_mul] at this
        omega
    simp only [h1, h2]
    by_cases c1 : a ≤ b
    · by_cases c2 : b + 1 < m
      · have e : j + b * l - a * l = j + (b - a) * l := by
          rw [Nat.sub_mul]
          have : a * l ≤ b * l := Nat.mul_le_mul_right _ c1
          omega
        simp [c1, c2, e]
      · simp [c2]
    · simp [c1]
  rw [e1, sum_stride l m (fun i => if a * l ≤ i ∧ i + l < n then
        f.getD (n - 1 - (i - a * l)) 0 • g.getD (n - 1 - (l + i)) 0 else 0), ← hmul, ← sum_range_reflect]
  -- reflect, then shift by `l`
  have hln : l ≤ n := by rw [hmul]; exact Nat.le_mul_of_pos_right _ hs0
  have hal : a * l + l ≤ n := by
    have : (a + 1) * l ≤ m * l := Nat.mul_le_mul_right _ ha
    rw [mul_comm m, add_mul, one_mul] at this
    omega
  obtain ⟨d, hd⟩ := Nat.exists_eq_add_of_le hln
  rw [hd, sum_range_add]
  have z1 : ∑ x ∈ range l, (if a * l ≤ l + d - 1 - x ∧ l + d - 1 - x + l < l + d then
        f.getD (l + d - 1 - (l + d - 1 - x - a * l)) 0 • g.getD (l + d - 1 - (l + (l + d - 1 - x))) 0 else 0) = 0 := by
    apply sum_eq_zero
    intro x hx
    have hx : x < l := mem_range.1 hx
    rw [if_neg (by omega)]
  rw [z1, zero_add, add_comm l d, sum_range_add]
  have z2 : ∑ x ∈ range l, f.getD (d + x + l * (a + 1)) 0 • g.getD (d + x) 0 = 0 := by
    apply sum_eq_zero
    intro x _
    rw [List.getD_eq_default _ _ (by rw [hf, hd, mul_add, mul_one]; omega), zero_smul]
  rw [z2, add_zero]
  apply sum_congr rfl
  intro x hx
  have hx : x < d := mem_range.1 hx
  have ex : l * (a + 1) = a * l + l := by ring
  by_cases h : x + (a * l + l) < n
  · rw [if_pos (by omega)]
    congr 2
    · rw [ex]; omega
    · omega
  · rw [if_neg (by omega), List.getD_eq_default _ _ (by rw [hf, ex]; omega), zero_smul]

/-- commitment to the shift of `f` by `2^q (a+1)` places -/
def shiftCommit (g : List G) (f : List Fr) (q a : Nat) : G :=
  ∑ i ∈ range g.length, f.getD (i + 2 ^ q * (a + 1)) 0 • g.getD i 0

/-- `BatchToeplitz` of the prover; `M` is the table of fixed-base MSMs -/
def toeplitzOf (q s : Nat) (M : Nat → FixedBaseMSM K G) : BatchToeplitz K G :=
  ⟨2 ^ q, (List.range (2 ^ (s + 1))).map M, 2 ^ s, domainOf (s + 1)⟩

/-- the MSM table is exact or panics -/
def MsmSound (ε : Type) (g : List G) (q s : Nat) (M : Nat → FixedBaseMSM K G) : Prop :=
  ∀ j < 2 ^ (s + 1), ∀ x : List Fr, x.length = 2 ^ q →
    ((M j).msm x : Outcome ε G) = .panic ∨
      ((M j).msm x : Outcome ε G) = .ok (lcSum (fftGens (srsVectors g (2 ^ q)) (s + 1) j) x)

/-- the MSM table is exact -/
def MsmExact (ε : Type) (g : List G) (q s : Nat) (M : Nat → FixedBaseMSM K G) : Prop :=
  ∀ j < 2 ^ (s + 1), ∀ x : List Fr, x.length = 2 ^ q →
    ((M j).msm x : Outcome ε G) = .ok (lcSum (fftGens (srsVectors g (2 ^ q)) (s + 1) j) x)

theorem hPoly_sum (g : List G) (f : List Fr) (q s : Nat) (hs : 2 ≤ s) (hg : g.length = 2 ^ (q + s))
    (hf : f.length = 2 ^ (q + s)) (a : Nat) (ha : a < 2 ^ s) :
    (((srsVectors g (2 ^ q)).zip ((List.range (2 ^ q)).map (fun j =>
        (⟨(List.range (2 ^ s)).map (fun t => f.getD (2 ^ (q + s) - 1 - (j + t * 2 ^ q)) 0),
          (List.range (2 ^ s)).map (fun t => if t = 0 then f.getD (2 ^ (q + s) - 1 - j) 0 else 0)⟩ : ToeplitzMatrix)))).map
      (fun p => Spec.toeplitzMul p.2.row p.2.col p.1 (2 ^ s) a)).sum = shiftCommit g f q a := by
  rw [srsVectors_eq g q s hs hg, List.zip_map', List.map_map]
  have : ∀ (n : Nat) (F : Nat → G), ((List.range n).map F).sum = ∑ j ∈ range n, F j := by
    intro n F
    induction n with
    | zero => simp
    | succ n ih => rw [List.range_succ, List.map_append, List.sum_append, ih, sum_range_succ]; simp
  rw [this]
  unfold shiftCommit
  rw [hg, ← hPoly_value g f q s hf hg a ha]
  apply sum_congr rfl
  intro j _
  simp only [Function.comp_apply, Spec.toeplitzMul]
  apply sum_congr rfl
  intro b hb
  have hb : b < 2 ^ s := mem_range.1 hb
  have h1 : ((List.range (2 ^ s)).map (fun b => if b + 1 < 2 ^ s then
      g.getD (2 ^ (q + s) - 1 - (2 ^ q + (j + b * 2 ^ q))) 0 else 0)).getD b 0 =
      if b + 1 < 2 ^ s then g.getD (2 ^ (q + s) - 1 - (2 ^ q + (j + b * 2 ^ q))) 0 else 0 :=
    (rep_map_range _ _).getD 0 hb
  rw [h1]
  congr 1
  unfold Spec.toeplitzEntry
  by_cases h : b ≤ a
  · rw [if_pos h, (rep_map_range (2 ^ s) _).getD 0 (by omega)]
    by_cases h' : a ≤ b
    · have : a = b := by omega
      subst this
      simp
    · rw [if_neg h', if_neg (by omega)]
  · rw [if_neg h, if_pos (by omega), (rep_map_range (2 ^ s) _).getD 0 (by omega)]

theorem computeHPoly_sound (g : List G) (f : List Fr) (q s : Nat) (hs : 2 ≤ s) (hs32 : s + 1 ≤ 32)
    (hg : g.length = 2 ^ (q + s)) (hf : f.length = 2 ^ (q + s)) (M : Nat → FixedBaseMSM K G)
    (hM : MsmSound ε g q s M) :
    (computeHPolyCommitments (toeplitzOf q s M) f (2 ^ q) : Outcome ε (List G)) = .panic ∨
    (computeHPolyCommitments (toeplitzOf q s M) f (2 ^ q) : Outcome ε (List G)) =
      .ok ((List.range (2 ^ s)).map (shiftCommit g f q)) := by
  unfold computeHPolyCommitments
  rw [assertP_true (isPow2_two_pow q), assertP_true (by rw [hf]; exact isPow2_two_pow _)]
  simp only [Outcome.ok_bind]
  rw [hPolyMatrices f q s hf, Outcome.ok_bind]
  have hlv : (srsVectors g (2 ^ q)).length = 2 ^ q := by rw [srsVectors_eq g q s hs hg]; simp
  have := sumMatrixVectorMul_exact (ε := ε) (srsVectors g (2 ^ q)) ((List.range (2 ^ q)).map (fun j =>
        (⟨(List.range (2 ^ s)).map (fun t => f.getD (2 ^ (q + s) - 1 - (j + t * 2 ^ q)) 0),
          (List.range (2 ^ s)).map (fun t => if t = 0 then f.getD (2 ^ (q + s) - 1 - j) 0 else 0)⟩ : ToeplitzMatrix)))
    s hs32 (by
      intro h; have := congrArg List.length h; simp at this) (by rw [hlv]; simp)
    (by
      intro v hv
      rw [srsVectors_eq g q s hs hg] at hv
      obtain ⟨j, _, rfl⟩ := List.mem_map.1 hv
      simp)
    (by
      intro tm htm
      obtain ⟨j, _, rfl⟩ := List.mem_map.1 htm
      simp) M (by rw [hlv]; exact hM) _ rfl
  rw [hlv] at this
  rcases this with h | h
  · left; exact h
  · right
    unfold toeplitzOf
    rw [h]
    congr 1
    apply List.map_congr_left
    intro a ha
    exact hPoly_sum g f q s hs hg hf a (List.mem_range.1 ha)

theorem computeHPoly_exact (g : List G) (f : List Fr) (q s : Nat) (hs : 2 ≤ s) (hs32 : s + 1 ≤ 32)
    (hg : g.length = 2 ^ (q + s)) (hf : f.length = 2 ^ (q + s)) (M : Nat → FixedBaseMSM K G)
    (hM : MsmExact ε g q s M) :
    (computeHPolyCommitments (toeplitzOf q s M) f (2 ^ q) : Outcome ε (List G)) =
      .ok ((List.range (2 ^ s)).map (shiftCommit g f q)) := by
  unfold computeHPolyCommitments
  rw [assertP_true (isPow2_two_pow q), assertP_true (by rw [hf]; exact isPow2_two_pow _)]
  simp only [Outcome.ok_bind]
  rw [hPolyMatrices f q s hf, Outcome.ok_bind]
  set ms := ((List.range (2 ^ q)).map (fun j =>
        (⟨(List.range (2 ^ s)).map (fun t => f.getD (2 ^ (q + s) - 1 - (j + t * 2 ^ q)) 0),
          (List.range (2 ^ s)).map (fun t => if t = 0 then f.getD (2 ^ (q + s) - 1 - j) 0 else 0)⟩ : ToeplitzMatrix)))
    with hms
  have hlm : ms.length = 2 ^ q := by simp [hms]
  have hlv : (srsVectors g (2 ^ q)).length = 2 ^ q := by rw [srsVectors_eq g q s hs hg]; simp
  unfold toeplitzOf
  conv_lhs => rw [← hlm]
  rw [sumMatrixVectorMul_eq _ s hs32 ms (by
      intro h; rw [h] at hlm; have := Nat.two_pow_pos q; simp at hlm; omega), List.zip_map', List.mapM_map]
  have h := mapM_ok (f := fun j => ((M j).msm (fftScals ms (s + 1) j) : Outcome ε G))
    (g := fun j => lcSum (fftGens (srsVectors g (2 ^ q)) (s + 1) j) (fftScals ms (s + 1) j))
    (l := List.range (2 ^ (s + 1))) (by
      intro j hj
      exact hM j (List.mem_range.1 hj) _ (by simp [fftScals, hlm]))
  simp only [Function.comp_def] at h ⊢
  rw [h, Outcome.ok_bind, toeplitz_value (srsVectors g (2 ^ q)) ms s hs32 (by rw [hlm, hlv]) (by
      intro v hv
      rw [srsVectors_eq g q s hs hg] at hv
      obtain ⟨j, _, rfl⟩ := List.mem_map.1 hv
      simp)
    (by
      intro tm htm
      obtain ⟨j, _, rfl⟩ := List.mem_map.1 htm
      simp)]
  congr 1
  apply List.map_congr_left
  intro a ha
  exact hPoly_sum g f q s hs hg hf a (List.mem_range.1 ha)

/-- the proofs from the shift commitments -/
theorem openingProof_eq (g : List G) (f : List Fr) (q s e k : Nat)
    (hf : f.length = 2 ^ (q + s)) (hse : q + s ≤ e) (he : e ≤ 32) :
    Spec.dft (Spec.omega (e - q)) (2 ^ (e - q))
      (fun i => ((List.range (2 ^ s)).map (shiftCommit g f q)).getD i 0) (Spec.brev (e - q) k) =
      Spec.openingProof g e q (Spec.polyOf f) k := by
  have hle : 2 ^ s ≤ 2 ^ (e - q) := Nat.pow_le_pow_right (by norm_num) (by omega)
  obtain ⟨d, hd⟩ := Nat.exists_eq_add_of_le hle
  unfold Spec.dft Spec.openingProof Spec.commitment
  rw [hd, sum_range_add]
  have z : ∑ x ∈ range d, Spec.omega (e - q) ^ ((2 ^ s + x) * Spec.brev (e - q) k) •
      ((List.range (2 ^ s)).map (shiftCommit g f q)).getD (2 ^ s + x) 0 = 0 := by
    apply sum_eq_zero
    intro x _
    rw [List.getD_eq_default _ _ (by simp), smul_zero]
  rw [z, add_zero, vanishing_eq e q k (by omega) he]
  have hd' : (Spec.polyOf f).degree < (2 ^ q * 2 ^ s : Nat) := by
    rw [← pow_add, ← hf]; exact Spec.degree_polyOf_lt f
  simp only [coeff_div _ (2 ^ q) (2 ^ s) (Nat.two_pow_pos q) hd', quotCoeff, Spec.coeff_polyOf, sum_smul]
  rw [sum_comm]
  apply sum_congr rfl
  intro a ha
  rw [(rep_map_range (2 ^ s) _).getD 0 (mem_range.1 ha), shiftCommit, smul_sum]
  apply sum_congr rfl
  intro i _
  rw [smul_smul, mul_comm a, pow_mul]

/-- A prover for parameters `2^(q+s)`, `2^q`, `2^e`. -/
def proverOf (g : List G) (q s e : Nat) (M : Nat → FixedBaseMSM K G) : FK20Prover K G where
  batchToeplitz := toeplitzOf q s M
  cosetSize := 2 ^ q
  numberOfPointsToOpen := 2 ^ e
  proofDomain := domainOf (e - q)
  evaluationDomain := domainOf e
  polyDomain := domainOf (q + s)
  commitKey := g

omit [DecidableEq K] in
theorem prover_new_ok (g : List G) (q s e : Nat) (hs : 2 ≤ s) (hse : q + s ≤ e) (he : e < 32)
    (hg : g.length = 2 ^ (q + s)) (up : UsePrecomp) (p : FK20Prover K G)
    (h : (FK20Prover.new g (2 ^ (q + s)) (2 ^ q) (2 ^ e) up : Outcome ε (FK20Prover K G)) = .ok p) :
    ∃ M, p = proverOf g q s e M ∧ ∀ j < 2 ^ (s + 1),
      (FixedBaseMSM.new (fftGens (srsVectors g (2 ^ q)) (s + 1) j) up : Outcome ε (FixedBaseMSM K G)) = .ok (M j) := by
  have hq := Nat.two_pow_pos q
  have h1 : 2 ^ q < 2 ^ (q + s) := Nat.pow_lt_pow_right (by norm_num) (by omega)
  have h2 : 2 ^ (q + s) ≤ 2 ^ e := Nat.pow_le_pow_right (by norm_num) hse
  have hlv : (srsVectors g (2 ^ q)).length = 2 ^ q := by rw [srsVectors_eq g q s hs hg]; simp
  unfold FK20Prover.new at h
  rw [assertP_true (isPow2_two_pow _), assertP_true (isPow2_two_pow _), assertP_true (by omega),
    assertP_true (isPow2_two_pow _), assertP_true (by omega), assertP_true (by omega)] at h
  simp only [Outcome.ok_bind] at h
  rw [batchToeplitz_new (srsVectors g (2 ^ q)) s (by omega) (by
      intro h; rw [h] at hlv; simp at hlv; omega) (by
      intro v hv
      rw [srsVectors_eq g q s hs hg] at hv
      obtain ⟨j, _, rfl⟩ := List.mem_map.1 hv
      simp), Nat.pow_div (by omega) (by norm_num), domain_new_two_pow (e - q) (by omega),
    domain_new_two_pow e (by omega), domain_new_two_pow (q + s) (by omega)] at h
  simp only [Outcome.ok_bind, bind_eq_ok, Outcome.ok.injEq, Outcome.pure_eq] at h
  obtain ⟨bt, ⟨table, ht, rfl⟩, rfl⟩ := h
  have hlen : table.length = 2 ^ (s + 1) := by rw [mapM_length ht]; simp
  refine ⟨fun j => table.getD j (.noPrecomp []), ?_, ?_⟩
  · unfold proverOf toeplitzOf
    congr 2
    rw [← (show Rep table (2 ^ (s + 1)) _ from hlen ▸ rep_getD table (.noPrecomp [])).eq_map]
  · intro j hj
    have := mapM_getElem ht (i := j) (by simpa using hj) (by omega)
    simp only [List.getElem_map, List.getElem_range] at this
    rw [this]
    simp [List.getD, show j < table.length by omega]

theorem computeCosetEvaluations_eq (g : List G) (f : List Fr) (q s e : Nat) (hse : q + s ≤ e) (he : e < 32)
    (hf : f.length = 2 ^ (q + s)) (M : Nat → FixedBaseMSM K G) :
    ((proverOf g q s e M).computeCosetEvaluations f : Outcome ε (List (List Fr))) =
      .ok ((List.range (2 ^ (e - q))).map (fun k => (List.range (2 ^ q)).map (fun j =>
        (Spec.polyOf f).eval (Spec.point e (2 ^ q * k + j))))) := by
  unfold FK20Prover.computeCosetEvaluations proverOf
  simp only
  rw [fftScalars_eval e he.le f (by rw [hf]; exact Nat.pow_le_pow_right (by norm_num) hse), Outcome.ok_bind,
    reverseBitOrder_eq e he (rep_map_range _ _), Outcome.ok_bind, chunksExact_eq]
  simp only [List.length_map, List.length_range, Outcome.pure_eq]
  rw [Nat.pow_div (by omega) (by norm_num)]
  congr 1
  apply List.map_congr_left
  intro k hk
  have hk : k < 2 ^ (e - q) := List.mem_range.1 hk
  have hlt : 2 ^ q * (k + 1) ≤ 2 ^ e := by
    have : 2 ^ q * (k + 1) ≤ 2 ^ q * 2 ^ (e - q) := Nat.mul_le_mul_left _ hk
    rwa [← pow_add, show q + (e - q) = e by omega] at this
  refine Rep.eq_map ⟨block_length (by simpa using hlt), ?_⟩
  intro j hj
  rw [getElem?_block hj]
  rw [mul_add, mul_one] at hlt
  simp only [List.getElem?_map]
  rw [List.getElem?_range (by omega)]
  rfl

theorem multiOpening_tail (g : List G) (f : List Fr) (q s e : Nat) (hse : q + s ≤ e) (he : e < 32)
    (hf : f.length = 2 ^ (q + s)) (M : Nat → FixedBaseMSM K G) :
    (do let proofs ← (domainOf (e - q)).fftG1 ((List.range (2 ^ s)).map (shiftCommit g f q))
        let proofs ← reverseBitOrder proofs
        let evals ← (proverOf g q s e M).computeCosetEvaluations f
        pure (proofs, evals) : Outcome ε _) =
      .ok ((List.range (2 ^ (e - q))).map (Spec.openingProof g e q (Spec.polyOf f)),
        (List.range (2 ^ (e - q))).map (fun k => (List.range (2 ^ q)).map (fun j =>
          (Spec.polyOf f).eval (Spec.point e (2 ^ q * k + j))))) := by
  rw [fftG1_spec (e - q) (by omega), Outcome.ok_bind, reverseBitOrder_eq (e - q) (by omega) (rep_map_range _ _),
    Outcome.ok_bind, computeCosetEvaluations_eq g f q s e hse he hf M, Outcome.ok_bind, Outcome.pure_eq]
  congr 2
  apply List.map_congr_left
  intro k _
  exact openingProof_eq g f q s e k hf hse he.le

theorem multiOpening_sound (g : List G) (f : List Fr) (q s e : Nat) (hs : 2 ≤ s) (hse : q + s ≤ e) (he : e < 32)
    (hg : g.length = 2 ^ (q + s)) (hf : f.length = 2 ^ (q + s)) (M : Nat → FixedBaseMSM K G) (hM : MsmSound ε g q s M) :
    ((proverOf g q s e M).computeMultiOpeningProofsPolyCoeff f : Outcome ε _) = .panic ∨
    ((proverOf g q s e M).computeMultiOpeningProofsPolyCoeff f : Outcome ε _) =
      .ok ((List.range (2 ^ (e - q))).map (Spec.openingProof g e q (Spec.polyOf f)),
        (List.range (2 ^ (e - q))).map (fun k => (List.range (2 ^ q)).map (fun j =>
          (Spec.polyOf f).eval (Spec.point e (2 ^ q * k + j))))) := by
  unfold FK20Prover.computeMultiOpeningProofsPolyCoeff
  have hc : (proverOf g q s e M).batchToeplitz = toeplitzOf q s M := rfl
  have hc2 : (proverOf g q s e M).cosetSize = 2 ^ q := rfl
  have hc3 : (proverOf g q s e M).proofDomain = domainOf (e - q) := rfl
  rw [hc, hc2, hc3]
  rcases computeHPoly_sound g f q s hs (by omega) hg hf M hM with h | h
  · left; rw [h]; rfl
  · right
    rw [h, Outcome.ok_bind, multiOpening_tail g f q s e hse he hf M]

theorem multiOpening_exact (g : List G) (f : List Fr) (q s e : Nat) (hs : 2 ≤ s) (hse : q + s ≤ e) (he : e < 32)
    (hg : g.length = 2 ^ (q + s)) (hf : f.length = 2 ^ (q + s)) (M : Nat → FixedBaseMSM K G) (hM : MsmExact ε g q s M) :
    ((proverOf g q s e M).computeMultiOpeningProofsPolyCoeff f : Outcome ε _) =
      .ok ((List.range (2 ^ (e - q))).map (Spec.openingProof g e q (Spec.polyOf f)),
        (List.range (2 ^ (e - q))).map (fun k => (List.range (2 ^ q)).map (fun j =>
          (Spec.polyOf f).eval (Spec.point e (2 ^ q * k + j))))) := by
  unfold FK20Prover.computeMultiOpeningProofsPolyCoeff
  have hc : (proverOf g q s e M).batchToeplitz = toeplitzOf q s M := rfl
  have hc2 : (proverOf g q s e M).cosetSize = 2 ^ q := rfl
  have hc3 : (proverOf g q s e M).proofDomain = domainOf (e - q) := rfl
  rw [hc, hc2, hc3, computeHPoly_exact g f q s hs (by omega) hg hf M hM, Outcome.ok_bind,
    multiOpening_tail g f q s e hse he hf M]

theorem msmExact_no (g : List G) (q s : Nat) (M : Nat → FixedBaseMSM K G)
    (h : ∀ j < 2 ^ (s + 1), (FixedBaseMSM.new (fftGens (srsVectors g (2 ^ q)) (s + 1) j) .no :
      Outcome ε (FixedBaseMSM K G)) = .ok (M j)) : MsmExact ε g q s M := by
  intro j hj x _
  have := h j hj
  simp only [FixedBaseMSM.new, Outcome.pure_eq, Outcome.ok.injEq] at this
  rw [← this]
  simp [FixedBaseMSM.msm, lincomb_eq, expect]

end

end Verif
