import Verif.Props.CommitKey
import Verif.Lemmas.Naive
import Verif.Props.Toy

/-!
C101: what the FK20 prover (fk20/prover.rs:126-143 and 170-207) makes of data whose number of values is not the polynomial bound.
-/
namespace Verif

/-- `2^b` places; the values are put on them at equal distances, with zeros between. If there are more values than places, only the
values at equal distances are kept. -/
def Spec.laidOut (b : Nat) (d : List Fr) : List Fr :=
  (List.range (2 ^ b)).map (fun i => if 2 ^ b ∣ i * d.length then d.getD (i * d.length / 2 ^ b) 0 else 0)

open Polynomial Finset

set_option linter.unusedSectionVars false

/-- C101, fewer values than places: value number `i` goes to place `2^r i`, all other places are zero. -/
theorem C101_spread (t r : Nat) (d : List Fr) (hd : d.length = 2 ^ t) :
    (Spec.laidOut (t + r) d).length = 2 ^ (t + r) ∧ (∀ i < 2 ^ t, (Spec.laidOut (t + r) d)[2 ^ r * i]? = d[i]?) ∧
    ∀ j < 2 ^ (t + r), ¬ 2 ^ r ∣ j → (Spec.laidOut (t + r) d)[j]? = some 0 := by
  have ht := Nat.two_pow_pos t
  have hr := Nat.two_pow_pos r
  refine ⟨by simp [Spec.laidOut], fun i hi => ?_, fun j hj hdv => ?_⟩
  · have hlt : 2 ^ r * i < 2 ^ (t + r) := by rw [pow_add, mul_comm]; exact Nat.mul_lt_mul_of_pos_right hi hr
    have he : 2 ^ r * i * 2 ^ t = 2 ^ (t + r) * i := by rw [pow_add]; ring
    unfold Spec.laidOut
    rw [List.getElem?_map, List.getElem?_range hlt, Option.map_some, hd, he, if_pos (dvd_mul_right _ _),
      Nat.mul_div_cancel_left _ (Nat.two_pow_pos _), List.getD_eq_getElem _ _ (by omega), List.getElem?_eq_getElem (by omega)]
  · unfold Spec.laidOut
    rw [List.getElem?_map, List.getElem?_range hj, Option.map_some, hd, if_neg]
    rw [pow_add, mul_comm (2 ^ t)]
    exact fun h => hdv (Nat.dvd_of_mul_dvd_mul_right ht h)

/-- C101, more values than places: place number `i` gets value number `2^r i`; the other values are not used. -/
theorem C101_thinned (b r : Nat) (d : List Fr) (hd : d.length = 2 ^ (b + r)) :
    (Spec.laidOut b d).length = 2 ^ b ∧ ∀ i < 2 ^ b, (Spec.laidOut b d)[i]? = d[2 ^ r * i]? := by
  have hb := Nat.two_pow_pos b
  refine ⟨by simp [Spec.laidOut], fun i hi => ?_⟩
  have hlt : 2 ^ r * i < 2 ^ (b + r) := by rw [pow_add, mul_comm]; exact Nat.mul_lt_mul_of_pos_right hi (Nat.two_pow_pos _)
  have he : i * 2 ^ (b + r) = 2 ^ b * (2 ^ r * i) := by rw [pow_add]; ring
  unfold Spec.laidOut
  rw [List.getElem?_map, List.getElem?_range hi, Option.map_some, hd, he, if_pos (dvd_mul_right _ _),
    Nat.mul_div_cancel_left _ hb, List.getD_eq_getElem _ _ (by omega), List.getElem?_eq_getElem (by omega)]

theorem brev_of_zero (n : Nat) : Spec.brev n 0 = 0 := by
  induction n with
  | zero => rfl
  | succ n ih => simp [Spec.brev, ih]

/-- Reversal at the length of the data, then padding or cutting, is laying out, then reversal at the length of the places. -/
theorem laidOut_brev (b t : Nat) (d : List Fr) (hd : d.length = 2 ^ t) (j : Nat) (hj : j < 2 ^ b) :
    ((List.range (2 ^ t)).map (fun i => d.getD (Spec.brev t i) 0)).getD j 0 = (Spec.laidOut b d).getD (Spec.brev b j) 0 := by
  have ht := Nat.two_pow_pos t
  unfold Spec.laidOut
  rw [(rep_map_range (2 ^ b) _).getD 0 (Spec.brev_lt _ _), hd]
  rcases Nat.le_total t b with h | h
  · obtain ⟨r, rfl⟩ := Nat.exists_eq_add_of_le h
    have hr := Nat.two_pow_pos r
    rw [Spec.brev_add]
    have hj1 : j / 2 ^ t < 2 ^ r := Nat.div_lt_of_lt_mul (by rwa [← pow_add])
    have hdv : (2 ^ (t + r) ∣ (Spec.brev r (j / 2 ^ t) + 2 ^ r * Spec.brev t (j % 2 ^ t)) * 2 ^ t) ↔ j < 2 ^ t := by
      rw [pow_add, mul_comm (2 ^ t), Nat.mul_dvd_mul_iff_right ht, ← Nat.dvd_add_iff_left (dvd_mul_right _ _)]
      have hz := brev_of_zero r
      constructor
      · intro h
        have h0 := Nat.eq_zero_of_dvd_of_lt h (Spec.brev_lt _ _)
        have := Spec.brev_injOn r (j / 2 ^ t) 0 hj1 hr (by rw [h0, hz])
        exact (Nat.div_eq_zero_iff_lt ht).1 this
      · intro h
        rw [Nat.div_eq_of_lt h, hz]
        exact dvd_zero _
    by_cases hlt : j < 2 ^ t
    · rw [if_pos (hdv.2 hlt), (rep_map_range (2 ^ t) _).getD 0 hlt, Nat.div_eq_of_lt hlt, Nat.mod_eq_of_lt hlt]
      congr 1
      rw [brev_of_zero, zero_add, show 2 ^ r * Spec.brev t j * 2 ^ t = 2 ^ (t + r) * Spec.brev t j by rw [pow_add]; ring,
        Nat.mul_div_cancel_left _ (Nat.two_pow_pos _)]
    · rw [if_neg (fun h => hlt (hdv.1 h)), List.getD_eq_default _ _ (by simpa using hlt)]
  · obtain ⟨r, rfl⟩ := Nat.exists_eq_add_of_le h
    have hlt : j < 2 ^ (b + r) := lt_of_lt_of_le hj (Nat.pow_le_pow_right (by norm_num) h)
    have he : Spec.brev b j * 2 ^ (b + r) = 2 ^ b * (2 ^ r * Spec.brev b j) := by rw [pow_add]; ring
    rw [(rep_map_range _ _).getD 0 hlt, he, if_pos (dvd_mul_right _ _), Nat.mul_div_cancel_left _ (Nat.two_pow_pos _)]
    congr 1
    rw [Spec.brev_add, Nat.div_eq_of_lt hj, Nat.mod_eq_of_lt hj, brev_of_zero, zero_add]

section
variable {ε K G : Type} [Field K] [DecidableEq K] [AddCommGroup G] [Module Fr G] [DecidableEq G] [Curve K G]

theorem data_input (g : List G) (b q e k : Nat) (hb : b ≤ 32) (d : List Fr) (t : Nat) (ht : t < 32) (hd : d.length = 2 ^ t)
    (f : Fr[X]) (hf : f.degree < (2 ^ b : Nat)) (hv : ∀ i < 2 ^ b, f.eval (Spec.point b i) = (Spec.laidOut b d).getD i 0) :
    ((proverAny g b q e k : FK20Prover K G).inputToPoly (.data d) : Outcome ε (List Fr)) = .ok (Spec.coeffs (2 ^ b) f) := by
  unfold FK20Prover.inputToPoly
  have hrep : Rep d (2 ^ t) (fun i => d.getD i 0) := by rw [← hd]; exact rep_getD d 0
  simp only
  rw [reverseBitOrder_eq t ht hrep, Outcome.ok_bind]
  exact ifftScalars_eq b hb _ f hf fun j hj => by
    rw [laidOut_brev b t d hd j hj, ← hv _ (Spec.brev_lt _ _)]
    unfold Spec.point
    rw [Spec.brev_brev b j hj]

/-- C101: what the prover commits to and opens. For data of any power of two of values there is exactly one polynomial below the
bound with the laid out values at the points in bit-reversed order; the commitment, the values and (with a key of exactly the length
of the bound) the proofs are those of this polynomial. -/
theorem C101_right (g : List G) (q s e : Nat) (hse : q + s ≤ e) (he : e < 32) (hg : g.length = 2 ^ (q + s)) (p : FK20Prover K G)
    (hp : (FK20Prover.new g (2 ^ (q + s)) (2 ^ q) (2 ^ e) .no : Outcome ε (FK20Prover K G)) = .ok p)
    (d : List Fr) (t : Nat) (ht : t < 32) (hd : d.length = 2 ^ t) :
    ∃! f : Fr[X], (f.degree < (2 ^ (q + s) : Nat) ∧
      (List.range (2 ^ (q + s))).map (fun i => f.eval (Spec.point (q + s) i)) = Spec.laidOut (q + s) d) ∧
    (p.commit (.data d) : Outcome ε G) = .ok (Spec.commitment g f) ∧
    (p.computeMultiOpeningProofs (.data d) : Outcome ε _) =
      .ok ((List.range (2 ^ (e - q))).map (Spec.openingProof g e q f),
        (List.range (2 ^ (e - q))).map (fun k => (List.range (2 ^ q)).map (fun j => f.eval (Spec.point e (2 ^ q * k + j))))) := by
  obtain ⟨k, -, -, -, -, -, -, -, hpe⟩ := prover_new_any g (q + s) q e p hp
  have hlen : (Spec.laidOut (q + s) d).length = 2 ^ (q + s) := by simp [Spec.laidOut]
  obtain ⟨B, -, hBl, hB⟩ := ifftScalars_interp (ε := ε) (q + s) (by omega)
    ((List.range (2 ^ (q + s))).map (fun j => (Spec.laidOut (q + s) d).getD (Spec.brev (q + s) j) 0))
  have hBv : ∀ i < 2 ^ (q + s), (Spec.polyOf B).eval (Spec.point (q + s) i) = (Spec.laidOut (q + s) d).getD i 0 := by
    intro i hi
    unfold Spec.point
    rw [hB _ (Spec.brev_lt _ _), (rep_map_range _ _).getD 0 (Spec.brev_lt _ _), Spec.brev_brev _ _ hi]
  have hBd : (Spec.polyOf B).degree < (2 ^ (q + s) : Nat) := by rw [← hBl]; exact Spec.degree_polyOf_lt B
  have hin := data_input (ε := ε) (K := K) g (q + s) q e k (by omega) d t ht hd _ hBd hBv
  rw [← hpe] at hin
  have hcl : (Spec.coeffs (2 ^ (q + s)) (Spec.polyOf B)).length = 2 ^ (q + s) := by simp [Spec.coeffs]
  refine ⟨Spec.polyOf B, ⟨⟨hBd, ?_⟩, ?_, ?_⟩, ?_⟩
  · refine List.ext_getElem (by simp [hlen]) fun i h1 h2 => ?_
    rw [List.getElem_map, List.getElem_range, hBv i (by simpa using h1), List.getD_eq_getElem _ _ h2]
  · unfold FK20Prover.commit
    have hck : p.commitKey = g := by rw [hpe]; rfl
    rw [hin, Outcome.ok_bind, hck, commitG1_ok g _ (by omega), Spec.polyOf_coeffs hBd]
  · unfold FK20Prover.computeMultiOpeningProofs
    rw [hin, Outcome.ok_bind, C31_exact g q s e hse he hg p hp _ hcl, Spec.polyOf_coeffs hBd]
  · rintro f ⟨⟨hfd, hfv⟩, -, -⟩
    refine poly_eq_of_coset (omega_primitive (q + s) (by omega)) one_ne_zero hfd hBd fun j hj => ?_
    rw [one_mul]
    have h1 := congrArg (fun l : List Fr => l.getD (Spec.brev (q + s) j) 0) hfv
    rw [(rep_map_range _ _).getD 0 (Spec.brev_lt _ _), ← hBv _ (Spec.brev_lt _ _)] at h1
    unfold Spec.point at h1
    rwa [Spec.brev_brev _ _ hj] at h1

/-- C101: every prover treats the data as the laid out data, whatever the length of its key. -/
theorem C101_same (g : List G) (b q e : Nat) (hb : b < 32) (p : FK20Prover K G)
    (hp : (FK20Prover.new g (2 ^ b) (2 ^ q) (2 ^ e) .no : Outcome ε (FK20Prover K G)) = .ok p)
    (d : List Fr) (t : Nat) (ht : t < 32) (hd : d.length = 2 ^ t) :
    (p.commit (.data d) : Outcome ε G) = p.commit (.data (Spec.laidOut b d)) ∧
    (p.computeMultiOpeningProofs (.data d) : Outcome ε _) = p.computeMultiOpeningProofs (.data (Spec.laidOut b d)) := by
  obtain ⟨k, -, -, -, -, -, -, -, rfl⟩ := prover_new_any g b q e p hp
  have hlen : (Spec.laidOut b d).length = 2 ^ b := by simp [Spec.laidOut]
  obtain ⟨B, -, hBl, hB⟩ := ifftScalars_interp (ε := ε) b hb.le
    ((List.range (2 ^ b)).map (fun j => (Spec.laidOut b d).getD (Spec.brev b j) 0))
  have hBv : ∀ i < 2 ^ b, (Spec.polyOf B).eval (Spec.point b i) = (Spec.laidOut b d).getD i 0 := by
    intro i hi
    unfold Spec.point
    rw [hB _ (Spec.brev_lt _ _), (rep_map_range _ _).getD 0 (Spec.brev_lt _ _), Spec.brev_brev _ _ hi]
  have hBd : (Spec.polyOf B).degree < (2 ^ b : Nat) := by rw [← hBl]; exact Spec.degree_polyOf_lt B
  have hself : ∀ i < 2 ^ b, (Spec.laidOut b (Spec.laidOut b d)).getD i 0 = (Spec.laidOut b d).getD i 0 := by
    intro i hi
    have := (C101_thinned b 0 (Spec.laidOut b d) (by simpa using hlen)).2 i hi
    rw [pow_zero, one_mul] at this
    simp only [List.getD, this]
  have h1 := data_input (ε := ε) (K := K) g b q e k hb.le d t ht hd _ hBd hBv
  have h2 := data_input (ε := ε) (K := K) g b q e k hb.le (Spec.laidOut b d) b hb hlen _ hBd
    (fun i hi => by rw [hBv i hi, hself i hi])
  unfold FK20Prover.commit FK20Prover.computeMultiOpeningProofs
  rw [h1, h2]
  exact ⟨rfl, rfl⟩

/-- C101: a number of values that is not a power of two panics, whatever the prover is. -/
theorem C101_panics (p : FK20Prover K G) (d : List Fr) (hl : d.length < 2 ^ 32) (h : ∀ t, d.length ≠ 2 ^ t) :
    (p.commit (.data d) : Outcome ε G) = .panic ∧ (p.computeMultiOpeningProofs (.data d) : Outcome ε _) = .panic := by
  unfold FK20Prover.commit FK20Prover.computeMultiOpeningProofs FK20Prover.inputToPoly
  simp only
  rw [reverseBitOrder_panic hl h]
  exact ⟨rfl, rfl⟩
end

section Examples
open Toy

/-- two values on eight places, eight values on two places -/
example : Spec.laidOut 3 [5, 6] = [5, 0, 0, 0, 6, 0, 0, 0] ∧ Spec.laidOut 1 [1, 2, 3, 4, 5, 6, 7, 8] = [1, 5] := by decide +kernel

/-- C101 is not vacuous: a prover for polynomials with 8 coefficients; two values are taken for eight; sixteen values that differ in
every second one have the same commitment and proofs. -/
example : ∃ p : FK20Prover Fr Fr,
    (FK20Prover.new ((List.range 8).map ((7 : Fr) ^ ·)) (2 ^ (1 + 2)) (2 ^ 1) (2 ^ 4) .no : Outcome Error (FK20Prover Fr Fr)) = .ok p ∧
    (p.commit (.data [5, 6]) : Outcome Error Fr) = p.commit (.data [5, 0, 0, 0, 6, 0, 0, 0]) ∧
    (∃ r, (p.computeMultiOpeningProofs (.data [5, 6]) : Outcome Error _) = .ok r) ∧
    (p.commit (.data [1, 0, 2, 0, 3, 0, 4, 0, 5, 0, 6, 0, 7, 0, 8, 0]) : Outcome Error Fr) =
      p.commit (.data [1, 9, 2, 9, 3, 9, 4, 9, 5, 9, 6, 9, 7, 9, 8, 9]) ∧
    (p.commit (.data [1, 2, 3]) : Outcome Error Fr) = .panic := by
  obtain ⟨p, hp⟩ := C31_accepts (ε := Error) (K := Fr) ((List.range 8).map ((7 : Fr) ^ ·)) 1 2 4 (by norm_num) (by norm_num)
    (by norm_num) (by simp) (by simp)
  refine ⟨p, hp, ?_, ?_, ?_, ?_⟩
  · exact (C101_same (ε := Error) _ 3 1 4 (by norm_num) p hp [5, 6] 1 (by norm_num) rfl).1
  · obtain ⟨f, ⟨-, -, h⟩, -⟩ := C101_right (ε := Error) _ 1 2 4 (by norm_num) (by norm_num) (by simp) p hp [5, 6] 1 (by norm_num) rfl
    exact ⟨_, h⟩
  · rw [(C101_same (ε := Error) _ 3 1 4 (by norm_num) p hp [1, 0, 2, 0, 3, 0, 4, 0, 5, 0, 6, 0, 7, 0, 8, 0] 4 (by norm_num) rfl).1,
      (C101_same (ε := Error) _ 3 1 4 (by norm_num) p hp [1, 9, 2, 9, 3, 9, 4, 9, 5, 9, 6, 9, 7, 9, 8, 9] 4 (by norm_num) rfl).1]
    rfl
  · refine (C101_panics p _ (by norm_num) fun t h => ?_).1
    have h : 3 = 2 ^ t := h
    rcases t with _ | t
    · omega
    · rw [pow_succ] at h
      omega

end Examples

end Verif
