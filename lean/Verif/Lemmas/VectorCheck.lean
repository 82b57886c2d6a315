import Verif.Lemmas.JacMsm
import Verif.Lemmas.EmbeddedCheck
import Verif.Lemmas.PackedEval
import Verif.Lemmas.Embedded
import Verif.Lemmas.Quotient
import Verif.Lemmas.Api
import Verif.Props.Bls
import Verif.Props.ProverCells

set_option linter.unusedSectionVars false
set_option exponentiation.threshold 800

/-! Checks on numbers that imply that commitments and proofs with the points of a setup have given encodings. -/
namespace Verif.Vectors
open Bls Msm Polynomial

theorem zip3_spec : ∀ (cs xs ys : List Nat) (Ps : List Curve1), g1Checks xs ys = true → cs.length = xs.length →
    List.Forall₂ (fun n P => Spec.EncodesG1 (natToBE 48 n) P) xs Ps → ∃ L : List Item, (∀ r, zip3 cs xs ys r = L ++ r) ∧
      Valid (4 : Fp) L ∧ L.map Item.c = cs ∧
      (L.map fun i => i.c • i.point (4 : Fp)) = List.zipWith (fun c (P : Curve1) => c • P) cs Ps
  | [], [], [], [], _, _, _ => ⟨[], fun _ => rfl, fun i hi => absurd hi List.not_mem_nil, rfl, rfl⟩
  | c :: cs, x :: xs, y :: ys, P :: Ps, h, hl, hP => by
    rw [g1Checks, Bool.and_eq_true] at h
    cases hP with
    | cons hP hPs =>
      obtain ⟨L, h1, h2, h3, h4⟩ := zip3_spec cs xs ys Ps h.2 (by simpa using hl) hPs
      obtain ⟨Q, hQ, -, hQ0, hQa⟩ := g1Check_affine h.1
      have e : Q = P := C53_injective hQ hP
      subst e
      refine ⟨⟨c, x % 2 ^ 381, y⟩ :: L, fun r => ?_, ?_, ?_, ?_⟩
      · rw [List.cons_append, ← h1 r]
        rfl
      · intro i hi
        rcases List.mem_cons.1 hi with rfl | hi
        · exact ⟨Q, hQ0, hQa⟩
        · exact h2 i hi
      · rw [List.map_cons, h3]
      · rw [List.map_cons, h4, List.zipWith_cons_cons]
        congr 2
        unfold Item.point
        rw [← hQa, LawfulCurve.ofAff_toAff]
  | [], _ :: _, _, _, _, hl, _ => by cases hl
  | _ :: _, [], _, _, _, hl, _ => by cases hl
  | _, [], _ :: _, _, h, _, _ => by cases h
  | _, _ :: _, [], _, h, _, _ => by cases h
  | _, [], _, _ :: _, _, _, h => by cases h
  | _, _ :: _, _, [], _, _, h => by cases h

theorem forall₂_append {α β : Type} {R : α → β → Prop} : ∀ {a b : List α} {l : List β}, List.Forall₂ R (a ++ b) l →
    ∃ l1 l2, List.Forall₂ R a l1 ∧ List.Forall₂ R b l2 ∧ l = l1 ++ l2
  | [], b, l, h => ⟨[], l, .nil, h, rfl⟩
  | x :: a, b, l, h => by
    cases h with
    | cons hx h =>
      obtain ⟨l1, l2, h1, h2, rfl⟩ := forall₂_append h
      exact ⟨_ :: l1, l2, .cons hx h1, h2, rfl⟩

theorem zip3s_spec : ∀ (cs xs ys : List (List Nat)) (Ps : List Curve1), List.Forall₂ (fun x y => g1Checks x y = true) xs ys →
    cs.map List.length = xs.map List.length →
    List.Forall₂ (fun n P => Spec.EncodesG1 (natToBE 48 n) P) xs.flatten Ps →
    Valid (4 : Fp) (zip3s cs xs ys) ∧ (zip3s cs xs ys).map Item.c = cs.flatten ∧
      ((zip3s cs xs ys).map fun i => i.c • i.point (4 : Fp)) = List.zipWith (fun c (P : Curve1) => c • P) cs.flatten Ps
  | [], [], [], Ps, _, _, _ => ⟨fun i hi => absurd hi List.not_mem_nil, rfl, rfl⟩
  | c :: cs, x :: xs, y :: ys, Ps, h, hl, hP => by
    rw [List.map_cons, List.map_cons, List.cons.injEq] at hl
    cases h with
    | cons h hs =>
      rw [List.flatten_cons] at hP
      obtain ⟨P1, P2, h1, h2, rfl⟩ := forall₂_append hP
      obtain ⟨v, e1, e2⟩ := zip3s_spec cs xs ys P2 hs hl.2 h2
      obtain ⟨L, k1, k2, k3, k4⟩ := zip3_spec c x y P1 h hl.1 h1
      have e : zip3s (c :: cs) (x :: xs) (y :: ys) = L ++ zip3s cs xs ys := k1 _
      rw [e]
      refine ⟨?_, ?_, ?_⟩
      · intro i hi
        rcases List.mem_append.1 hi with hi | hi
        · exact k2 i hi
        · exact v i hi
      · rw [List.map_append, k3, e1, List.flatten_cons]
      · rw [List.map_append, k4, e2, List.flatten_cons, List.zipWith_append]
        rw [hl.1, h1.length_eq]
  | [], _ :: _, _, _, _, hl, _ => by cases hl
  | _ :: _, [], _, _, _, hl, _ => by cases hl
  | [], [], _ :: _, _, h, _, _ => by cases h
  | _ :: _, _ :: _, [], _, h, _, _ => by cases h

theorem commitment_list : ∀ (l : List Nat) (g : List G1), l.length = g.length →
    ∑ i ∈ Finset.range g.length, (Spec.polyOf (l.map (Nat.cast : Nat → Fr))).coeff i • g.getD i 0 =
      (List.zipWith (fun c (P : G1) => c • P) l g).sum
  | [], [], _ => rfl
  | c :: l, P :: g, h => by
    have ih := commitment_list l g (by simpa using h)
    rw [List.length_cons, Finset.sum_range_succ', List.zipWith_cons_cons, List.sum_cons, ← ih, add_comm]
    refine congrArg₂ (· + ·) ?_ (Finset.sum_congr rfl fun i _ => ?_)
    · rw [Spec.coeff_polyOf, List.map_cons, List.getD_cons_zero, List.getD_cons_zero, Nat.cast_smul_eq_nsmul]
    · rw [Spec.coeff_polyOf, Spec.coeff_polyOf, List.map_cons, List.getD_cons_succ, List.getD_cons_succ]
  | [], _ :: _, h => by cases h
  | _ :: _, [], h => by cases h

theorem coe_zipWith : ∀ (l : List Nat) (g : List G1), ((List.zipWith (fun c (P : G1) => c • P) l g).sum : G1).val =
    (List.zipWith (fun c (P : Curve1) => c • P) l (g.map Subtype.val)).sum
  | [], _ => rfl
  | _ :: _, [] => rfl
  | c :: l, P :: g => by
    rw [List.zipWith_cons_cons, List.map_cons, List.zipWith_cons_cons, List.sum_cons, List.sum_cons, ← coe_zipWith l g]
    rfl

/-- a point with the coordinates of a checked number is the point encoded by it -/
theorem encodes_of_affine {n y : Nat} (h : g1Check n y = true) {P : Curve1}
    (hP : (toAff P : Aff Fp) = ⟨((n % 2 ^ 381 : Nat) : Fp), (y : Fp)⟩) : Spec.EncodesG1 (natToBE 48 n) P := by
  obtain ⟨Q, hQ, -, -, hQa⟩ := g1Check_affine h
  have : P = Q := by rw [← LawfulCurve.ofAff_toAff (K := Fp) P, hP, ← hQa, LawfulCurve.ofAff_toAff]
  rwa [this]

/-- the coordinates `X, Y, Z` are those of the point `(x, y)`, modulo `n` -/
def same (n X Y Z x y : Nat) : Bool :=
  Nat.beq (X % n) (x * (Z * Z) % n) && Nat.beq (Y % n) (y * (Z * Z * Z) % n) && !Nat.beq (Z % n) 0

theorem cast_mod_eq {a b : Nat} (h : a % fpOrder = b % fpOrder) : (a : Fp) = (b : Fp) :=
  (ZMod.natCast_eq_natCast_iff' a b fpOrder).2 h

theorem same_spec {X Y Z x y : Nat} (h : same fpOrder X Y Z x y = true) :
    (X : Fp) = x * (Z : Fp) ^ 2 ∧ (Y : Fp) = y * (Z : Fp) ^ 3 ∧ (Z : Fp) ≠ 0 := by
  unfold same at h
  simp only [Bool.and_eq_true, Bool.not_eq_true', Nat.beq_eq] at h
  obtain ⟨⟨h1, h2⟩, h3⟩ := h
  refine ⟨?_, ?_, fun e => ?_⟩
  · rw [cast_mod_eq h1]; push_cast; ring
  · rw [cast_mod_eq h2]; push_cast; ring
  · have : Z % fpOrder = 0 := by
      have := (ZMod.natCast_eq_zero_iff Z fpOrder).1 e
      exact Nat.mod_eq_zero_of_dvd this
    rw [this] at h3
    cases h3

theorem sum_check {m X Y Z n y : Nat} (hm : m + 1 = fpOrder) (l : List Item) (h : Valid (4 : Fp) l) (hc : ∀ i ∈ l, i.c < 2 ^ 256)
    (ws : List (List Nat × Jc)) (hw : ∀ w ∈ ws, (agg fpOrder m w.1 l).2 = w.2)
    (hks : (ws.map Prod.fst).flatten = (List.range 256).reverse) (hr : (horner fpOrder m .inf ws).is X Y Z = true)
    (hs : same fpOrder X Y Z (n % 2 ^ 381) y = true) (hn : g1Check n y = true) :
    Spec.EncodesG1 (natToBE 48 n) (l.map fun i => i.c • i.point (4 : Fp)).sum := by
  obtain ⟨h1, h2, h3⟩ := same_spec hs
  exact encodes_of_affine hn (horner_sound (CharP.cast_eq_zero Fp fpOrder) hm l h hc ws hw hks (Jc.is_eq hr) h1 h2 h3)

/-- the commitment to the polynomial with given coefficients, from a computation on numbers -/
theorem commitment_check {m X Y Z n y : Nat} {g : List G1}
    (hg : List.Forall₂ (fun n (P : G1) => Spec.EncodesG1 (natToBE 48 n) P) Embedded.g1Parts.flatten g) (cs : List (List Nat))
    (hl : cs.map List.length = Embedded.g1Parts.map List.length) (hc : ∀ c ∈ cs.flatten, c < 2 ^ 256)
    (hm : m + 1 = fpOrder) (ws : List (List Nat × Jc))
    (hw : ∀ w ∈ ws, (agg fpOrder m w.1 (zip3s cs Embedded.g1Parts Embedded.g1Ys)).2 = w.2)
    (hks : (ws.map Prod.fst).flatten = (List.range 256).reverse) (hr : (horner fpOrder m .inf ws).is X Y Z = true)
    (hs : same fpOrder X Y Z (n % 2 ^ 381) y = true) (hn : g1Check n y = true) :
    Spec.EncodesG1 (natToBE 48 n) (Spec.commitment g (Spec.polyOf (cs.flatten.map (Nat.cast : Nat → Fr))) : G1) := by
  have hg' : List.Forall₂ (fun n P => Spec.EncodesG1 (natToBE 48 n) P) Embedded.g1Parts.flatten (g.map Subtype.val) :=
    List.forall₂_map_right_iff.2 hg
  obtain ⟨v, e1, e2⟩ := zip3s_spec cs _ _ _ Embedded.g1Parts_checked hl hg'
  have hlen : cs.flatten.length = g.length := by
    rw [← hg.length_eq, List.length_flatten, List.length_flatten, hl]
  have h := sum_check hm _ v (fun i hi => hc _ (by rw [← e1]; exact List.mem_map_of_mem hi)) ws hw hks hr hs hn
  rw [e2, ← coe_zipWith] at h
  unfold Spec.commitment
  rw [commitment_list _ _ hlen]
  exact h

/-- the numbers `c` are those of `q (X^64 - a)` from the 64th on: `c`, `q` and `q` from the 64th on -/
def quotCheck (n a : Nat) : List Nat → List Nat → List Nat → Bool
  | [], _, _ => true
  | c :: cs, q :: qs, t :: ts => Nat.beq ((c + a * t) % n) (q % n) && quotCheck n a cs qs ts
  | _, _, _ => false

theorem quotCheck_spec {a : Nat} : ∀ (cs qs ts : List Nat), quotCheck frOrder a cs qs ts = true →
    ∀ i < cs.length, ((cs.getD i 0 : Nat) : Fr) = (qs.getD i 0 : Nat) - a * (ts.getD i 0 : Nat)
  | [], _, _, _, i, hi => by cases hi
  | c :: cs, q :: qs, t :: ts, h, i, hi => by
    rw [quotCheck, Bool.and_eq_true, Nat.beq_eq] at h
    cases i with
    | zero =>
      rw [List.getD_cons_zero, List.getD_cons_zero, List.getD_cons_zero]
      have := (ZMod.natCast_eq_natCast_iff' (c + a * t) q frOrder).2 h.1
      rw [← this]
      push_cast
      ring
    | succ i =>
      rw [List.getD_cons_succ, List.getD_cons_succ, List.getD_cons_succ]
      exact quotCheck_spec cs qs ts h.2 i (by simpa using hi)
  | _ :: _, [], _, h, _, _ => by cases h
  | _ :: _, _ :: _, [], h, _, _ => by cases h

theorem getD_map_cast (l : List Nat) (i : Nat) : (l.map (Nat.cast : Nat → Fr)).getD i 0 = ((l.getD i 0 : Nat) : Fr) := by
  cases h : l[i]? <;> simp [List.getD, h]

theorem getD_drop (l : List Nat) (i k : Nat) : (l.drop k).getD i 0 = l.getD (k + i) 0 := by
  simp [List.getD]

theorem getD_zeros (n i : Nat) : (List.replicate n 0).getD i 0 = 0 := by
  by_cases h : i < n <;> simp [List.getD, h]

theorem quotient_check {a k : Nat} (ha : (a : Fr) = Spec.point 13 (64 * k) ^ 64) (cs qs : List Nat) (hq : qs.length = cs.length)
    (h : quotCheck frOrder a (cs.drop 64) qs (qs.drop 64 ++ List.replicate 64 0) = true)
    (h0 : qs.drop (cs.length - 64) = List.replicate 64 0) :
    Spec.polyOf (cs.map (Nat.cast : Nat → Fr)) /ₘ Spec.vanishing 13 6 k = Spec.polyOf (qs.map (Nat.cast : Nat → Fr)) := by
  have hlen : 64 ≤ cs.length := by
    have := congrArg List.length h0
    rw [List.length_drop, List.length_replicate] at this
    omega
  rw [cellDivisor_eq]
  refine (div_modByMonic_unique _ (Spec.polyOf (cs.map (Nat.cast : Nat → Fr)) -
    cellDivisor k * Spec.polyOf (qs.map (Nat.cast : Nat → Fr))) (cellDivisor_monic k) ⟨sub_add_cancel _ _, ?_⟩).1
  rw [cellDivisor_degree, show (64 : WithBot Nat) = ((64 : Nat) : WithBot Nat) from rfl, degree_lt_iff_coeff_zero]
  intro i hi
  obtain ⟨j, rfl⟩ := Nat.exists_eq_add_of_le hi
  have hget : ∀ (l : List Nat) i, (Spec.polyOf (l.map (Nat.cast : Nat → Fr))).coeff i = ((l.getD i 0 : Nat) : Fr) :=
    fun l i => by rw [Spec.coeff_polyOf, getD_map_cast]
  have hz : ∀ i, cs.length - 64 ≤ i → qs.getD i 0 = 0 := by
    intro i hi
    obtain ⟨t, rfl⟩ := Nat.exists_eq_add_of_le hi
    rw [← getD_drop, h0]
    exact getD_zeros 64 t
  have hts : ∀ i, (qs.drop 64 ++ List.replicate 64 0).getD i 0 = qs.getD (64 + i) 0 := by
    intro i
    by_cases hi : i < (qs.drop 64).length
    · rw [← getD_drop]
      simp only [List.getD, List.getElem?_append_left hi]
    · rw [hz (64 + i) (by rw [List.length_drop] at hi; omega)]
      simp only [List.getD, List.getElem?_append_right (Nat.le_of_not_lt hi)]
      exact getD_zeros 64 _
  rw [cellDivisor, sub_mul, coeff_sub, coeff_sub, coeff_C_mul, add_comm 64 j, coeff_X_pow_mul, hget, hget, hget, ← ha, add_comm j 64]
  by_cases hj : j < cs.length - 64
  · have := quotCheck_spec _ _ _ h j (by rwa [List.length_drop])
    rw [getD_drop, hts] at this
    rw [this]
    ring
  · rw [hz j (by omega), hz (64 + j) (by omega)]
    have : cs.getD (64 + j) 0 = 0 := by
      rw [List.getD, List.getElem?_eq_none (by omega)]; rfl
    rw [this]
    simp

theorem range_cells (f : Fr[X]) (a b : Nat) :
    (List.range (a + b)).map (cellOf f) = (List.range a).map (cellOf f) ++ (List.range b).map fun k => cellOf f (a + k) := by
  rw [List.range_add, List.map_append, List.map_map]
  rfl

/-- the cells and the blob of the polynomial with given coefficients, from computations on numbers -/
theorem cells_check (cs : List (List Nat)) (vs ws : List Nat) (hk : ∀ c ∈ cs, c.length = 16) (hl : cs.length = 256)
    (hc : ∀ c ∈ cs.flatten, c < 2 ^ 256) (h0 : Packed.evalCells 6 [false] (Packed.packs Packed.width 16 cs) vs = true)
    (h1 : Packed.evalCells 6 [true] (Packed.packs Packed.width 16 cs) ws = true) :
    cellsOf (Spec.polyOf (cs.flatten.map (Nat.cast : Nat → Fr))) = vs.map (natToBE 2048) ++ ws.map (natToBE 2048) ∧
      Spec.IsBlobPoly (vs.map (natToBE 2048)).flatten (Spec.polyOf (cs.flatten.map (Nat.cast : Nat → Fr))) := by
  have hlen : cs.flatten.length = 2 ^ (6 + 6) := by
    rw [List.length_flatten, List.map_congr_left hk, List.map_const', hl, List.sum_replicate]
    rfl
  rw [Packed.packs_eq _ _ _ hk] at h0 h1
  have hb : ∀ c ∈ cs.flatten, c < 2 ^ (Packed.width - 257 * (6 + 6)) := fun c hm =>
    lt_of_lt_of_le (hc c hm) (Nat.pow_le_pow_right (by decide) (by decide))
  have e0 := Packed.evalCells_sound 6 [false] _ _ rfl hlen hb le_rfl h0
  have e1 := Packed.evalCells_sound 6 [true] _ _ rfl hlen hb le_rfl h1
  set f := Spec.polyOf (cs.flatten.map (Nat.cast : Nat → Fr)) with hf
  have hcell : ∀ k, Packed.bytesAt cs.flatten (64 * k) 64 = cellOf f k := fun k => rfl
  have e0' : vs.map (natToBE 2048) = (List.range 64).map (cellOf f) := by
    rw [e0]
    refine List.map_congr_left fun k _ => ?_
    rw [show Packed.number [false] = 0 from rfl, zero_mul, zero_add, hcell]
  have e1' : ws.map (natToBE 2048) = (List.range 64).map fun k => cellOf f (64 + k) := by
    rw [e1]
    refine List.map_congr_left fun k _ => ?_
    rw [show Packed.number [true] * 2 ^ 6 = 64 from rfl, hcell]
  have hdeg : f.degree < 4096 := by
    have := Spec.degree_polyOf_lt (cs.flatten.map (Nat.cast : Nat → Fr))
    rw [List.length_map, hlen] at this
    exact this
  refine ⟨?_, ?_⟩
  · rw [e0', e1', cellsOf_eq]
    exact range_cells f 64 64
  · have : (vs.map (natToBE 2048)).flatten = blobOf f := by
      rw [e0']
      have h2 : ∀ n, ((List.range n).map (cellOf f)).flatten = Packed.bytesAt cs.flatten 0 (64 * n) := by
        intro n
        induction n with
        | zero => rw [List.range_zero, List.map_nil, List.flatten_nil, mul_zero, Packed.bytesAt, List.range_zero, List.map_nil,
            List.flatten_nil]
        | succ n ih =>
          rw [List.range_succ, List.map_append, List.flatten_append, ih, mul_add, mul_one, Packed.bytesAt_add, zero_add,
            List.map_singleton, List.flatten_singleton, ← hcell]
      rw [h2, show 64 * 64 = 4096 from rfl]
      unfold blobOf Packed.bytesAt
      refine congrArg List.flatten (List.map_congr_left fun i hi => ?_)
      rw [zero_add, point_13_12 i (List.mem_range.1 hi)]
      rfl
    rw [this]
    exact isBlobPoly_blobOf f hdeg

end Verif.Vectors
