import Verif.Lemmas.Jacobian

set_option linter.unusedSectionVars false

/-!
Sums of multiples of points on `y^2 = x^3 + b`, computed on natural numbers modulo `n`: the points are put into buckets by the bits of
their factors. The definitions use recursors and the functions on natural numbers directly, which the kernel evaluates fastest.
-/
namespace Verif.Msm

local infixl:70 " *' " => Nat.mul
local infixl:65 " +' " => Nat.add
local infixl:70 " %' " => Nat.mod

/-- the point at infinity, or a point in Jacobian coordinates -/
inductive Jc
  | inf
  | pt (X Y Z : Nat)

noncomputable section

/-- addition of the point `(x, y)`; `m` is `n - 1` -/
def Jc.addAff (n m : Nat) (P : Jc) (x y : Nat) : Jc :=
  Jc.rec (motive := fun _ => Jc) (.pt x y 1) (fun X Y Z =>
    let ZZ := Z *' Z %' n
    let H := (x *' ZZ +' m *' X) %' n
    let R := (y *' (ZZ *' Z %' n) +' m *' Y) %' n
    let HH := H *' H %' n
    let HHH := H *' HH %' n
    let V := X *' HH %' n
    let X3 := (R *' R +' m *' (HHH +' V +' V)) %' n
    .pt X3 ((R *' (V +' m *' X3) +' m *' (Y *' HHH)) %' n) (Z *' H %' n)) P

/-- the double of a point -/
def Jc.dbl (n m : Nat) (P : Jc) : Jc :=
  Jc.rec (motive := fun _ => Jc) .inf (fun X Y Z =>
    let B := Y *' Y %' n
    let D := 4 *' (X *' B) %' n
    let E := 3 *' (X *' X) %' n
    let X2 := (E *' E +' m *' (D +' D)) %' n
    .pt X2 ((E *' (D +' m *' X2) +' m *' (8 *' (B *' B))) %' n) (2 *' (Y *' Z) %' n)) P

/-- addition of points -/
def Jc.add (n m : Nat) (P Q : Jc) : Jc :=
  Jc.rec (motive := fun _ => Jc) Q (fun X1 Y1 Z1 => Jc.rec (motive := fun _ => Jc) (.pt X1 Y1 Z1) (fun X2 Y2 Z2 =>
    let A := Z1 *' Z1 %' n
    let B := Z2 *' Z2 %' n
    let U := X1 *' B %' n
    let S := Y1 *' (B *' Z2 %' n) %' n
    let H := (X2 *' A +' m *' U) %' n
    let R := (Y2 *' (A *' Z1 %' n) +' m *' S) %' n
    let HH := H *' H %' n
    let HHH := H *' HH %' n
    let V := U *' HH %' n
    let X3 := (R *' R +' m *' (HHH +' V +' V)) %' n
    .pt X3 ((R *' (V +' m *' X3) +' m *' (S *' HHH)) %' n) (Z1 *' Z2 %' n *' H %' n)) Q) P

/-- a point `(x, y)` with its factor `c` -/
structure Item where
  c : Nat
  x : Nat
  y : Nat

/-- bit `k` of `c` -/
def bit (k c : Nat) : Bool := Nat.beq (Nat.land (Nat.shiftRight c k) 1) 1

/-- the points whose factors have bit `k` -/
def on (k : Nat) (l : List Item) : List Item :=
  List.rec (motive := fun _ => List Item) [] (fun i _ ih => Bool.rec ih (i :: ih) (bit k i.c)) l

/-- the points whose factors do not have bit `k` -/
def off (k : Nat) (l : List Item) : List Item :=
  List.rec (motive := fun _ => List Item) [] (fun i _ ih => Bool.rec (i :: ih) ih (bit k i.c)) l

/-- the sum of the points -/
def sumAff (n m : Nat) (l : List Item) : Jc :=
  List.rec (motive := fun _ => Jc) .inf (fun i _ ih => ih.addAff n m i.x i.y) l

/-- as many doublings as the list is long -/
def dbls (n m : Nat) (l : List Nat) (P : Jc) : Jc :=
  List.rec (motive := fun _ => Jc) P (fun _ _ ih => ih.dbl n m) l

/-- the sum of the points, and the sum of the points multiplied by the given bits of their factors -/
def agg (n m : Nat) : List Nat → List Item → Jc × Jc
  | [], l => (sumAff n m l, .inf)
  | k :: h, l =>
    let a := agg n m h (off k l)
    let b := agg n m h (on k l)
    (a.1.add n m b.1, (a.2.add n m b.2).add n m (dbls n m h b.1))

/-- the items made of factors, numbers that give the first coordinates, and second coordinates, in front of other items -/
def zip3 (cs : List Nat) : List Nat → List Nat → List Item → List Item :=
  List.rec (motive := fun _ => List Nat → List Nat → List Item → List Item) (fun _ _ r => r)
    (fun c _ ih xs ys r => List.rec (motive := fun _ => List Item) [] (fun x xs _ =>
      List.rec (motive := fun _ => List Item) [] (fun y ys _ => ⟨c, x %' 2 ^ 381, y⟩ :: ih xs ys r) ys) xs) cs

/-- the same for lists in parts -/
def zip3s (cs : List (List Nat)) : List (List Nat) → List (List Nat) → List Item :=
  List.rec (motive := fun _ => List (List Nat) → List (List Nat) → List Item) (fun _ _ => [])
    (fun c _ ih xs ys => List.rec (motive := fun _ => List Item) [] (fun x xs _ =>
      List.rec (motive := fun _ => List Item) [] (fun y ys _ => zip3 c x y (ih xs ys)) ys) xs) cs

/-- the point has these coordinates -/
def Jc.is (P : Jc) (X Y Z : Nat) : Bool :=
  Jc.rec (motive := fun _ => Bool) false (fun X' Y' Z' => Nat.beq X' X && Nat.beq Y' Y && Nat.beq Z' Z) P

/-- the value of the bits of `c` at the given positions, the highest first -/
def digit : List Nat → Nat → Nat
  | [], _ => 0
  | k :: h, c => (bit k c).toNat * 2 ^ h.length + digit h c

/-- from the points for groups of bits, the highest first, to the point for all of them; each group is given with its result -/
def horner (n m : Nat) : Jc → List (List Nat × Jc) → Jc
  | P, [] => P
  | P, (ks, Q) :: l => horner n m ((dbls n m ks P).add n m Q) l

end

theorem Jc.is_eq {P : Jc} {X Y Z : Nat} (h : P.is X Y Z = true) : P = .pt X Y Z := by
  cases P with
  | inf => cases h
  | pt X' Y' Z' =>
    have h' : (Nat.beq X' X && Nat.beq Y' Y && Nat.beq Z' Z) = true := h
    simp only [Bool.and_eq_true, Nat.beq_eq] at h'
    obtain ⟨⟨rfl, rfl⟩, rfl⟩ := h'
    rfl

section
variable {F : Type} [Field F] [DecidableEq F] {b : F}

/-- the coordinates of `P` may be multiplied -/
theorem Jac.scale {P : CurvePoint b} {X Y Z t : F} (h : Jac P X Y Z) : Jac P (X * t ^ 2) (Y * t ^ 3) (Z * t) := by
  rcases h with h | ⟨h0, hP⟩
  · exact .inl (by rw [h, zero_mul])
  · by_cases ht : t = 0
    · exact .inl (by rw [ht, mul_zero])
    · refine .inr ⟨h0, ?_⟩
      rw [hP, mul_pow, mul_pow, mul_div_mul_right _ _ (pow_ne_zero _ ht), mul_div_mul_right _ _ (pow_ne_zero _ ht)]

theorem jac_add_jac {P Q : CurvePoint b} {X1 Y1 Z1 X2 Y2 Z2 : F} (h : Jac P X1 Y1 Z1) (h' : Jac Q X2 Y2 Z2) {U S H R X' : F}
    (hU : U = X1 * (Z2 * Z2)) (hS : S = Y1 * (Z2 * Z2 * Z2)) (hH : H = X2 * (Z1 * Z1) - U) (hR : R = Y2 * (Z1 * Z1 * Z1) - S)
    (hX : X' = R * R - (H * (H * H) + 2 * (U * (H * H)))) :
    Jac (P + Q) X' (R * (U * (H * H) - X') - S * (H * (H * H))) (Z1 * Z2 * H) := by
  rcases h' with h' | ⟨h0, hQ⟩
  · exact .inl (by rw [h']; ring)
  · by_cases hz : Z2 = 0
    · exact .inl (by rw [hz]; ring)
    · have hs : Jac P U S (Z1 * Z2) := by
        have := Jac.scale (t := Z2) h
        rw [hU, hS]
        convert this using 1 <;> ring
      refine jac_add hs h0 hQ ?_ ?_ hX
      · rw [hH]; field_simp
      · rw [hR]; field_simp

variable {n m : Nat}

/-- `p` stands for the point `P` -/
def Rep (p : Jc) (P : CurvePoint b) : Prop :=
  match p with
  | .inf => P = 0
  | .pt X Y Z => Jac P (X : F) Y Z

section
variable (hn : (n : F) = 0) (hm : m + 1 = n)
include hn hm

theorem cast_m : (m : F) = -1 := by
  have : ((m + 1 : Nat) : F) = 0 := by rw [hm, hn]
  push_cast at this
  linear_combination this

theorem cast_mod' (a : Nat) : ((Nat.mod a n : Nat) : F) = a := cast_mod2 (by omega) hn a

theorem rep_dbl {p : Jc} {P : CurvePoint b} (h : Rep p P) : Rep (p.dbl n m) (P + P) := by
  cases p with
  | inf =>
    have h : P = 0 := h
    show P + P = 0
    rw [h, add_zero]
  | pt X Y Z =>
    have cm := cast_mod2 (F := F) (n := n) (by omega) hn
    have c1 := cast_m hn hm
    have h : Jac P (X : F) Y Z := h
    let B := Y * Y % n
    let D := 4 * (X * B) % n
    let E := 3 * (X * X) % n
    let X2 := (E * E + m * (D + D)) % n
    let Y2 := (E * (D + m * X2) + m * (8 * (B * B))) % n
    let Z2 := 2 * (Y * Z) % n
    show Jac (P + P) (X2 : F) Y2 Z2
    have hX2 : (X2 : F) = (E : F) * E - 2 * D := by
      show (((E * E + m * (D + D)) % n : Nat) : F) = _
      rw [cm]; push_cast; rw [c1]; ring
    have hY2 : (Y2 : F) = (E : F) * (D - X2) - 8 * (B * B) := by
      show (((E * (D + m * X2) + m * (8 * (B * B))) % n : Nat) : F) = _
      rw [cm]; push_cast; rw [c1]; ring
    have hZ2 : (Z2 : F) = 2 * ((Y : F) * Z) := by
      show ((2 * (Y * Z) % n : Nat) : F) = _
      rw [cm]; push_cast; rfl
    rw [hY2, hZ2]
    refine jac_double h ?_ ?_ ?_ hX2
    · show ((Y * Y % n : Nat) : F) = _
      rw [cm]; push_cast; rfl
    · show ((4 * (X * B) % n : Nat) : F) = _
      rw [cm]; push_cast; rfl
    · show ((3 * (X * X) % n : Nat) : F) = _
      rw [cm]; push_cast; rfl

theorem rep_addAff {p : Jc} {P Q : CurvePoint b} {x y : Nat} (h : Rep p P) (hQ0 : Q ≠ 0) (hQ : toAff Q = (⟨x, y⟩ : Aff F)) :
    Rep (p.addAff n m x y) (P + Q) := by
  cases p with
  | inf =>
    have h : P = 0 := h
    show Jac (P + Q) (x : F) y (1 : Nat)
    rw [h, zero_add, Nat.cast_one]
    exact .inr ⟨hQ0, by rw [hQ, one_pow, one_pow, div_one, div_one]⟩
  | pt X Y Z =>
    have cm := cast_mod2 (F := F) (n := n) (by omega) hn
    have c1 := cast_m hn hm
    have h : Jac P (X : F) Y Z := h
    let ZZ := Z * Z % n
    let H := (x * ZZ + m * X) % n
    let R := (y * (ZZ * Z % n) + m * Y) % n
    let HH := H * H % n
    let HHH := H * HH % n
    let V := X * HH % n
    let X3 := (R * R + m * (HHH + V + V)) % n
    let Y3 := (R * (V + m * X3) + m * (Y * HHH)) % n
    let Z3 := Z * H % n
    show Jac (P + Q) (X3 : F) Y3 Z3
    have hZZ : (ZZ : F) = Z * Z := by
      show ((Z * Z % n : Nat) : F) = _
      rw [cm]; push_cast; rfl
    have hH : (H : F) = x * ((Z : F) * Z) - X := by
      show (((x * ZZ + m * X) % n : Nat) : F) = _
      rw [cm]; push_cast; rw [c1, hZZ]; ring
    have hR : (R : F) = y * ((Z : F) * Z * Z) - Y := by
      show (((y * (ZZ * Z % n) + m * Y) % n : Nat) : F) = _
      rw [cm, Nat.cast_add, Nat.cast_mul, cm, Nat.cast_mul, Nat.cast_mul, c1, hZZ]; ring
    have hHH : (HH : F) = H * H := by
      show ((H * H % n : Nat) : F) = _
      rw [cm]; push_cast; rfl
    have hHHH : (HHH : F) = H * (H * H) := by
      show ((H * HH % n : Nat) : F) = _
      rw [cm, Nat.cast_mul, hHH]
    have hV : (V : F) = X * (H * H) := by
      show ((X * HH % n : Nat) : F) = _
      rw [cm, Nat.cast_mul, hHH]
    have hX3 : (X3 : F) = R * R - (H * (H * H) + 2 * (X * (H * H))) := by
      show (((R * R + m * (HHH + V + V)) % n : Nat) : F) = _
      rw [cm]; push_cast; rw [c1, hHHH, hV]; ring
    have hY3 : (Y3 : F) = R * (X * (H * H) - X3) - Y * (H * (H * H)) := by
      show (((R * (V + m * X3) + m * (Y * HHH)) % n : Nat) : F) = _
      rw [cm, Nat.cast_add, Nat.cast_mul R, Nat.cast_add, Nat.cast_mul m X3, Nat.cast_mul m, Nat.cast_mul Y, c1, hHHH, hV]; ring
    have hZ3 : (Z3 : F) = Z * H := by
      show ((Z * H % n : Nat) : F) = _
      rw [cm]; push_cast; rfl
    rw [hY3, hZ3]
    exact jac_add h hQ0 hQ hH hR hX3

theorem rep_add {p q : Jc} {P Q : CurvePoint b} (h : Rep p P) (h' : Rep q Q) : Rep (p.add n m q) (P + Q) := by
  cases p with
  | inf =>
    have h : P = 0 := h
    rw [h, zero_add]
    exact h'
  | pt X1 Y1 Z1 =>
    cases q with
    | inf =>
      have h' : Q = 0 := h'
      rw [h', add_zero]
      exact h
    | pt X2 Y2 Z2 =>
      have cm := cast_mod2 (F := F) (n := n) (by omega) hn
      have c1 := cast_m hn hm
      have h : Jac P (X1 : F) Y1 Z1 := h
      have h' : Jac Q (X2 : F) Y2 Z2 := h'
      let A := Z1 * Z1 % n
      let B := Z2 * Z2 % n
      let U := X1 * B % n
      let S := Y1 * (B * Z2 % n) % n
      let H := (X2 * A + m * U) % n
      let R := (Y2 * (A * Z1 % n) + m * S) % n
      let HH := H * H % n
      let HHH := H * HH % n
      let V := U * HH % n
      let X3 := (R * R + m * (HHH + V + V)) % n
      let Y3 := (R * (V + m * X3) + m * (S * HHH)) % n
      let Z3 := Z1 * Z2 % n * H % n
      show Jac (P + Q) (X3 : F) Y3 Z3
      have hA : (A : F) = Z1 * Z1 := by
        show ((Z1 * Z1 % n : Nat) : F) = _
        rw [cm]; push_cast; rfl
      have hB : (B : F) = Z2 * Z2 := by
        show ((Z2 * Z2 % n : Nat) : F) = _
        rw [cm]; push_cast; rfl
      have hU : (U : F) = X1 * ((Z2 : F) * Z2) := by
        show ((X1 * B % n : Nat) : F) = _
        rw [cm, Nat.cast_mul, hB]
      have hS : (S : F) = Y1 * ((Z2 : F) * Z2 * Z2) := by
        show ((Y1 * (B * Z2 % n) % n : Nat) : F) = _
        rw [cm, Nat.cast_mul, cm, Nat.cast_mul, hB]
      have hH : (H : F) = X2 * ((Z1 : F) * Z1) - U := by
        show (((X2 * A + m * U) % n : Nat) : F) = _
        rw [cm, Nat.cast_add, Nat.cast_mul, Nat.cast_mul, c1, hA]; ring
      have hR : (R : F) = Y2 * ((Z1 : F) * Z1 * Z1) - S := by
        show (((Y2 * (A * Z1 % n) + m * S) % n : Nat) : F) = _
        rw [cm, Nat.cast_add, Nat.cast_mul, cm, Nat.cast_mul, Nat.cast_mul, c1, hA]; ring
      have hHH : (HH : F) = H * H := by
        show ((H * H % n : Nat) : F) = _
        rw [cm]; push_cast; rfl
      have hHHH : (HHH : F) = H * (H * H) := by
        show ((H * HH % n : Nat) : F) = _
        rw [cm, Nat.cast_mul, hHH]
      have hV : (V : F) = U * (H * H) := by
        show ((U * HH % n : Nat) : F) = _
        rw [cm, Nat.cast_mul, hHH]
      have hX3 : (X3 : F) = R * R - (H * (H * H) + 2 * (U * (H * H))) := by
        show (((R * R + m * (HHH + V + V)) % n : Nat) : F) = _
        rw [cm]; push_cast; rw [c1, hHHH, hV]; ring
      have hY3 : (Y3 : F) = R * (U * (H * H) - X3) - S * (H * (H * H)) := by
        show (((R * (V + m * X3) + m * (S * HHH)) % n : Nat) : F) = _
        rw [cm, Nat.cast_add, Nat.cast_mul R, Nat.cast_add, Nat.cast_mul m X3, Nat.cast_mul m, Nat.cast_mul S, c1, hHHH, hV]; ring
      have hZ3 : (Z3 : F) = Z1 * Z2 * H := by
        show ((Z1 * Z2 % n * H % n : Nat) : F) = _
        rw [cm, Nat.cast_mul, cm, Nat.cast_mul]
      rw [hY3, hZ3]
      exact jac_add_jac h h' hU hS hH hR hX3

theorem rep_dbls (l : List Nat) {p : Jc} {P : CurvePoint b} (h : Rep p P) : Rep (dbls n m l p) (2 ^ l.length • P) := by
  induction l with
  | nil =>
    rw [List.length_nil, pow_zero, one_nsmul]
    exact h
  | cons k l ih =>
    rw [List.length_cons, pow_succ, mul_nsmul, two_nsmul]
    exact rep_dbl hn hm ih

end

/-- the point of an item -/
noncomputable def Item.point (b : F) (i : Item) : CurvePoint b := ofAff (⟨i.x, i.y⟩ : Aff F)

/-- the coordinates of the items are those of points -/
def Valid (b : F) (l : List Item) : Prop := ∀ i ∈ l, ∃ P : CurvePoint b, P ≠ 0 ∧ toAff P = (⟨i.x, i.y⟩ : Aff F)

theorem Valid.point {l : List Item} (h : Valid b l) {i : Item} (hi : i ∈ l) :
    i.point b ≠ 0 ∧ toAff (i.point b) = (⟨i.x, i.y⟩ : Aff F) := by
  obtain ⟨P, hP, ha⟩ := h i hi
  have : i.point b = P := by unfold Item.point; rw [← ha, LawfulCurve.ofAff_toAff]
  rw [this]
  exact ⟨hP, ha⟩

theorem on_cons (k : Nat) (i : Item) (l : List Item) : on k (i :: l) = if bit k i.c then i :: on k l else on k l := by
  show Bool.rec (motive := fun _ => List Item) (on k l) (i :: on k l) (bit k i.c) = _
  cases bit k i.c <;> rfl

theorem off_cons (k : Nat) (i : Item) (l : List Item) : off k (i :: l) = if bit k i.c then off k l else i :: off k l := by
  show Bool.rec (motive := fun _ => List Item) (i :: off k l) (off k l) (bit k i.c) = _
  cases bit k i.c <;> rfl

theorem mem_on {k : Nat} {l : List Item} {i : Item} : i ∈ on k l ↔ i ∈ l ∧ bit k i.c = true := by
  induction l with
  | nil => exact ⟨fun h => absurd h List.not_mem_nil, fun h => absurd h.1 List.not_mem_nil⟩
  | cons j l ih =>
    rw [on_cons]
    by_cases hb : bit k j.c = true
    · rw [if_pos hb, List.mem_cons, List.mem_cons, ih]
      constructor
      · rintro (rfl | h)
        · exact ⟨.inl rfl, hb⟩
        · exact ⟨.inr h.1, h.2⟩
      · rintro ⟨rfl | h, h'⟩
        · exact .inl rfl
        · exact .inr ⟨h, h'⟩
    · rw [if_neg hb, List.mem_cons, ih]
      constructor
      · exact fun h => ⟨.inr h.1, h.2⟩
      · rintro ⟨rfl | h, h'⟩
        · exact absurd h' hb
        · exact ⟨h, h'⟩

theorem mem_off {k : Nat} {l : List Item} {i : Item} : i ∈ off k l ↔ i ∈ l ∧ bit k i.c = false := by
  induction l with
  | nil => exact ⟨fun h => absurd h List.not_mem_nil, fun h => absurd h.1 List.not_mem_nil⟩
  | cons j l ih =>
    rw [off_cons]
    by_cases hb : bit k j.c = true
    · rw [if_pos hb, List.mem_cons, ih]
      constructor
      · exact fun h => ⟨.inr h.1, h.2⟩
      · rintro ⟨rfl | h, h'⟩
        · rw [hb] at h'; cases h'
        · exact ⟨h, h'⟩
    · rw [if_neg hb, List.mem_cons, List.mem_cons, ih]
      constructor
      · rintro (rfl | h)
        · exact ⟨.inl rfl, by simpa using hb⟩
        · exact ⟨.inr h.1, h.2⟩
      · rintro ⟨rfl | h, h'⟩
        · exact .inl rfl
        · exact .inr ⟨h, h'⟩

theorem sum_split {M : Type} [AddCommGroup M] (f : Item → M) (k : Nat) (l : List Item) :
    (l.map f).sum = ((off k l).map f).sum + ((on k l).map f).sum := by
  induction l with
  | nil => exact (add_zero _).symm
  | cons i l ih =>
    rw [on_cons, off_cons, List.map_cons, List.sum_cons, ih]
    by_cases hb : bit k i.c = true
    · rw [if_pos hb, if_pos hb, List.map_cons, List.sum_cons]; abel
    · rw [if_neg hb, if_neg hb, List.map_cons, List.sum_cons]; abel

theorem sum_nsmul_add {M : Type} [AddCommGroup M] (f : Item → M) (d e : Item → Nat) (l : List Item) :
    (l.map fun i => (d i + e i) • f i).sum = (l.map fun i => d i • f i).sum + (l.map fun i => e i • f i).sum := by
  induction l with
  | nil => exact (add_zero _).symm
  | cons i l ih => simp only [List.map_cons, List.sum_cons]; rw [ih, add_nsmul]; abel

theorem sum_nsmul_mul {M : Type} [AddCommGroup M] (f : Item → M) (d : Item → Nat) (a : Nat) (l : List Item) :
    (l.map fun i => (d i * a) • f i).sum = a • (l.map fun i => d i • f i).sum := by
  induction l with
  | nil => exact (nsmul_zero _).symm
  | cons i l ih => simp only [List.map_cons, List.sum_cons]; rw [ih, nsmul_add, mul_comm, mul_nsmul']

section
variable (hn : (n : F) = 0) (hm : m + 1 = n)
include hn hm

theorem rep_sumAff (l : List Item) (h : Valid b l) : Rep (sumAff n m l) (l.map (Item.point b)).sum := by
  induction l with
  | nil => exact (rfl : (0 : CurvePoint b) = 0)
  | cons i l ih =>
    rw [List.map_cons, List.sum_cons, add_comm]
    obtain ⟨h0, ha⟩ := h.point List.mem_cons_self
    exact rep_addAff hn hm (ih fun j hj => h j (List.mem_cons_of_mem _ hj)) h0 ha

theorem rep_agg (ks : List Nat) : ∀ (l : List Item), Valid b l →
    Rep (agg n m ks l).1 (l.map (Item.point b)).sum ∧
    Rep (agg n m ks l).2 (l.map fun i => digit ks i.c • i.point b).sum := by
  induction ks with
  | nil =>
    intro l h
    refine ⟨rep_sumAff hn hm l h, ?_⟩
    show (l.map fun i => 0 • i.point b).sum = 0
    simp
  | cons k ks ih =>
    intro l h
    have h0 : Valid b (off k l) := fun i hi => h i (mem_off.1 hi).1
    have h1 : Valid b (on k l) := fun i hi => h i (mem_on.1 hi).1
    obtain ⟨a1, a2⟩ := ih _ h0
    obtain ⟨b1, b2⟩ := ih _ h1
    constructor
    · rw [sum_split _ k]
      exact rep_add hn hm a1 b1
    · have e : (l.map fun i => digit (k :: ks) i.c • i.point b).sum =
          ((off k l).map fun i => digit ks i.c • i.point b).sum + ((on k l).map fun i => digit ks i.c • i.point b).sum +
            2 ^ ks.length • ((on k l).map (Item.point b)).sum := by
        rw [sum_split _ k]
        have e0 : ((off k l).map fun i => digit (k :: ks) i.c • i.point b) = (off k l).map fun i => digit ks i.c • i.point b := by
          refine List.map_congr_left fun i hi => ?_
          rw [digit, (mem_off.1 hi).2, Bool.toNat_false, zero_mul, zero_add]
        have e1 : ((on k l).map fun i => digit (k :: ks) i.c • i.point b) =
            (on k l).map fun i => (digit ks i.c + 1 * 2 ^ ks.length) • i.point b := by
          refine List.map_congr_left fun i hi => ?_
          rw [digit, (mem_on.1 hi).2, Bool.toNat_true, add_comm]
        rw [e0, e1, sum_nsmul_add (Item.point b) (fun i => digit ks i.c) (fun _ => 1 * 2 ^ ks.length),
          sum_nsmul_mul (Item.point b) (fun _ => 1), add_assoc]
        simp only [one_nsmul]
      rw [e]
      exact rep_add hn hm (rep_add hn hm a2 b2) (rep_dbls hn hm ks b1)

theorem digit_append (ks hs : List Nat) (c : Nat) : digit (ks ++ hs) c = digit ks c * 2 ^ hs.length + digit hs c := by
  induction ks with
  | nil => simp [digit]
  | cons k ks ih => rw [List.cons_append, digit, ih, digit, List.length_append, pow_add]; ring

/-- the groups of bits are those for which the results are given -/
theorem rep_horner (l : List Item) (h : Valid b l) : ∀ (ws : List (List Nat × Jc)) (ks : List Nat) (p : Jc),
    (∀ w ∈ ws, (agg n m w.1 l).2 = w.2) → Rep p (l.map fun i => digit ks i.c • i.point b).sum →
    Rep (horner n m p ws) (l.map fun i => digit (ks ++ (ws.map Prod.fst).flatten) i.c • i.point b).sum := by
  intro ws
  induction ws with
  | nil =>
    intro ks p _ hp
    rw [List.map_nil, List.flatten_nil, List.append_nil]
    exact hp
  | cons w ws ih =>
    intro ks p hw hp
    obtain ⟨hs, q⟩ := w
    rw [List.map_cons, List.flatten_cons, ← List.append_assoc]
    refine ih (ks ++ hs) _ (fun w hw' => hw w (List.mem_cons_of_mem _ hw')) ?_
    have hq := (rep_agg hn hm hs l h).2
    rw [hw _ List.mem_cons_self] at hq
    have e : (l.map fun i => digit (ks ++ hs) i.c • i.point b).sum =
        2 ^ hs.length • (l.map fun i => digit ks i.c • i.point b).sum + (l.map fun i => digit hs i.c • i.point b).sum := by
      rw [← sum_nsmul_mul (Item.point b) (fun i => digit ks i.c), ← sum_nsmul_add]
      congr 1
      refine List.map_congr_left fun i _ => ?_
      rw [digit_append hn hm]
    rw [e]
    exact rep_add hn hm (rep_dbls hn hm hs hp) hq

end

theorem bit_eq (k c : Nat) : bit k c = c.testBit k := by
  unfold bit
  have e : Nat.land (Nat.shiftRight c k) 1 = (c >>> k) % 2 := Nat.and_one_is_mod _
  rw [e, Nat.testBit_eq_decide_div_mod_eq, Nat.shiftRight_eq_div_pow]
  by_cases h : c / 2 ^ k % 2 = 1
  · rw [h]; rfl
  · have : c / 2 ^ k % 2 = 0 := by omega
    rw [this]; rfl

theorem digit_range (k c : Nat) : digit (List.range k).reverse c = c % 2 ^ k := by
  induction k with
  | zero => rw [pow_zero, Nat.mod_one]; rfl
  | succ k ih =>
    rw [List.range_succ, List.reverse_append, List.reverse_singleton, List.singleton_append, digit, ih, List.length_reverse,
      List.length_range, bit_eq, Nat.mod_pow_succ, Nat.testBit_eq_decide_div_mod_eq]
    by_cases h : c / 2 ^ k % 2 = 1
    · rw [decide_eq_true h, h, Bool.toNat_true]; ring
    · rw [decide_eq_false h, (by omega : c / 2 ^ k % 2 = 0), Bool.toNat_false]; ring

/-- The check of a sum: results for groups of bits that make up all bits, and a final point. -/
theorem horner_sound (hn : (n : F) = 0) (hm : m + 1 = n) (l : List Item) (h : Valid b l) (hc : ∀ i ∈ l, i.c < 2 ^ 256)
    (ws : List (List Nat × Jc)) (hw : ∀ w ∈ ws, (agg n m w.1 l).2 = w.2)
    (hks : (ws.map Prod.fst).flatten = (List.range 256).reverse) {x y X Y Z : Nat}
    (hr : horner n m .inf ws = .pt X Y Z) (hX : (X : F) = x * Z ^ 2) (hY : (Y : F) = y * Z ^ 3) (hZ : (Z : F) ≠ 0) :
    toAff (l.map fun i => i.c • i.point b).sum = (⟨x, y⟩ : Aff F) := by
  have hrep := rep_horner hn hm l h ws [] .inf hw (by
    show (l.map fun i => 0 • i.point b).sum = 0
    simp)
  rw [List.nil_append, hks, hr] at hrep
  have e : (l.map fun i => digit (List.range 256).reverse i.c • i.point b) = l.map fun i => i.c • i.point b := by
    refine List.map_congr_left fun i hi => ?_
    rw [digit_range, Nat.mod_eq_of_lt (hc i hi)]
  rw [e] at hrep
  rcases hrep with hz | ⟨-, ha⟩
  · exact absurd hz hZ
  · rw [ha, hX, hY, mul_div_cancel_right₀ _ (pow_ne_zero _ hZ), mul_div_cancel_right₀ _ (pow_ne_zero _ hZ)]

end
end Verif.Msm
