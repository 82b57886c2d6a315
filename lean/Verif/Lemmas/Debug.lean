import Mathlib.Data.Nat.Digits.Lemmas
import Verif.Model.Debug

/-! The texts of errors can be parsed back. -/
namespace Verif

def isDigitByte (b : UInt8) : Bool := 48 ≤ b && b ≤ 57

def isNameByte (b : UInt8) : Bool := isDigitByte b || (65 ≤ b && b ≤ 90) || (97 ≤ b && b ≤ 122)

theorem takeWhile_stop {α : Type} {p : α → Bool} {l : List α} (h : ∀ x ∈ l, p x = true) {b : α} (hb : p b = false) (s : List α) :
    (l ++ b :: s).takeWhile p = l := by
  rw [List.takeWhile_append_of_pos h, List.takeWhile_cons_of_neg (by simp [hb]), List.append_nil]

theorem split_at_stop {α : Type} {p : α → Bool} {l m : List α} (hl : ∀ x ∈ l, p x = true) (hm : ∀ x ∈ m, p x = true) {b c : α}
    (hb : p b = false) (hc : p c = false) {s t : List α} (h : l ++ b :: s = m ++ c :: t) : l = m ∧ b :: s = c :: t := by
  have h' : l = m := by
    have := congrArg (List.takeWhile p) h
    rwa [takeWhile_stop hl hb, takeWhile_stop hm hc] at this
  subst h'
  exact ⟨rfl, List.append_cancel_left h⟩

theorem debugNat_eq (n : Nat) : ∃ l : List Nat, (∀ d ∈ l, d < 10) ∧ debugNat n = l.map (fun d => UInt8.ofNat (48 + d)) ∧
    Nat.ofDigits 10 l.reverse = n ∧ l ≠ [] := by
  unfold debugNat
  split_ifs with h
  · exact ⟨[0], by simp, rfl, by simp [h], by simp⟩
  · refine ⟨(Nat.digits 10 n).reverse, fun d hd => Nat.digits_lt_base (by norm_num) (List.mem_reverse.1 hd), rfl, ?_, ?_⟩
    · rw [List.reverse_reverse, Nat.ofDigits_digits]
    · simp [Nat.digits_eq_nil_iff_eq_zero, h]

theorem digitByte_toNat {d : Nat} (h : d < 10) : (UInt8.ofNat (48 + d)).toNat = 48 + d := by
  rw [UInt8.toNat_ofNat']
  omega

theorem debugNat_digits (n : Nat) : ∀ b ∈ debugNat n, isDigitByte b = true := by
  obtain ⟨l, hl, he, -, -⟩ := debugNat_eq n
  intro b hb
  rw [he, List.mem_map] at hb
  obtain ⟨d, hd, rfl⟩ := hb
  have := digitByte_toNat (hl d hd)
  have h10 := hl d hd
  simp only [isDigitByte, Bool.and_eq_true, decide_eq_true_eq, UInt8.le_iff_toNat_le, this]
  exact ⟨Nat.le_add_right _ _, by show 48 + d ≤ 57; omega⟩

theorem debugNat_ne_nil (n : Nat) : debugNat n ≠ [] := by
  obtain ⟨l, -, he, -, h0⟩ := debugNat_eq n
  rw [he]
  simpa using h0

theorem debugNat_injective {a b : Nat} (h : debugNat a = debugNat b) : a = b := by
  obtain ⟨l, hl, he, hv, -⟩ := debugNat_eq a
  obtain ⟨m, hm, hf, hw, -⟩ := debugNat_eq b
  rw [he, hf] at h
  have : l = m := by
    clear he hf hv hw
    induction l generalizing m with
    | nil => cases m with
      | nil => rfl
      | cons => simp at h
    | cons x l ih => cases m with
      | nil => simp at h
      | cons y m =>
        simp only [List.map_cons, List.cons.injEq] at h
        have h1 := congrArg UInt8.toNat h.1
        rw [digitByte_toNat (hl x (by simp)), digitByte_toNat (hm y (by simp))] at h1
        rw [ih (fun d hd => hl d (by simp [hd])) m h.2 (fun d hd => hm d (by simp [hd])), show x = y by omega]
  rw [← hv, ← hw, this]

/-- a number followed by something that is not a digit -/
theorem debugNat_split {a b : Nat} {x y : UInt8} (hx : isDigitByte x = false) (hy : isDigitByte y = false) {s t : List UInt8}
    (h : debugNat a ++ x :: s = debugNat b ++ y :: t) : a = b ∧ x :: s = y :: t := by
  obtain ⟨h1, h2⟩ := split_at_stop (debugNat_digits a) (debugNat_digits b) hx hy h
  exact ⟨debugNat_injective h1, h2⟩

theorem commaBytes_split : ∀ {l m : List UInt8} {s t : List UInt8},
    commaSeparated (l.map (fun x => debugNat x.toNat)) ++ 93 :: s = commaSeparated (m.map (fun x => debugNat x.toNat)) ++ 93 :: t →
      l = m ∧ s = t := by
  have hne : ∀ (x : UInt8) (xs : List UInt8) (s t : List UInt8),
      93 :: s ≠ commaSeparated ((x :: xs).map (fun x => debugNat x.toNat)) ++ t := by
    intro x xs s t h
    obtain ⟨d, ds, hd⟩ := List.exists_cons_of_ne_nil (debugNat_ne_nil x.toNat)
    have hdig := debugNat_digits x.toNat d (by rw [hd]; simp)
    have : d = 93 := by
      cases xs <;> simp only [List.map_cons, List.map_nil, commaSeparated, hd, List.cons_append, List.cons.injEq] at h <;> exact h.1.symm
    subst this
    revert hdig
    decide
  intro l
  induction l with
  | nil =>
    intro m s t h
    cases m with
    | nil => simpa [commaSeparated] using h
    | cons x xs => exact absurd h (hne _ _ _ _)
  | cons x l ih =>
    intro m s t h
    cases m with
    | nil => exact absurd h.symm (hne _ _ _ _)
    | cons y m =>
      have hx : ∀ (x : UInt8) (l s : List UInt8), ∃ c r, isDigitByte c = false ∧
          commaSeparated ((x :: l).map (fun x => debugNat x.toNat)) ++ 93 :: s = debugNat x.toNat ++ c :: r ∧
          (l = [] ∧ c = 93 ∧ r = s ∨ l ≠ [] ∧ c = 44 ∧ r = 32 :: (commaSeparated (l.map (fun x => debugNat x.toNat)) ++ 93 :: s)) := by
        intro x l s
        cases l with
        | nil => exact ⟨93, s, by decide, by simp [commaSeparated], .inl ⟨rfl, rfl, rfl⟩⟩
        | cons y l =>
          refine ⟨44, _, by decide, ?_, .inr ⟨by simp, rfl, rfl⟩⟩
          simp only [List.map_cons, commaSeparated, show ascii ", " = [44, 32] by decide, List.append_assoc, List.cons_append, List.nil_append]
      obtain ⟨c, r, hc, he, hor⟩ := hx x l s
      obtain ⟨c', r', hc', he', hor'⟩ := hx y m t
      rw [he, he'] at h
      obtain ⟨hxy, hr⟩ := debugNat_split hc hc' h
      cases hr
      have hxy := UInt8.toNat_inj.1 hxy
      subst hxy
      rcases hor with ⟨h1, h2, h3⟩ | ⟨h1, h2, h3⟩ <;> rcases hor' with ⟨h1', h2', h3'⟩ | ⟨h1', h2', h3'⟩
      · exact ⟨by rw [h1, h1'], by rw [← h3, h3']⟩
      · rw [h2] at h2'; exact absurd h2' (by decide)
      · rw [h2] at h2'; exact absurd h2' (by decide)
      · rw [h3] at h3'
        obtain ⟨g1, g2⟩ := ih (List.cons.inj h3').2
        exact ⟨by rw [g1], g2⟩

theorem debugBytes_split {l m s t : List UInt8} (h : debugBytes l ++ s = debugBytes m ++ t) : l = m ∧ s = t := by
  unfold debugBytes at h
  simp only [show ascii "[" = [91] by decide, show ascii "]" = [93] by decide, List.append_assoc, List.cons_append, List.nil_append,
    List.cons.injEq, true_and] at h
  exact commaBytes_split h

/-- the part of a text after the name of the variant -/
theorem name_split {n m : String} {b c : UInt8} {s t : List UInt8} (h : ascii n ++ b :: s = ascii m ++ c :: t)
    (hn : ∀ x ∈ ascii n, isNameByte x = true) (hm : ∀ x ∈ ascii m, isNameByte x = true)
    (hb : isNameByte b = false) (hc : isNameByte c = false) :
    ascii n = ascii m ∧ b :: s = c :: t := split_at_stop hn hm hb hc h

theorem debugTuple_append (n : String) (x s : List UInt8) : debugTuple n x ++ s = ascii n ++ 40 :: (x ++ 41 :: s) := by
  unfold debugTuple
  simp only [show ascii "(" = [40] by decide, show ascii ")" = [41] by decide, List.append_assoc, List.cons_append, List.nil_append]

theorem debugStruct1_append (n f : String) (x s : List UInt8) :
    debugStruct n [(f, x)] ++ s = ascii n ++ 32 :: 123 :: 32 :: (ascii f ++ 58 :: 32 :: (x ++ 32 :: 125 :: s)) := by
  unfold debugStruct
  simp only [show ascii " { " = [32, 123, 32] by decide, show ascii " }" = [32, 125] by decide, show ascii ": " = [58, 32] by decide,
    List.map_cons, List.map_nil, commaSeparated, List.append_assoc, List.cons_append, List.nil_append]

theorem debugStruct2_append (n f g : String) (x y s : List UInt8) :
    debugStruct n [(f, x), (g, y)] ++ s = ascii n ++ 32 :: 123 :: 32 :: (ascii f ++ 58 :: 32 :: (x ++ 44 :: 32 ::
      (ascii g ++ 58 :: 32 :: (y ++ 32 :: 125 :: s)))) := by
  unfold debugStruct
  simp only [show ascii " { " = [32, 123, 32] by decide, show ascii " }" = [32, 125] by decide, show ascii ": " = [58, 32] by decide,
    show ascii ", " = [44, 32] by decide,
    List.map_cons, List.map_nil, commaSeparated, List.append_assoc, List.cons_append, List.nil_append]

theorem debugStruct4_append (n f g f' g' : String) (x y x' y' s : List UInt8) :
    debugStruct n [(f, x), (g, y), (f', x'), (g', y')] ++ s = ascii n ++ 32 :: 123 :: 32 :: (ascii f ++ 58 :: 32 :: (x ++ 44 :: 32 ::
      (ascii g ++ 58 :: 32 :: (y ++ 44 :: 32 :: (ascii f' ++ 58 :: 32 :: (x' ++ 44 :: 32 ::
        (ascii g' ++ 58 :: 32 :: (y' ++ 32 :: 125 :: s)))))))) := by
  unfold debugStruct
  simp only [show ascii " { " = [32, 123, 32] by decide, show ascii " }" = [32, 125] by decide, show ascii ": " = [58, 32] by decide,
    show ascii ", " = [44, 32] by decide,
    List.map_cons, List.map_nil, commaSeparated, List.append_assoc, List.cons_append, List.nil_append]

theorem fieldsNN {f g : String} {a b a' b' : Nat} {s t : List UInt8}
    (h : 32 :: 123 :: 32 :: (ascii f ++ 58 :: 32 :: (debugNat a ++ 44 :: 32 :: (ascii g ++ 58 :: 32 :: (debugNat b ++ 32 :: 125 :: s)))) =
      32 :: 123 :: 32 :: (ascii f ++ 58 :: 32 :: (debugNat a' ++ 44 :: 32 :: (ascii g ++ 58 :: 32 :: (debugNat b' ++ 32 :: 125 :: t))))) :
    a = a' ∧ b = b' ∧ s = t := by
  simp only [List.cons.injEq, true_and, List.append_cancel_left_eq] at h
  obtain ⟨h1, h2⟩ := debugNat_split (by decide) (by decide) h
  simp only [List.cons.injEq, true_and, List.append_cancel_left_eq] at h2
  obtain ⟨h3, h4⟩ := debugNat_split (by decide) (by decide) h2
  simp only [List.cons.injEq, true_and] at h4
  exact ⟨h1, h3, h4⟩

theorem fieldsBN {f g : String} {a a' : List UInt8} {b b' : Nat} {s t : List UInt8}
    (h : 32 :: 123 :: 32 :: (ascii f ++ 58 :: 32 :: (debugBytes a ++ 44 :: 32 :: (ascii g ++ 58 :: 32 :: (debugNat b ++ 32 :: 125 :: s)))) =
      32 :: 123 :: 32 :: (ascii f ++ 58 :: 32 :: (debugBytes a' ++ 44 :: 32 :: (ascii g ++ 58 :: 32 :: (debugNat b' ++ 32 :: 125 :: t))))) :
    a = a' ∧ b = b' ∧ s = t := by
  simp only [List.cons.injEq, true_and, List.append_cancel_left_eq] at h
  obtain ⟨h1, h2⟩ := debugBytes_split h
  simp only [List.cons.injEq, true_and, List.append_cancel_left_eq] at h2
  obtain ⟨h3, h4⟩ := debugNat_split (by decide) (by decide) h2
  simp only [List.cons.injEq, true_and] at h4
  exact ⟨h1, h3, h4⟩

/-- compare the names of the variants -/
local macro "variant" h:ident hr:ident : tactic => `(tactic| (
  obtain ⟨hn, $hr⟩ := name_split $h (by decide) (by decide) (by decide) (by decide)
  first
  | (exfalso; revert hn; decide)
  | (obtain ⟨h1, h2, h3⟩ := fieldsNN $hr; cases h1; cases h2; cases h3; exact ⟨rfl, rfl⟩)
  | (obtain ⟨h1, h2, h3⟩ := fieldsBN $hr; cases h1; cases h2; cases h3; exact ⟨rfl, rfl⟩)
  | skip))

theorem RSError.debug_split {e e' : RSError} {s t : List UInt8} (h : e.debug ++ 41 :: s = e'.debug ++ 41 :: t) : e = e' ∧ s = t := by
  cases e <;> cases e' <;> simp only [RSError.debug, debugStruct2_append] at h <;> variant h hr

theorem RecoveryError.debug_split {e e' : RecoveryError} {s t : List UInt8} (h : e.debug ++ 41 :: s = e'.debug ++ 41 :: t) :
    e = e' ∧ s = t := by
  cases e <;> cases e' <;> simp only [RecoveryError.debug, debugStruct2_append, debugTuple_append] at h <;> variant h hr <;>
    simp only [List.cons.injEq, true_and] at hr
  · exact ⟨rfl, hr⟩
  · obtain ⟨rfl, hq⟩ := RSError.debug_split hr
    simp only [List.cons.injEq, true_and] at hq
    exact ⟨rfl, hq⟩

theorem FK20VerifierError.debug_split {e e' : FK20VerifierError} {s t : List UInt8}
    (h : e.debug ++ 41 :: s = e'.debug ++ 41 :: t) : e = e' ∧ s = t := by
  cases e; cases e'
  have := List.append_cancel_left h
  simp only [List.cons.injEq, true_and] at this
  exact ⟨rfl, this⟩

theorem ProverError.debug_split {e e' : ProverError} {s t : List UInt8}
    (h : e.debug ++ 41 :: s = e'.debug ++ 41 :: t) : e = e' ∧ s = t := by
  obtain ⟨e⟩ := e; obtain ⟨e'⟩ := e'
  simp only [ProverError.debug, debugTuple_append] at h
  variant h hr
  simp only [List.cons.injEq, true_and] at hr
  obtain ⟨rfl, hq⟩ := RecoveryError.debug_split hr
  simp only [List.cons.injEq, true_and] at hq
  exact ⟨rfl, hq⟩

theorem VerifierError.debug_split {e e' : VerifierError} {s t : List UInt8}
    (h : e.debug ++ 41 :: s = e'.debug ++ 41 :: t) : e = e' ∧ s = t := by
  cases e <;> cases e' <;> simp only [VerifierError.debug, debugStruct2_append, debugStruct4_append, debugTuple_append] at h <;>
    variant h hr <;> simp only [List.cons.injEq, true_and] at hr
  · exact ⟨rfl, hr⟩
  · simp only [List.append_cancel_left_eq, List.cons.injEq, true_and] at hr
    obtain ⟨h1, hr⟩ := debugNat_split (by decide) (by decide) hr
    simp only [List.append_cancel_left_eq, List.cons.injEq, true_and] at hr
    obtain ⟨h2, hr⟩ := debugNat_split (by decide) (by decide) hr
    simp only [List.append_cancel_left_eq, List.cons.injEq, true_and] at hr
    obtain ⟨h3, hr⟩ := debugNat_split (by decide) (by decide) hr
    simp only [List.append_cancel_left_eq, List.cons.injEq, true_and] at hr
    obtain ⟨h4, hr⟩ := debugNat_split (by decide) (by decide) hr
    simp only [List.cons.injEq, true_and] at hr
    exact ⟨by rw [h1, h2, h3, h4], hr⟩
  · obtain ⟨rfl, hq⟩ := FK20VerifierError.debug_split hr
    simp only [List.cons.injEq, true_and] at hq
    exact ⟨rfl, hq⟩

theorem SerializationError.debug_split {e e' : SerializationError} {s t : List UInt8}
    (h : e.debug ++ 41 :: s = e'.debug ++ 41 :: t) : e = e' ∧ s = t := by
  cases e <;> cases e' <;> simp only [SerializationError.debug, debugStruct1_append, debugStruct2_append] at h <;> variant h hr
  all_goals
    simp only [List.cons.injEq, true_and, List.append_cancel_left_eq] at hr
    obtain ⟨rfl, hq⟩ := debugBytes_split hr
    simp only [List.cons.injEq, true_and] at hq
    exact ⟨rfl, hq⟩

theorem Error.debug_injective {e e' : Error} (h : e.debug = e'.debug) : e = e' := by
  rw [← List.append_nil e.debug, ← List.append_nil e'.debug] at h
  cases e <;> cases e' <;> simp only [Error.debug, debugTuple_append] at h <;> variant h hr <;>
    simp only [List.cons.injEq, true_and] at hr
  · rw [(ProverError.debug_split hr).1]
  · rw [(VerifierError.debug_split hr).1]
  · rw [(RecoveryError.debug_split hr).1]
  · rw [(SerializationError.debug_split hr).1]

end Verif
