import Verif.Lemmas.TrustedSetup
import Verif.Props.Toy

set_option linter.unusedSectionVars false

/-! C38: the text of the trusted setup. -/
namespace Verif

section
variable {ε E1 E2 : Type} [UncheckedCodec E1] [UncheckedCodec E2]

/-- `s` is the text of the point `p`: a `0x` hexadecimal string of exactly `size` bytes that encodes `p`, which is in the subgroup if
the subgroup is checked. -/
abbrev TextOf {E : Type} [UncheckedCodec E] (size : Nat) (sub : SubgroupCheck) : List UInt8 → E → Prop :=
  Spec.PointText fromCompressedUnchecked (fun p => isTorsionFree p = true) size (sub = .check)

theorem forall₂_pointOf {E : Type} [UncheckedCodec E] (size : Nat) (sub : SubgroupCheck) (l : List (List UInt8)) (r : List E) :
    List.Forall₂ (fun s p => pointOf size sub s = some p) l r ↔ List.Forall₂ (TextOf size sub) l r := by
  simp only [pointOf_iff]

/-- C38: the G1 points of a setup are read exactly from lists of texts of points of 48 bytes; any other list makes the reader
panic. -/
theorem C38_g1_points (l : List (List UInt8)) (sub : SubgroupCheck) :
    (∀ points : List E1, (deserializeG1Points l sub : Outcome ε (List E1)) = .ok points ↔ List.Forall₂ (TextOf 48 sub) l points) ∧
    ((deserializeG1Points l sub : Outcome ε (List E1)) = .panic ↔ ∃ s ∈ l, ¬ ∃ p : E1, TextOf 48 sub s p) := by
  rw [deserializeG1_eq]
  refine ⟨fun points => (mapM_expect_iff _ l points).trans (forall₂_pointOf 48 sub l points), ?_⟩
  rcases mapM_expect (ε := ε) (pointOf (E := E1) 48 sub) l with ⟨r, h1, h2⟩ | ⟨h1, s, hs, h2⟩
  · rw [h1]
    constructor
    · intro h; cases h
    · rintro ⟨s, hs, hn⟩
      obtain ⟨i, hi, rfl⟩ := List.getElem_of_mem hs
      exact absurd ⟨_, (pointOf_iff 48 sub _ _).1 (h2.get hi (by rw [← h2.length_eq]; exact hi))⟩ hn
  · rw [h1]
    refine ⟨fun _ => ⟨s, hs, ?_⟩, fun _ => rfl⟩
    rintro ⟨p, hp⟩
    rw [(pointOf_iff 48 sub s p).2 hp] at h2
    cases h2

/-- C38: the G2 points of a setup are read exactly from lists of texts of points of 96 bytes; any other list makes the reader
panic. -/
theorem C38_g2_points (l : List (List UInt8)) (sub : SubgroupCheck) :
    (∀ points : List E2, (deserializeG2Points l sub : Outcome ε (List E2)) = .ok points ↔ List.Forall₂ (TextOf 96 sub) l points) ∧
    ((deserializeG2Points l sub : Outcome ε (List E2)) = .panic ↔ ∃ s ∈ l, ¬ ∃ p : E2, TextOf 96 sub s p) := by
  rw [deserializeG2_eq]
  refine ⟨fun points => (mapM_expect_iff _ l points).trans (forall₂_pointOf 96 sub l points), ?_⟩
  rcases mapM_expect (ε := ε) (pointOf (E := E2) 96 sub) l with ⟨r, h1, h2⟩ | ⟨h1, s, hs, h2⟩
  · rw [h1]
    constructor
    · intro h; cases h
    · rintro ⟨s, hs, hn⟩
      obtain ⟨i, hi, rfl⟩ := List.getElem_of_mem hs
      exact absurd ⟨_, (pointOf_iff 96 sub _ _).1 (h2.get hi (by rw [← h2.length_eq]; exact hi))⟩ hn
  · rw [h1]
    refine ⟨fun _ => ⟨s, hs, ?_⟩, fun _ => rfl⟩
    rintro ⟨p, hp⟩
    rw [(pointOf_iff 96 sub s p).2 hp] at h2
    cases h2

/-- the two outcomes of the reader -/
theorem g1_cases (l : List (List UInt8)) (sub : SubgroupCheck) :
    (∃ points : List E1, (deserializeG1Points l sub : Outcome ε (List E1)) = .ok points ∧ points.length = l.length ∧
      ∀ s ∈ l, ∃ p : E1, TextOf 48 sub s p) ∨
    ((deserializeG1Points l sub : Outcome ε (List E1)) = .panic ∧ ¬ ∀ s ∈ l, ∃ p : E1, TextOf 48 sub s p) := by
  obtain ⟨h1, h2⟩ := C38_g1_points (ε := ε) (E1 := E1) l sub
  by_cases h : ∃ s ∈ l, ¬ ∃ p : E1, TextOf 48 sub s p
  · right
    exact ⟨h2.2 h, by push Not at h ⊢; exact h⟩
  · left
    rcases mapM_expect (ε := ε) (pointOf (E := E1) 48 sub) l with ⟨r, h3, h4⟩ | ⟨h3, -⟩
    · exact ⟨r, by rw [deserializeG1_eq]; exact h3, h4.length_eq.symm, by push Not at h; exact h⟩
    · exact absurd (h2.1 (by rw [deserializeG1_eq]; exact h3)) h

theorem g2_cases (l : List (List UInt8)) (sub : SubgroupCheck) :
    (∃ points : List E2, (deserializeG2Points l sub : Outcome ε (List E2)) = .ok points ∧ points.length = l.length ∧
      ∀ s ∈ l, ∃ p : E2, TextOf 96 sub s p) ∨
    ((deserializeG2Points l sub : Outcome ε (List E2)) = .panic ∧ ¬ ∀ s ∈ l, ∃ p : E2, TextOf 96 sub s p) := by
  obtain ⟨h1, h2⟩ := C38_g2_points (ε := ε) (E2 := E2) l sub
  by_cases h : ∃ s ∈ l, ¬ ∃ p : E2, TextOf 96 sub s p
  · right
    exact ⟨h2.2 h, by push Not at h ⊢; exact h⟩
  · left
    rcases mapM_expect (ε := ε) (pointOf (E := E2) 96 sub) l with ⟨r, h3, h4⟩ | ⟨h3, -⟩
    · exact ⟨r, by rw [deserializeG2_eq]; exact h3, h4.length_eq.symm, by push Not at h; exact h⟩
    · exact absurd (h2.1 (by rw [deserializeG2_eq]; exact h3)) h

/-- A setup that passes the validation: every monomial point is a text of a subgroup point and there are 65 or more G2 points, not
more than G1 points. -/
def ValidSetup (E1 E2 : Type) [UncheckedCodec E1] [UncheckedCodec E2] (setup : TrustedSetup) : Prop :=
  (∀ s ∈ setup.g1Monomial, ∃ p : E1, TextOf 48 .check s p) ∧ (∀ s ∈ setup.g2Monomial, ∃ p : E2, TextOf 96 .check s p) ∧
  64 < setup.g2Monomial.length ∧ setup.g2Monomial.length ≤ setup.g1Monomial.length

theorem validate_cases [DecidableEq E1] (setup : TrustedSetup) :
    ((setup.validate E1 E2 : Outcome ε Unit) = .ok () ∧ ValidSetup E1 E2 setup) ∨
    ((setup.validate E1 E2 : Outcome ε Unit) = .panic ∧ ¬ ValidSetup E1 E2 setup) := by
  unfold TrustedSetup.validate TrustedSetup.toCommitKey TrustedSetup.toVerificationKey commitKeyNew
  rcases g1_cases (ε := ε) (E1 := E1) setup.g1Monomial .check with ⟨p1, h1, hl1, ha1⟩ | ⟨h1, hn⟩
  swap
  · right
    rw [h1]
    exact ⟨rfl, fun h => hn h.1⟩
  rw [h1, Outcome.ok_bind]
  by_cases hne : p1 = []
  · right
    subst hne
    refine ⟨rfl, ?_⟩
    rintro ⟨-, -, h3, h4⟩
    rw [List.length_nil] at hl1
    omega
  rw [assertP_true hne]
  simp only [Outcome.ok_bind, Outcome.pure_eq]
  rcases g2_cases (ε := ε) (E2 := E2) setup.g2Monomial .check with ⟨p2, h2, hl2, ha2⟩ | ⟨h2, hn⟩
  swap
  · right
    rw [h2]
    exact ⟨rfl, fun h => hn h.2.1⟩
  rw [h2, Outcome.ok_bind]
  by_cases hle : setup.g2Monomial.length ≤ setup.g1Monomial.length
  swap
  · right
    unfold slice
    rw [if_neg (by rw [hl2]; omega)]
    exact ⟨rfl, fun h => hle h.2.2.2⟩
  unfold slice
  rw [if_pos (by rw [hl2]; omega), Outcome.ok_bind]
  rcases g1_cases (ε := ε) (E1 := E1) ((setup.g1Monomial.drop 0).take (p2.length - 0)) .check with ⟨p3, h3, -, -⟩ | ⟨-, hn⟩
  swap
  · exfalso
    apply hn
    intro s hs
    exact ha1 s (List.mem_of_mem_drop (List.mem_of_mem_take hs))
  rw [h3, Outcome.ok_bind]
  unfold VerificationKey.new
  by_cases h64 : 64 < setup.g2Monomial.length
  · left
    have : idx p2 0 = (.ok (p2[0]'(by omega)) : Outcome ε E2) := by
      unfold idx
      rw [List.getElem?_eq_getElem (by omega)]
      rfl
    rw [this, Outcome.ok_bind, assertP_true (show FIELD_ELEMENTS_PER_CELL < p2.length by rw [hl2]; exact h64)]
    exact ⟨rfl, ha1, ha2, h64, hle⟩
  · right
    refine ⟨?_, fun h => h64 h.2.2.1⟩
    have : (assertP (FIELD_ELEMENTS_PER_CELL < p2.length) : Outcome ε Unit) = .panic := by
      unfold assertP
      rw [if_neg (by rw [hl2]; exact h64)]
    rw [this]
    unfold idx
    cases p2[0]? <;> rfl

/-- C38: `from_json` accepts exactly the documents with a valid setup and panics on all others. -/
theorem C38_from_json [DecidableEq E1] (parse : List UInt8 → Option TrustedSetup) (json : List UInt8) :
    (∀ setup, (TrustedSetup.fromJson E1 E2 parse json : Outcome ε TrustedSetup) = .ok setup ↔
      parse json = some setup ∧ ValidSetup E1 E2 setup) ∧
    ((TrustedSetup.fromJson E1 E2 parse json : Outcome ε TrustedSetup) = .panic ↔
      ¬ ∃ setup, parse json = some setup ∧ ValidSetup E1 E2 setup) := by
  unfold TrustedSetup.fromJson TrustedSetup.fromJsonUnchecked
  cases hp : parse json with
  | none => simp [expect]
  | some s =>
    simp only [expect, Outcome.ok_bind]
    rcases validate_cases (ε := ε) (E1 := E1) (E2 := E2) s with ⟨h, hv⟩ | ⟨h, hv⟩
    · rw [h]
      simp only [Outcome.ok_bind, Outcome.pure_eq, Outcome.ok.injEq, Option.some.injEq, reduceCtorEq, exists_eq_left', hv, not_true_eq_false, iff_self, and_true]
      intro setup
      constructor
      · rintro rfl; exact ⟨rfl, hv⟩
      · exact fun h => h.1
    · rw [h]
      simp only [Outcome.panic_bind, reduceCtorEq, Option.some.injEq, exists_eq_left', hv, not_false_eq_true, iff_self, and_true, false_iff]
      rintro setup ⟨rfl, h⟩
      exact hv h

/-- C38: the unchecked reader accepts every document with three lists of strings. -/
theorem C38_from_json_unchecked (parse : List UInt8 → Option TrustedSetup) (json : List UInt8) (setup : TrustedSetup) :
    (TrustedSetup.fromJsonUnchecked parse json : Outcome ε TrustedSetup) = .ok setup ↔ parse json = some setup := by
  unfold TrustedSetup.fromJsonUnchecked
  cases parse json <;> simp [expect]

end

section
variable {ε K G1 G2 : Type} [Field K] [DecidableEq K] [AddCommGroup G1] [Module Fr G1] [DecidableEq G1]
  [Curve K G1] [UncheckedCodec G1] [AddCommGroup G2] [Module Fr G2] [UncheckedCodec G2]

/-- C38: the Lagrange points are never inspected: validation and context do not depend on them. -/
theorem C38_lagrange (setup : TrustedSetup) (lagrange : List (List UInt8)) (up : UsePrecomp) :
    ({ setup with g1Lagrange := lagrange }.validate G1 G2 : Outcome ε Unit) = setup.validate G1 G2 ∧
    (DASContext.ofTrustedSetup { setup with g1Lagrange := lagrange } up : Outcome ε (DASContext K G1 G2)) =
      DASContext.ofTrustedSetup setup up := ⟨rfl, rfl⟩

/-- C38: the context of a setup is the context of its points; the points need not be in the subgroup. -/
theorem C38_context (setup : TrustedSetup) (up : UsePrecomp) (g1 : List G1) (g2 : List G2)
    (h1 : List.Forall₂ (TextOf 48 .noCheck) setup.g1Monomial g1) (h2 : List.Forall₂ (TextOf 96 .noCheck) setup.g2Monomial g2) :
    (DASContext.ofTrustedSetup setup up : Outcome ε (DASContext K G1 G2)) = DASContext.new ⟨g1, g2⟩ up := by
  unfold DASContext.ofTrustedSetup DASContext.new
  have e1 := (C38_g1_points (ε := ε) setup.g1Monomial .noCheck).1 g1 |>.2 h1
  have e2 := (C38_g2_points (ε := ε) setup.g2Monomial .noCheck).1 g2 |>.2 h2
  have hp : (ProverContext.ofTrustedSetup setup up : Outcome ε (ProverContext K G1)) =
      ProverContext.new (⟨g1, g2⟩ : SetupPoints G1 G2) up := by
    unfold ProverContext.ofTrustedSetup ProverContext.new TrustedSetup.toCommitKey
    rw [e1, Outcome.ok_bind]
  have hv : (VerifierContext.ofTrustedSetup setup : Outcome ε (VerifierContext G1 G2)) = VerifierContext.new ⟨g1, g2⟩ := by
    unfold VerifierContext.ofTrustedSetup VerifierContext.new TrustedSetup.toVerificationKey verificationKeyOfSetup
    rw [e2, Outcome.ok_bind]
    unfold slice
    simp only [h1.length_eq]
    split
    · simp only [Outcome.ok_bind]
      rw [((C38_g1_points (ε := ε) _ .noCheck).1 _).2 (List.forall₂_take (g2.length - 0) (List.forall₂_drop 0 h1))]
      rfl
    · rfl
  rw [hp, hv]

/-- C38: without readable points there is no context. -/
theorem C38_context_panic (setup : TrustedSetup) (up : UsePrecomp)
    (h : ¬ ∃ (g1 : List G1) (g2 : List G2), List.Forall₂ (TextOf 48 .noCheck) setup.g1Monomial g1 ∧
      List.Forall₂ (TextOf 96 .noCheck) setup.g2Monomial g2) :
    ¬ ∃ ctx, (DASContext.ofTrustedSetup setup up : Outcome ε (DASContext K G1 G2)) = .ok ctx := by
  rintro ⟨ctx, hc⟩
  unfold DASContext.ofTrustedSetup ProverContext.ofTrustedSetup VerifierContext.ofTrustedSetup TrustedSetup.toCommitKey
    TrustedSetup.toVerificationKey at hc
  simp only [bind_eq_ok] at hc
  obtain ⟨p, ⟨ck, ⟨g1, hg1, -⟩, -⟩, v, ⟨vk, ⟨g2, hg2, -⟩, -⟩, -⟩ := hc
  exact h ⟨g1, g2, ((C38_g1_points _ _).1 g1).1 hg1, ((C38_g2_points _ _).1 g2).1 hg2⟩

theorem textOf_weaken {E : Type} [UncheckedCodec E] {size : Nat} {s : List UInt8} {p : E} (h : TextOf size .check s p) :
    TextOf size .noCheck s p ∧ isTorsionFree p = true := by
  obtain ⟨b, h1, h2, h3, h4⟩ := h
  exact ⟨⟨b, h1, h2, h3, by simp⟩, h4 rfl⟩

/-- C38: a setup of 4096 G1 points accepted by `from_json` gives a context (without precomputation), built from points of the
subgroups. -/
theorem C38_checked_context (parse : List UInt8 → Option TrustedSetup) (json : List UInt8) (setup : TrustedSetup)
    (h : (TrustedSetup.fromJson G1 G2 parse json : Outcome ε TrustedSetup) = .ok setup) (hl : setup.g1Monomial.length = 4096) :
    ∃ (g1 : List G1) (g2 : List G2) (ctx : DASContext K G1 G2),
      List.Forall₂ (TextOf 48 .check) setup.g1Monomial g1 ∧ List.Forall₂ (TextOf 96 .check) setup.g2Monomial g2 ∧
      (∀ p ∈ g1, isTorsionFree p = true) ∧ (∀ p ∈ g2, isTorsionFree p = true) ∧
      (DASContext.ofTrustedSetup setup .no : Outcome ε (DASContext K G1 G2)) = .ok ctx ∧
      (DASContext.new ⟨g1, g2⟩ .no : Outcome ε (DASContext K G1 G2)) = .ok ctx := by
  obtain ⟨-, ha1, ha2, h64, hle⟩ := ((C38_from_json (ε := ε) (E1 := G1) (E2 := G2) parse json).1 setup).1 h
  have build : ∀ {E : Type} [UncheckedCodec E] (size : Nat) (l : List (List UInt8)), (∀ s ∈ l, ∃ p : E, TextOf size .check s p) →
      ∃ r : List E, List.Forall₂ (TextOf size .check) l r := by
    intro E _ size l
    induction l with
    | nil => exact fun _ => ⟨[], .nil⟩
    | cons a l ih =>
      intro ha
      obtain ⟨p, hp⟩ := ha a (by simp)
      obtain ⟨r, hr⟩ := ih (fun s hs => ha s (by simp [hs]))
      exact ⟨p :: r, .cons hp hr⟩
  have tf : ∀ {E : Type} [UncheckedCodec E] (size : Nat) (l : List (List UInt8)) (r : List E), List.Forall₂ (TextOf size .check) l r →
      ∀ p ∈ r, isTorsionFree p = true := by
    intro E _ size l r hr
    induction hr with
    | nil => simp
    | cons h1 h2 ih =>
      intro p hp
      rcases List.mem_cons.1 hp with rfl | hp
      · exact (textOf_weaken h1).2
      · exact ih p hp
  obtain ⟨g1, hg1⟩ := build (E := G1) 48 _ ha1
  obtain ⟨g2, hg2⟩ := build (E := G2) 96 _ ha2
  have hl1 : g1.length = 4096 := by rw [← hg1.length_eq, hl]
  have hl2 : g2.length = setup.g2Monomial.length := hg2.length_eq.symm
  let _ : PointCodec G1 := ⟨fun _ => [], fun _ => none⟩
  obtain ⟨ctx, hctx⟩ := context_exists (ε := ε) (K := K) (⟨g1, g2⟩ : SetupPoints G1 G2) hl1 (by simp only; omega) (by simp only; omega)
  refine ⟨g1, g2, ctx, hg1, hg2, tf 48 _ _ hg1, tf 96 _ _ hg2, ?_, hctx⟩
  rw [C38_context setup .no g1 g2 (hg1.imp fun _ _ h => (textOf_weaken h).1) (hg2.imp fun _ _ h => (textOf_weaken h).1), hctx]

end

/-! ### the hypotheses can be met -/
namespace Toy
open Polynomial

/-- the digit characters of a byte string -/
def hexText (b : List UInt8) : List UInt8 :=
  48 :: 120 :: b.flatMap (fun x => [digit (x / 16), digit (x % 16)])
where digit (d : UInt8) : UInt8 := if d < 10 then 48 + d else 87 + d

/-- one text is a 96 byte encoding or a 48 byte encoding of a scalar; the scalar 5 plays the role of a point outside the subgroup -/
scoped instance instUnchecked : UncheckedCodec Fr where
  fromCompressedUnchecked b := some (beToNat b : Fr)
  isTorsionFree p := decide (p ≠ 5)

/-- The generator, and the point outside the subgroup, read in both modes. -/
example : (deserializeG1Points [hexText (natToBE 48 7), hexText (natToBE 48 171)] .check : Outcome Error (List Fr)) = .ok [7, 171] ∧
    (deserializeG1Points [hexText (natToBE 48 7), hexText (natToBE 48 5)] .check : Outcome Error (List Fr)) = .panic ∧
    (deserializeG1Points [hexText (natToBE 48 7), hexText (natToBE 48 5)] .noCheck : Outcome Error (List Fr)) = .ok [7, 5] ∧
    (deserializeG1Points [hexText (natToBE 47 7)] .noCheck : Outcome Error (List Fr)) = .panic ∧
    (deserializeG1Points [(hexText (natToBE 48 7)).drop 2] .noCheck : Outcome Error (List Fr)) = .panic := by
  decide +kernel

/-- a setup of `n` and `m` points -/
def textSetup (n m : Nat) : TrustedSetup :=
  ⟨(List.range n).map (fun i => hexText (natToBE 48 (i + 6))), [], (List.range m).map (fun i => hexText (natToBE 96 (i + 6)))⟩

theorem digit_all : ∀ d : Fin 16, Spec.HexDigit (hexText.digit (UInt8.ofNat d.val)) d.val := by decide +kernel

theorem hexText_spec (b : List UInt8) : Spec.HexString (hexText b) b := by
  rw [← text_iff]
  show hexDecode (b.flatMap (fun x => [hexText.digit (x / 16), hexText.digit (x % 16)])) = some b
  rw [hexDecode_iff]
  induction b with
  | nil => exact ⟨rfl, fun i hi => absurd hi (by simp)⟩
  | cons z b ih =>
    rw [List.flatMap_cons]
    show Digits (_ :: _ :: _) _
    rw [digits_two]
    refine ⟨⟨z.toNat / 16, z.toNat % 16, ?_, ?_, by omega⟩, ih⟩
    · have := digit_all ⟨z.toNat / 16, by have := z.toNat_lt; omega⟩
      have e : UInt8.ofNat (z.toNat / 16) = z / 16 := by
        apply UInt8.toNat.inj; simp; have := z.toNat_lt; omega
      simpa [e] using this
    · have := digit_all ⟨z.toNat % 16, by omega⟩
      have e : UInt8.ofNat (z.toNat % 16) = z % 16 := by
        apply UInt8.toNat.inj; simp; omega
      simpa [e] using this

theorem text_point (size i : Nat) (hs : 2 ≤ size) (hi : i < 60000) : ∃ p : Fr, TextOf size .check (hexText (natToBE size (i + 6))) p := by
  refine ⟨_, _, hexText_spec _, length_natToBE _ _, rfl, ?_⟩
  intro _
  have h1 : 256 ^ 2 ≤ 256 ^ size := Nat.pow_le_pow_right (by norm_num) hs
  rw [beToNat_natToBE, Nat.mod_eq_of_lt (by omega)]
  show decide (((i + 6 : Nat) : Fr) ≠ 5) = true
  rw [decide_eq_true_eq]
  intro h
  have h2 := congrArg ZMod.val h
  have h5 : (5 : Fr).val = 5 := by decide +kernel
  have hr : 100000 < frOrder := by decide +kernel
  rw [h5, ZMod.val_natCast_of_lt (by omega)] at h2
  omega

/-- The validation accepts these setups for all useful sizes, among them 4096 and 65. -/
theorem textSetup_valid (n m : Nat) (hm : 64 < m) (hmn : m ≤ n) (hn : n ≤ 60000) : ValidSetup Fr Fr (textSetup n m) := by
  refine ⟨?_, ?_, by simpa [textSetup] using hm, by simpa [textSetup] using hmn⟩
  · intro s hs
    obtain ⟨i, hi, rfl⟩ := List.mem_map.1 hs
    exact text_point 48 i (by norm_num) (by have := List.mem_range.1 hi; omega)
  · intro s hs
    obtain ⟨i, hi, rfl⟩ := List.mem_map.1 hs
    exact text_point 96 i (by norm_num) (by have := List.mem_range.1 hi; omega)

/-- C38 is not vacuous: a document with a setup of 4096 and 65 points is accepted and gives a context. -/
example : ∃ (g1 g2 : List Fr) (ctx : DASContext Fr Fr Fr), g1.length = 4096 ∧ g2.length = 65 ∧
    (DASContext.ofTrustedSetup (textSetup 4096 65) .no : Outcome Error (DASContext Fr Fr Fr)) = .ok ctx ∧
    (DASContext.new ⟨g1, g2⟩ .no : Outcome Error (DASContext Fr Fr Fr)) = .ok ctx := by
  have h := ((C38_from_json (ε := Error) (E1 := Fr) (E2 := Fr) (fun _ => some (textSetup 4096 65)) []).1 (textSetup 4096 65)).2
    ⟨rfl, textSetup_valid 4096 65 (by norm_num) (by norm_num) (by norm_num)⟩
  have hl : ∀ n m, (textSetup n m).g1Monomial.length = n ∧ (textSetup n m).g2Monomial.length = m := by
    intro n m; simp [textSetup]
  obtain ⟨g1, g2, ctx, h1, h2, -, -, h3, h4⟩ := C38_checked_context (K := Fr) _ _ _ h (hl 4096 65).1
  exact ⟨g1, g2, ctx, by rw [← h1.length_eq, (hl 4096 65).1], by rw [← h2.length_eq, (hl 4096 65).2], h3, h4⟩

end Toy

end Verif
