import Mathlib.Data.Fin.Basic
import Verif.Model.TrustedSetup
import Verif.Spec.Setup
import Verif.Lemmas.Api

set_option linter.unusedSectionVars false

/-! The text of trusted setups. -/
namespace Verif

instance (c : UInt8) (d : Nat) : Decidable (Spec.HexDigit c d) := by unfold Spec.HexDigit; infer_instance

theorem hexVal_all : ∀ n : Fin 256, (hexVal (UInt8.ofNat n.val)).elim
    (decide (∀ d : Fin 16, ¬ Spec.HexDigit (UInt8.ofNat n.val) d.val))
    (fun v => decide (v.toNat < 16 ∧ Spec.HexDigit (UInt8.ofNat n.val) v.toNat)) = true := by decide +kernel

theorem hexVal_spec (c : UInt8) : match hexVal c with
    | some v => v.toNat < 16 ∧ Spec.HexDigit c v.toNat
    | none => ∀ d, ¬ Spec.HexDigit c d := by
  have h := hexVal_all ⟨c.toNat, c.toNat_lt⟩
  simp only [UInt8.ofNat_toNat] at h
  cases hv : hexVal c with
  | some v => rw [hv] at h; exact of_decide_eq_true h
  | none =>
    rw [hv] at h
    replace h := of_decide_eq_true h
    intro d hd
    have : d < 16 := by
      rcases hd with ⟨h, -⟩ | ⟨-, h, -⟩ <;> omega
    exact h ⟨d, this⟩ hd

theorem hexDigit_unique {c : UInt8} {d e : Nat} (h1 : Spec.HexDigit c d) (h2 : Spec.HexDigit c e) : d = e := by
  unfold Spec.HexDigit at h1 h2
  omega

theorem byte_all : ∀ h l : Fin 16, (((UInt8.ofNat h.val) <<< 4) ||| UInt8.ofNat l.val).toNat = 16 * h.val + l.val := by
  decide +kernel

theorem byte_spec (h l : UInt8) (hh : h.toNat < 16) (hl : l.toNat < 16) : ((h <<< 4) ||| l).toNat = 16 * h.toNat + l.toNat := by
  have := byte_all ⟨h.toNat, hh⟩ ⟨l.toNat, hl⟩
  simpa using this

theorem chunksExact_two {α : Type} (x y : α) (s : List α) : chunksExact 2 (x :: y :: s) = [x, y] :: chunksExact 2 s := by
  unfold chunksExact
  have : (x :: y :: s).length / 2 = s.length / 2 + 1 := by simp only [List.length_cons]; omega
  rw [this, List.range_succ_eq_map, List.map_cons, List.map_map]
  congr 1
  apply List.map_congr_left
  intro i _
  simp only [Function.comp_apply]
  rw [show (i.succ) * 2 = i * 2 + 2 by omega]
  rfl

theorem hexDecode_two (x y : UInt8) (s : List UInt8) : hexDecode (x :: y :: s) =
    (do let h ← hexVal x; let l ← hexVal y; let r ← hexDecode s; pure (((h <<< 4) ||| l) :: r)) := by
  unfold hexDecode
  have hlen : (x :: y :: s).length % 2 = s.length % 2 := by simp only [List.length_cons]; omega
  rw [hlen, chunksExact_two, List.mapM_cons]
  by_cases h : s.length % 2 = 0
  · simp only [h, ne_eq, not_true_eq_false, if_false]
    cases hexVal x <;> cases hexVal y <;> rfl
  · simp only [ne_eq, h, not_false_eq_true, if_true]
    cases hexVal x <;> cases hexVal y <;> rfl

/-- the digits of a list of bytes -/
def Digits (s b : List UInt8) : Prop :=
  s.length = 2 * b.length ∧ ∀ i (hi : i < b.length), ∃ h l, s[2 * i]? = some h ∧ s[1 + 2 * i]? = some l ∧
    ∃ d e, Spec.HexDigit h d ∧ Spec.HexDigit l e ∧ b[i].toNat = 16 * d + e

theorem digits_two (x y : UInt8) (s : List UInt8) (z : UInt8) (b : List UInt8) : Digits (x :: y :: s) (z :: b) ↔
    (∃ d e, Spec.HexDigit x d ∧ Spec.HexDigit y e ∧ z.toNat = 16 * d + e) ∧ Digits s b := by
  unfold Digits
  constructor
  · rintro ⟨hl, h⟩
    refine ⟨?_, by simp at hl; omega, ?_⟩
    · obtain ⟨h', l', h1, h2, d, e, h3⟩ := h 0 (by simp)
      simp at h1 h2 h3
      subst h1 h2
      exact ⟨d, e, h3⟩
    · intro i hi
      obtain ⟨h', l', h1, h2, h3⟩ := h (i + 1) (by simpa using hi)
      refine ⟨h', l', ?_, ?_, by simpa using h3⟩
      · rw [show 2 * (i + 1) = 2 * i + 1 + 1 by ring] at h1; simpa using h1
      · rw [show 1 + 2 * (i + 1) = 1 + 2 * i + 1 + 1 by ring] at h2; simpa using h2
  · rintro ⟨⟨d, e, h0⟩, hl, h⟩
    refine ⟨by simp [hl]; omega, ?_⟩
    intro i hi
    match i with
    | 0 => exact ⟨x, y, rfl, rfl, d, e, by simpa using h0⟩
    | i + 1 =>
      obtain ⟨h', l', h1, h2, h3⟩ := h i (by simpa using hi)
      refine ⟨h', l', ?_, ?_, by simpa using h3⟩
      · rw [show 2 * (i + 1) = 2 * i + 1 + 1 by ring]; simpa using h1
      · rw [show 1 + 2 * (i + 1) = 1 + 2 * i + 1 + 1 by ring]; simpa using h2

theorem hexDecode_iff : ∀ (s b : List UInt8), hexDecode s = some b ↔ Digits s b
  | [], b => by
    cases b with
    | nil => simp [hexDecode, chunksExact, Digits]
    | cons z b => simp [hexDecode, chunksExact, Digits]
  | [x], b => by
    simp only [hexDecode, List.length_singleton, Digits]
    constructor
    · intro h; simp at h
    · rintro ⟨h, -⟩; omega
  | x :: y :: s, b => by
    have ih := hexDecode_iff s
    rw [hexDecode_two]
    have hx := hexVal_spec x
    have hy := hexVal_spec y
    cases b with
    | nil =>
      constructor
      · intro h
        cases hx : hexVal x <;> cases hy : hexVal y <;> cases hs : hexDecode s <;> rw [hx, hy, hs] at h <;> simp at h
      · rintro ⟨h, -⟩; simp at h
    | cons z b =>
      rw [digits_two, ← ih]
      constructor
      · intro h
        cases hvx : hexVal x with
        | none => rw [hvx] at h; simp at h
        | some vx =>
        cases hvy : hexVal y with
        | none => rw [hvx, hvy] at h; simp at h
        | some vy =>
        cases hs : hexDecode s with
        | none => rw [hvx, hvy, hs] at h; simp at h
        | some r =>
          rw [hvx] at hx
          rw [hvy] at hy
          rw [hvx, hvy, hs] at h
          simp at h
          exact ⟨⟨vx.toNat, vy.toNat, hx.2, hy.2, by rw [← h.1, byte_spec _ _ hx.1 hy.1]⟩, by rw [h.2]⟩
      · rintro ⟨⟨d, e, h1, h2, h3⟩, hs⟩
        cases hvx : hexVal x with
        | none => rw [hvx] at hx; exact absurd h1 (hx d)
        | some vx =>
        cases hvy : hexVal y with
        | none => rw [hvy] at hy; exact absurd h2 (hy e)
        | some vy =>
          rw [hvx] at hx
          rw [hvy] at hy
          rw [hs]
          have e1 := hexDigit_unique hx.2 h1
          have e2 := hexDigit_unique hy.2 h2
          simp
          apply UInt8.toNat.inj
          rw [byte_spec _ _ hx.1 hy.1, e1, e2, h3]

theorem stripPrefix_iff (s t : List UInt8) : stripPrefix0x s = some t ↔ s = 48 :: 120 :: t := by
  unfold stripPrefix0x
  split
  · rename_i u
    simp
  · rename_i h
    constructor
    · intro h'; simp at h'
    · intro h'; exact absurd h' (h t)

/-- The two textual steps succeed exactly on hexadecimal strings. -/
theorem text_iff (s b : List UInt8) : ((stripPrefix0x s).bind hexDecode = some b) ↔ Spec.HexString s b := by
  rw [Option.bind_eq_some_iff]
  constructor
  · rintro ⟨t, ht, hd⟩
    rw [stripPrefix_iff] at ht
    rw [hexDecode_iff] at hd
    subst ht
    obtain ⟨hl, h⟩ := hd
    refine ⟨by simp [hl]; omega, rfl, rfl, ?_⟩
    intro i hi
    obtain ⟨x, y, h1, h2, h3⟩ := h i hi
    refine ⟨x, y, ?_, ?_, h3⟩
    · rw [show 2 + 2 * i = 2 * i + 1 + 1 by ring]; simpa using h1
    · rw [show 3 + 2 * i = 1 + 2 * i + 1 + 1 by ring]; simpa using h2
  · rintro ⟨hl, h0, h1, h⟩
    obtain ⟨x, y, t, rfl⟩ : ∃ x y t, s = x :: y :: t := by
      match s, hl with
      | [], hl => simp at hl; omega
      | [x], hl => simp at hl; omega
      | x :: y :: t, _ => exact ⟨x, y, t, rfl⟩
    simp at h0 h1
    subst h0 h1
    refine ⟨t, rfl, ?_⟩
    rw [hexDecode_iff]
    refine ⟨by simp at hl; omega, ?_⟩
    intro i hi
    obtain ⟨x, y, h1, h2, h3⟩ := h i hi
    refine ⟨x, y, ?_, ?_, h3⟩
    · rw [show 2 + 2 * i = 2 * i + 1 + 1 by ring] at h1; simpa using h1
    · rw [show 3 + 2 * i = 1 + 2 * i + 1 + 1 by ring] at h2; simpa using h2

section
variable {ε E : Type} [UncheckedCodec E]

/-- one step of the loops: the point of a text -/
def pointOf (size : Nat) (sub : SubgroupCheck) (s : List UInt8) : Option E :=
  (stripPrefix0x s).bind (fun t => (hexDecode t).bind (fun d => (tryIntoArray size d).bind (fun b =>
    match sub with
    | .check => fromCompressedChecked b
    | .noCheck => fromCompressedUnchecked b)))

theorem pointOf_iff (size : Nat) (sub : SubgroupCheck) (s : List UInt8) (p : E) : pointOf size sub s = some p ↔
    Spec.PointText fromCompressedUnchecked (fun p => isTorsionFree p = true) size (sub = .check) s p := by
  unfold pointOf Spec.PointText
  constructor
  · intro h
    simp only [Option.bind_eq_some_iff] at h
    obtain ⟨t, ht, d, hd, b, hb, h⟩ := h
    unfold tryIntoArray at hb
    split_ifs at hb with hlen
    simp only [Option.some.injEq] at hb
    subst hb
    refine ⟨d, (text_iff s d).1 (by rw [ht]; exact hd), hlen, ?_⟩
    cases sub with
    | check =>
      simp only [fromCompressedChecked, Option.bind_eq_some_iff] at h
      obtain ⟨q, hq, h⟩ := h
      split_ifs at h with ht
      simp only [Option.some.injEq] at h
      subst h
      exact ⟨hq, fun _ => ht⟩
    | noCheck => exact ⟨h, by simp⟩
  · rintro ⟨b, hs, hl, hd, hsub⟩
    obtain ⟨t, ht, hb⟩ := Option.bind_eq_some_iff.1 ((text_iff s b).2 hs)
    rw [ht, Option.bind_some, hb, Option.bind_some, tryIntoArray, if_pos hl, Option.bind_some]
    cases sub with
    | check => simp [fromCompressedChecked, hd, hsub rfl]
    | noCheck => exact hd

theorem fold_push {α β : Type} (f : α → Outcome ε β) (l : List α) (acc : List β) :
    l.foldlM (fun acc a => do let b ← f a; pure (acc ++ [b])) acc = (do let r ← l.mapM f; pure (acc ++ r)) := by
  induction l generalizing acc with
  | nil => simp
  | cons a l ih =>
    rw [List.foldlM_cons, List.mapM_cons]
    cases h : f a with
    | ok b =>
      simp only [Outcome.ok_bind]
      have e1 : (pure (acc ++ [b]) : Outcome ε (List β)) = .ok (acc ++ [b]) := rfl
      rw [e1, Outcome.ok_bind, ih]
      cases l.mapM f <;> simp
    | err e => rfl
    | panic => rfl

theorem step_eq (size : Nat) (sub : SubgroupCheck) (points : List E) (s : List UInt8) :
    (do
    let without0x ← expect (stripPrefix0x s)
    let decoded ← expect (hexDecode without0x)
    let bytes ← expect (tryIntoArray size decoded)
    let point ← match sub with
      | .check => expect (fromCompressedChecked bytes)
      | .noCheck => expect (fromCompressedUnchecked bytes)
    pure (points ++ [point]) : Outcome ε (List E)) = (do let p ← expect (pointOf size sub s); pure (points ++ [p])) := by
  unfold pointOf
  cases stripPrefix0x s with
  | none => rfl
  | some t =>
  simp only [expect, Outcome.ok_bind, Option.bind_some]
  cases hexDecode t with
  | none => rfl
  | some d =>
  simp only [Outcome.ok_bind, Option.bind_some]
  cases tryIntoArray size d with
  | none => rfl
  | some b =>
  simp only [Outcome.ok_bind, Option.bind_some]
  cases sub <;> rfl

theorem deserializeG1_eq (l : List (List UInt8)) (sub : SubgroupCheck) :
    (deserializeG1Points l sub : Outcome ε (List E)) = l.mapM (fun s => expect (pointOf 48 sub s)) := by
  unfold deserializeG1Points
  refine Eq.trans (b := l.foldlM (fun points s => do let p ← expect (pointOf 48 sub s); pure (points ++ [p])) []) ?_ ?_
  · congr 1
    funext points s
    rw [← step_eq]
    cases sub <;> rfl
  rw [fold_push]
  cases l.mapM (fun s => (expect (pointOf 48 sub s) : Outcome ε E)) <;> simp

theorem deserializeG2_eq (l : List (List UInt8)) (sub : SubgroupCheck) :
    (deserializeG2Points l sub : Outcome ε (List E)) = l.mapM (fun s => expect (pointOf 96 sub s)) := by
  unfold deserializeG2Points
  refine Eq.trans (b := l.foldlM (fun points s => do let p ← expect (pointOf 96 sub s); pure (points ++ [p])) []) ?_ ?_
  · congr 1
    funext points s
    rw [← step_eq]
    cases sub <;> rfl
  rw [fold_push]
  cases l.mapM (fun s => (expect (pointOf 96 sub s) : Outcome ε E)) <;> simp

theorem mapM_expect {α β : Type} (f : α → Option β) (l : List α) :
    (∃ r, l.mapM (fun a => (expect (f a) : Outcome ε β)) = .ok r ∧ List.Forall₂ (fun a b => f a = some b) l r) ∨
    (l.mapM (fun a => (expect (f a) : Outcome ε β)) = .panic ∧ ∃ a ∈ l, f a = none) := by
  induction l with
  | nil => exact .inl ⟨[], rfl, .nil⟩
  | cons a l ih =>
    rw [List.mapM_cons]
    cases h : f a with
    | none => exact .inr ⟨rfl, a, by simp, h⟩
    | some b =>
      simp only [expect, Outcome.ok_bind]
      rcases ih with ⟨r, hr, hf⟩ | ⟨hr, a', ha', h'⟩
      · left
        have hr' := hr
        simp only [expect] at hr'
        exact ⟨b :: r, by rw [hr']; rfl, .cons h hf⟩
      · right
        have hr' := hr
        simp only [expect] at hr'
        exact ⟨by rw [hr']; rfl, a', by simp [ha'], h'⟩

theorem mapM_expect_iff {α β : Type} (f : α → Option β) (l : List α) (r : List β) :
    l.mapM (fun a => (expect (f a) : Outcome ε β)) = .ok r ↔ List.Forall₂ (fun a b => f a = some b) l r := by
  have key : ∀ {r r' : List β}, List.Forall₂ (fun a b => f a = some b) l r → List.Forall₂ (fun a b => f a = some b) l r' → r = r' := by
    clear r
    induction l with
    | nil => intro r r' h h'; cases h; cases h'; rfl
    | cons a l ih =>
      intro r r' h h'
      cases h with
      | cons h1 h2 => cases h' with
        | cons h3 h4 =>
          rw [ih h2 h4]
          rw [h1] at h3
          rw [Option.some.inj h3]
  rcases mapM_expect (ε := ε) f l with ⟨r', h1, h2⟩ | ⟨h1, a, ha, h2⟩
  · rw [h1]
    constructor
    · intro h; rw [← Outcome.ok.inj h]; exact h2
    · intro h; rw [key h h2]
  · rw [h1]
    constructor
    · intro h; cases h
    · intro h
      exfalso
      clear h1 key
      induction h with
      | nil => simp at ha
      | cons h3 h4 ih =>
        rcases List.mem_cons.1 ha with rfl | ha
        · rw [h2] at h3; cases h3
        · exact ih ha

end

end Verif
