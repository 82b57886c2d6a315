import Verif.Props.Groupings
import Verif.Props.EmbeddedSecret
import Verif.Spec.OneError

set_option linter.unusedSectionVars false

/-!
C95: errors in a batch whose other claims are true. Where the errors are confined to a part of the batch, the rest of it has no influence
but through the hash; a single wrong claim passes only if it is not the first and the challenge is zero; and the bound of C07 on the number
of challenges is attained.
-/
namespace Verif
open Polynomial Finset

section
variable {G1 : Type} [AddCommGroup G1] [Module Fr G1]

theorem err_combined_cons (τ : Fr) (P : G1) (r : Fr) (o : Spec.Opening G1) (l : List (Spec.Opening G1)) :
    Spec.combined τ P r (o :: l) = o.defect τ P + r • Spec.combined τ P r l := by
  unfold Spec.combined
  rw [smul_sum]
  refine (Fin.sum_univ_succ (n := l.length) _).trans ?_
  congr 1
  · simp
  · refine sum_congr rfl fun i _ => ?_
    rw [smul_smul, ← pow_succ']
    rfl

theorem err_combined_nil (τ : Fr) (P : G1) (r : Fr) : Spec.combined τ P r [] = 0 := by
  unfold Spec.combined
  exact Fin.sum_univ_zero _

theorem err_combined_append (τ : Fr) (P : G1) (r : Fr) (l l' : List (Spec.Opening G1)) :
    Spec.combined τ P r (l ++ l') = Spec.combined τ P r l + r ^ l.length • Spec.combined τ P r l' := by
  induction l with
  | nil => rw [List.nil_append, err_combined_nil, zero_add, List.length_nil, pow_zero, one_smul]
  | cons o l ih =>
    rw [List.cons_append, err_combined_cons, err_combined_cons, ih, smul_add, smul_smul, List.length_cons, pow_succ', add_assoc]

theorem err_combined_true {τ : Fr} {P : G1} (r : Fr) {l : List (Spec.Opening G1)} (h : ∀ o ∈ l, o.Valid τ P) :
    Spec.combined τ P r l = 0 := by
  unfold Spec.combined
  refine Finset.sum_eq_zero (fun i _ => ?_)
  have h0 : Spec.Opening.defect τ P l[i] = 0 := (Spec.Opening.valid_iff τ P _).1 (h _ (List.getElem_mem _))
  rw [h0, smul_zero]

theorem err_items [PointCodec G1] {τ : Fr} {P : G1} {l : List Spec.CellClaim} (h : ∀ c ∈ l, c.IsTrue τ P) :
    ∃ items : List (Spec.Opening G1), List.Forall₂ Spec.CellClaim.Denotes l items ∧ ∀ o ∈ items, o.Valid τ P := by
  induction l with
  | nil => exact ⟨[], .nil, by simp⟩
  | cons c l ih =>
    obtain ⟨items, h1, h2⟩ := ih (fun x hx => h x (List.mem_cons_of_mem _ hx))
    obtain ⟨o, ho, hov⟩ := h c List.mem_cons_self
    exact ⟨o :: items, .cons ho h1, by simpa using ⟨hov, h2⟩⟩

theorem err_wellFormed [DecidableEq G1] [PointCodec G1] {l : List Spec.CellClaim} (hs : ∀ c ∈ l, c.Sized) (h : ∀ c ∈ l, ¬ c.Malformed G1) :
    ∃ items : List (Spec.Opening G1), List.Forall₂ Spec.CellClaim.Denotes l items := by
  obtain ⟨items, hd⟩ := exists_items (sized_batchOf hs).2.1 ((wellFormed_batchOf l).2 h)
  exact ⟨items, (decodes_batchOf l items).1 hd⟩

theorem err_denotes [PointCodec G1] {c : Spec.CellClaim} {o : Spec.Opening G1} (h : c.Denotes o) : ¬ c.Malformed G1 := by
  rintro (h' | h' | h' | h')
  · exact absurd h.2.1.2 (by omega)
  · rw [h.1] at h'
    cases h'
  · rw [h.2.2.2] at h'
    cases h'
  · exact h' (isCell_canonical h.2.2.1.2)

theorem err_isCell_inj {I J : Fr[X]} {k : Nat} {cell : List UInt8} (hk : k < 128) (hI : I.degree < 64) (hJ : J.degree < 64)
    (h : Spec.IsCell I k cell) (h' : Spec.IsCell J k cell) : I = J := by
  have hc : ((range 64).image fun i => Spec.point 13 (64 * k + i)).card = 64 := by
    rw [card_image_of_injOn, card_range]
    intro a ha b hb hab
    have ha' := mem_range.1 (mem_coe.1 ha)
    have hb' := mem_range.1 (mem_coe.1 hb)
    have := point_inj (by omega) (by omega) hab
    omega
  refine eq_of_degrees_lt_of_eval_finset_eq ((range 64).image fun i => Spec.point 13 (64 * k + i)) (by rw [hc]; exact hI)
    (by rw [hc]; exact hJ) ?_
  intro x hx
  obtain ⟨i, hi, rfl⟩ := mem_image.1 hx
  exact encodes_inj (h.2 i (mem_range.1 hi)) (h'.2 i (mem_range.1 hi))

/-- C95: what one alteration does to a true claim: it is no longer true. Here the secret is not in the coset of the claim. -/
theorem C95_altered [PointCodec G1] [LawfulPointCodec G1 48] {τ : Fr} {P : G1} (hP : P ≠ 0) {c c' : Spec.CellClaim} (hs : c.Sized)
    (hs' : c'.Sized) (hτ : ∀ j < 64, τ ≠ Spec.point 13 (64 * c.index + j)) (ht : c.IsTrue τ P) (ha : Spec.Altered c c') :
    ¬ c'.IsTrue τ P := by
  rintro ⟨⟨C', k', I', π'⟩, ⟨a1, ⟨a2, a3⟩, ⟨a4, a5⟩, a6⟩, a7⟩
  obtain ⟨⟨C, k, I, π⟩, ⟨b1, ⟨b2, b3⟩, ⟨b4, b5⟩, b6⟩, b7⟩ := ht
  obtain ⟨hk, ha⟩ := ha
  dsimp only at *
  unfold Spec.Opening.Valid at a7 b7
  dsimp only at a7 b7
  have hne := divisor_ne hτ
  subst b2
  have hk' : k' = c.index := by rw [← a2, hk]
  subst hk'
  rcases ha with ⟨e1, e2, e3⟩ | ⟨e1, e2, e3⟩ | ⟨e1, e2, e3, j, hj, hag⟩
  · rw [e1, b1] at a1
    rw [e2] at a5
    cases a1
    obtain rfl := err_isCell_inj b3 a4 b4 a5 b5
    rw [← b7] at a7
    have := smul_right_injective G1 hne a7
    subst this
    exact e3 ((LawfulPointCodec.toCompressed_fromCompressed _ _ hs'.2.2 a6).symm.trans
      (LawfulPointCodec.toCompressed_fromCompressed _ _ hs.2.2 b6))
  · rw [e3, b6] at a6
    rw [e2] at a5
    cases a6
    obtain rfl := err_isCell_inj b3 a4 b4 a5 b5
    rw [b7] at a7
    have := sub_left_injective a7
    subst this
    exact e1 ((LawfulPointCodec.toCompressed_fromCompressed _ _ hs'.1 a1).symm.trans
      (LawfulPointCodec.toCompressed_fromCompressed _ _ hs.1 b1))
  · rw [e1, b1] at a1
    rw [e2, b6] at a6
    cases a1
    cases a6
    rw [b7] at a7
    have h1 := sub_right_injective a7
    rw [← sub_eq_zero, ← sub_smul, smul_eq_zero_iff_left hP, sub_eq_zero] at h1
    have : I = I' := by
      refine agree b3 hτ j hj b4 a4 ?_ h1
      intro i hi hij
      have h2 := a5.2 i hi
      rw [hag i hi hij] at h2
      exact encodes_inj (b5.2 i hi) h2
    subst this
    exact e3 (((isCell_iff _ _ _).1 a5).trans ((isCell_iff _ _ _).1 b5).symm)

end

/-- C95: the digests that give the challenge zero are three numbers. -/
theorem C95_zero (sha256 : List UInt8 → List UInt8) (l : List Spec.CellClaim) (hlen : (sha256 (Spec.inputOf l)).length = 32) :
    Spec.challengeOf sha256 l = 0 ↔ Spec.beValue (sha256 (Spec.inputOf l)) = 0 ∨ Spec.beValue (sha256 (Spec.inputOf l)) = frOrder ∨
      Spec.beValue (sha256 (Spec.inputOf l)) = 2 * frOrder := by
  have hlt : Spec.beValue (sha256 (Spec.inputOf l)) < 256 ^ 32 := by
    have := beToNat_lt (sha256 (Spec.inputOf l))
    rwa [hlen, beToNat_eq] at this
  have h3 : 256 ^ 32 ≤ 3 * frOrder := by decide +kernel
  show ((Spec.beValue (sha256 (Spec.inputOf l)) : Nat) : Fr) = 0 ↔ _
  generalize Spec.beValue (sha256 (Spec.inputOf l)) = v at *
  rw [ZMod.natCast_eq_zero_iff]
  constructor
  · rintro ⟨q, rfl⟩
    have hq : q < 3 := by
      by_contra hq
      have : 3 * frOrder ≤ frOrder * q := by
        rw [mul_comm]
        exact Nat.mul_le_mul_left _ (by omega)
      omega
    interval_cases q
    · exact .inl (Nat.mul_zero _)
    · exact .inr (.inl (Nat.mul_one _))
    · exact .inr (.inr (Nat.mul_comm _ _))
  · rintro (h | h | h) <;> rw [h]
    · exact dvd_zero _
    · exact Dvd.intro_left 2 rfl

section
variable {ε K G1 G2 GT : Type} [Field K] [DecidableEq K] [AddCommGroup G1] [Module Fr G1] [DecidableEq G1]
  [Curve K G1] [PointCodec G1] [AddCommGroup G2] [Module Fr G2] [AddCommGroup GT] [DecidableEq GT]
  [Pairing G1 G2 GT] [LawfulPointCodec G1 48] [LawfulPairing G1 G2 GT]

theorem err_verdict (setup : SetupPoints G1 G2) (up : UsePrecomp) (τ : Fr)
    (P : G1) (H : G2) (hpt : Spec.PowersOfTau setup.g1Monomial setup.g2Monomial τ P H)
    (hnd : ∀ a : G1, pair a H = (0 : GT) → a = 0)
    (ctx : DASContext K G1 G2) (hctx : (DASContext.new setup up : Outcome ε (DASContext K G1 G2)) = .ok ctx)
    (sha256 : List UInt8 → List UInt8) (l : List Spec.CellClaim) (hs : ∀ c ∈ l, c.Sized) (items : List (Spec.Opening G1))
    (hd : List.Forall₂ Spec.CellClaim.Denotes l items) :
    verdict ctx sha256 l = .ok () ↔ Spec.combined τ P (Spec.challengeOf sha256 l) items = 0 := by
  obtain ⟨s1, -, s3⟩ := sized_batchOf hs
  exact (C06_batch setup up τ P H hpt hnd ctx hctx sha256 _ _ _ _ s1 s3 items ((decodes_batchOf l items).2 hd)).1

theorem err_accepted (ctx : DASContext K G1 G2) (sha256 : List UInt8 → List UInt8) (l : List Spec.CellClaim) (hs : ∀ c ∈ l, c.Sized)
    (h : verdict ctx sha256 l = .ok ()) : ∀ c ∈ l, ¬ c.Malformed G1 := by
  obtain ⟨s1, s2, s3⟩ := sized_batchOf hs
  rcases C13_validation ctx sha256 (l.map Spec.CellClaim.commitment) (l.map Spec.CellClaim.index) (l.map Spec.CellClaim.cell)
    (l.map Spec.CellClaim.proof) s2 s1 s3 with ⟨hw, -⟩ | ⟨-, e, -, he⟩
  · exact (wellFormed_batchOf l).1 hw
  · unfold verdict at h
    rw [h] at he
    cases he

/-- C95: true claims before and after others have an influence on the verdict only through the hash, except that claims before them let
everything well-formed pass if the challenge is zero. The last alternative is the verdict on the middle part alone, under a hash function
that returns the digest of the whole batch. -/
theorem C95_around (setup : SetupPoints G1 G2) (up : UsePrecomp) (τ : Fr)
    (P : G1) (H : G2) (hpt : Spec.PowersOfTau setup.g1Monomial setup.g2Monomial τ P H)
    (hnd : ∀ a : G1, pair a H = (0 : GT) → a = 0)
    (ctx : DASContext K G1 G2) (hctx : (DASContext.new setup up : Outcome ε (DASContext K G1 G2)) = .ok ctx)
    (sha256 : List UInt8 → List UInt8) (before part after : List Spec.CellClaim) (hs : ∀ c ∈ before ++ part ++ after, c.Sized)
    (hb : ∀ c ∈ before, c.IsTrue τ P) (ha : ∀ c ∈ after, c.IsTrue τ P) :
    verdict ctx sha256 (before ++ part ++ after) = .ok () ↔
      (before ≠ [] ∧ Spec.challengeOf sha256 (before ++ part ++ after) = 0 ∧ ∀ c ∈ part, ¬ c.Malformed G1) ∨
      verdict ctx (fun _ => sha256 (Spec.inputOf (before ++ part ++ after))) part = .ok () := by
  have hsp : ∀ c ∈ part, c.Sized := fun c hc => hs c (by simp [hc])
  obtain ⟨ib, hdb, hvb⟩ := err_items hb
  obtain ⟨ia, hda, hva⟩ := err_items ha
  by_cases hm : ∀ c ∈ part, ¬ c.Malformed G1
  · obtain ⟨ip, hdp⟩ := err_wellFormed hsp hm
    rw [err_verdict setup up τ P H hpt hnd ctx hctx sha256 _ hs (ib ++ ip ++ ia) (List.rel_append (List.rel_append hdb hdp) hda),
      err_verdict setup up τ P H hpt hnd ctx hctx _ part hsp ip hdp]
    have hch : Spec.challengeOf (fun _ => sha256 (Spec.inputOf (before ++ part ++ after))) part =
        Spec.challengeOf sha256 (before ++ part ++ after) := rfl
    rw [hch, List.append_assoc, err_combined_append, err_combined_append, err_combined_true _ hvb, err_combined_true _ hva, smul_zero,
      add_zero, zero_add, smul_eq_zero, pow_eq_zero_iff']
    constructor
    · rintro (⟨h, hl⟩ | h)
      · refine .inl ⟨?_, h, hm⟩
        rintro rfl
        cases hdb
        exact hl rfl
      · exact .inr h
    · rintro (⟨hl, h, -⟩ | h)
      · refine .inl ⟨h, ?_⟩
        rw [← hdb.length_eq]
        exact fun h0 => hl (List.length_eq_zero_iff.1 h0)
      · exact .inr h
  · constructor
    · intro h
      exact absurd (fun c hc => err_accepted ctx sha256 _ hs h c (by simp [hc])) hm
    · rintro (⟨-, -, h⟩ | h)
      · exact absurd h hm
      · exact absurd (err_accepted ctx _ part hsp h) hm

/-- C95: a batch in which exactly one claim is false is accepted if and only if this claim is well-formed, is not the first, and the
challenge is zero. -/
theorem C95_one (setup : SetupPoints G1 G2) (up : UsePrecomp) (τ : Fr)
    (P : G1) (H : G2) (hpt : Spec.PowersOfTau setup.g1Monomial setup.g2Monomial τ P H)
    (hnd : ∀ a : G1, pair a H = (0 : GT) → a = 0)
    (ctx : DASContext K G1 G2) (hctx : (DASContext.new setup up : Outcome ε (DASContext K G1 G2)) = .ok ctx)
    (sha256 : List UInt8 → List UInt8) (before after : List Spec.CellClaim) (c : Spec.CellClaim) (hs : ∀ x ∈ before ++ [c] ++ after, x.Sized)
    (hb : ∀ x ∈ before, x.IsTrue τ P) (ha : ∀ x ∈ after, x.IsTrue τ P) (hc : ¬ c.IsTrue τ P) :
    verdict ctx sha256 (before ++ [c] ++ after) = .ok () ↔
      before ≠ [] ∧ Spec.challengeOf sha256 (before ++ [c] ++ after) = 0 ∧ ¬ c.Malformed G1 := by
  rw [C95_around setup up τ P H hpt hnd ctx hctx sha256 before [c] after hs hb ha,
    C86_single setup up τ P H hpt hnd ctx hctx _ c (hs c (by simp))]
  simp [hc]

/-- C95: a batch in which the first claim is the only false one is never accepted, whatever the hash function. -/
theorem C95_first (setup : SetupPoints G1 G2) (up : UsePrecomp) (τ : Fr)
    (P : G1) (H : G2) (hpt : Spec.PowersOfTau setup.g1Monomial setup.g2Monomial τ P H)
    (hnd : ∀ a : G1, pair a H = (0 : GT) → a = 0)
    (ctx : DASContext K G1 G2) (hctx : (DASContext.new setup up : Outcome ε (DASContext K G1 G2)) = .ok ctx)
    (sha256 : List UInt8 → List UInt8) (after : List Spec.CellClaim) (c : Spec.CellClaim) (hs : ∀ x ∈ c :: after, x.Sized)
    (ha : ∀ x ∈ after, x.IsTrue τ P) (hc : ¬ c.IsTrue τ P) : verdict ctx sha256 (c :: after) ≠ .ok () := by
  intro h
  exact ((C95_one setup up τ P H hpt hnd ctx hctx sha256 [] after c (by simpa using hs) (by simp) ha hc).1 h).1 rfl

/-- C95: if the false claims lie within a part of `m` consecutive claims, at most `m - 1` challenges besides zero make the call accept, and
zero does so only if there are claims before the part. They do not depend on the hash function. -/
theorem C95_burst (setup : SetupPoints G1 G2) (up : UsePrecomp) (τ : Fr)
    (P : G1) (H : G2) (hpt : Spec.PowersOfTau setup.g1Monomial setup.g2Monomial τ P H)
    (hnd : ∀ a : G1, pair a H = (0 : GT) → a = 0)
    (ctx : DASContext K G1 G2) (hctx : (DASContext.new setup up : Outcome ε (DASContext K G1 G2)) = .ok ctx)
    (before part after : List Spec.CellClaim) (hs : ∀ c ∈ before ++ part ++ after, c.Sized)
    (hb : ∀ c ∈ before, c.IsTrue τ P) (ha : ∀ c ∈ after, c.IsTrue τ P) (hf : ∃ c ∈ part, ¬ c.IsTrue τ P) :
    ∃ bad : Finset Fr, bad.card ≤ part.length - 1 ∧ ∀ sha256 : List UInt8 → List UInt8,
      verdict ctx sha256 (before ++ part ++ after) = .ok () →
        (before ≠ [] ∧ Spec.challengeOf sha256 (before ++ part ++ after) = 0) ∨
        Spec.challengeOf sha256 (before ++ part ++ after) ∈ bad := by
  have hsp : ∀ c ∈ part, c.Sized := fun c hc => hs c (by simp [hc])
  by_cases hm : ∀ c ∈ part, ¬ c.Malformed G1
  · obtain ⟨ip, hdp⟩ := err_wellFormed hsp hm
    obtain ⟨bad, hcard, hall⟩ := few_challenges ip τ P (by
      by_contra hn
      push Not at hn
      obtain ⟨c, hc, hcf⟩ := hf
      obtain ⟨i, hi, rfl⟩ := List.mem_iff_getElem.1 hc
      have hi' : i < ip.length := by rw [← hdp.length_eq]; exact hi
      exact hcf ⟨ip[i], (List.forall₂_iff_get.1 hdp).2 i hi hi', (Spec.Opening.valid_iff τ P _).2 (hn _ (List.getElem_mem _))⟩)
    refine ⟨bad, by rw [hdp.length_eq]; exact hcard, fun sha256 h => ?_⟩
    rcases (C95_around setup up τ P H hpt hnd ctx hctx sha256 before part after hs hb ha).1 h with ⟨h1, h2, -⟩ | h'
    · exact .inl ⟨h1, h2⟩
    · right
      have h0 := (err_verdict setup up τ P H hpt hnd ctx hctx _ part hsp ip hdp).1 h'
      have hch : Spec.challengeOf (fun _ => sha256 (Spec.inputOf (before ++ part ++ after))) part =
          Spec.challengeOf sha256 (before ++ part ++ after) := rfl
      rw [hch] at h0
      exact hall _ h0
  · exact ⟨∅, by simp, fun sha256 h => absurd (fun c hc => err_accepted ctx sha256 _ hs h c (by simp [hc])) hm⟩

/-- C95: altering one place of one claim in a batch of true claims is noticed, unless the claim is not the first and the digest is one of
three. -/
theorem C95_alteration (setup : SetupPoints G1 G2) (up : UsePrecomp) (τ : Fr)
    (P : G1) (hP : P ≠ 0) (H : G2) (hpt : Spec.PowersOfTau setup.g1Monomial setup.g2Monomial τ P H)
    (hnd : ∀ a : G1, pair a H = (0 : GT) → a = 0)
    (ctx : DASContext K G1 G2) (hctx : (DASContext.new setup up : Outcome ε (DASContext K G1 G2)) = .ok ctx)
    (sha256 : List UInt8 → List UInt8) (before after : List Spec.CellClaim) (c c' : Spec.CellClaim)
    (hs : ∀ x ∈ before ++ [c] ++ after, x.Sized) (hs' : c'.Sized) (ht : ∀ x ∈ before ++ [c] ++ after, x.IsTrue τ P)
    (hτ : ∀ j < 64, τ ≠ Spec.point 13 (64 * c.index + j)) (ha : Spec.Altered c c')
    (hlen : (sha256 (Spec.inputOf (before ++ [c'] ++ after))).length = 32)
    (hok : verdict ctx sha256 (before ++ [c'] ++ after) = .ok ()) :
    before ≠ [] ∧ (Spec.beValue (sha256 (Spec.inputOf (before ++ [c'] ++ after))) = 0 ∨
      Spec.beValue (sha256 (Spec.inputOf (before ++ [c'] ++ after))) = frOrder ∨
      Spec.beValue (sha256 (Spec.inputOf (before ++ [c'] ++ after))) = 2 * frOrder) := by
  have hc : c ∈ before ++ [c] ++ after := by simp
  obtain ⟨h1, h2, -⟩ := (C95_one setup up τ P H hpt hnd ctx hctx sha256 before after c' (by
      intro x hx
      rcases List.mem_append.1 hx with hx | hx
      · rcases List.mem_append.1 hx with hx | hx
        · exact hs x (by simp [hx])
        · rw [List.mem_singleton.1 hx]
          exact hs'
      · exact hs x (by simp [hx]))
    (fun x hx => ht x (by simp [hx])) (fun x hx => ht x (by simp [hx])) (C95_altered hP (hs c hc) hs' hτ (ht c hc) ha)).1 hok
  exact ⟨h1, (C95_zero sha256 _ hlen).1 h2⟩

/-- a claim that is off by a given multiple of the generator -/
theorem err_off (P : G1) (d : Fr) : ∃ c : Spec.CellClaim, c.Sized ∧ c.Denotes (⟨d • P, 0, 0, 0⟩ : Spec.Opening G1) := by
  have hz : ((0 : Fr[X]).degree : WithBot Nat) < 64 := by rw [degree_zero]; exact WithBot.bot_lt_coe _
  have hcell : Spec.IsCell 0 0 (cellOf 0 0) := (isCell_iff _ _ _).2 rfl
  exact ⟨⟨toCompressed (d • P), 0, cellOf 0 0, toCompressed (0 : G1)⟩, ⟨LawfulPointCodec.length_toCompressed _, hcell.1,
    LawfulPointCodec.length_toCompressed _⟩, LawfulPointCodec.fromCompressed_toCompressed _, ⟨rfl, by show 0 < 128; norm_num⟩, ⟨hz, hcell⟩,
    LawfulPointCodec.fromCompressed_toCompressed _⟩

theorem err_off_list (P : G1) (d : Nat → Fr) (n : Nat) : ∃ l : List Spec.CellClaim, (∀ c ∈ l, c.Sized) ∧
    List.Forall₂ Spec.CellClaim.Denotes l ((List.range n).map fun i => (⟨d i • P, 0, 0, 0⟩ : Spec.Opening G1)) := by
  choose c hs hd using err_off P
  refine ⟨(List.range n).map fun i => c (d i), ?_, ?_⟩
  · intro x hx
    obtain ⟨i, -, rfl⟩ := List.mem_map.1 hx
    exact hs _
  · rw [List.forall₂_map_left_iff, List.forall₂_map_right_iff, List.forall₂_same]
    exact fun i _ => hd _

theorem err_off_combined (τ : Fr) (P : G1) (r : Fr) (d : Nat → Fr) (n : Nat) :
    Spec.combined τ P r ((List.range n).map fun i => (⟨d i • P, 0, 0, 0⟩ : Spec.Opening G1)) = -((∑ i ∈ range n, d i * r ^ i) • P) := by
  induction n with
  | zero => simp [err_combined_nil]
  | succ n ih =>
    rw [List.range_succ, List.map_append, err_combined_append, ih, sum_range_succ, List.map_singleton, err_combined_cons]
    simp [err_combined_nil, Spec.Opening.defect, add_smul, mul_smul, smul_comm (r ^ n)]
    abel

/-- C95: the bound of C07 cannot be improved. For every set of challenges there is a batch with one claim more than that, all of them
well-formed and not all of them true, that is accepted exactly when the challenge is in the set. -/
theorem C95_sharp (setup : SetupPoints G1 G2) (up : UsePrecomp) (τ : Fr)
    (P : G1) (hP : P ≠ 0) (H : G2) (hpt : Spec.PowersOfTau setup.g1Monomial setup.g2Monomial τ P H)
    (hnd : ∀ a : G1, pair a H = (0 : GT) → a = 0)
    (ctx : DASContext K G1 G2) (hctx : (DASContext.new setup up : Outcome ε (DASContext K G1 G2)) = .ok ctx) (S : Finset Fr) :
    ∃ l : List Spec.CellClaim, l.length = S.card + 1 ∧ (∀ c ∈ l, c.Sized ∧ ¬ c.Malformed G1) ∧ (∃ c ∈ l, ¬ c.IsTrue τ P) ∧
      ∀ sha256 : List UInt8 → List UInt8, verdict ctx sha256 l = .ok () ↔ Spec.challengeOf sha256 l ∈ S := by
  set p : Fr[X] := ∏ s ∈ S, (X - C s) with hp
  obtain ⟨l, hs, hd⟩ := err_off_list P p.coeff (S.card + 1)
  have hdeg : p.natDegree < S.card + 1 := by
    rw [hp, natDegree_finsetProd_X_sub_C_eq_card]
    exact Nat.lt_succ_self _
  have hv : ∀ sha256, verdict ctx sha256 l = .ok () ↔ Spec.challengeOf sha256 l ∈ S := by
    intro sha256
    rw [err_verdict setup up τ P H hpt hnd ctx hctx sha256 l hs _ hd, err_off_combined, neg_eq_zero, smul_eq_zero_iff_left hP,
      ← eval_eq_sum_range' hdeg, hp, eval_prod, prod_eq_zero_iff]
    simp [sub_eq_zero]
  refine ⟨l, by rw [hd.length_eq, List.length_map, List.length_range], fun c hc => ⟨hs c hc, ?_⟩, ?_, hv⟩
  · obtain ⟨i, hi, rfl⟩ := List.mem_iff_getElem.1 hc
    exact err_denotes ((List.forall₂_iff_get.1 hd).2 i hi (by rw [← hd.length_eq]; exact hi))
  · have hlc : p.coeff S.card = 1 := by
      have hm : p.Monic := monic_prod_of_monic _ _ fun s _ => monic_X_sub_C s
      have : p.natDegree = S.card := natDegree_finsetProd_X_sub_C_eq_card S fun s => s
      rw [← this]
      exact hm
    have hi : S.card < l.length := by rw [hd.length_eq, List.length_map, List.length_range]; exact Nat.lt_succ_self _
    have hdi := (List.forall₂_iff_get.1 hd).2 S.card hi (by rw [← hd.length_eq]; exact hi)
    simp only [List.get_eq_getElem, List.getElem_map, List.getElem_range, hlc, one_smul] at hdi
    have hsi := hs _ (List.getElem_mem hi)
    refine ⟨l[S.card], List.getElem_mem hi, fun ht => ?_⟩
    have h0 := (err_verdict setup up τ P H hpt hnd ctx hctx id [l[S.card]] (by simpa using hsi) _ (.cons hdi .nil)).1
      ((C86_single setup up τ P H hpt hnd ctx hctx id _ hsi).2 ht)
    rw [err_combined_cons, err_combined_nil, smul_zero, add_zero] at h0
    simp [Spec.Opening.defect] at h0
    exact hP h0

end

section
open Bls Embedded
variable {GT : Type} [AddCommGroup GT] [DecidableEq GT] [Pairing Bls.G1 Bls.G2 GT] [LawfulPairing Bls.G1 Bls.G2 GT]

/-- C95 for contexts made from the embedded setup: of claims each of which is accepted by itself, one is altered in one place and the batch
is verified. It is accepted only if the claim is not the first and the digest is one of three. -/
theorem C95_embedded (hnd : (pair generator generator2 : GT) ≠ 0) (points : SetupPoints Bls.G1 Bls.G2) (τ : Fr) (h : Secret points τ)
    (lagrange : List (List UInt8)) (up : UsePrecomp) (ctx : DASContext Fp Bls.G1 Bls.G2)
    (hctx : (DASContext.ofTrustedSetup (Embedded.setup lagrange) up : Outcome Error (DASContext Fp Bls.G1 Bls.G2)) = .ok ctx)
    (sha256 sha256' : List UInt8 → List UInt8) (before after : List Spec.CellClaim) (c c' : Spec.CellClaim)
    (hs : ∀ x ∈ before ++ [c] ++ after, x.Sized) (hs' : c'.Sized) (ht : ∀ x ∈ before ++ [c] ++ after, verdict ctx sha256' [x] = .ok ())
    (ha : Spec.Altered c c') (hlen : (sha256 (Spec.inputOf (before ++ [c'] ++ after))).length = 32)
    (hok : verdict ctx sha256 (before ++ [c'] ++ after) = .ok ()) :
    before ≠ [] ∧ (Spec.beValue (sha256 (Spec.inputOf (before ++ [c'] ++ after))) = 0 ∨
      Spec.beValue (sha256 (Spec.inputOf (before ++ [c'] ++ after))) = frOrder ∨
      Spec.beValue (sha256 (Spec.inputOf (before ++ [c'] ++ after))) = 2 * frOrder) := by
  rw [context_eq lagrange points h.file] at hctx
  have hnd' : ∀ a : Bls.G1, pair a generator2 = (0 : GT) → a = 0 :=
    fun a ha => ((C74_nondegenerate hnd a generator2).1 ha).resolve_right generator2_ne
  exact C95_alteration points up τ generator generator_ne generator2 h.powers hnd' ctx hctx sha256 before after c c' hs hs'
    (fun x hx => (C86_single points up τ generator generator2 h.powers hnd' ctx hctx sha256' x (hs x hx)).1 (ht x hx))
    (fun j _ => (C80_secret points τ h).2.2 _) ha hlen hok

end

/-! ### cases that meet the hypotheses -/
section
open Toy

theorem Toy.falseClaim_altered : Spec.Altered Toy.trueClaim Toy.falseClaim := by
  refine ⟨rfl, .inr (.inl ⟨fun e => ?_, rfl, rfl⟩)⟩
  have h : ∀ x : Fr, fromCompressed (toCompressed x) = some x := LawfulPointCodec.fromCompressed_toCompressed
  have h1 := h 1
  have e' : toCompressed (1 : Fr) = toCompressed (0 : Fr) := e
  rw [e', h 0] at h1
  exact zero_ne_one (Option.some.inj h1)

theorem Toy.falseClaim_false : ¬ Toy.falseClaim.IsTrue (7 : Fr) (1 : Fr) :=
  C95_altered one_ne_zero Toy.claims_sized.1 Toy.claims_sized.2.1 (seven_outside _) Toy.trueClaim_true Toy.falseClaim_altered

/-- Three claims of which the second, or the first, is false: with the hash function that is constantly zero the first batch is accepted, and
with every other constant of one byte it is not; the second batch is accepted with none. -/
example : ∃ ctx : DASContext Fr Fr Fr, (DASContext.new (setup 7) .no : Outcome Error _) = .ok ctx ∧
    verdict ctx (fun _ => [0]) [Toy.trueClaim, Toy.falseClaim, Toy.trueClaim] = .ok () ∧
    (∀ b : UInt8, b ≠ 0 → verdict ctx (fun _ => [b]) [Toy.trueClaim, Toy.falseClaim, Toy.trueClaim] ≠ .ok ()) ∧
    ∀ sha256, verdict ctx sha256 [Toy.falseClaim, Toy.trueClaim, Toy.trueClaim] ≠ .ok () := by
  obtain ⟨ctx, hctx⟩ := context 7
  obtain ⟨s1, s2, -⟩ := Toy.claims_sized
  have hone := fun sha256 => C95_one (setup 7) .no 7 1 1 (powersOfTau 7) nondegenerate ctx hctx sha256 [Toy.trueClaim] [Toy.trueClaim]
    Toy.falseClaim (by simpa using ⟨s1, s2, s1⟩) (by simpa using Toy.trueClaim_true) (by simpa using Toy.trueClaim_true) Toy.falseClaim_false
  have hch : ∀ b l, Spec.challengeOf (fun _ => [b]) l = ((b.toNat : Nat) : Fr) := by
    intro b l
    simp [Spec.challengeOf, Spec.challenge, Spec.beValue]
  refine ⟨ctx, hctx, ?_, ?_, ?_⟩
  · exact (hone _).2 ⟨by simp, by rw [hch]; exact Nat.cast_zero, err_denotes Toy.claims_denote.2⟩
  · intro b hb h
    have h0 := ((hone _).1 h).2.1
    rw [hch, ZMod.natCast_eq_zero_iff] at h0
    have hlt : b.toNat < frOrder := lt_trans b.toNat_lt (by decide +kernel)
    have := Nat.eq_zero_of_dvd_of_lt h0 hlt
    exact hb (UInt8.toNat.inj this)
  · intro sha256
    exact C95_first (setup 7) .no 7 1 1 (powersOfTau 7) nondegenerate ctx hctx sha256 [Toy.trueClaim, Toy.trueClaim] Toy.falseClaim
      (by simpa using ⟨s2, s1⟩) (by simpa using Toy.trueClaim_true) Toy.falseClaim_false

/-- The hypotheses of C95_burst, C95_alteration and C95_sharp. -/
example : ∃ ctx : DASContext Fr Fr Fr, (DASContext.new (setup 7) .no : Outcome Error _) = .ok ctx ∧
    (∃ bad : Finset Fr, bad.card ≤ 1 ∧ ∀ sha256 : List UInt8 → List UInt8,
      verdict ctx sha256 ([] ++ [Toy.falseClaim, Toy.falseClaim] ++ [Toy.trueClaim]) = .ok () →
        (([] : List Spec.CellClaim) ≠ [] ∧ Spec.challengeOf sha256 ([] ++ [Toy.falseClaim, Toy.falseClaim] ++ [Toy.trueClaim]) = 0) ∨
        Spec.challengeOf sha256 ([] ++ [Toy.falseClaim, Toy.falseClaim] ++ [Toy.trueClaim]) ∈ bad) ∧
    (∀ sha256 : List UInt8 → List UInt8, (∀ x, (sha256 x).length = 32) → (∀ x, Spec.beValue (sha256 x) = 1) →
      verdict ctx sha256 ([Toy.trueClaim] ++ [Toy.falseClaim] ++ []) ≠ .ok ()) ∧
    ∃ l : List Spec.CellClaim, l.length = 3 ∧ (∀ c ∈ l, c.Sized ∧ ¬ c.Malformed Fr) ∧ (∃ c ∈ l, ¬ c.IsTrue (7 : Fr) (1 : Fr)) ∧
      ∀ sha256 : List UInt8 → List UInt8, verdict ctx sha256 l = .ok () ↔ Spec.challengeOf sha256 l ∈ ({3, 5} : Finset Fr) := by
  obtain ⟨ctx, hctx⟩ := context 7
  obtain ⟨s1, s2, -⟩ := Toy.claims_sized
  refine ⟨ctx, hctx, ?_, ?_, ?_⟩
  · exact C95_burst (setup 7) .no 7 1 1 (powersOfTau 7) nondegenerate ctx hctx [] [Toy.falseClaim, Toy.falseClaim] [Toy.trueClaim]
      (by simpa using ⟨s2, s1⟩) (by simp) (by simpa using Toy.trueClaim_true) ⟨Toy.falseClaim, by simp, Toy.falseClaim_false⟩
  · intro sha256 hl hv hok
    have h := C95_alteration (setup 7) .no 7 1 one_ne_zero 1 (powersOfTau 7) nondegenerate ctx hctx sha256 [Toy.trueClaim] [] Toy.trueClaim
      Toy.falseClaim (by simpa using s1) s2 (by simpa using Toy.trueClaim_true) (seven_outside _) Toy.falseClaim_altered (hl _) hok
    rw [hv] at h
    rcases h.2 with h | h | h
    · exact absurd h one_ne_zero
    · exact absurd h (by decide +kernel)
    · exact absurd h (by decide +kernel)
  · obtain ⟨l, hl, h⟩ := C95_sharp (setup 7) .no 7 1 one_ne_zero 1 (powersOfTau 7) nondegenerate ctx hctx {3, 5}
    refine ⟨l, ?_, h⟩
    rw [hl, card_pair]
    intro e
    have := congrArg ZMod.val e
    revert this
    decide +kernel

end

end Verif
