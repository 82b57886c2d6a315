import Verif.Props.Columns
import Verif.Spec.Groupings

set_option linter.unusedSectionVars false

/-!
C86: how claims are grouped into batches. What does not depend on it at all, and how seldom the rest does.
-/
namespace Verif
open Polynomial Finset

theorem decodes_batchOf {G1 : Type} [AddCommGroup G1] [Module Fr G1] [PointCodec G1] (l : List Spec.CellClaim)
    (items : List (Spec.Opening G1)) :
    Spec.Decodes (Spec.batchOf l).commitments (Spec.batchOf l).inds (Spec.batchOf l).cells (Spec.batchOf l).proofs items ↔
      List.Forall₂ Spec.CellClaim.Denotes l items := by
  constructor
  · rintro ⟨h1, h2, h3, h4⟩
    simp only [Spec.batchOf, List.forall₂_map_left_iff] at h1 h2 h3 h4
    induction h1 with
    | nil => exact .nil
    | cons a _ ih =>
      cases h2 with | cons b b' =>
      cases h3 with | cons c c' =>
      cases h4 with | cons d d' =>
      exact .cons ⟨a, b, c, d⟩ (ih b' c' d')
  · intro h
    refine ⟨?_, ?_, ?_, ?_⟩ <;> simp only [Spec.batchOf, List.forall₂_map_left_iff]
    · exact h.imp (fun _ _ h => h.1)
    · exact h.imp (fun _ _ h => h.2.1)
    · exact h.imp (fun _ _ h => h.2.2.1)
    · exact h.imp (fun _ _ h => h.2.2.2)

theorem wellFormed_batchOf {G1 : Type} [PointCodec G1] (l : List Spec.CellClaim) :
    Spec.VerifyWellFormed G1 (Spec.batchOf l).commitments (Spec.batchOf l).inds (Spec.batchOf l).cells (Spec.batchOf l).proofs ↔
      ∀ c ∈ l, ¬ c.Malformed G1 := by
  constructor
  · rintro ⟨-, h2, h3, h4, h5⟩ c hc hm
    rcases hm with h | h | h | h
    · exact absurd (h2 _ (List.mem_map_of_mem hc)) (by omega)
    · obtain ⟨p, hp⟩ := h3 _ (List.mem_map_of_mem hc)
      rw [hp] at h
      cases h
    · obtain ⟨p, hp⟩ := h4 _ (List.mem_map_of_mem hc)
      rw [hp] at h
      cases h
    · exact h (h5 _ (List.mem_map_of_mem hc))
  · intro h
    refine ⟨by simp [Spec.batchOf], ?_, ?_, ?_, ?_⟩ <;> intro x hx <;> obtain ⟨c, hc, rfl⟩ := List.mem_map.1 hx <;>
      have hn := h c hc <;> unfold Spec.CellClaim.Malformed at hn <;> push Not at hn
    · exact hn.1
    · exact Option.ne_none_iff_exists'.1 hn.2.1
    · exact Option.ne_none_iff_exists'.1 hn.2.2.1
    · exact hn.2.2.2

section
variable {ε K G1 G2 GT : Type} [Field K] [DecidableEq K] [AddCommGroup G1] [Module Fr G1] [DecidableEq G1]
  [Curve K G1] [PointCodec G1] [AddCommGroup G2] [Module Fr G2] [AddCommGroup GT] [DecidableEq GT]
  [Pairing G1 G2 GT]

/-- the call with the entries of a list, with an arbitrary hash function -/
def verdict (ctx : DASContext K G1 G2) (sha256 : List UInt8 → List UInt8) (l : List Spec.CellClaim) : Outcome Error Unit :=
  ctx.verifyCellKzgProofBatch sha256 (l.map Spec.CellClaim.commitment) (l.map Spec.CellClaim.index) (l.map Spec.CellClaim.cell) (l.map (·.proof))

theorem sized_batchOf {l : List Spec.CellClaim} (hs : ∀ c ∈ l, c.Sized) : (∀ c ∈ l.map (·.commitment), c.length = 48) ∧
    (∀ c ∈ l.map (·.cell), c.length = 2048) ∧ ∀ c ∈ l.map (·.proof), c.length = 48 := by
  refine ⟨?_, ?_, ?_⟩ <;> intro x hx <;> obtain ⟨c, hc, rfl⟩ := List.mem_map.1 hx
  · exact (hs c hc).1
  · exact (hs c hc).2.1
  · exact (hs c hc).2.2

/-- C86: a batch of true claims is accepted, for every hash function, in every order and with repetitions. -/
theorem C86_true [LawfulPointCodec G1 48] [LawfulPairing G1 G2 GT] (setup : SetupPoints G1 G2) (up : UsePrecomp) (τ : Fr)
    (P : G1) (H : G2) (hpt : Spec.PowersOfTau setup.g1Monomial setup.g2Monomial τ P H)
    (hnd : ∀ a : G1, pair a H = (0 : GT) → a = 0)
    (ctx : DASContext K G1 G2) (hctx : (DASContext.new setup up : Outcome ε (DASContext K G1 G2)) = .ok ctx)
    (sha256 : List UInt8 → List UInt8) (l : List Spec.CellClaim) (hs : ∀ c ∈ l, c.Sized) (ht : ∀ c ∈ l, c.IsTrue τ P) :
    verdict ctx sha256 l = .ok () := by
  obtain ⟨items, hd, hv⟩ : ∃ items : List (Spec.Opening G1), List.Forall₂ Spec.CellClaim.Denotes l items ∧ ∀ o ∈ items, o.Valid τ P := by
    clear hs
    induction l with
    | nil => exact ⟨[], .nil, by simp⟩
    | cons c l ih =>
      obtain ⟨items, h1, h2⟩ := ih (fun x hx => ht x (List.mem_cons_of_mem _ hx))
      obtain ⟨o, ho, hov⟩ := ht c List.mem_cons_self
      exact ⟨o :: items, .cons ho h1, by simpa using ⟨hov, h2⟩⟩
  obtain ⟨s1, -, s3⟩ := sized_batchOf hs
  refine (C06_batch setup up τ P H hpt hnd ctx hctx sha256 _ _ _ _ s1 s3 items ((decodes_batchOf l items).2 hd)).1.2 ?_
  unfold Spec.combined
  refine Finset.sum_eq_zero (fun i _ => ?_)
  have h0 : Spec.Opening.defect τ P items[i] = 0 := (Spec.Opening.valid_iff τ P _).1 (hv _ (List.getElem_mem _))
  rw [h0, smul_zero]

/-- C86: a claim checked by itself is accepted exactly if it is true, for every hash function. -/
theorem C86_single [LawfulPointCodec G1 48] [LawfulPairing G1 G2 GT] (setup : SetupPoints G1 G2) (up : UsePrecomp) (τ : Fr)
    (P : G1) (H : G2) (hpt : Spec.PowersOfTau setup.g1Monomial setup.g2Monomial τ P H)
    (hnd : ∀ a : G1, pair a H = (0 : GT) → a = 0)
    (ctx : DASContext K G1 G2) (hctx : (DASContext.new setup up : Outcome ε (DASContext K G1 G2)) = .ok ctx)
    (sha256 : List UInt8 → List UInt8) (c : Spec.CellClaim) (hs : c.Sized) :
    verdict ctx sha256 [c] = .ok () ↔ c.IsTrue τ P := by
  have hs' : ∀ x ∈ [c], x.Sized := by simpa using hs
  constructor
  · intro h
    obtain ⟨s1, s2, s3⟩ := sized_batchOf hs'
    obtain ⟨items, hd⟩ : ∃ items : List (Spec.Opening G1), List.Forall₂ Spec.CellClaim.Denotes [c] items := by
      rcases C13_validation ctx sha256 ([c].map Spec.CellClaim.commitment) ([c].map Spec.CellClaim.index) ([c].map Spec.CellClaim.cell) ([c].map Spec.CellClaim.proof) s2 s1 s3 with ⟨hw, -⟩ | ⟨-, e, -, he⟩
      · obtain ⟨items, hd⟩ := exists_items s2 hw
        exact ⟨items, (decodes_batchOf [c] items).1 hd⟩
      · unfold verdict at h
        rw [h] at he
        cases he
    have h0 := (C06_batch setup up τ P H hpt hnd ctx hctx sha256 _ _ _ _ s1 s3 items ((decodes_batchOf [c] items).2 hd)).1.1 h
    cases hd with | @cons _ o _ _ ho hr =>
    cases hr
    refine ⟨o, ho, (Spec.Opening.valid_iff τ P o).2 ?_⟩
    unfold Spec.combined at h0
    change ∑ i : Fin 1, _ = _ at h0
    rw [Fin.sum_univ_one] at h0
    simpa using h0
  · intro h
    exact C86_true setup up τ P H hpt hnd ctx hctx sha256 [c] hs' (by simpa using h)

/-- C86: if each claim is accepted by itself, so is every batch made of them, whatever the hash functions. -/
theorem C86_parts [LawfulPointCodec G1 48] [LawfulPairing G1 G2 GT] (setup : SetupPoints G1 G2) (up : UsePrecomp) (τ : Fr)
    (P : G1) (H : G2) (hpt : Spec.PowersOfTau setup.g1Monomial setup.g2Monomial τ P H)
    (hnd : ∀ a : G1, pair a H = (0 : GT) → a = 0)
    (ctx : DASContext K G1 G2) (hctx : (DASContext.new setup up : Outcome ε (DASContext K G1 G2)) = .ok ctx)
    (sha256 sha256' : List UInt8 → List UInt8) (l : List Spec.CellClaim) (hs : ∀ c ∈ l, c.Sized)
    (h : ∀ c ∈ l, verdict ctx sha256 [c] = .ok ()) : verdict ctx sha256' l = .ok () :=
  C86_true setup up τ P H hpt hnd ctx hctx sha256' l hs
    (fun c hc => (C86_single setup up τ P H hpt hnd ctx hctx sha256 c (hs c hc)).1 (h c hc))

/-- C86: whether a batch is refused as malformed depends on its entries one by one: it is if one of them is, for every hash function. -/
theorem C86_malformed [LawfulPointCodec G1 48] [LawfulPairing G1 G2 GT] (setup : SetupPoints G1 G2) (up : UsePrecomp) (τ : Fr)
    (P : G1) (H : G2) (hpt : Spec.PowersOfTau setup.g1Monomial setup.g2Monomial τ P H)
    (ctx : DASContext K G1 G2) (hctx : (DASContext.new setup up : Outcome ε (DASContext K G1 G2)) = .ok ctx)
    (sha256 : List UInt8 → List UInt8) (l : List Spec.CellClaim) (hs : ∀ c ∈ l, c.Sized) :
    (∃ e, verdict ctx sha256 l = .err e ∧ e.invalidProof = false) ↔ ∃ c ∈ l, c.Malformed G1 := by
  obtain ⟨s1, s2, s3⟩ := sized_batchOf hs
  have h14 := fun e he => (C14_verify setup up τ P H hpt ctx hctx sha256 (l.map Spec.CellClaim.commitment) (l.map Spec.CellClaim.index)
    (l.map Spec.CellClaim.cell) (l.map Spec.CellClaim.proof) s2 s1 s3 e he).1
  have hw := wellFormed_batchOf (G1 := G1) l
  constructor
  · rintro ⟨e, he, hi⟩
    by_contra hn
    push Not at hn
    have := (h14 e he).2 (hw.2 hn)
    rw [this] at hi
    cases hi
  · rintro ⟨c, hc, hm⟩
    rcases C13_validation ctx sha256 (l.map Spec.CellClaim.commitment) (l.map Spec.CellClaim.index) (l.map Spec.CellClaim.cell) (l.map Spec.CellClaim.proof) s2 s1 s3 with ⟨h, -⟩ | ⟨hnw, e, -, he⟩
    · exact absurd hm (hw.1 h c hc)
    · refine ⟨e, he, ?_⟩
      by_contra hi
      exact hnw ((h14 e he).1 (by simpa using hi))

theorem split_map {α β : Type} (f : α → β) {l : List α} {pre post : List β} {b : β} (h : l.map f = pre ++ b :: post) :
    ∃ c ∈ l, f c = b := by
  have : b ∈ l.map f := by rw [h]; simp
  exact List.mem_map.1 this

/-- C86: if a batch is refused with some error, one of its claims is refused by itself, with the same error and for every hash function. -/
theorem C86_culprit [LawfulPointCodec G1 48] [LawfulPairing G1 G2 GT] (setup : SetupPoints G1 G2) (up : UsePrecomp) (τ : Fr)
    (P : G1) (H : G2) (hpt : Spec.PowersOfTau setup.g1Monomial setup.g2Monomial τ P H)
    (hnd : ∀ a : G1, pair a H = (0 : GT) → a = 0)
    (ctx : DASContext K G1 G2) (hctx : (DASContext.new setup up : Outcome ε (DASContext K G1 G2)) = .ok ctx)
    (sha256 : List UInt8 → List UInt8) (l : List Spec.CellClaim) (hs : ∀ c ∈ l, c.Sized) (e : Error)
    (he : verdict ctx sha256 l = .err e) : ∃ c ∈ l, ∀ sha256', verdict ctx sha256' [c] = .err e := by
  obtain ⟨s1, s2, s3⟩ := sized_batchOf hs
  have one : ∀ c ∈ l, Spec.VerifyDefect G1 [c.commitment] [c.index] [c.cell] [c.proof] e →
      ∃ c ∈ l, ∀ sha256', verdict ctx sha256' [c] = .err e := by
    intro c hc hd
    obtain ⟨a1, a2, a3⟩ := hs c hc
    exact ⟨c, hc, fun sha256' => verify_defect sha256' ctx (by simpa using a2) (by simpa using a1) (by simpa using a3) hd⟩
  rcases C13_validation ctx sha256 (l.map Spec.CellClaim.commitment) (l.map Spec.CellClaim.index) (l.map Spec.CellClaim.cell) (l.map Spec.CellClaim.proof) s2 s1 s3 with ⟨hw, -⟩ | ⟨hnw, e', hd, he'⟩
  · have hi : e = .Verifier (.FK20 .InvalidProof) := by
      rcases C13_wellFormed setup up hpt.length_g1 ctx hctx sha256 _ _ _ _ s2 s1 s3 hw with h' | h' <;>
        (unfold verdict at he; rw [h'] at he; cases he)
      rfl
    subst hi
    by_contra hn
    push Not at hn
    have hall : ∀ c ∈ l, c.IsTrue τ P := by
      intro c hc
      obtain ⟨sha', hne⟩ := hn c hc
      have hsc : ∀ x ∈ [c], x.Sized := by simpa using hs c hc
      obtain ⟨t1, t2, t3⟩ := sized_batchOf hsc
      refine (C86_single setup up τ P H hpt hnd ctx hctx sha' c (hs c hc)).1 ?_
      rcases C13_wellFormed setup up hpt.length_g1 ctx hctx sha' _ _ _ _ t2 t1 t3
        ((wellFormed_batchOf (G1 := G1) [c]).2 (by
          intro x hx
          rw [List.mem_singleton] at hx
          rw [hx]
          exact (wellFormed_batchOf (G1 := G1) l).1 hw c hc)) with h' | h'
      · exact h'
      · exact absurd h' hne
    rw [C86_true setup up τ P H hpt hnd ctx hctx sha256 l hs hall] at he
    cases he
  · have hee : e' = e := by
      unfold verdict at he
      rw [he'] at he
      cases he
      rfl
    subst hee
    cases hd with
    | lengths h => exact absurd (by simp) h
    | range h pre post k hsp hpre hk =>
      obtain ⟨c, hc, rfl⟩ := split_map _ hsp
      exact one c hc (.range (by simp) [] [] _ rfl (by simp) hk)
    | commitment h hr pre post b hsp hpre hb =>
      obtain ⟨c, hc, rfl⟩ := split_map _ hsp
      exact one c hc (.commitment (by simp) (by simpa using hr _ (List.mem_map_of_mem hc)) [] [] _ rfl (by simp) hb)
    | proof h hr hcm pre post b hsp hpre hb =>
      obtain ⟨c, hc, rfl⟩ := split_map _ hsp
      exact one c hc (.proof (by simp) (by simpa using hr _ (List.mem_map_of_mem hc))
        (by simpa using hcm _ (List.mem_map_of_mem hc)) [] [] _ rfl (by simp) hb)
    | cell h hr hcm hp pre post b i hsp hpre hi hfirst hbad =>
      obtain ⟨c, hc, rfl⟩ := split_map _ hsp
      exact one c hc (.cell (by simp) (by simpa using hr _ (List.mem_map_of_mem hc))
        (by simpa using hcm _ (List.mem_map_of_mem hc)) (by simpa using hp _ (List.mem_map_of_mem hc)) [] [] _ i rfl (by simp)
        hi hfirst hbad)

theorem isFalse_batchOf {n : Nat} {τ : Fr} {P : G1} (ctx : DASContext K G1 G2) (hash : List UInt8 → Spec.Digest)
    (l : List Spec.CellClaim) (hn : l.length ≤ n) (hs : ∀ c ∈ l, c.Sized) (h : Accepts ctx hash (Spec.batchOf l))
    (hf : ∃ c ∈ l, ¬ c.IsTrue τ P) : (Spec.batchOf l).IsFalse τ P n := by
  obtain ⟨s1, s2, s3⟩ := sized_batchOf hs
  obtain ⟨items, hd⟩ := accepts_items ctx hash n (Spec.batchOf l) ⟨s1, s2, s3, by simpa [Spec.batchOf] using hn⟩ h
  refine ⟨s1, s2, s3, items, hd, ?_, ?_⟩
  · rw [← ((decodes_batchOf l items).1 hd).length_eq]
    exact hn
  · have hd' := (decodes_batchOf l items).1 hd
    obtain ⟨c, hc, hnt⟩ := hf
    obtain ⟨i, hi, rfl⟩ := List.getElem_of_mem hc
    have hi' : i < items.length := by rw [← hd'.length_eq]; exact hi
    exact ⟨items[i], List.getElem_mem _, fun hv => hnt ⟨_, List.forall₂_iff_get.1 hd' |>.2 i hi hi', hv⟩⟩

open Classical in
/-- C86, the hash as a random oracle: an attacker who knows the secret and asks for at most `q` hashes chooses at most `m` lists of at most
`n` claims. For all but a fraction of `(q + m) · 3 (n - 1) / 2^256` of the hash functions each of these batches is accepted exactly if all of its
claims are true. -/
theorem C86_exact [LawfulPointCodec G1 48] [LawfulPairing G1 G2 GT] (setup : SetupPoints G1 G2) (up : UsePrecomp) (τ : Fr)
    (P : G1) (H : G2) (hpt : Spec.PowersOfTau setup.g1Monomial setup.g2Monomial τ P H)
    (hnd : ∀ a : G1, pair a H = (0 : GT) → a = 0)
    (ctx : DASContext K G1 G2) (hctx : (DASContext.new setup up : Outcome ε (DASContext K G1 G2)) = .ok ctx)
    (n : Nat) (hn : n < 2 ^ 64) (D : Finset (List UInt8)) (hD : ∀ x : List UInt8, x.length ≤ 48 + 2160 * n → x ∈ D)
    (rest : List UInt8 → Spec.Digest) (A : Spec.Attacker (List (List Spec.CellClaim))) (q m : Nat) (hA : A.AtMost q) :
    (univ.filter (fun ω : Spec.Table D => ∃ l ∈ (A.run (ω.hash rest)).take m, l.length ≤ n ∧ (∀ c ∈ l, c.Sized) ∧
      ¬ (Accepts ctx (ω.hash rest) (Spec.batchOf l) ↔ ∀ c ∈ l, c.IsTrue τ P))).card * 2 ^ 256 ≤
      (q + m) * (3 * (n - 1)) * Fintype.card (Spec.Table D) := by
  refine le_trans (Nat.mul_le_mul_right _ (card_le_card ?_))
    (few_false_list (N := n) (m := m) setup up τ P H hpt hnd ctx hctx hn D hD rest A q hA (fun o => (o.take m).map Spec.batchOf)
      (fun o => by rw [List.length_map, List.length_take]; exact Nat.min_le_left _ _))
  intro ω hω
  obtain ⟨-, l, hl, hln, hs, hne⟩ := mem_filter.1 hω
  have hna : ¬ ∀ c ∈ l, c.IsTrue τ P := fun ht => hne ⟨fun _ => ht, fun _ => C86_true setup up τ P H hpt hnd ctx hctx _ l hs ht⟩
  have hac : Accepts ctx (ω.hash rest) (Spec.batchOf l) := by
    by_contra ha
    exact hne ⟨fun h => absurd h ha, fun h => absurd h hna⟩
  push Not at hna
  exact mem_filter.2 ⟨mem_univ _, _, List.mem_map_of_mem hl, isFalse_batchOf ctx _ l hln hs hac hna, hac⟩

open Classical in
/-- C86, agreement: an attacker who knows the secret and asks for at most `q` hashes chooses claims and how any number of nodes group them, in
at most `m` batches of at most `n` claims together. For all but a fraction of `(q + m) · 3 (n - 1) / 2^256` of the hash functions any two nodes that
have the same claims agree on whether all of their batches are accepted. -/
theorem C86_nodes [LawfulPointCodec G1 48] [LawfulPairing G1 G2 GT] (setup : SetupPoints G1 G2) (up : UsePrecomp) (τ : Fr)
    (P : G1) (H : G2) (hpt : Spec.PowersOfTau setup.g1Monomial setup.g2Monomial τ P H)
    (hnd : ∀ a : G1, pair a H = (0 : GT) → a = 0)
    (ctx : DASContext K G1 G2) (hctx : (DASContext.new setup up : Outcome ε (DASContext K G1 G2)) = .ok ctx)
    (n : Nat) (hn : n < 2 ^ 64) (D : Finset (List UInt8)) (hD : ∀ x : List UInt8, x.length ≤ 48 + 2160 * n → x ∈ D)
    (rest : List UInt8 → Spec.Digest) (A : Spec.Attacker (List (List (List Spec.CellClaim)))) (q m : Nat) (hA : A.AtMost q) :
    (univ.filter (fun ω : Spec.Table D => (A.run (ω.hash rest)).flatten.length ≤ m ∧
      (∀ l ∈ (A.run (ω.hash rest)).flatten, l.length ≤ n ∧ ∀ c ∈ l, c.Sized) ∧
      ∃ g ∈ A.run (ω.hash rest), ∃ g' ∈ A.run (ω.hash rest), Spec.SameClaims g g' ∧
        (∀ l ∈ g, Accepts ctx (ω.hash rest) (Spec.batchOf l)) ∧
        ¬ ∀ l ∈ g', Accepts ctx (ω.hash rest) (Spec.batchOf l))).card * 2 ^ 256 ≤
      (q + m) * (3 * (n - 1)) * Fintype.card (Spec.Table D) := by
  refine le_trans (Nat.mul_le_mul_right _ (card_le_card ?_))
    (few_false_list (N := n) (m := m) setup up τ P H hpt hnd ctx hctx hn D hD rest A q hA (fun o => (o.flatten.take m).map Spec.batchOf)
      (fun o => by rw [List.length_map, List.length_take]; exact Nat.min_le_left _ _))
  intro ω hω
  obtain ⟨-, hm, hs, g, hg, g', hg', hsame, hacc, hnot⟩ := mem_filter.1 hω
  push Not at hnot
  obtain ⟨l', hl', hna⟩ := hnot
  have hmem : ∀ l ∈ g, l ∈ (A.run (ω.hash rest)).flatten := fun l hl => List.mem_flatten.2 ⟨g, hg, hl⟩
  have hmem' : l' ∈ (A.run (ω.hash rest)).flatten := List.mem_flatten.2 ⟨g', hg', hl'⟩
  have hf : ∃ c ∈ l', ¬ c.IsTrue τ P := by
    by_contra hn'
    push Not at hn'
    exact hna (C86_true setup up τ P H hpt hnd ctx hctx _ l' (hs l' hmem').2 hn')
  obtain ⟨c, hc, hct⟩ := hf
  obtain ⟨l, hl, hcl⟩ := List.mem_flatten.1 ((hsame c).2 (List.mem_flatten.2 ⟨l', hl', hc⟩))
  refine mem_filter.2 ⟨mem_univ _, Spec.batchOf l, ?_, isFalse_batchOf ctx _ l (hs l (hmem l hl)).1 (hs l (hmem l hl)).2 (hacc l hl)
    ⟨c, hcl, hct⟩, hacc l hl⟩
  rw [List.take_of_length_le hm]
  exact List.mem_map_of_mem (hmem l hl)

end

/-! ### a case that meets the hypotheses, and what does not hold -/
section
open Toy

/-- the true claim and the false claim of `Toy.batch` -/
noncomputable def Toy.trueClaim : Spec.CellClaim := ⟨toCompressed (0 : Fr), 5, zeroCell, toCompressed (0 : Fr)⟩

noncomputable def Toy.falseClaim : Spec.CellClaim := ⟨toCompressed (1 : Fr), 5, zeroCell, toCompressed (0 : Fr)⟩

/-- the same with an index that is too large -/
noncomputable def Toy.malformedClaim : Spec.CellClaim := ⟨toCompressed (1 : Fr), 128, zeroCell, toCompressed (0 : Fr)⟩

theorem Toy.claims_sized : Toy.trueClaim.Sized ∧ Toy.falseClaim.Sized ∧ Toy.malformedClaim.Sized := by
  have hl : ∀ x : Fr, (toCompressed x).length = 48 := LawfulPointCodec.length_toCompressed
  exact ⟨⟨hl _, isCell_zero.1, hl _⟩, ⟨hl _, isCell_zero.1, hl _⟩, ⟨hl _, isCell_zero.1, hl _⟩⟩

theorem Toy.claims_denote : Toy.trueClaim.Denotes (⟨0, 5, 0, 0⟩ : Spec.Opening Fr) ∧
    Toy.falseClaim.Denotes (⟨1, 5, 0, 0⟩ : Spec.Opening Fr) := by
  have h : ∀ x : Fr, fromCompressed (toCompressed x) = some x := LawfulPointCodec.fromCompressed_toCompressed
  have hz : ((0 : Fr[X]).degree : WithBot Nat) < 64 := by rw [degree_zero]; exact WithBot.bot_lt_coe _
  exact ⟨⟨h 0, ⟨rfl, by show 5 < 128; norm_num⟩, ⟨hz, isCell_zero⟩, h 0⟩,
    ⟨h 1, ⟨rfl, by show 5 < 128; norm_num⟩, ⟨hz, isCell_zero⟩, h 0⟩⟩

theorem Toy.trueClaim_true : Toy.trueClaim.IsTrue (7 : Fr) (1 : Fr) :=
  ⟨_, Toy.claims_denote.1, by simp [Spec.Opening.Valid]⟩

theorem Toy.pair_verdict (ctx : DASContext Fr Fr Fr) (hctx : (DASContext.new (setup 7) .no : Outcome Error _) = .ok ctx)
    (c c' : Spec.CellClaim) (o o' : Spec.Opening Fr) (hs : c.Sized) (hs' : c'.Sized) (hd : c.Denotes o) (hd' : c'.Denotes o') :
    Accepts ctx (fun _ _ => 0) (Spec.batchOf [c, c']) ↔ o.Valid 7 1 := by
  obtain ⟨s1, -, s3⟩ := sized_batchOf (l := [c, c']) (by simpa using ⟨hs, hs'⟩)
  refine (C06_batch (setup 7) .no 7 1 1 (powersOfTau 7) nondegenerate ctx hctx _ _ _ _ _ s1 s3 [o, o']
    ((decodes_batchOf [c, c'] [o, o']).2 (.cons hd (.cons hd' .nil)))).1.trans ?_
  have h0 : ((Spec.beValue (Spec.Digest.bytes (fun _ => 0)) : Nat) : Fr) = 0 := by
    have : Spec.beValue (Spec.Digest.bytes (fun _ => 0)) = 0 := by decide +kernel
    rw [this, Nat.cast_zero]
  unfold Spec.challenge Spec.combined
  dsimp only
  rw [h0, Spec.Opening.valid_iff]
  show ∑ i : Fin 2, _ = _ ↔ _
  rw [Fin.sum_univ_two]
  simp

/-- C86: for some hash functions the grouping and the order do matter. Of two claims the second is false: it is refused by itself with every hash
function, and there is a hash function for which the batch of both is accepted, and refused after they change places. -/
theorem C86_gap : ∃ ctx : DASContext Fr Fr Fr, (DASContext.new (setup 7) .no : Outcome Error _) = .ok ctx ∧
    ∃ c c' : Spec.CellClaim, c.Sized ∧ c'.Sized ∧ ∃ hash : List UInt8 → Spec.Digest,
      Accepts ctx hash (Spec.batchOf [c]) ∧ ¬ Accepts ctx hash (Spec.batchOf [c']) ∧
      Accepts ctx hash (Spec.batchOf [c, c']) ∧ ¬ Accepts ctx hash (Spec.batchOf [c', c]) := by
  obtain ⟨ctx, hctx⟩ := context 7
  obtain ⟨s1, s2, -⟩ := Toy.claims_sized
  obtain ⟨d1, d2⟩ := Toy.claims_denote
  have hpair := Toy.pair_verdict ctx hctx
  have hfalse : ¬ Spec.Opening.Valid (7 : Fr) (1 : Fr) ⟨1, 5, 0, 0⟩ := by simp [Spec.Opening.Valid]
  have hlast : ¬ Accepts ctx (fun _ _ => 0) (Spec.batchOf [Toy.falseClaim, Toy.trueClaim]) :=
    fun h => hfalse ((hpair _ _ _ _ s2 s1 d2 d1).1 h)
  refine ⟨ctx, hctx, Toy.trueClaim, Toy.falseClaim, s1, s2, fun _ _ => 0,
    C86_true (setup 7) .no 7 1 1 (powersOfTau 7) nondegenerate ctx hctx _ [Toy.trueClaim] (by simpa using s1)
      (by simpa using Toy.trueClaim_true), ?_, (hpair _ _ _ _ s1 s2 d1 d2).2 (by simp [Spec.Opening.Valid]), hlast⟩
  intro h
  have ht := (C86_single (setup 7) .no 7 1 1 (powersOfTau 7) nondegenerate ctx hctx _ Toy.falseClaim s2).1 h
  exact hlast (C86_true (setup 7) .no 7 1 1 (powersOfTau 7) nondegenerate ctx hctx _ [Toy.falseClaim, Toy.trueClaim]
    (by simpa using ⟨s2, s1⟩) (by simpa using ⟨ht, Toy.trueClaim_true⟩))

/-- The hypotheses of C86_culprit, with a batch that is refused because of its last claim. -/
example : ∃ ctx : DASContext Fr Fr Fr, (DASContext.new (setup 7) .no : Outcome Error _) = .ok ctx ∧ ∀ sha256 sha256',
    ∃ e, verdict ctx sha256 [Toy.trueClaim, Toy.falseClaim, Toy.malformedClaim] = .err e ∧ e.invalidProof = false ∧
      verdict ctx sha256' [Toy.trueClaim] = .ok () ∧
      ∃ c ∈ [Toy.trueClaim, Toy.falseClaim, Toy.malformedClaim], ∀ sha256'', verdict ctx sha256'' [c] = .err e := by
  obtain ⟨ctx, hctx⟩ := context 7
  obtain ⟨s1, s2, s3⟩ := Toy.claims_sized
  refine ⟨ctx, hctx, fun sha256 sha256' => ?_⟩
  have hs : ∀ c ∈ [Toy.trueClaim, Toy.falseClaim, Toy.malformedClaim], c.Sized := by simpa using ⟨s1, s2, s3⟩
  obtain ⟨e, he, hi⟩ := (C86_malformed (setup 7) .no 7 1 1 (powersOfTau 7) ctx hctx sha256 _ hs).2
    ⟨Toy.malformedClaim, by simp, .inl (by show 128 ≤ 128; exact le_refl _)⟩
  exact ⟨e, he, hi, (C86_single (setup 7) .no 7 1 1 (powersOfTau 7) nondegenerate ctx hctx sha256' _ s1).2 Toy.trueClaim_true,
    C86_culprit (setup 7) .no 7 1 1 (powersOfTau 7) nondegenerate ctx hctx sha256 _ hs e he⟩

open Classical in
/-- The hypotheses of C86_nodes: two nodes, one with both claims in one batch and one with single claims; three batches, no question. -/
example (ctx : DASContext Fr Fr Fr) (hctx : (DASContext.new (setup 7) .no : Outcome Error _) = .ok ctx)
    (rest : List UInt8 → Spec.Digest) :
    ∃ D : Finset (List UInt8), (univ.filter (fun ω : Spec.Table D =>
      Accepts ctx (ω.hash rest) (Spec.batchOf [Toy.trueClaim, Toy.falseClaim]) ∧
      ¬ (Accepts ctx (ω.hash rest) (Spec.batchOf [Toy.falseClaim]) ∧ Accepts ctx (ω.hash rest) (Spec.batchOf [Toy.trueClaim])))).card *
        2 ^ 256 ≤ 9 * Fintype.card (Spec.Table D) := by
  obtain ⟨D, hD⟩ := exists_domain (48 + 2160 * 2)
  obtain ⟨s1, s2, -⟩ := Toy.claims_sized
  refine ⟨D, ?_⟩
  refine le_trans (Nat.mul_le_mul_right _ (card_le_card ?_)) (C86_nodes (setup 7) .no 7 1 1 (powersOfTau 7) nondegenerate ctx hctx 2
    (by norm_num) D hD rest
    (.output [[[Toy.trueClaim, Toy.falseClaim]], [[Toy.falseClaim], [Toy.trueClaim]]]) 0 3 trivial)
  intro ω hω
  obtain ⟨-, h1, h2⟩ := mem_filter.1 hω
  refine mem_filter.2 ⟨mem_univ _, by simp [Spec.Attacker.run], by simp [Spec.Attacker.run, s1, s2],
    [[Toy.trueClaim, Toy.falseClaim]], by simp [Spec.Attacker.run], [[Toy.falseClaim], [Toy.trueClaim]], by simp [Spec.Attacker.run],
    ?_, by simpa using h1, by simpa using h2⟩
  intro c
  simp [or_comm]

end

end Verif
