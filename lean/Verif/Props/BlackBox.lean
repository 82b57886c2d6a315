import Verif.Props.SelfTest
import Verif.Props.EmbeddedNetwork
import Verif.Spec.BlackBox

set_option linter.unusedSectionVars false

/-!
C88: attackers that use the groups as black boxes and do not know the secret.
-/
namespace Verif
open Polynomial Finset

section
variable {G1 G2 GT : Type} [AddCommGroup G1] [Module Fr G1] [DecidableEq G1] [PointCodec G1] [AddCommGroup G2] [Module Fr G2]
  [AddCommGroup GT] [DecidableEq GT] [Pairing G1 G2 GT]

theorem powersSetup_powers (P : G1) (H : G2) (τ : Fr) :
    Spec.PowersOfTau (Spec.powersSetup P H τ).g1Monomial (Spec.powersSetup P H τ).g2Monomial τ P H where
  length_g1 := by unfold Spec.powersSetup; rw [List.length_map, List.length_range]
  g1_eq i hi := by unfold Spec.powersSetup; rw [List.getElem?_map, List.getElem?_range hi, Option.map_some]
  length_g2 := by unfold Spec.powersSetup; rw [List.length_map, List.length_range]; omega
  g2_eq i hi := by
    unfold Spec.powersSetup at hi ⊢
    rw [List.length_map, List.length_range] at hi
    rw [List.getElem?_map, List.getElem?_range hi, Option.map_some]

theorem combination_range {G : Type} [AddCommGroup G] [Module Fr G] (f : Nat → G) (a : List Fr) (n s : Nat) :
    Spec.combination a ((List.range' s n).map f) = ∑ i ∈ range n, a.getD i 0 • f (s + i) := by
  induction n generalizing a s with
  | zero => cases a <;> rfl
  | succ n ih =>
    cases a with
    | nil =>
      rw [sum_eq_zero (fun i _ => by rw [List.getD_nil, zero_smul])]
      rfl
    | cons x a =>
      rw [List.range'_succ, List.map_cons, sum_range_succ']
      show x • f s + Spec.combination a _ = _
      rw [ih, add_comm]
      congr 1
      exact sum_congr rfl (fun i _ => by rw [List.getD_cons_succ, Nat.add_assoc, Nat.add_comm 1])

/-- a polynomial with the first `n` of the coefficients -/
noncomputable def polyN (n : Nat) (a : List Fr) : Fr[X] := ∑ i ∈ range n, C (a.getD i 0) * X ^ i

theorem polyN_degree (n : Nat) (a : List Fr) : (polyN (n + 1) a).natDegree ≤ n := by
  refine natDegree_sum_le_of_forall_le _ _ (fun i hi => ?_)
  have := mem_range.1 hi
  exact (natDegree_C_mul_X_pow_le _ _).trans (by omega)

theorem combination_powers {G : Type} [AddCommGroup G] [Module Fr G] (P : G) (τ : Fr) (n : Nat) (a : List Fr) :
    Spec.combination a ((List.range n).map (fun i => τ ^ i • P)) = (polyN n a).eval τ • P := by
  rw [List.range_eq_range', combination_range]
  unfold polyN
  rw [eval_finsetSum, sum_smul]
  refine sum_congr rfl (fun i _ => ?_)
  rw [Nat.zero_add, eval_mul, eval_C, eval_pow, eval_X, mul_smul]

/-- the polynomial that a question is about -/
noncomputable def questionN (n m : Nat) (terms : List (List Fr × List Fr)) : Fr[X] := (terms.map (fun t => polyN n t.1 * polyN m t.2)).sum

noncomputable def question (terms : List (List Fr × List Fr)) : Fr[X] := questionN 4096 65 terms

theorem questionN_two (n m : Nat) (a b c d : List Fr) : questionN n m [(a, b), (c, d)] = polyN n a * polyN m b + polyN n c * polyN m d := by
  simp only [questionN, List.map_cons, List.map_nil, List.sum_cons, List.sum_nil, add_zero]

theorem question_degree (terms : List (List Fr × List Fr)) : (question terms).natDegree ≤ 4159 := by
  unfold question questionN
  induction terms with
  | nil => simp
  | cons t l ih =>
    rw [List.map_cons, List.sum_cons]
    refine (natDegree_add_le _ _).trans (max_le ?_ ih)
    refine natDegree_mul_le.trans ?_
    have h1 : (polyN 4096 t.1).natDegree ≤ 4095 := polyN_degree 4095 t.1
    have h2 : (polyN 65 t.2).natDegree ≤ 64 := polyN_degree 64 t.2
    omega

theorem pair_mul [LawfulPairing G1 G2 GT] (P : G1) (H : G2) (a b : Fr) : (pair (a • P) (b • H) : GT) = pair ((a * b) • P) H := by
  rw [mul_comm, mul_smul, LawfulPairing.pair_smul b (a • P) H]

theorem question_answer [LawfulPairing G1 G2 GT] (P : G1) (H : G2) (hP : P ≠ 0) (hnd : ∀ a : G1, pair a H = (0 : GT) → a = 0) (τ : Fr)
    (terms : List (List Fr × List Fr)) :
    (terms.map (fun t => (pair (Spec.combination t.1 (Spec.powersSetup P H τ).g1Monomial)
      (Spec.combination t.2 (Spec.powersSetup P H τ).g2Monomial) : GT))).sum = 0 ↔ (question terms).eval τ = 0 := by
  have e : (terms.map (fun t => (pair (Spec.combination t.1 (Spec.powersSetup P H τ).g1Monomial)
      (Spec.combination t.2 (Spec.powersSetup P H τ).g2Monomial) : GT))).sum = pair ((question terms).eval τ • P) H := by
    have hc : ∀ t : List Fr × List Fr, (pair (Spec.combination t.1 (Spec.powersSetup P H τ).g1Monomial)
        (Spec.combination t.2 (Spec.powersSetup P H τ).g2Monomial) : GT) = pair ((polyN 4096 t.1 * polyN 65 t.2).eval τ • P) H := by
      intro t
      unfold Spec.powersSetup
      rw [combination_powers, combination_powers, pair_mul, eval_mul]
    unfold question questionN
    induction terms with
    | nil => rw [List.map_nil, List.map_nil, List.sum_nil, List.sum_nil, eval_zero, zero_smul, pair_zero_left]
    | cons t l ih =>
      rw [List.map_cons, List.map_cons, List.sum_cons, List.sum_cons, ih, hc, ← LawfulPairing.pair_add_left, ← add_smul, ← eval_add]
  rw [e]
  constructor
  · intro h
    exact (smul_eq_zero.1 (hnd _ h)).resolve_right hP
  · intro h
    rw [h, zero_smul, pair_zero_left]

/-- C88: the answers tell such an attacker nothing. With `q` questions its result is the same for all secrets but at most `4159 q`. -/
theorem C88_nothing_learned [LawfulPairing G1 G2 GT] (P : G1) (H : G2) (hP : P ≠ 0) (hnd : ∀ a : G1, pair a H = (0 : GT) → a = 0)
    {α : Type} (attack : Spec.Attack α) (q : Nat) (hq : attack.questions ≤ q) :
    ∃ (result : α) (known : Finset Fr), known.card ≤ q * 4159 ∧
      ∀ τ, τ ∉ known → attack.run (GT := GT) (Spec.powersSetup P H τ) = result := by
  induction attack generalizing q with
  | done a => exact ⟨a, ∅, Nat.zero_le _, fun _ _ => rfl⟩
  | ask terms yes no ihy ihn =>
    unfold Spec.Attack.questions at hq
    obtain ⟨q, rfl⟩ : ∃ m, q = m + 1 := ⟨q - 1, by omega⟩
    have hrun : ∀ τ, (Spec.Attack.ask terms yes no).run (GT := GT) (Spec.powersSetup P H τ) =
        if (question terms).eval τ = 0 then yes.run (GT := GT) (Spec.powersSetup P H τ) else no.run (GT := GT) (Spec.powersSetup P H τ) := by
      intro τ
      rw [Spec.Attack.run]
      exact if_congr (question_answer P H hP hnd τ terms) rfl rfl
    by_cases h0 : question terms = 0
    · obtain ⟨a, known, hc, h⟩ := ihy q (by omega)
      refine ⟨a, known, hc.trans (Nat.mul_le_mul_right _ (Nat.le_succ q)), fun τ hτ => ?_⟩
      rw [hrun, h0, eval_zero, if_pos rfl, h τ hτ]
    · obtain ⟨a, known, hc, h⟩ := ihn q (by omega)
      refine ⟨a, known ∪ (question terms).roots.toFinset, ?_, fun τ hτ => ?_⟩
      · have h1 := card_union_le known (question terms).roots.toFinset
        have h2 := Multiset.toFinset_card_le (question terms).roots
        have h3 := card_roots' (question terms)
        have h4 := question_degree terms
        omega
      · rw [mem_union, not_or, Multiset.mem_toFinset, mem_roots h0, IsRoot.def] at hτ
        rw [hrun, if_neg hτ.2, h τ hτ.1]

/-- from results to attacks: if each result is good for at most `B` secrets, an attack with `q` questions ends well for at most
`4159 q + B` -/
theorem attack_card [LawfulPairing G1 G2 GT] (P : G1) (H : G2) (hP : P ≠ 0) (hnd : ∀ a : G1, pair a H = (0 : GT) → a = 0)
    {α : Type} (attack : Spec.Attack α) (q : Nat) (hq : attack.questions ≤ q) (good : Fr → α → Prop) (B : Nat)
    (hB : ∀ a, ∃ s : Finset Fr, s.card ≤ B ∧ ∀ τ, good τ a → τ ∈ s) :
    ∃ s : Finset Fr, s.card ≤ q * 4159 + B ∧ ∀ τ, good τ (attack.run (GT := GT) (Spec.powersSetup P H τ)) → τ ∈ s := by
  obtain ⟨a, known, hc, h⟩ := C88_nothing_learned (GT := GT) P H hP hnd attack q hq
  obtain ⟨s, hs, hg⟩ := hB a
  refine ⟨known ∪ s, (card_union_le _ _).trans (by omega), fun τ hτ => ?_⟩
  by_cases hk : τ ∈ known
  · exact mem_union_left _ hk
  · rw [h τ hk] at hτ
    exact mem_union_right _ (hg τ hτ)

/-- C88: the secret is found for at most `4159 q + 1` values of it. -/
theorem C88_secret [LawfulPairing G1 G2 GT] (P : G1) (H : G2) (hP : P ≠ 0) (hnd : ∀ a : G1, pair a H = (0 : GT) → a = 0)
    (attack : Spec.Attack Fr) (q : Nat) (hq : attack.questions ≤ q) :
    (univ.filter (fun τ => attack.run (GT := GT) (Spec.powersSetup P H τ) = τ)).card ≤ q * 4159 + 1 := by
  obtain ⟨s, hs, h⟩ := attack_card (GT := GT) P H hP hnd attack q hq (fun τ a => a = τ) 1 (fun a => ⟨{a}, by simp, fun τ e => by simp [e]⟩)
  exact (card_le_card (fun τ hτ => h τ (mem_filter.1 hτ).2)).trans hs

end

section
variable {ε K G1 G2 GT : Type} [Field K] [DecidableEq K] [AddCommGroup G1] [Module Fr G1] [DecidableEq G1]
  [Curve K G1] [PointCodec G1] [AddCommGroup G2] [Module Fr G2] [AddCommGroup GT] [DecidableEq GT]
  [Pairing G1 G2 GT]

theorem polynomialOf_eq (a : List Fr) : Spec.polynomialOf a = polyN 4096 a := by
  unfold polyN Spec.polynomialOf
  rfl

theorem polynomialOf_degree (a : List Fr) : (Spec.polynomialOf a).natDegree ≤ 4095 := by
  rw [polynomialOf_eq]
  exact polyN_degree 4095 a

theorem polynomialOf_lt (a : List Fr) : (Spec.polynomialOf a).degree < 4096 := by
  refine lt_of_le_of_lt degree_le_natDegree ?_
  have := polynomialOf_degree a
  exact_mod_cast (show _ < 4096 by omega)

theorem combination_g1 (P : G1) (H : G2) (τ : Fr) (a : List Fr) :
    Spec.combination a (Spec.powersSetup P H τ).g1Monomial = (Spec.polynomialOf a).eval τ • P := by
  rw [polynomialOf_eq]
  unfold Spec.powersSetup
  rw [combination_powers]

open Classical in
/-- C88: with `q` questions a wrong cell gets accepted, with any hash function and precomputation, for at most `4159 (q + 1)` of the secrets. -/
theorem C88_cell [LawfulPointCodec G1 48] [LawfulPairing G1 G2 GT] (P : G1) (H : G2) (hP : P ≠ 0)
    (hnd : ∀ a : G1, pair a H = (0 : GT) → a = 0) (attack : Spec.Attack Spec.CombinationClaim) (q : Nat) (hq : attack.questions ≤ q) :
    (univ.filter (fun τ => let setup := Spec.powersSetup P H τ; let claim := attack.run (GT := GT) setup
      claim.cell.length = 2048 ∧ claim.Wrong ∧ ∃ (up : UsePrecomp) (ctx : DASContext K G1 G2) (sha256 : List UInt8 → List UInt8),
        (DASContext.new setup up : Outcome Error (DASContext K G1 G2)) = .ok ctx ∧
        ctx.verifyCellKzgProofBatch sha256 [toCompressed (Spec.combination claim.commitment setup.g1Monomial)] [claim.index] [claim.cell]
          [toCompressed (Spec.combination claim.proof setup.g1Monomial)] = .ok ())).card ≤ (q + 1) * 4159 := by
  obtain ⟨s, hs, h⟩ := attack_card (GT := GT) P H hP hnd attack q hq
    (fun τ claim => claim.cell.length = 2048 ∧ claim.Wrong ∧ ∃ (up : UsePrecomp) (ctx : DASContext K G1 G2)
      (sha256 : List UInt8 → List UInt8), (DASContext.new (Spec.powersSetup P H τ) up : Outcome Error (DASContext K G1 G2)) = .ok ctx ∧
        ctx.verifyCellKzgProofBatch sha256 [toCompressed (Spec.combination claim.commitment (Spec.powersSetup P H τ).g1Monomial)] [claim.index]
          [claim.cell] [toCompressed (Spec.combination claim.proof (Spec.powersSetup P H τ).g1Monomial)] = .ok ()) 4159 (by
      intro c
      by_cases hc : c.cell.length = 2048 ∧ c.Wrong ∧ c.index < 128 ∧ Spec.Canonical 64 c.cell
      · obtain ⟨hl, hw, hk, hcan⟩ := hc
        obtain ⟨bad, hb, h⟩ := C08_few_secrets (ε := Error) (K := K) (G1 := G1) (G2 := G2) (GT := GT) (Spec.polynomialOf c.commitment)
          (Spec.polynomialOf c.proof) c.index hk c.cell hl hcan hw
        have h1 := polynomialOf_degree c.commitment
        have h2 := polynomialOf_degree c.proof
        refine ⟨bad, hb.trans (by simp only [max_le_iff]; omega), ?_⟩
        rintro τ ⟨-, -, up, ctx, sha256, hctx, hok⟩
        rw [combination_g1, combination_g1] at hok
        exact h _ up τ P H ctx sha256 (powersSetup_powers P H τ) hnd hP hctx hok
      · refine ⟨∅, Nat.zero_le _, ?_⟩
        rintro τ ⟨hl, hw, up, ctx, sha256, hctx, hok⟩
        obtain ⟨-, -, -, hk, hcan, -⟩ := single_accepted ctx sha256 _ c.index c.cell _ (LawfulPointCodec.length_toCompressed _) hl
          (LawfulPointCodec.length_toCompressed _) hok
        exact absurd ⟨hl, hw, hk, hcan⟩ hc)
  rw [Nat.add_mul, Nat.one_mul]
  exact (card_le_card (fun τ hτ => h τ (mem_filter.1 hτ).2)).trans hs

theorem blobPoly_injective {b b' : List UInt8} {f : Fr[X]} (h : Spec.IsBlobPoly b f) (h' : Spec.IsBlobPoly b' f) : b = b' := by
  rw [← flatten_blocks 32 4096 b h.2.1, ← flatten_blocks 32 4096 b' h'.2.1]
  refine congrArg List.flatten (List.map_congr_left (fun i hi => ?_))
  have hi := List.mem_range.1 hi
  rw [encodes_iff.1 (h.2.2 i hi), encodes_iff.1 (h'.2.2 i hi)]

open Classical in
/-- C88: with `q` questions two different blobs with the same commitment are found for at most `4159 q + 4095` of the secrets. -/
theorem C88_blobs [LawfulPointCodec G1 48] [LawfulPairing G1 G2 GT] (P : G1) (H : G2) (hP : P ≠ 0)
    (hnd : ∀ a : G1, pair a H = (0 : GT) → a = 0) (attack : Spec.Attack (List UInt8 × List UInt8)) (q : Nat) (hq : attack.questions ≤ q) :
    (univ.filter (fun τ => let setup := Spec.powersSetup P H τ; let blobs := attack.run (GT := GT) setup
      blobs.1.length = 131072 ∧ blobs.2.length = 131072 ∧ blobs.1 ≠ blobs.2 ∧ ∃ (up : UsePrecomp) (ctx : DASContext K G1 G2) (c : List UInt8),
        (DASContext.new setup up : Outcome Error (DASContext K G1 G2)) = .ok ctx ∧
        ctx.blobToKzgCommitment blobs.1 = .ok c ∧ ctx.blobToKzgCommitment blobs.2 = .ok c)).card ≤ q * 4159 + 4095 := by
  obtain ⟨s, hs, h⟩ := attack_card (GT := GT) P H hP hnd attack q hq
    (fun τ blobs => blobs.1.length = 131072 ∧ blobs.2.length = 131072 ∧ blobs.1 ≠ blobs.2 ∧ ∃ (up : UsePrecomp) (ctx : DASContext K G1 G2)
        (c : List UInt8), (DASContext.new (Spec.powersSetup P H τ) up : Outcome Error (DASContext K G1 G2)) = .ok ctx ∧
        ctx.blobToKzgCommitment blobs.1 = .ok c ∧ ctx.blobToKzgCommitment blobs.2 = .ok c) 4095 (by
      rintro ⟨b1, b2⟩
      by_cases hb : b1 ≠ b2 ∧ (∃ f, Spec.IsBlobPoly b1 f) ∧ ∃ g, Spec.IsBlobPoly b2 g
      · obtain ⟨hne, ⟨f, hf⟩, g, hg⟩ := hb
        have h0 : f - g ≠ 0 := by
          intro e
          rw [sub_eq_zero.1 e] at hf
          exact hne (blobPoly_injective hf hg)
        refine ⟨(f - g).roots.toFinset, ?_, ?_⟩
        · refine (Multiset.toFinset_card_le _).trans ((card_roots' _).trans ?_)
          have := (natDegree_lt_iff_degree_lt h0 (n := 4096)).2 (lt_of_le_of_lt (degree_sub_le f g) (max_lt hf.1 hg.1))
          omega
        · rintro τ ⟨-, -, -, up, ctx, c, hctx, e1, e2⟩
          rw [C03_commitment _ up τ P H (powersSetup_powers P H τ) ctx hctx _ f hf] at e1
          rw [C03_commitment _ up τ P H (powersSetup_powers P H τ) ctx hctx _ g hg, ← e1] at e2
          have e3 := congrArg (fromCompressed (G := G1)) (Outcome.ok.inj e2)
          rw [LawfulPointCodec.fromCompressed_toCompressed, LawfulPointCodec.fromCompressed_toCompressed, Option.some.injEq] at e3
          rw [Multiset.mem_toFinset, mem_roots h0, IsRoot.def, eval_sub, sub_eq_zero]
          exact smul_left_injective Fr hP e3.symm
      · refine ⟨∅, Nat.zero_le _, ?_⟩
        rintro τ ⟨l1, l2, hne, up, ctx, c, hctx, e1, e2⟩
        refine absurd ⟨hne, ?_, ?_⟩ hb
        · by_contra hn
          obtain ⟨i, -, -, -, he, -⟩ := bad_blob (ctx := ctx) l1 hn
          rw [show ctx.blobToKzgCommitment b1 = _ from e1] at he
          cases he
        · by_contra hn
          obtain ⟨i, -, -, -, he, -⟩ := bad_blob (ctx := ctx) l2 hn
          rw [show ctx.blobToKzgCommitment b2 = _ from e2] at he
          cases he)
  exact (card_le_card (fun τ hτ => h τ (mem_filter.1 hτ).2)).trans hs

theorem challenge_const (x : Fr) (a : List (List UInt8)) (b : List Nat) (c d : List (List UInt8)) :
    Spec.challenge (fun _ => scalarToBytesBE x) a b c d = x := by
  unfold Spec.challenge
  rw [(encodes_scalarToBytesBE x).2, ZMod.natCast_zmod_val]

theorem singles_batch [LawfulPointCodec G1 48] [LawfulPairing G1 G2 GT] (setup : SetupPoints G1 G2) (up : UsePrecomp) (τ : Fr)
    (P : G1) (H : G2) (hpt : Spec.PowersOfTau setup.g1Monomial setup.g2Monomial τ P H)
    (hnd : ∀ a : G1, pair a H = (0 : GT) → a = 0)
    (ctx : DASContext K G1 G2) (hctx : (DASContext.new setup up : Outcome ε (DASContext K G1 G2)) = .ok ctx)
    (sha256 sha256' : List UInt8 → List UInt8) (cm : List UInt8) (hcm : cm.length = 48) (π : List Fr → List UInt8) (hπ : ∀ a, (π a).length = 48)
    (l : List (Nat × List UInt8 × List Fr)) (hl : ∀ x ∈ l, x.2.1.length = 2048)
    (h : ∀ x ∈ l, ctx.verifyCellKzgProofBatch sha256 [cm] [x.1] [x.2.1] [π x.2.2] = .ok ()) :
    ctx.verifyCellKzgProofBatch sha256' (List.replicate l.length cm) (l.map (·.1)) (l.map (·.2.1)) (l.map (fun x => π x.2.2)) = .ok () := by
  have hparts := C86_parts _ up τ P H hpt hnd ctx hctx sha256 sha256' (l.map (fun x => (⟨cm, x.1, x.2.1, π x.2.2⟩ : Spec.CellClaim))) (by
      intro c hc
      obtain ⟨x, hx, rfl⟩ := List.mem_map.1 hc
      exact ⟨hcm, hl x hx, hπ _⟩) (by
      intro c hc
      obtain ⟨x, hx, rfl⟩ := List.mem_map.1 hc
      exact h x hx)
  unfold verdict at hparts
  rw [List.map_map, List.map_map, List.map_map, List.map_map] at hparts
  rw [show l.map (Spec.CellClaim.commitment ∘ fun x => (⟨cm, x.1, x.2.1, π x.2.2⟩ : Spec.CellClaim)) = List.replicate l.length cm from
    List.map_const'] at hparts
  exact hparts

open Classical in
/-- C88: with `q` questions, accepted cells with 64 or more different indices for one commitment, checked one by one, are available: recovery
returns the cells and proofs of a blob with this commitment, the accepted cells among them. This fails for at most `4159 (q + 128)` secrets. -/
theorem C88_available [LawfulPointCodec G1 48] [LawfulPairing G1 G2 GT] (P : G1) (H : G2) (hP : P ≠ 0)
    (hnd : ∀ a : G1, pair a H = (0 : GT) → a = 0) (attack : Spec.Attack (List Fr × List (Nat × List UInt8 × List Fr))) (q : Nat)
    (hq : attack.questions ≤ q) :
    (univ.filter (fun τ => let setup := Spec.powersSetup P H τ; let result := attack.run (GT := GT) setup
      let commitment := toCompressed (Spec.combination result.1 setup.g1Monomial)
      64 ≤ result.2.length ∧ (result.2.map (·.1)).Nodup ∧ (∀ x ∈ result.2, x.2.1.length = 2048) ∧
      ∃ (up : UsePrecomp) (ctx recoverer : DASContext K G1 G2) (sha256 : List UInt8 → List UInt8),
        (DASContext.new setup up : Outcome Error (DASContext K G1 G2)) = .ok ctx ∧
        (DASContext.new setup .no : Outcome Error (DASContext K G1 G2)) = .ok recoverer ∧
        (∀ x ∈ result.2, ctx.verifyCellKzgProofBatch sha256 [commitment] [x.1] [x.2.1]
          [toCompressed (Spec.combination x.2.2 setup.g1Monomial)] = .ok ()) ∧
        ¬ Available recoverer commitment (result.2.map (·.1)) (result.2.map (·.2.1)))).card ≤ (q + 128) * 4159 := by
  obtain ⟨s, hs, h⟩ := attack_card (GT := GT) P H hP hnd attack q hq
    (fun τ result => 64 ≤ result.2.length ∧ (result.2.map (·.1)).Nodup ∧ (∀ x ∈ result.2, x.2.1.length = 2048) ∧
      ∃ (up : UsePrecomp) (ctx recoverer : DASContext K G1 G2) (sha256 : List UInt8 → List UInt8),
        (DASContext.new (Spec.powersSetup P H τ) up : Outcome Error (DASContext K G1 G2)) = .ok ctx ∧
        (DASContext.new (Spec.powersSetup P H τ) .no : Outcome Error (DASContext K G1 G2)) = .ok recoverer ∧
        (∀ x ∈ result.2, ctx.verifyCellKzgProofBatch sha256 [toCompressed (Spec.combination result.1 (Spec.powersSetup P H τ).g1Monomial)] [x.1]
          [x.2.1] [toCompressed (Spec.combination x.2.2 (Spec.powersSetup P H τ).g1Monomial)] = .ok ()) ∧
        ¬ Available recoverer (toCompressed (Spec.combination result.1 (Spec.powersSetup P H τ).g1Monomial)) (result.2.map (·.1))
          (result.2.map (·.2.1))) (128 * 4159) (by
      rintro ⟨a, l⟩
      by_cases hw : Spec.RecoveryWellFormed (l.map (·.1)) (l.map (·.2.1)) ∧ ∀ x ∈ l, x.2.1.length = 2048
      · obtain ⟨hw, hl⟩ := hw
        obtain ⟨secrets, hc, h⟩ := C57_algebraic (ε := Error) (K := K) (G1 := G1) (G2 := G2) (GT := GT) (Spec.polynomialOf a) (polynomialOf_lt a)
          (l.map (·.1)) (l.map (·.2.1)) (l.map (fun x => Spec.polynomialOf x.2.2)) (by
            intro q hq
            obtain ⟨x, -, rfl⟩ := List.mem_map.1 hq
            exact polynomialOf_lt _) (by rw [List.length_map, List.length_map]) (by
            intro c hc
            obtain ⟨x, hx, rfl⟩ := List.mem_map.1 hc
            exact hl x hx) hw
        have hlen : (l.map (·.1)).length ≤ 128 := by
          have := (List.subperm_of_subset hw.distinct (l₂ := List.range 128) (fun i hi => List.mem_range.2 (hw.inRange i hi))).length_le
          rwa [List.length_range] at this
        refine ⟨secrets, hc.trans (Nat.mul_le_mul_right _ hlen), ?_⟩
        rintro τ ⟨-, -, -, up, ctx, recoverer, sha256, hctx, hrec, hok, hnot⟩
        by_contra hτ
        apply hnot
        dsimp only at hok ⊢
        rw [combination_g1] at hok ⊢
        obtain ⟨bad, hbad, hb⟩ := h _ up τ P H ctx recoverer _ _ (powersSetup_powers P H τ) hnd hP hctx hrec rfl rfl hτ
        obtain ⟨x, hx⟩ : ∃ x : Fr, x ∉ bad := by
          by_contra hall
          push Not at hall
          have h1 : (univ : Finset Fr).card ≤ bad.card := card_le_card (fun x _ => hall x)
          rw [card_univ, ZMod.card] at h1
          have h2 : 128 < frOrder := by decide +kernel
          omega
        refine (hb (fun _ => scalarToBytesBE x) ?_).resolve_left (by rw [challenge_const]; exact hx)
        have hall := singles_batch _ up τ P H (powersSetup_powers P H τ) hnd ctx hctx sha256 (fun _ => scalarToBytesBE x) _
          (LawfulPointCodec.length_toCompressed _) (fun a => toCompressed ((Spec.polynomialOf a).eval τ • P))
          (fun a => LawfulPointCodec.length_toCompressed _) l hl (by
            intro x hx
            have := hok x hx
            rw [combination_g1] at this
            exact this)
        rw [List.length_map, List.map_map]
        exact hall
      · refine ⟨∅, Nat.zero_le _, ?_⟩
        rintro τ ⟨hlen, hnd', hl, up, ctx, recoverer, sha256, hctx, -, hok, -⟩
        have hs : ∀ x ∈ l, x.1 < 128 ∧ Spec.Canonical 64 x.2.1 := by
          intro x hx
          obtain ⟨-, -, -, hk, hcan, -⟩ := single_accepted ctx sha256 _ x.1 x.2.1 _ (LawfulPointCodec.length_toCompressed _) (hl x hx)
            (LawfulPointCodec.length_toCompressed _) (hok x hx)
          exact ⟨hk, hcan⟩
        refine absurd ⟨⟨by rw [List.length_map, List.length_map], ?_, hnd', by rw [List.length_map]; exact hlen, ?_⟩, hl⟩ hw
        · intro i hi
          obtain ⟨x, hx, rfl⟩ := List.mem_map.1 hi
          exact (hs x hx).1
        · intro c hc
          obtain ⟨x, hx, rfl⟩ := List.mem_map.1 hc
          exact (hs x hx).2)
  rw [Nat.add_mul]
  exact (card_le_card (fun τ hτ => h τ (mem_filter.1 hτ).2)).trans hs

/-- the first `n` coefficients -/
def coefficients (n : Nat) (p : Fr[X]) : List Fr := (List.range n).map p.coeff

theorem polyN_coefficients {n : Nat} {p : Fr[X]} (h : p.natDegree < n) : polyN n (coefficients n p) = p := by
  unfold polyN coefficients
  conv_rhs => rw [as_sum_range_C_mul_X_pow' p h]
  refine sum_congr rfl (fun i hi => ?_)
  rw [List.getD, List.getElem?_map, List.getElem?_range (mem_range.1 hi), Option.map_some, Option.getD_some]

/-- the polynomial with the given roots -/
noncomputable def rootsPoly (S : Finset Fr) : Fr[X] := ∏ s ∈ S, (X - C s)

theorem rootsPoly_degree (S : Finset Fr) : (rootsPoly S).natDegree = S.card := by
  unfold rootsPoly
  rw [natDegree_prod_of_monic _ _ (fun s _ => monic_X_sub_C s)]
  simp

theorem rootsPoly_eval (S : Finset Fr) (x : Fr) : (rootsPoly S).eval x = 0 ↔ x ∈ S := by
  unfold rootsPoly
  rw [eval_prod, prod_eq_zero_iff]
  constructor
  · rintro ⟨s, hs, h⟩
    rw [eval_sub, eval_X, eval_C, sub_eq_zero] at h
    rwa [h]
  · intro h
    exact ⟨x, h, by rw [eval_sub, eval_X, eval_C, sub_self]⟩

/-- a claim about the commitment at infinity that is true for given secrets -/
noncomputable def claimFor (k : Nat) (S : Finset Fr) : Spec.CombinationClaim :=
  ⟨[], k, cellOf (rootsPoly S) k, coefficients 4096 (rootsPoly S /ₘ cellDivisor k)⟩

/-- is the secret in the set? -/
noncomputable def termsFor (k : Nat) (S : Finset Fr) : List (List Fr × List Fr) :=
  [(coefficients 4096 (rootsPoly S /ₘ cellDivisor k), coefficients 65 (cellDivisor k)),
    (coefficients 4096 (rootsPoly S %ₘ cellDivisor k), coefficients 65 1)]

theorem quotient_small {S : Finset Fr} (hS : S.card ≤ 4159) (k : Nat) : (rootsPoly S /ₘ cellDivisor k).natDegree < 4096 := by
  rw [natDegree_divByMonic _ (cellDivisor_monic k), rootsPoly_degree, cellDivisor_natDegree]
  omega

theorem remainder_small (p : Fr[X]) (k : Nat) : (p %ₘ cellDivisor k).natDegree < 4096 := by
  by_cases h0 : p %ₘ cellDivisor k = 0
  · rw [h0, natDegree_zero]; norm_num
  · refine (natDegree_lt_iff_degree_lt h0).2 (lt_of_lt_of_le (mod_degree p k) ?_)
    exact_mod_cast (show 64 ≤ 4096 by norm_num)

theorem question_termsFor {S : Finset Fr} (hS : S.card ≤ 4159) (k : Nat) : question (termsFor k S) = rootsPoly S := by
  have h1 := polyN_coefficients (quotient_small hS k)
  have h2 := polyN_coefficients (remainder_small (rootsPoly S) k)
  have h3 : polyN 65 (coefficients 65 (cellDivisor k)) = cellDivisor k := polyN_coefficients (by rw [cellDivisor_natDegree]; norm_num)
  have h4 : polyN 65 (coefficients 65 1) = 1 := polyN_coefficients (by rw [natDegree_one]; norm_num)
  unfold termsFor question
  rw [questionN_two, h1, h2, h3, h4, mul_one, mul_comm, add_comm]
  exact modByMonic_add_div _ _

theorem polynomialOf_nil : Spec.polynomialOf [] = 0 := by
  unfold Spec.polynomialOf
  exact sum_eq_zero (fun i _ => by rw [List.getD_nil, C_0, zero_mul])

theorem claimFor_wins [LawfulPointCodec G1 48] [LawfulPairing G1 G2 GT] (P : G1) (H : G2) (hnd : ∀ a : G1, pair a H = (0 : GT) → a = 0)
    (k : Nat) (hk : k < 128) {S : Finset Fr} (hS : S.card ≤ 4159) (hc : ∀ j < 64, Spec.point 13 (64 * k + j) ∉ S) :
    (claimFor k S).Wrong ∧ ∀ τ ∈ S, ∀ (up : UsePrecomp) (ctx : DASContext K G1 G2) (sha256 : List UInt8 → List UInt8),
      (DASContext.new (Spec.powersSetup P H τ) up : Outcome ε (DASContext K G1 G2)) = .ok ctx →
      ctx.verifyCellKzgProofBatch sha256 [toCompressed (Spec.combination (claimFor k S).commitment (Spec.powersSetup P H τ).g1Monomial)]
        [(claimFor k S).index] [(claimFor k S).cell]
        [toCompressed (Spec.combination (claimFor k S).proof (Spec.powersSetup P H τ).g1Monomial)] = .ok () := by
  have hcell : Spec.IsCell (rootsPoly S) k (cellOf (rootsPoly S) k) := (isCell_iff _ _ _).2 rfl
  constructor
  · intro h
    unfold claimFor at h
    dsimp only at h
    rw [polynomialOf_nil] at h
    have h0 := h.2 0 (by omega)
    rw [eval_zero] at h0
    exact hc 0 (by omega) ((rootsPoly_eval _ _).1 (encodes_inj (hcell.2 0 (by omega)) h0))
  · intro τ hτ up ctx sha256 hctx
    have he := (rootsPoly_eval S τ).2 hτ
    unfold claimFor
    dsimp only
    rw [combination_g1, combination_g1, polynomialOf_nil, polynomialOf_eq, polyN_coefficients (quotient_small hS k), eval_zero, zero_smul]
    refine (C06_single _ up τ P H (powersSetup_powers P H τ) hnd ctx hctx sha256 _ k _ _ (LawfulPointCodec.length_toCompressed _)
      (LawfulPointCodec.length_toCompressed _) 0 _ (rootsPoly S %ₘ cellDivisor k) (LawfulPointCodec.fromCompressed_toCompressed _) hk
      (mod_degree _ _) ((isCell_mod _ _ _).2 hcell) (LawfulPointCodec.fromCompressed_toCompressed _)).2 ?_
    rw [← mul_smul, zero_sub, ← neg_smul, ← cellDivisor_eval, ← eval_mul]
    have e : (cellDivisor k * (rootsPoly S /ₘ cellDivisor k)).eval τ = -(rootsPoly S %ₘ cellDivisor k).eval τ := by
      rw [eq_neg_iff_add_eq_zero, ← eval_add, add_comm, modByMonic_add_div, he]
    rw [e]

/-- C88: the bound is attained. For every set of `4159 (q + 1)` secrets (other than the 64 points of a cell) there is an attack with `q`
questions that gets a wrong cell accepted for all of them. -/
theorem C88_tight [LawfulPointCodec G1 48] [LawfulPairing G1 G2 GT] (P : G1) (H : G2) (hP : P ≠ 0)
    (hnd : ∀ a : G1, pair a H = (0 : GT) → a = 0) (k : Nat) (hk : k < 128) (q : Nat) (S : Finset Fr) (hS : S.card ≤ (q + 1) * 4159)
    (hc : ∀ j < 64, Spec.point 13 (64 * k + j) ∉ S) :
    ∃ attack : Spec.Attack Spec.CombinationClaim, attack.questions ≤ q ∧
      ∀ τ ∈ S, let setup := Spec.powersSetup P H τ; let claim := attack.run (GT := GT) setup
        claim.cell.length = 2048 ∧ claim.Wrong ∧ ∀ (up : UsePrecomp) (ctx : DASContext K G1 G2) (sha256 : List UInt8 → List UInt8),
        (DASContext.new setup up : Outcome ε (DASContext K G1 G2)) = .ok ctx →
        ctx.verifyCellKzgProofBatch sha256 [toCompressed (Spec.combination claim.commitment setup.g1Monomial)] [claim.index] [claim.cell]
          [toCompressed (Spec.combination claim.proof setup.g1Monomial)] = .ok () := by
  have hlen : ∀ T : Finset Fr, (claimFor k T).cell.length = 2048 := fun T => ((isCell_iff _ _ _).2 rfl : Spec.IsCell (rootsPoly T) k _).1
  induction q generalizing S with
  | zero =>
    rw [Nat.zero_add, Nat.one_mul] at hS
    obtain ⟨h1, h2⟩ := claimFor_wins (ε := ε) (K := K) P H hnd k hk hS hc
    exact ⟨.done (claimFor k S), Nat.le_refl _, fun τ hτ => ⟨hlen S, h1, h2 τ hτ⟩⟩
  | succ q ih =>
    obtain ⟨T, hTS, hT, hrest⟩ : ∃ T ⊆ S, T.card ≤ 4159 ∧ (S \ T).card ≤ (q + 1) * 4159 := by
      by_cases hsmall : S.card ≤ 4159
      · exact ⟨S, Subset.refl _, hsmall, by rw [sdiff_self]; exact Nat.zero_le _⟩
      · obtain ⟨T, hTS, hT⟩ := exists_subset_card_eq (s := S) (n := 4159) (by omega)
        refine ⟨T, hTS, hT.le, ?_⟩
        have h3 := card_sdiff_add_card_eq_card hTS
        rw [hT] at h3
        rw [Nat.add_mul, Nat.one_mul] at hS
        omega
    obtain ⟨h1, h2⟩ := claimFor_wins (ε := ε) (K := K) P H hnd k hk hT (fun j hj h => hc j hj (hTS h))
    obtain ⟨attack, hq, hw⟩ := ih (S \ T) hrest (fun j hj h => hc j hj (mem_sdiff.1 h).1)
    refine ⟨.ask (termsFor k T) (.done (claimFor k T)) attack, ?_, ?_⟩
    · show max 0 attack.questions + 1 ≤ q + 1
      omega
    · intro τ hτ
      have hrun : (Spec.Attack.ask (termsFor k T) (.done (claimFor k T)) attack).run (GT := GT) (Spec.powersSetup P H τ) =
          if τ ∈ T then claimFor k T else attack.run (GT := GT) (Spec.powersSetup P H τ) := by
        rw [Spec.Attack.run]
        refine if_congr ?_ rfl rfl
        rw [question_answer P H hP hnd, question_termsFor hT, rootsPoly_eval]
      dsimp only
      rw [hrun]
      by_cases hin : τ ∈ T
      · rw [if_pos hin]
        exact ⟨hlen T, h1, h2 τ hin⟩
      · rw [if_neg hin]
        exact hw τ (mem_sdiff.2 ⟨hτ, hin⟩)

end

section
open Bls
variable {GT : Type} [AddCommGroup GT] [DecidableEq GT] [Pairing Bls.G1 Bls.G2 GT]

open Classical in
/-- C88 on BLS12-381: an attack with `2^128` questions gets a wrong cell accepted for a fraction of the secrets of at most `2^-112`. -/
theorem C88_bls [LawfulPairing Bls.G1 Bls.G2 GT] (hnd : (pair generator generator2 : GT) ≠ 0) (attack : Spec.Attack Spec.CombinationClaim)
    (hq : attack.questions ≤ 2 ^ 128) :
    (univ.filter (fun τ => let setup := Spec.powersSetup generator generator2 τ; let claim := attack.run (GT := GT) setup
      claim.cell.length = 2048 ∧ claim.Wrong ∧ ∃ (up : UsePrecomp) (ctx : DASContext Fp Bls.G1 Bls.G2) (sha256 : List UInt8 → List UInt8),
        (DASContext.new setup up : Outcome Error (DASContext Fp Bls.G1 Bls.G2)) = .ok ctx ∧
        ctx.verifyCellKzgProofBatch sha256 [toCompressed (Spec.combination claim.commitment setup.g1Monomial)] [claim.index] [claim.cell]
          [toCompressed (Spec.combination claim.proof setup.g1Monomial)] = .ok ())).card * 2 ^ 112 ≤ Fintype.card Fr := by
  refine (Nat.mul_le_mul_right _ (C88_cell (GT := GT) generator generator2 generator_ne (embedded_nondegenerate hnd) attack _ hq)).trans ?_
  rw [ZMod.card]
  decide +kernel

end

section
open Toy

/-- one question: is the secret 7? -/
def guess : Spec.Attack Fr := .ask [([-7, 1], [1])] (.done 7) (.done 0)

example : guess.questions = 1 := rfl

/-- it finds out -/
example : guess.run (GT := Fr) (Spec.powersSetup (1 : Fr) (1 : Fr) 7) = 7 ∧ guess.run (GT := Fr) (Spec.powersSetup (1 : Fr) (1 : Fr) 8) = 0 := by
  have h : ∀ τ : Fr, guess.run (GT := Fr) (Spec.powersSetup (1 : Fr) (1 : Fr) τ) = if τ = 7 then 7 else 0 := by
    intro τ
    unfold guess
    rw [Spec.Attack.run]
    refine if_congr ?_ rfl rfl
    rw [question_answer (1 : Fr) (1 : Fr) one_ne_zero nondegenerate]
    have e : question [([-7, 1], [1])] = X - C 7 := by
      have e1 : ∀ n m : Nat, questionN (n + 2) (m + 1) [([-7, 1], [1])] = X - C 7 := by
        intro n m
        have h1 : polyN (n + 2) [-7, 1] = X - C 7 := by
          unfold polyN
          rw [sum_range_succ', sum_range_succ', sum_eq_zero (fun i _ => by simp)]
          simp
          ring
        have h2 : polyN (m + 1) [1] = 1 := by
          unfold polyN
          rw [sum_range_succ', sum_eq_zero (fun i _ => by simp)]
          simp
        simp only [questionN, List.map_cons, List.map_nil, List.sum_cons, List.sum_nil, add_zero]
        rw [h1, h2, mul_one]
      exact e1 4094 64
    rw [e, eval_sub, eval_X, eval_C, sub_eq_zero]
  refine ⟨by rw [h, if_pos rfl], ?_⟩
  rw [h, if_neg]
  decide +kernel

/-- the hypotheses are met: groups, generators, and secrets outside a cell -/
example : ∃ attack : Spec.Attack Spec.CombinationClaim, attack.questions ≤ 0 ∧
    ∀ ctx : DASContext Fr Fr Fr, ∀ sha256,
      (DASContext.new (Spec.powersSetup (1 : Fr) (1 : Fr) 7) .no : Outcome Error (DASContext Fr Fr Fr)) = .ok ctx →
      (attack.run (GT := Fr) (Spec.powersSetup (1 : Fr) (1 : Fr) 7)).Wrong ∧
      ctx.verifyCellKzgProofBatch sha256
        [toCompressed (Spec.combination (attack.run (GT := Fr) (Spec.powersSetup (1 : Fr) (1 : Fr) 7)).commitment
          (Spec.powersSetup (1 : Fr) (1 : Fr) 7).g1Monomial)]
        [(attack.run (GT := Fr) (Spec.powersSetup (1 : Fr) (1 : Fr) 7)).index]
        [(attack.run (GT := Fr) (Spec.powersSetup (1 : Fr) (1 : Fr) 7)).cell]
        [toCompressed (Spec.combination (attack.run (GT := Fr) (Spec.powersSetup (1 : Fr) (1 : Fr) 7)).proof
          (Spec.powersSetup (1 : Fr) (1 : Fr) 7).g1Monomial)] = .ok () := by
  obtain ⟨attack, hq, h⟩ := C88_tight (ε := Error) (K := Fr) (GT := Fr) (1 : Fr) (1 : Fr) one_ne_zero nondegenerate 5 (by omega) 0 {7} (by simp)
    (fun j hj hm => seven_outside 5 j hj (mem_singleton.1 hm).symm)
  obtain ⟨-, h1, h2⟩ := h 7 (mem_singleton_self _)
  exact ⟨attack, hq, fun ctx sha256 hctx => ⟨h1, h2 .no ctx sha256 hctx⟩⟩

end

end Verif
