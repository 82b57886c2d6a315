import Verif.Lemmas.Sampling
import Verif.Props.RandomOracle

set_option linter.unusedSectionVars false

/-!
C83: data-availability sampling. Clients ask for random columns and check what they get with `verify_cell_kzg_proof_batch`.
-/
namespace Verif
open Polynomial Finset

section
variable {ε K G1 G2 GT : Type} [Field K] [DecidableEq K] [AddCommGroup G1] [Module Fr G1] [DecidableEq G1]
  [Curve K G1] [PointCodec G1] [AddCommGroup G2] [Module Fr G2] [AddCommGroup GT] [DecidableEq GT]
  [Pairing G1 G2 GT]

/-- The client got a reply, all fields have the sizes of the Rust types, and the verifier accepts: `b` is the batch it checked. -/
def Checked {k : Nat} (ctx : DASContext K G1 G2) (hash : List UInt8 → Spec.Digest) (cm : List UInt8) (r : Spec.ColumnRequest k)
    (a : Option (Spec.Reply k)) (b : Spec.Batch) : Prop :=
  ∃ x, a = some x ∧ b = r.batch cm x ∧ b.Sized k ∧ Accepts ctx hash b

/-- what an entry of a batch with one commitment denotes -/
theorem decodes_column {cm : List UInt8} {b : Spec.Batch} (hb : b.commitments = List.replicate b.inds.length cm)
    {items : List (Spec.Opening G1)} (hd : Spec.Decodes b.commitments b.inds b.cells b.proofs items)
    {x : Nat × List UInt8 × List UInt8} (hx : x ∈ b.columns) :
    ∃ o ∈ items, fromCompressed cm = some o.commitment ∧ (x.1 = o.index ∧ x.1 < 128) ∧
      (o.interp.degree < 64 ∧ Spec.IsCell o.interp o.index x.2.1) ∧ fromCompressed x.2.2 = some o.proof := by
  obtain ⟨i, hi, rfl⟩ := List.mem_iff_getElem.1 hx
  unfold Spec.Batch.columns at hi ⊢
  simp only [List.length_zip] at hi
  have l1 := hd.commitments.length_eq
  have l2 := hd.indices.length_eq
  have hl : b.commitments.length = b.inds.length := by rw [hb]; simp
  have hlt : i < items.length := by omega
  refine ⟨items[i], List.getElem_mem _, ?_, ?_, ?_, ?_⟩
  · have := forall₂_getElem hd.commitments (i := i) (by omega) hlt
    rw [List.getElem_of_eq hb, List.getElem_replicate] at this
    exact this
  · simpa using forall₂_getElem hd.indices (i := i) (by omega) hlt
  · simpa using forall₂_getElem hd.cells (i := i) (by omega) hlt
  · simpa using forall₂_getElem hd.proofs (i := i) (by omega) hlt

/-- A collection of true claims decodes to true claims. -/
theorem collects_items (τ : Fr) (P : G1) {cm : List UInt8} {bs : Spec.Batch → Prop} {b : Spec.Batch} (hc : b.Collects cm bs)
    (hbs : ∀ c, bs c → c.commitments = List.replicate c.inds.length cm ∧ ∃ items : List (Spec.Opening G1),
      Spec.Decodes c.commitments c.inds c.cells c.proofs items ∧ ∀ o ∈ items, o.Valid τ P) :
    ∃ items : List (Spec.Opening G1), Spec.Decodes b.commitments b.inds b.cells b.proofs items ∧ ∀ o ∈ items, o.Valid τ P := by
  have h1 := hc.cells
  have h2 := hc.proofs
  have hex : ∀ i : Fin b.inds.length, ∃ o : Spec.Opening G1, o.Valid τ P ∧ fromCompressed cm = some o.commitment ∧
      (b.inds[i] = o.index ∧ b.inds[i] < 128) ∧
      (o.interp.degree < 64 ∧ Spec.IsCell o.interp o.index (b.cells[i]'(by have := i.2; omega))) ∧
      fromCompressed (b.proofs[i]'(by have := i.2; omega)) = some o.proof := by
    intro i
    obtain ⟨c, hbc, hm⟩ := hc.received (b.inds[i], b.cells[i]'(by have := i.2; omega), b.proofs[i]'(by have := i.2; omega)) (by
      unfold Spec.Batch.columns
      rw [List.mem_iff_getElem]
      exact ⟨i, by have := i.2; simp only [List.length_zip]; omega, by simp⟩)
    obtain ⟨hr, items, hd, hv⟩ := hbs c hbc
    obtain ⟨o, ho, a1, a2, a3, a4⟩ := decodes_column hr hd hm
    exact ⟨o, hv o ho, a1, a2, a3, a4⟩
  choose f hf using hex
  refine ⟨List.ofFn f, ⟨?_, ?_, ?_, ?_⟩, ?_⟩
  · rw [hc.commitments, List.forall₂_iff_get]
    refine ⟨by simp, ?_⟩
    intro i hi hi'
    simp only [List.get_eq_getElem, List.getElem_replicate, List.getElem_ofFn]
    exact (hf _).2.1
  · rw [List.forall₂_iff_get]
    refine ⟨by simp, ?_⟩
    intro i hi hi'
    simp only [List.get_eq_getElem, List.getElem_ofFn]
    exact (hf ⟨i, hi⟩).2.2.1
  · rw [List.forall₂_iff_get]
    refine ⟨by simp [h1], ?_⟩
    intro i hi hi'
    simp only [List.get_eq_getElem, List.getElem_ofFn]
    exact (hf ⟨i, by omega⟩).2.2.2.1
  · rw [List.forall₂_iff_get]
    refine ⟨by simp [h2], ?_⟩
    intro i hi hi'
    simp only [List.get_eq_getElem, List.getElem_ofFn]
    exact (hf ⟨i, by omega⟩).2.2.2.2
  · intro o ho
    obtain ⟨i, rfl⟩ := (List.mem_ofFn' _ _).1 ho
    exact (hf i).1

/-- At least 64 columns from true claims: recovery gives the blob, or the columns break the setup. -/
theorem collects_available [LawfulPointCodec G1 48] [LawfulPairing G1 G2 GT] (setup : SetupPoints G1 G2) (τ : Fr)
    (P : G1) (H : G2) (hpt : Spec.PowersOfTau setup.g1Monomial setup.g2Monomial τ P H) (hτ : ∀ i < 8192, τ ≠ Spec.point 13 i)
    (ctx : DASContext K G1 G2) (hctx : (DASContext.new setup .no : Outcome Error (DASContext K G1 G2)) = .ok ctx)
    {cm : List UInt8} {bs : Spec.Batch → Prop} {b : Spec.Batch} (hc : b.Collects cm bs) {n : Nat}
    (hbs : ∀ c, bs c → c.Sized n ∧ c.commitments = List.replicate c.inds.length cm ∧ ∃ items : List (Spec.Opening G1),
      Spec.Decodes c.commitments c.inds c.cells c.proofs items ∧ ∀ o ∈ items, o.Valid τ P) (h64 : 64 ≤ b.inds.length) :
    Available ctx cm b.inds b.cells ∨ Spec.BreaksSetup (GT := GT) setup.g1Monomial setup.g2Monomial τ P H b cm := by
  obtain ⟨items, hd, hv⟩ := collects_items τ P hc (fun c h => (hbs c h).2)
  have h1 := hc.cells
  have h2 := hc.proofs
  have hcol : ∀ i (hi : i < b.inds.length), ∃ c, bs c ∧ (b.inds[i], b.cells[i], b.proofs[i]) ∈ c.columns := by
    intro i hi
    refine hc.received _ ?_
    unfold Spec.Batch.columns
    rw [List.mem_iff_getElem]
    exact ⟨i, by simp only [List.length_zip]; omega, by simp⟩
  have hcl : ∀ c ∈ b.cells, c.length = 2048 := by
    intro c hcm
    obtain ⟨i, hi, rfl⟩ := List.mem_iff_getElem.1 hcm
    obtain ⟨c, hbc, hm⟩ := hcol i (by omega)
    exact (hbs c hbc).1.2.1 _ (List.of_mem_zip (List.of_mem_zip hm).2).1
  have hcm : cm.length = 48 := by
    obtain ⟨c, hbc, hm⟩ := hcol 0 (by omega)
    have h3 := (List.of_mem_zip hm).1
    refine (hbs c hbc).1.1 cm ?_
    rw [(hbs c hbc).2.1]
    exact List.mem_replicate.2 ⟨by have := List.length_pos_of_mem h3; omega, rfl⟩
  have hd2 := hd
  rw [hc.commitments] at hd2
  obtain ⟨f, hf, h⟩ := available_of_valid (GT := GT) setup τ P H hpt ctx hctx cm b.inds b.cells b.proofs hcm hcl h64 hc.distinct
    items hd2
  rcases h hv with ⟨i, hi, h⟩ | h | ⟨C, N, W, hC, rfl, h1, h2, rfl, h3, h4⟩ | h
  · exact absurd h (hτ i hi)
  · exact .inl h
  · exact .inr ⟨items, f, hd, hf, .inl ⟨C, hC, h1, h2, h3, h4⟩⟩
  · exact .inr ⟨items, f, hd, hf, .inr h⟩

open Classical in
/-- C83: whatever clients have received, it can be put together (so the statements below are not about nothing). -/
theorem C83_collect (cm : List UInt8) (bs : Spec.Batch → Prop)
    (hbs : ∀ c, bs c → c.cells.length = c.inds.length ∧ c.proofs.length = c.inds.length ∧ ∀ k ∈ c.inds, k < 128) :
    ∃ b : Spec.Batch, b.Collects cm bs := by
  have hex : ∀ k : Nat, (∃ c, bs c ∧ k ∈ c.inds) → ∃ x : List UInt8 × List UInt8, ∃ c, bs c ∧ (k, x) ∈ c.columns := by
    rintro k ⟨c, hc, hk⟩
    obtain ⟨i, hi, rfl⟩ := List.mem_iff_getElem.1 hk
    obtain ⟨h1, h2, -⟩ := hbs c hc
    refine ⟨(c.cells[i], c.proofs[i]), c, hc, ?_⟩
    unfold Spec.Batch.columns
    rw [List.mem_iff_getElem]
    exact ⟨i, by simp only [List.length_zip]; omega, by simp⟩
  let col : Nat → List UInt8 × List UInt8 := fun k => if h : ∃ c, bs c ∧ k ∈ c.inds then (hex k h).choose else ([], [])
  have hcol : ∀ k, (∃ c, bs c ∧ k ∈ c.inds) → ∃ c, bs c ∧ (k, col k) ∈ c.columns := by
    intro k h
    have := (hex k h).choose_spec
    simp only [col, dif_pos h]
    exact this
  let inds := (List.range 128).filter (fun k => decide (∃ c, bs c ∧ k ∈ c.inds))
  refine ⟨⟨List.replicate inds.length cm, inds, inds.map (fun k => (col k).1), inds.map (fun k => (col k).2)⟩, rfl, by simp,
    by simp, List.nodup_range.filter _, ?_, ?_⟩
  · intro c hc k hk
    exact List.mem_filter.2 ⟨List.mem_range.2 ((hbs c hc).2.2 k hk), by simpa using ⟨c, hc, hk⟩⟩
  · intro x hx
    unfold Spec.Batch.columns at hx
    obtain ⟨i, hi, rfl⟩ := List.mem_iff_getElem.1 hx
    simp only [List.length_zip, List.length_map] at hi
    have hi' : i < inds.length := by omega
    have := (List.mem_filter.1 (List.getElem_mem hi')).2
    obtain ⟨c, hc, hm⟩ := hcol inds[i] (by simpa using this)
    refine ⟨c, hc, ?_⟩
    simpa using hm

theorem checked_facts {k : Nat} {ctx : DASContext K G1 G2} {hash : List UInt8 → Spec.Digest} {cm : List UInt8} {r : Spec.ColumnRequest k}
    {a : Option (Spec.Reply k)} {b : Spec.Batch} (h : Checked ctx hash cm r a b) :
    b.Sized k ∧ b.commitments = List.replicate b.inds.length cm ∧ (∀ j, (r j : Nat) ∈ b.inds) ∧
      ∃ items : List (Spec.Opening G1), Spec.Decodes b.commitments b.inds b.cells b.proofs items := by
  obtain ⟨x, -, rfl, hs, hacc⟩ := h
  refine ⟨hs, by simp [Spec.ColumnRequest.batch], fun j => ?_, accepts_items ctx hash k _ hs hacc⟩
  exact (List.mem_ofFn' _ _).2 ⟨j, rfl⟩

/-- the number of columns in a list -/
theorem card_columns (l : List Nat) (hl : l.Nodup) (h : ∀ k ∈ l, k < 128) :
    (univ.filter (fun c : Fin 128 => (c : Nat) ∈ l)).card = l.length := by
  rw [← List.toFinset_card_of_nodup hl, ← card_map Fin.valEmbedding]
  congr 1
  ext k
  simp only [mem_map, mem_filter, mem_univ, true_and, Fin.valEmbedding_apply, List.mem_toFinset]
  constructor
  · rintro ⟨c, hc, rfl⟩; exact hc
  · intro hk; exact ⟨⟨k, h k hk⟩, hk, rfl⟩

theorem card_filter_prod {α β : Type} [Fintype α] [Fintype β] (p : α × β → Prop) [DecidablePred p] :
    (univ.filter p).card = ∑ y : β, (univ.filter (fun x => p (x, y))).card := by
  simp only [card_filter]
  rw [Fintype.sum_prod_type_right]

open Classical in
/-- the pairs of a hash function and requests for which a false batch is accepted -/
theorem few_false [LawfulPointCodec G1 48] [LawfulPairing G1 G2 GT] (setup : SetupPoints G1 G2) (up : UsePrecomp) (τ : Fr)
    (P : G1) (H : G2) (hpt : Spec.PowersOfTau setup.g1Monomial setup.g2Monomial τ P H)
    (hnd : ∀ a : G1, pair a H = (0 : GT) → a = 0)
    (verifier : DASContext K G1 G2) (hver : (DASContext.new setup up : Outcome ε (DASContext K G1 G2)) = .ok verifier)
    {k n : Nat} (hk : k ≤ 128) (D : Finset (List UInt8)) (hD : ∀ x : List UInt8, x.length ≤ 48 + 2160 * k → x ∈ D)
    (rest : List UInt8 → Spec.Digest) {α : Type} (A : Spec.Attacker α) (q : Nat) (hA : A.AtMost q)
    (cm : α → List UInt8) (r : Fin n → Spec.ColumnRequest k) (ans : α → Fin n → Option (Spec.Reply k)) :
    (univ.filter (fun ω : Spec.Table D => ∃ i b, Checked verifier (ω.hash rest) (cm (A.run (ω.hash rest))) (r i)
      (ans (A.run (ω.hash rest)) i) b ∧ b.IsFalse τ P k)).card * 2 ^ 256 ≤
      (q + n) * (3 * (k - 1)) * Fintype.card (Spec.Table D) := by
  obtain ⟨bad, hcard, hbad⟩ := bad_digests setup up τ P H hpt hnd verifier hver k (by omega)
  refine le_trans (Nat.mul_le_mul_right _ (card_le_card ?_))
    (few_tables (D := D) rest (fun o : α => (List.finRange n).filterMap (fun i => (ans o i).map (fun x => ((r i).batch (cm o) x).input)))
      n (fun o => (List.length_filterMap_le _ _).trans (by simp)) bad _ hcard A q hA)
  intro ω hω
  obtain ⟨-, i, b, ⟨x, hx, rfl, hs, hacc⟩, hf⟩ := mem_filter.1 hω
  refine mem_filter.2 ⟨mem_univ _, _, List.mem_filterMap.2 ⟨i, List.mem_finRange i, ?_⟩, hD _ ?_, hbad _ hf _ hacc⟩
  · rw [hx]; rfl
  · obtain ⟨hcm, hc, hp, items, hd, hle, -⟩ := hf
    obtain ⟨l1, l2, l3, l4, -⟩ := decodes_lengths hd
    have := challengeInput_length _ l1 l2 l3 l4 hcm hc hp
    omega

open Classical in
/-- C83, many clients: each of `n` clients asks for `k` columns at random. An attacker sees all requests, asks for at most `q` hashes, and
then chooses a commitment and all replies. The event that at least `m` clients accept what they got although, from the columns these
clients hold, recovery does not return the cells and proofs of a blob with that commitment (and the columns do not break the setup by a
fixed computation), happens for at most the given fraction of all hash functions and requests: the requests
of some `m` clients lie within 63 columns, or a batch with a false claim is accepted. -/
theorem C83_clients [LawfulPointCodec G1 48] [LawfulPairing G1 G2 GT] (setup : SetupPoints G1 G2) (up : UsePrecomp) (τ : Fr)
    (P : G1) (H : G2) (hpt : Spec.PowersOfTau setup.g1Monomial setup.g2Monomial τ P H)
    (hnd : ∀ a : G1, pair a H = (0 : GT) → a = 0) (hτ : ∀ i < 8192, τ ≠ Spec.point 13 i)
    (verifier ctx : DASContext K G1 G2) (hver : (DASContext.new setup up : Outcome ε (DASContext K G1 G2)) = .ok verifier)
    (hctx : (DASContext.new setup .no : Outcome Error (DASContext K G1 G2)) = .ok ctx)
    (k n m : Nat) (hk : k ≤ 128) (D : Finset (List UInt8)) (hD : ∀ x : List UInt8, x.length ≤ 48 + 2160 * k → x ∈ D)
    (rest : List UInt8 → Spec.Digest)
    (A : (Fin n → Spec.ColumnRequest k) → Spec.Attacker (List UInt8 × (Fin n → Option (Spec.Reply k)))) (q : Nat)
    (hA : ∀ r, (A r).AtMost q) :
    (univ.filter (fun p : Spec.Table D × (Fin n → Spec.ColumnRequest k) =>
      let hash := p.1.hash rest
      let out := (A p.2).run hash
      let checked := fun i => Checked verifier hash out.1 (p.2 i) (out.2 i)
      m ≤ (univ.filter (fun i => ∃ b, checked i b)).card ∧
      ∃ b : Spec.Batch, b.Collects out.1 (fun c => ∃ i, checked i c) ∧ ¬ Available ctx out.1 b.inds b.cells ∧
        ¬ Spec.BreaksSetup (GT := GT) setup.g1Monomial setup.g2Monomial τ P H b out.1)).card * 2 ^ 256 ≤
    n.choose m * ((128 : Nat).choose 63 * ((63 : Nat).descFactorial k ^ m * (128 : Nat).descFactorial k ^ (n - m))) *
        Fintype.card (Spec.Table D) * 2 ^ 256 +
      (q + n) * (3 * (k - 1)) * Fintype.card (Spec.Table D) * Fintype.card (Fin n → Spec.ColumnRequest k) := by
  have hsub : univ.filter (fun p : Spec.Table D × (Fin n → Spec.ColumnRequest k) =>
      let hash := p.1.hash rest
      let out := (A p.2).run hash
      let checked := fun i => Checked verifier hash out.1 (p.2 i) (out.2 i)
      m ≤ (univ.filter (fun i => ∃ b, checked i b)).card ∧
      ∃ b : Spec.Batch, b.Collects out.1 (fun c => ∃ i, checked i c) ∧ ¬ Available ctx out.1 b.inds b.cells ∧
        ¬ Spec.BreaksSetup (GT := GT) setup.g1Monomial setup.g2Monomial τ P H b out.1) ⊆
      univ ×ˢ univ.filter (fun r : Fin n → Spec.ColumnRequest k => ∃ T : Finset (Fin n), T.card = m ∧ ∃ U : Finset (Fin 128), U.card = 63 ∧
        ∀ i ∈ T, ∀ j, r i j ∈ U) ∪
      univ.filter (fun p : Spec.Table D × (Fin n → Spec.ColumnRequest k) => ∃ i b, Checked verifier (p.1.hash rest)
        ((A p.2).run (p.1.hash rest)).1 (p.2 i) (((A p.2).run (p.1.hash rest)).2 i) b ∧ b.IsFalse τ P k) := by
    rintro ⟨ω, r⟩ hp
    obtain ⟨-, hm, b, hc, hav, hbr⟩ := mem_filter.1 hp
    dsimp only at hm hc hav hbr
    rw [mem_union]
    by_cases hfalse : ∃ i b, Checked verifier (ω.hash rest) ((A r).run (ω.hash rest)).1 (r i) (((A r).run (ω.hash rest)).2 i) b ∧
        b.IsFalse τ P k
    · exact .inr (mem_filter.2 ⟨mem_univ _, hfalse⟩)
    left
    have hbs : ∀ c, (∃ i, Checked verifier (ω.hash rest) ((A r).run (ω.hash rest)).1 (r i) (((A r).run (ω.hash rest)).2 i) c) →
        c.Sized k ∧ c.commitments = List.replicate c.inds.length ((A r).run (ω.hash rest)).1 ∧ ∃ items : List (Spec.Opening G1),
          Spec.Decodes c.commitments c.inds c.cells c.proofs items ∧ ∀ o ∈ items, o.Valid τ P := by
      rintro c ⟨i, hi⟩
      obtain ⟨h1, h2, -, items, hd⟩ := checked_facts hi
      refine ⟨h1, h2, items, hd, ?_⟩
      rcases isFalse_or_valid τ P k c h1 items hd with hf | hv
      · exact absurd ⟨i, c, hi, hf⟩ hfalse
      · exact hv
    have hlt : b.inds.length ≤ 63 := by
      by_contra hge
      rcases collects_available (GT := GT) setup τ P H hpt hτ ctx hctx hc hbs (by omega) with h | h
      · exact hav h
      · exact hbr h
    obtain ⟨items, hd, -⟩ := collects_items τ P hc (fun c h => (hbs c h).2)
    have hU := card_columns b.inds hc.distinct (decodes_lengths hd).2.2.2.2
    obtain ⟨U, hUs, hUc⟩ := exists_superset_card_eq (s := univ.filter (fun c : Fin 128 => (c : Nat) ∈ b.inds)) (n := 63)
      (by rw [hU]; exact hlt) (by simp)
    obtain ⟨T, hTs, hTc⟩ := exists_subset_card_eq hm
    refine mem_product.2 ⟨mem_univ _, mem_filter.2 ⟨mem_univ _, T, hTc, U, hUc, ?_⟩⟩
    intro i hi j
    obtain ⟨-, c, hci⟩ := mem_filter.1 (hTs hi)
    refine hUs (mem_filter.2 ⟨mem_univ _, ?_⟩)
    exact hc.complete c ⟨i, hci⟩ _ ((checked_facts hci).2.2.1 j)
  refine (Nat.mul_le_mul_right _ ((card_le_card hsub).trans (card_union_le _ _))).trans ?_
  rw [Nat.add_mul]
  refine Nat.add_le_add ?_ ?_
  · rw [card_product, card_univ, Nat.mul_comm (Fintype.card _)]
    exact Nat.mul_le_mul_right _ (Nat.mul_le_mul_right _ (card_few_columns n k m 63))
  · rw [card_filter_prod, sum_mul]
    refine (sum_le_card_nsmul _ _ ((q + n) * (3 * (k - 1)) * Fintype.card (Spec.Table D)) ?_).trans ?_
    · intro r _
      exact few_false setup up τ P H hpt hnd verifier hver hk D hD rest (A r) q (hA r) Prod.fst r Prod.snd
    · rw [card_univ, smul_eq_mul, Nat.mul_comm]

/-- C83: the first part of the bound in powers of two. `n` clients make `(128 · 127 ⋯ (129 - k))^n` requests; among these, those in
which some `m` clients stay within 63 columns are at most a fraction of `2^(n + 128 - k m)`. -/
theorem C83_columns (n k m : Nat) (hm : m ≤ n) :
    Fintype.card (Fin n → Spec.ColumnRequest k) = (128 : Nat).descFactorial k ^ n ∧
    n.choose m * ((128 : Nat).choose 63 * ((63 : Nat).descFactorial k ^ m * (128 : Nat).descFactorial k ^ (n - m))) * 2 ^ (k * m) ≤
      2 ^ (n + 128) * (128 : Nat).descFactorial k ^ n := by
  refine ⟨?_, few_columns_bound n k m hm⟩
  rw [Fintype.card_fun, Fintype.card_embedding_eq, Fintype.card_fin, Fintype.card_fin, Fintype.card_fin]

/-- a single accepted column is a true claim -/
theorem one_valid [LawfulPointCodec G1 48] [LawfulPairing G1 G2 GT] (setup : SetupPoints G1 G2) (up : UsePrecomp) (τ : Fr)
    (P : G1) (H : G2) (hpt : Spec.PowersOfTau setup.g1Monomial setup.g2Monomial τ P H)
    (hnd : ∀ a : G1, pair a H = (0 : GT) → a = 0)
    (verifier : DASContext K G1 G2) (hver : (DASContext.new setup up : Outcome ε (DASContext K G1 G2)) = .ok verifier)
    {hash : List UInt8 → Spec.Digest} {cm : List UInt8} {r : Spec.ColumnRequest 1} {a : Option (Spec.Reply 1)} {b : Spec.Batch}
    (h : Checked verifier hash cm r a b) :
    b.Sized 1 ∧ b.commitments = List.replicate b.inds.length cm ∧ ∃ items : List (Spec.Opening G1),
      Spec.Decodes b.commitments b.inds b.cells b.proofs items ∧ ∀ o ∈ items, o.Valid τ P := by
  obtain ⟨h1, h2, -, items, hd⟩ := checked_facts h
  refine ⟨h1, h2, items, hd, ?_⟩
  rcases isFalse_or_valid τ P 1 b h1 items hd with hf | hv
  · obtain ⟨bad, hcard, hbad⟩ := bad_digests setup up τ P H hpt hnd verifier hver 1 (by norm_num)
    obtain ⟨x, -, -, -, hacc⟩ := h
    have h3 := hbad b hf hash hacc
    have h4 : bad b.input = ∅ := card_eq_zero.1 (Nat.le_zero.1 (hcard b.input))
    rw [h4] at h3
    exact absurd h3 (notMem_empty _)
  · exact hv

theorem published_some {k : Nat} {cols : Fin 128 → Option (List UInt8 × List UInt8)} {r : Spec.ColumnRequest k} {x : Spec.Reply k}
    (h : ∀ j, cols (r j) = some (x j)) : Spec.published cols r = some x := by
  unfold Spec.published
  rw [dif_pos (fun j => by rw [h j]; rfl)]
  congr 1
  funext j
  simp only [h, Option.get_some]

/-- the columns of a batch of true claims are accepted one by one -/
theorem column_accepted [LawfulPointCodec G1 48] [LawfulPairing G1 G2 GT] (setup : SetupPoints G1 G2) (up : UsePrecomp) (τ : Fr)
    (P : G1) (H : G2) (hpt : Spec.PowersOfTau setup.g1Monomial setup.g2Monomial τ P H)
    (hnd : ∀ a : G1, pair a H = (0 : GT) → a = 0)
    (verifier : DASContext K G1 G2) (hver : (DASContext.new setup up : Outcome ε (DASContext K G1 G2)) = .ok verifier)
    {k : Nat} {hash : List UInt8 → Spec.Digest} {cm : List UInt8} {r : Spec.ColumnRequest k}
    {cols : Fin 128 → Option (List UInt8 × List UInt8)} {b : Spec.Batch}
    (h : Checked verifier hash cm r (Spec.published cols r) b) (hf : ¬ b.IsFalse τ P k) (j : Fin k) :
    ∃ c, Checked verifier hash cm (.one (r j)) (Spec.published cols (.one (r j))) c := by
  obtain ⟨h1, h2, -, items, hd⟩ := checked_facts h
  have hv := (isFalse_or_valid τ P k b h1 items hd).resolve_left hf
  obtain ⟨x, hx, rfl, -, -⟩ := h
  have hxj : cols (r j) = some (x j) := by
    unfold Spec.published at hx
    split_ifs at hx with hall
    cases hx
    exact (Option.some_get _).symm
  have hone : Spec.published cols (.one (r j)) = some (fun _ => x j) := published_some (fun _ => hxj)
  have hm : ((r j : Nat), x j) ∈ (r.batch cm x).columns := by
    unfold Spec.Batch.columns Spec.ColumnRequest.batch
    rw [List.mem_iff_getElem]
    exact ⟨j, by simp, by simp⟩
  obtain ⟨o, ho, a1, a2, a3, a4⟩ := decodes_column h2 hd hm
  obtain ⟨s1, s2, s3, -⟩ := h1
  have l1 : cm.length = 48 := s1 cm (List.mem_replicate.2 ⟨by have := j.2; omega, rfl⟩)
  have l2 := s2 _ (List.of_mem_zip (List.of_mem_zip hm).2).1
  have l3 := s3 _ (List.of_mem_zip (List.of_mem_zip hm).2).2
  refine ⟨_, fun _ => x j, hone, rfl, ⟨?_, ?_, ?_, ?_⟩, ?_⟩
  · intro c hc; rw [List.eq_of_mem_replicate hc]; exact l1
  · intro c hc; obtain ⟨i, rfl⟩ := (List.mem_ofFn' _ _).1 hc; exact l2
  · intro c hc; obtain ⟨i, rfl⟩ := (List.mem_ofFn' _ _).1 hc; exact l3
  · simp [Spec.ColumnRequest.batch]
  · have hb : (Spec.ColumnRequest.one (r j)).batch cm (fun _ => x j) = ⟨[cm], [(r j : Nat)], [(x j).1], [(x j).2]⟩ := by
      simp [Spec.ColumnRequest.batch, Spec.ColumnRequest.one]
      rfl
    rw [hb]
    unfold Accepts
    have hval := hv o ho
    refine (C06_single setup up τ P H hpt hnd verifier hver _ cm _ _ _ l1 l3 o.commitment o.proof o.interp a1 a2.2 a3.1
      (by rw [a2.1]; exact a3.2) a4).2 ?_
    rw [a2.1]
    exact hval

theorem card_filter_prod_left {α β : Type} [Fintype α] [Fintype β] (p : α × β → Prop) [DecidablePred p] :
    (univ.filter p).card = ∑ x : α, (univ.filter (fun y => p (x, y))).card := by
  simp only [card_filter]
  rw [Fintype.sum_prod_type]

theorem within_bound {k : Nat} (p : Spec.ColumnRequest k → Prop) [DecidablePred p] (V : Finset (Fin 128))
    (hp : ∀ r, p r → V.card ≤ 63 ∧ ∀ i, r i ∈ V) : (univ.filter p).card ≤ (63 : Nat).descFactorial k := by
  classical
  by_cases hV : V.card ≤ 63
  · refine le_trans (card_le_card (fun r hr => ?_)) ((card_within k V).trans_le (Nat.descFactorial_le k hV))
    exact mem_filter.2 ⟨mem_univ _, (hp r (mem_filter.1 hr).2).2⟩
  · rw [card_eq_zero.2 (filter_eq_empty_iff.2 (fun r _ h => hV (hp r h).1))]
    exact Nat.zero_le _

open Classical in
/-- C83, one client: an attacker asks for at most `q` hashes, publishes a commitment and some columns; then a client asks for `k`
columns at random. The event that the client accepts although the columns that would be accepted one by one do not give, by recovery, the
cells and proofs of a blob with that commitment (and do not break the setup) happens for a fraction of at most `63/128 · 62/127 ⋯`
of the requests, which is below `2^-k`, apart from accepted false batches. -/
theorem C83_published [LawfulPointCodec G1 48] [LawfulPairing G1 G2 GT] (setup : SetupPoints G1 G2) (up : UsePrecomp) (τ : Fr)
    (P : G1) (H : G2) (hpt : Spec.PowersOfTau setup.g1Monomial setup.g2Monomial τ P H)
    (hnd : ∀ a : G1, pair a H = (0 : GT) → a = 0) (hτ : ∀ i < 8192, τ ≠ Spec.point 13 i)
    (verifier ctx : DASContext K G1 G2) (hver : (DASContext.new setup up : Outcome ε (DASContext K G1 G2)) = .ok verifier)
    (hctx : (DASContext.new setup .no : Outcome Error (DASContext K G1 G2)) = .ok ctx)
    (k : Nat) (hk : k ≤ 128) (D : Finset (List UInt8)) (hD : ∀ x : List UInt8, x.length ≤ 48 + 2160 * k → x ∈ D)
    (rest : List UInt8 → Spec.Digest)
    (A : Spec.Attacker (List UInt8 × (Fin 128 → Option (List UInt8 × List UInt8)))) (q : Nat) (hA : A.AtMost q) :
    (univ.filter (fun p : Spec.Table D × Spec.ColumnRequest k =>
      let hash := p.1.hash rest
      let out := A.run hash
      (∃ b, Checked verifier hash out.1 p.2 (Spec.published out.2 p.2) b) ∧
      ∃ b : Spec.Batch, b.Collects out.1 (fun c => ∃ j, Checked verifier hash out.1 (.one j) (Spec.published out.2 (.one j)) c) ∧
        ¬ Available ctx out.1 b.inds b.cells ∧
        ¬ Spec.BreaksSetup (GT := GT) setup.g1Monomial setup.g2Monomial τ P H b out.1)).card * 2 ^ 256 ≤
      (63 : Nat).descFactorial k * Fintype.card (Spec.Table D) * 2 ^ 256 +
      (q + 1) * (3 * (k - 1)) * Fintype.card (Spec.Table D) * Fintype.card (Spec.ColumnRequest k) ∧
    (63 : Nat).descFactorial k * 2 ^ k ≤ Fintype.card (Spec.ColumnRequest k) := by
  have hcard : Fintype.card (Spec.ColumnRequest k) = (128 : Nat).descFactorial k := by
    rw [Fintype.card_embedding_eq, Fintype.card_fin, Fintype.card_fin]
  refine ⟨?_, by rw [hcard]; exact half_columns k⟩
  have hsub : univ.filter (fun p : Spec.Table D × Spec.ColumnRequest k =>
      let hash := p.1.hash rest
      let out := A.run hash
      (∃ b, Checked verifier hash out.1 p.2 (Spec.published out.2 p.2) b) ∧
      ∃ b : Spec.Batch, b.Collects out.1 (fun c => ∃ j, Checked verifier hash out.1 (.one j) (Spec.published out.2 (.one j)) c) ∧
        ¬ Available ctx out.1 b.inds b.cells ∧
        ¬ Spec.BreaksSetup (GT := GT) setup.g1Monomial setup.g2Monomial τ P H b out.1) ⊆
      univ.filter (fun p : Spec.Table D × Spec.ColumnRequest k => (univ.filter (fun j => ∃ c, Checked verifier (p.1.hash rest)
        (A.run (p.1.hash rest)).1 (.one j) (Spec.published (A.run (p.1.hash rest)).2 (.one j)) c)).card ≤ 63 ∧
        ∀ i, p.2 i ∈ univ.filter (fun j => ∃ c, Checked verifier (p.1.hash rest)
          (A.run (p.1.hash rest)).1 (.one j) (Spec.published (A.run (p.1.hash rest)).2 (.one j)) c)) ∪
      univ.filter (fun p : Spec.Table D × Spec.ColumnRequest k => ∃ (i : Fin 1) (b : Spec.Batch), Checked verifier (p.1.hash rest)
        (A.run (p.1.hash rest)).1 ((fun _ => p.2) i) ((fun o _ => Spec.published (Prod.snd o) p.2) (A.run (p.1.hash rest)) i) b ∧
        b.IsFalse τ P k) := by
    rintro ⟨ω, r⟩ hp
    obtain ⟨-, ⟨b₀, hb₀⟩, b, hc, hav, hbr⟩ := mem_filter.1 hp
    dsimp only at hb₀ hc hav hbr
    rw [mem_union]
    by_cases hf : b₀.IsFalse τ P k
    · exact .inr (mem_filter.2 ⟨mem_univ _, 0, b₀, hb₀, hf⟩)
    left
    have hbs : ∀ c, (∃ j, Checked verifier (ω.hash rest) (A.run (ω.hash rest)).1 (.one j)
        (Spec.published (A.run (ω.hash rest)).2 (.one j)) c) → c.Sized 1 ∧
        c.commitments = List.replicate c.inds.length (A.run (ω.hash rest)).1 ∧ ∃ items : List (Spec.Opening G1),
          Spec.Decodes c.commitments c.inds c.cells c.proofs items ∧ ∀ o ∈ items, o.Valid τ P := by
      rintro c ⟨j, hj⟩
      exact one_valid setup up τ P H hpt hnd verifier hver hj
    have hlt : b.inds.length ≤ 63 := by
      by_contra hge
      rcases collects_available (GT := GT) setup τ P H hpt hτ ctx hctx hc hbs (by omega) with h | h
      · exact hav h
      · exact hbr h
    obtain ⟨items, hd, -⟩ := collects_items τ P hc (fun c h => (hbs c h).2)
    have hU := card_columns b.inds hc.distinct (decodes_lengths hd).2.2.2.2
    refine mem_filter.2 ⟨mem_univ _, ?_, ?_⟩
    · refine le_trans (card_le_card ?_) (hU.trans_le hlt)
      intro j hj
      obtain ⟨-, c, hcj⟩ := mem_filter.1 hj
      exact mem_filter.2 ⟨mem_univ _, hc.complete c ⟨j, hcj⟩ _ ((checked_facts hcj).2.2.1 0)⟩
    · intro i
      exact mem_filter.2 ⟨mem_univ _, column_accepted setup up τ P H hpt hnd verifier hver hb₀ hf i⟩
  refine (Nat.mul_le_mul_right _ ((card_le_card hsub).trans (card_union_le _ _))).trans ?_
  rw [Nat.add_mul]
  refine Nat.add_le_add (Nat.mul_le_mul_right _ ?_) ?_
  · rw [card_filter_prod_left]
    refine (sum_le_card_nsmul _ _ ((63 : Nat).descFactorial k) ?_).trans ?_
    · intro ω _
      exact within_bound _ (univ.filter (fun j => ∃ c, Checked verifier (ω.hash rest)
        (A.run (ω.hash rest)).1 (.one j) (Spec.published (A.run (ω.hash rest)).2 (.one j)) c)) (fun r h => h)
    · rw [card_univ, smul_eq_mul, Nat.mul_comm]
  · rw [card_filter_prod, sum_mul]
    refine (sum_le_card_nsmul _ _ ((q + 1) * (3 * (k - 1)) * Fintype.card (Spec.Table D)) ?_).trans ?_
    · intro r _
      exact few_false setup up τ P H hpt hnd verifier hver hk D hD rest A q hA Prod.fst (fun _ : Fin 1 => r)
        (fun o _ => Spec.published o.2 r)
    · rw [card_univ, smul_eq_mul, Nat.mul_comm]

end

/-! ### the bound of C83_published is attained: a publisher who withholds all columns from number 63 on -/
section
open Toy

set_option exponentiation.threshold 8192 in
theorem Toy.seven_no_point : ∀ i < 8192, (7 : Fr) ≠ Spec.point 13 i := by
  intro j _ e
  have h : ((7 ^ 8192 : Nat) : Fr) = (1 : Nat) := by 
    rw [Nat.cast_pow, Nat.cast_ofNat, e, Nat.cast_one]
    unfold Spec.point
    rw [← pow_mul, mul_comm, pow_mul]
    have := (omega_primitive 13 (by norm_num)).pow_eq_one
    norm_num at this ⊢
    rw [this, one_pow]
  rw [ZMod.natCast_eq_natCast_iff'] at h
  revert h
  decide +kernel

/-- the commitment to `3 X + 5` and its column number `j` -/
noncomputable def Toy.commit : List UInt8 := toCompressed (poly.eval 7 • (1 : Fr))
noncomputable def Toy.column (j : Nat) : List UInt8 × List UInt8 :=
  (cellOf poly j, toCompressed ((poly /ₘ cellDivisor j).eval 7 • (1 : Fr)))

/-- the columns up to number 62 -/
noncomputable def Toy.withheld (j : Fin 128) : Option (List UInt8 × List UInt8) := if (j : Nat) < 63 then some (Toy.column j) else none

theorem Toy.withheld_checked (ctx : DASContext Fr Fr Fr) (hctx : (DASContext.new (setup 7) .no : Outcome Error _) = .ok ctx)
    (hash : List UInt8 → Spec.Digest) {k : Nat} (r : Spec.ColumnRequest k) (hr : ∀ j, (r j : Nat) < 63) :
    Checked ctx hash Toy.commit r (Spec.published Toy.withheld r) (r.batch Toy.commit (fun j => Toy.column (r j))) := by
  have hl : ∀ x : Fr, (toCompressed x).length = 48 := LawfulPointCodec.length_toCompressed
  have h : ∀ x : Fr, fromCompressed (toCompressed x) = some x := LawfulPointCodec.fromCompressed_toCompressed
  have hs : (r.batch Toy.commit (fun j => Toy.column (r j))).Sized k := by
    refine ⟨?_, ?_, ?_, by simp [Spec.ColumnRequest.batch]⟩
    · intro c hc; rw [List.eq_of_mem_replicate hc]; exact hl _
    · intro c hc; obtain ⟨i, rfl⟩ := (List.mem_ofFn' _ _).1 hc; exact cellOf_length _ _
    · intro c hc; obtain ⟨i, rfl⟩ := (List.mem_ofFn' _ _).1 hc; exact hl _
  refine ⟨_, published_some (fun j => by simp only [Toy.withheld, if_pos (hr j)]), rfl, hs, ?_⟩
  · let item : Nat → Spec.Opening Fr := fun k =>
      ⟨poly.eval 7 • 1, k, poly %ₘ cellDivisor k, (poly /ₘ cellDivisor k).eval 7 • 1⟩
    have hd : Spec.Decodes (r.batch Toy.commit (fun j => Toy.column (r j))).commitments
        (r.batch Toy.commit (fun j => Toy.column (r j))).inds (r.batch Toy.commit (fun j => Toy.column (r j))).cells
        (r.batch Toy.commit (fun j => Toy.column (r j))).proofs (List.ofFn (fun j => item (r j))) := by
      refine ⟨?_, ?_, ?_, ?_⟩
      · rw [List.forall₂_iff_get]
        refine ⟨by simp [Spec.ColumnRequest.batch], ?_⟩
        intro i hi hi'
        simp only [Spec.ColumnRequest.batch, List.get_eq_getElem, List.getElem_replicate, List.getElem_ofFn]
        exact h _
      · rw [List.forall₂_iff_get]
        refine ⟨by simp [Spec.ColumnRequest.batch], ?_⟩
        intro i hi hi'
        simp only [Spec.ColumnRequest.batch, List.get_eq_getElem, List.getElem_ofFn]
        exact ⟨rfl, Fin.is_lt _⟩
      · rw [List.forall₂_iff_get]
        refine ⟨by simp [Spec.ColumnRequest.batch], ?_⟩
        intro i hi hi'
        simp only [Spec.ColumnRequest.batch, List.get_eq_getElem, List.getElem_ofFn]
        exact ⟨mod_degree poly _, (isCell_mod poly _ _).2 ((isCell_iff poly _ _).2 rfl)⟩
      · rw [List.forall₂_iff_get]
        refine ⟨by simp [Spec.ColumnRequest.batch], ?_⟩
        intro i hi hi'
        simp only [Spec.ColumnRequest.batch, List.get_eq_getElem, List.getElem_ofFn]
        exact h _
    unfold Accepts
    rw [(C06_batch (setup 7) .no 7 1 1 (powersOfTau 7) nondegenerate ctx hctx _ _ _ _ _ hs.1 hs.2.2.1 _ hd).1]
    unfold Spec.combined
    apply sum_eq_zero
    intro i _
    have : ((List.ofFn (fun j => item (r j)))[i]).defect 7 1 = 0 := by
      rw [← Spec.Opening.valid_iff]
      simp only [Fin.getElem_fin, List.getElem_ofFn]
      exact honest_valid 7 1 poly _
    rw [this, smul_zero]

/-- C83: a publisher who withholds the columns from number 63 on: every request for published columns is accepted, with every hash
function, although the columns do not give the blob and do not break the setup. So C83_published would be false with
anything smaller than `63 · 62 ⋯` in its first part. -/
theorem C83_attained (hash : List UInt8 → Spec.Digest) {k : Nat} (r : Spec.ColumnRequest k) (hr : ∀ j, (r j : Nat) < 63) :
    ∃ ctx : DASContext Fr Fr Fr, (DASContext.new (setup 7) .no : Outcome Error _) = .ok ctx ∧
      (∃ b, Checked ctx hash Toy.commit r (Spec.published Toy.withheld r) b) ∧
      ∃ b : Spec.Batch, b.Collects Toy.commit
        (fun c => ∃ j, Checked ctx hash Toy.commit (.one j) (Spec.published Toy.withheld (.one j)) c) ∧ b.inds.length = 63 ∧
        ¬ Available ctx Toy.commit b.inds b.cells ∧
        ¬ Spec.BreaksSetup (GT := Fr) (setup 7).g1Monomial (setup 7).g2Monomial 7 (1 : Fr) (1 : Fr) b Toy.commit := by
  obtain ⟨ctx, hctx⟩ := context 7
  refine ⟨ctx, hctx, ⟨_, Toy.withheld_checked ctx hctx hash r hr⟩, ?_⟩
  have hone : ∀ (j : Fin 128) (c : Spec.Batch), Checked ctx hash Toy.commit (.one j) (Spec.published Toy.withheld (.one j)) c →
      (j : Nat) < 63 ∧ c = ⟨[Toy.commit], [(j : Nat)], [(Toy.column j).1], [(Toy.column j).2]⟩ := by
    rintro j c ⟨x, hx, rfl, -, -⟩
    unfold Spec.published at hx
    split_ifs at hx with hall
    have h0 : (Toy.withheld j).isSome := hall 0
    have hj : (j : Nat) < 63 := by
      by_contra hn
      simp [Toy.withheld, hn] at h0
    refine ⟨hj, ?_⟩
    have hx0 : x 0 = Toy.column j := by
      cases hx
      show (Toy.withheld j).get _ = _
      simp [Toy.withheld, hj]
    simp [Spec.ColumnRequest.batch, Spec.ColumnRequest.one, hx0]
    rfl
  obtain ⟨b, hb⟩ := C83_collect Toy.commit
    (fun c => ∃ j, Checked ctx hash Toy.commit (.one j) (Spec.published Toy.withheld (.one j)) c) (by
      rintro c ⟨j, hj⟩
      obtain ⟨h63, rfl⟩ := hone j c hj
      refine ⟨rfl, rfl, ?_⟩
      intro k hk
      rw [List.mem_singleton.1 hk]
      exact j.2)
  have h1 := hb.cells
  have h2 := hb.proofs
  have hcol : ∀ i (hi : i < b.inds.length), b.inds[i] < 63 ∧ b.cells[i] = cellOf poly b.inds[i] := by
    intro i hi
    obtain ⟨c, ⟨j, hj⟩, hm⟩ := hb.received (b.inds[i], b.cells[i], b.proofs[i]) (by
      unfold Spec.Batch.columns
      rw [List.mem_iff_getElem]
      exact ⟨i, by simp only [List.length_zip]; omega, by simp⟩)
    obtain ⟨h63, rfl⟩ := hone j c hj
    have : (b.inds[i], b.cells[i], b.proofs[i]) = ((j : Nat), (Toy.column j).1, (Toy.column j).2) := by
      simpa [Spec.Batch.columns] using hm
    simp only [Prod.mk.injEq] at this
    obtain ⟨e1, e2, -⟩ := this
    rw [e1, e2]
    exact ⟨h63, rfl⟩
  have hsub : b.inds ⊆ List.range 63 := by
    intro x hx
    obtain ⟨i, hi, rfl⟩ := List.mem_iff_getElem.1 hx
    exact List.mem_range.2 (hcol i hi).1
  have hsup : List.range 63 ⊆ b.inds := by
    intro x hx
    have hx' := List.mem_range.1 hx
    have hc := Toy.withheld_checked ctx hctx hash (.one ⟨x, by omega⟩) (fun _ => hx')
    exact hb.complete _ ⟨_, hc⟩ x ((checked_facts hc).2.2.1 0)
  have hlen : b.inds.length = 63 := by
    have a1 := (hb.distinct.subperm hsub).length_le
    have a2 := (List.nodup_range.subperm hsup).length_le
    rw [List.length_range] at a1 a2
    omega
  have hcl : ∀ c ∈ b.cells, c.length = 2048 := by
    intro c hc
    obtain ⟨i, hi, rfl⟩ := List.mem_iff_getElem.1 hc
    rw [(hcol i (by omega)).2]
    exact cellOf_length _ _
  refine ⟨b, hb, hlen, ?_, ?_⟩
  · rintro ⟨blob, out, proofs, -, -, hrec, -⟩
    have := (C12_validation (setup 7) .no (length_g1 7) ctx hctx b.inds b.cells hcl).2.1 _
      (.tooFew h1.symm (fun i hi => by have := List.mem_range.1 (hsub hi); omega) hb.distinct (by omega))
    rw [hrec] at this
    cases this
  · rintro ⟨items, f, hd, hf, ⟨C, -, -, hdeg, -⟩ | ⟨o, ho, j, hj, hsdh⟩⟩
    · have l := hd.indices.length_eq
      rw [allVanishing_natDegree _ rfl, List.length_take] at hdeg
      omega
    · obtain ⟨i, hi, rfl⟩ := List.mem_iff_getElem.1 ho
      have l := hd.indices.length_eq
      have a2 := forall₂_getElem hd.indices (i := i) (by omega) hi
      have a3 := forall₂_getElem hd.cells (i := i) (by omega) hi
      have hfi : Spec.IsCell f (items[i]).index (b.cells[i]'(by omega)) := by
        have := hf.2 ((b.inds.take 64)[i]'(by simp; omega), (b.cells.take 64)[i]'(by simp; omega)) (by
          rw [List.mem_iff_getElem]
          exact ⟨i, by simp; omega, by rw [List.getElem_zip]⟩)
        simp only [List.getElem_take] at this
        rw [← a2.1]
        exact this
      have heq : (items[i]).interp = f %ₘ Spec.vanishing 13 6 (items[i]).index := by
        rw [cellDivisor_eq]
        exact interp_unique a3.1 (mod_degree f _) a3.2 ((isCell_mod f _ _).2 hfi)
      rw [heq] at hsdh
      have hz : (Spec.sdhSolution (setup 7).g1Monomial (setup 7).g2Monomial (items[i]).index j
          (f %ₘ Spec.vanishing 13 6 (items[i]).index) (f %ₘ Spec.vanishing 13 6 (items[i]).index) (items[i]).proof
          (Spec.openingProof (setup 7).g1Monomial 13 6 f (items[i]).index) : Fr) = 0 := by
        unfold Spec.sdhSolution
        simp only [sub_self, eval_zero, inv_zero, zero_smul, pair_zero_left]
      rw [hz] at hsdh
      have h0 := nondegenerate _ hsdh.symm
      rw [smul_eq_mul, mul_one, inv_eq_zero, sub_eq_zero] at h0
      exact Toy.seven_no_point _ (by have := a2.2; have := a2.1; omega) h0

open Classical in
/-- The hypotheses of C83_clients can be met: 1000 clients with 8 columns each. If 200 of them accept, then the blob can be
recovered from what they hold, except for a fraction of `2^-472` of the requests and what C83_clients says about hash functions. -/
example (ctx : DASContext Fr Fr Fr) (hctx : (DASContext.new (setup 7) .no : Outcome Error _) = .ok ctx)
    (rest : List UInt8 → Spec.Digest)
    (A : (Fin 1000 → Spec.ColumnRequest 8) → Spec.Attacker (List UInt8 × (Fin 1000 → Option (Spec.Reply 8)))) (q : Nat)
    (hA : ∀ r, (A r).AtMost q) : ∃ D : Finset (List UInt8),
    (univ.filter (fun p : Spec.Table D × (Fin 1000 → Spec.ColumnRequest 8) =>
      let hash := p.1.hash rest
      let out := (A p.2).run hash
      let checked := fun i => Checked ctx hash out.1 (p.2 i) (out.2 i)
      200 ≤ (univ.filter (fun i => ∃ b, checked i b)).card ∧
      ∃ b : Spec.Batch, b.Collects out.1 (fun c => ∃ i, checked i c) ∧ ¬ Available ctx out.1 b.inds b.cells ∧
        ¬ Spec.BreaksSetup (GT := Fr) (setup 7).g1Monomial (setup 7).g2Monomial 7 1 1 b out.1)).card * 2 ^ 256 ≤
    (1000 : Nat).choose 200 * ((128 : Nat).choose 63 * ((63 : Nat).descFactorial 8 ^ 200 * (128 : Nat).descFactorial 8 ^ (1000 - 200))) *
        Fintype.card (Spec.Table D) * 2 ^ 256 +
      (q + 1000) * (3 * (8 - 1)) * Fintype.card (Spec.Table D) * Fintype.card (Fin 1000 → Spec.ColumnRequest 8) := by
  obtain ⟨D, hD⟩ := exists_domain (48 + 2160 * 8)
  exact ⟨D, C83_clients (setup 7) .no 7 1 1 (powersOfTau 7) nondegenerate Toy.seven_no_point ctx ctx hctx hctx 8 1000 200 (by norm_num) D hD
    rest A q hA⟩

end
end Verif
