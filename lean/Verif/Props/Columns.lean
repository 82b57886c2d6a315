import Verif.Spec.Columns
import Verif.Props.Sampling

set_option linter.unusedSectionVars false

/-!
C84: columns of several blobs, checked column by column; and nodes that recover from different columns.
-/
namespace Verif
open Polynomial Finset

section
variable {ε K G1 G2 GT : Type} [Field K] [DecidableEq K] [AddCommGroup G1] [Module Fr G1] [DecidableEq G1]
  [Curve K G1] [PointCodec G1] [AddCommGroup G2] [Module Fr G2] [AddCommGroup GT] [DecidableEq GT]
  [Pairing G1 G2 GT]

open Classical in
/-- the hash functions for which one of finitely many false batches is accepted -/
theorem few_false_list [LawfulPointCodec G1 48] [LawfulPairing G1 G2 GT] (setup : SetupPoints G1 G2) (up : UsePrecomp) (τ : Fr)
    (P : G1) (H : G2) (hpt : Spec.PowersOfTau setup.g1Monomial setup.g2Monomial τ P H)
    (hnd : ∀ a : G1, pair a H = (0 : GT) → a = 0)
    (verifier : DASContext K G1 G2) (hver : (DASContext.new setup up : Outcome ε (DASContext K G1 G2)) = .ok verifier)
    {N m : Nat} (hN : N < 2 ^ 64) (D : Finset (List UInt8)) (hD : ∀ x : List UInt8, x.length ≤ 48 + 2160 * N → x ∈ D)
    (rest : List UInt8 → Spec.Digest) {α : Type} (A : Spec.Attacker α) (q : Nat) (hA : A.AtMost q)
    (bs : α → List Spec.Batch) (hm : ∀ o, (bs o).length ≤ m) :
    (univ.filter (fun ω : Spec.Table D => ∃ b ∈ bs (A.run (ω.hash rest)), b.IsFalse τ P N ∧
      Accepts verifier (ω.hash rest) b)).card * 2 ^ 256 ≤ (q + m) * (3 * (N - 1)) * Fintype.card (Spec.Table D) := by
  obtain ⟨bad, hcard, hbad⟩ := bad_digests setup up τ P H hpt hnd verifier hver N hN
  refine le_trans (Nat.mul_le_mul_right _ (card_le_card ?_))
    (few_tables (D := D) rest (fun o : α => (bs o).map (·.input)) m (fun o => by rw [List.length_map]; exact hm o) bad _ hcard A q hA)
  intro ω hω
  obtain ⟨-, b, hb, hf, hacc⟩ := mem_filter.1 hω
  refine mem_filter.2 ⟨mem_univ _, _, List.mem_map_of_mem hb, hD _ ?_, hbad _ hf _ hacc⟩
  obtain ⟨hcm, hc, hp, items, hd, hle, -⟩ := hf
  obtain ⟨l1, l2, l3, l4, -⟩ := decodes_lengths hd
  have := challengeInput_length _ l1 l2 l3 l4 hcm hc hp
  omega

/-- The client got all columns that it asked for, the fields have the sizes of the Rust types, and the verifier accepts each of them
against the list of commitments. -/
def CheckedColumns {k n : Nat} (ctx : DASContext K G1 G2) (hash : List UInt8 → Spec.Digest) (cms : Fin n → List UInt8)
    (r : Spec.ColumnRequest k) (x : Spec.Columns k n) : Prop :=
  ∀ j, (x.batch r cms j).Sized n ∧ Accepts ctx hash (x.batch r cms j)

/-- True claims in columns are true claims in rows. -/
theorem row_valid {k n : Nat} (τ : Fr) (P : G1) (cms : Fin n → List UInt8) (r : Spec.ColumnRequest k) (x : Spec.Columns k n)
    (h : ∀ j, (x.batch r cms j).Sized n ∧ ∃ items : List (Spec.Opening G1), Spec.Decodes (x.batch r cms j).commitments
      (x.batch r cms j).inds (x.batch r cms j).cells (x.batch r cms j).proofs items ∧ ∀ o ∈ items, o.Valid τ P) (t : Fin n)
    (hk : 0 < k) :
    (r.batch (cms t) (x.row t)).Sized k ∧
      (r.batch (cms t) (x.row t)).commitments = List.replicate (r.batch (cms t) (x.row t)).inds.length (cms t) ∧
      ∃ items : List (Spec.Opening G1), Spec.Decodes (r.batch (cms t) (x.row t)).commitments (r.batch (cms t) (x.row t)).inds
        (r.batch (cms t) (x.row t)).cells (r.batch (cms t) (x.row t)).proofs items ∧ ∀ o ∈ items, o.Valid τ P := by
  have hs : (r.batch (cms t) (x.row t)).Sized k := by
    refine ⟨?_, ?_, ?_, by simp [Spec.ColumnRequest.batch]⟩
    · intro c hc
      rw [List.eq_of_mem_replicate hc]
      exact (h ⟨0, hk⟩).1.1 _ ((List.mem_ofFn' _ _).2 ⟨t, rfl⟩)
    · intro c hc
      obtain ⟨j, rfl⟩ := (List.mem_ofFn' _ _).1 hc
      exact (h j).1.2.1 _ ((List.mem_ofFn' _ _).2 ⟨t, rfl⟩)
    · intro c hc
      obtain ⟨j, rfl⟩ := (List.mem_ofFn' _ _).1 hc
      exact (h j).1.2.2.1 _ ((List.mem_ofFn' _ _).2 ⟨t, rfl⟩)
  refine ⟨hs, by simp [Spec.ColumnRequest.batch], ?_⟩
  have hex : ∀ j : Fin k, ∃ o : Spec.Opening G1, o.Valid τ P ∧ fromCompressed (cms t) = some o.commitment ∧
      ((r j : Nat) = o.index ∧ (r j : Nat) < 128) ∧ (o.interp.degree < 64 ∧ Spec.IsCell o.interp o.index (x j t).1) ∧
      fromCompressed (x j t).2 = some o.proof := by
    intro j
    obtain ⟨-, items, hd, hv⟩ := h j
    have hl : items.length = n := by rw [← hd.commitments.length_eq]; simp [Spec.Columns.batch]
    have ht : (t : Nat) < items.length := by rw [hl]; exact t.2
    refine ⟨items[t], hv _ (List.getElem_mem _), ?_, ?_, ?_, ?_⟩
    · simpa [Spec.Columns.batch] using forall₂_getElem hd.commitments (i := t) (by simp [Spec.Columns.batch]) ht
    · simpa [Spec.Columns.batch] using forall₂_getElem hd.indices (i := t) (by simp [Spec.Columns.batch]) ht
    · simpa [Spec.Columns.batch] using forall₂_getElem hd.cells (i := t) (by simp [Spec.Columns.batch]) ht
    · simpa [Spec.Columns.batch] using forall₂_getElem hd.proofs (i := t) (by simp [Spec.Columns.batch]) ht
  choose f hf using hex
  refine ⟨List.ofFn f, ⟨?_, ?_, ?_, ?_⟩, ?_⟩
  · rw [List.forall₂_iff_get]
    refine ⟨by simp [Spec.ColumnRequest.batch], ?_⟩
    intro i hi hi'
    simp only [Spec.ColumnRequest.batch, List.get_eq_getElem, List.getElem_replicate, List.getElem_ofFn]
    exact (hf _).2.1
  · rw [List.forall₂_iff_get]
    refine ⟨by simp [Spec.ColumnRequest.batch], ?_⟩
    intro i hi hi'
    simp only [Spec.ColumnRequest.batch, List.get_eq_getElem, List.getElem_ofFn]
    exact (hf _).2.2.1
  · rw [List.forall₂_iff_get]
    refine ⟨by simp [Spec.ColumnRequest.batch], ?_⟩
    intro i hi hi'
    simp only [Spec.ColumnRequest.batch, List.get_eq_getElem, List.getElem_ofFn]
    exact (hf _).2.2.2.1
  · rw [List.forall₂_iff_get]
    refine ⟨by simp [Spec.ColumnRequest.batch], ?_⟩
    intro i hi hi'
    simp only [Spec.ColumnRequest.batch, List.get_eq_getElem, List.getElem_ofFn]
    exact (hf _).2.2.2.2
  · intro o ho
    obtain ⟨i, rfl⟩ := (List.mem_ofFn' _ _).1 ho
    exact (hf i).1

/-- the batches that are checked for all requests -/
def allColumns {k n c : Nat} (cms : Fin n → List UInt8) (r : Fin c → Spec.ColumnRequest k) (a : Fin c → Option (Spec.Columns k n)) :
    List Spec.Batch :=
  (List.finRange c).flatMap (fun i => match a i with
    | none => []
    | some x => (List.finRange k).map (x.batch (r i) cms))

theorem allColumns_length {k n c : Nat} (cms : Fin n → List UInt8) (r : Fin c → Spec.ColumnRequest k) (a : Fin c → Option (Spec.Columns k n)) :
    (allColumns cms r a).length ≤ c * k := by
  unfold allColumns
  rw [List.length_flatMap]
  refine (List.sum_le_card_nsmul _ k ?_).trans (by simp)
  intro y hy
  obtain ⟨i, -, rfl⟩ := List.mem_map.1 hy
  cases a i <;> simp

theorem mem_allColumns {k n c : Nat} {cms : Fin n → List UInt8} {r : Fin c → Spec.ColumnRequest k} {a : Fin c → Option (Spec.Columns k n)}
    {i : Fin c} {x : Spec.Columns k n} (h : a i = some x) (j : Fin k) : x.batch (r i) cms j ∈ allColumns cms r a := by
  unfold allColumns
  refine List.mem_flatMap.2 ⟨i, List.mem_finRange _, ?_⟩
  rw [h]
  exact List.mem_map_of_mem (List.mem_finRange _)

open Classical in
/-- C84, several blobs: each of `c` clients asks for `k` columns at random and checks each column that it gets in one call, with the
commitments to `n` blobs. An attacker sees all requests, asks for at most `q` hashes, and then chooses the commitments and all
replies. The event that at least `m` clients accept all their columns although, for some of the blobs, recovery from the cells that these
clients hold does not return the cells and proofs of a blob with its commitment (and the cells do not break the setup), happens for at
most the given fraction of hash functions and requests. The first part is that of C83: it does not depend on the number of blobs. -/
theorem C84_columns [LawfulPointCodec G1 48] [LawfulPairing G1 G2 GT] (setup : SetupPoints G1 G2) (up : UsePrecomp) (τ : Fr)
    (P : G1) (H : G2) (hpt : Spec.PowersOfTau setup.g1Monomial setup.g2Monomial τ P H)
    (hnd : ∀ a : G1, pair a H = (0 : GT) → a = 0) (hτ : ∀ i < 8192, τ ≠ Spec.point 13 i)
    (verifier ctx : DASContext K G1 G2) (hver : (DASContext.new setup up : Outcome ε (DASContext K G1 G2)) = .ok verifier)
    (hctx : (DASContext.new setup .no : Outcome Error (DASContext K G1 G2)) = .ok ctx)
    (k n c m : Nat) (hk : 0 < k) (hn : n < 2 ^ 64) (D : Finset (List UInt8))
    (hD : ∀ x : List UInt8, x.length ≤ 48 + 2160 * n → x ∈ D) (rest : List UInt8 → Spec.Digest)
    (A : (Fin c → Spec.ColumnRequest k) → Spec.Attacker ((Fin n → List UInt8) × (Fin c → Option (Spec.Columns k n)))) (q : Nat)
    (hA : ∀ r, (A r).AtMost q) :
    (univ.filter (fun p : Spec.Table D × (Fin c → Spec.ColumnRequest k) =>
      let hash := p.1.hash rest
      let out := (A p.2).run hash
      let accepts := fun i x => out.2 i = some x ∧ CheckedColumns verifier hash out.1 (p.2 i) x
      m ≤ (univ.filter (fun i => ∃ x, accepts i x)).card ∧
      ∃ (t : Fin n) (b : Spec.Batch),
        b.Collects (out.1 t) (fun s => ∃ i x, accepts i x ∧ s = (p.2 i).batch (out.1 t) (x.row t)) ∧
        ¬ Available ctx (out.1 t) b.inds b.cells ∧
        ¬ Spec.BreaksSetup (GT := GT) setup.g1Monomial setup.g2Monomial τ P H b (out.1 t))).card * 2 ^ 256 ≤
    c.choose m * ((128 : Nat).choose 63 * ((63 : Nat).descFactorial k ^ m * (128 : Nat).descFactorial k ^ (c - m))) *
        Fintype.card (Spec.Table D) * 2 ^ 256 +
      (q + c * k) * (3 * (n - 1)) * Fintype.card (Spec.Table D) * Fintype.card (Fin c → Spec.ColumnRequest k) := by
  have hsub : univ.filter (fun p : Spec.Table D × (Fin c → Spec.ColumnRequest k) =>
      let hash := p.1.hash rest
      let out := (A p.2).run hash
      let accepts := fun i x => out.2 i = some x ∧ CheckedColumns verifier hash out.1 (p.2 i) x
      m ≤ (univ.filter (fun i => ∃ x, accepts i x)).card ∧
      ∃ (t : Fin n) (b : Spec.Batch),
        b.Collects (out.1 t) (fun s => ∃ i x, accepts i x ∧ s = (p.2 i).batch (out.1 t) (x.row t)) ∧
        ¬ Available ctx (out.1 t) b.inds b.cells ∧
        ¬ Spec.BreaksSetup (GT := GT) setup.g1Monomial setup.g2Monomial τ P H b (out.1 t)) ⊆
      univ ×ˢ univ.filter (fun r : Fin c → Spec.ColumnRequest k => ∃ T : Finset (Fin c), T.card = m ∧ ∃ U : Finset (Fin 128), U.card = 63 ∧
        ∀ i ∈ T, ∀ j, r i j ∈ U) ∪
      univ.filter (fun p : Spec.Table D × (Fin c → Spec.ColumnRequest k) =>
        ∃ b ∈ allColumns ((A p.2).run (p.1.hash rest)).1 p.2 ((A p.2).run (p.1.hash rest)).2, b.IsFalse τ P n ∧
          Accepts verifier (p.1.hash rest) b) := by
    rintro ⟨ω, r⟩ hp
    obtain ⟨-, hm, t, b, hc, hav, hbr⟩ := mem_filter.1 hp
    dsimp only at hm hc hav hbr
    rw [mem_union]
    generalize hout : (A r).run (ω.hash rest) = out at *
    by_cases hfalse : ∃ b ∈ allColumns out.1 r out.2, b.IsFalse τ P n ∧ Accepts verifier (ω.hash rest) b
    · exact .inr (mem_filter.2 ⟨mem_univ _, by dsimp only; rw [hout]; exact hfalse⟩)
    left
    have hrows : ∀ i x, out.2 i = some x → CheckedColumns verifier (ω.hash rest) out.1 (r i) x → ∀ t,
        ((r i).batch (out.1 t) (x.row t)).Sized k ∧ ((r i).batch (out.1 t) (x.row t)).commitments =
          List.replicate ((r i).batch (out.1 t) (x.row t)).inds.length (out.1 t) ∧
        ∃ items : List (Spec.Opening G1), Spec.Decodes ((r i).batch (out.1 t) (x.row t)).commitments
          ((r i).batch (out.1 t) (x.row t)).inds ((r i).batch (out.1 t) (x.row t)).cells ((r i).batch (out.1 t) (x.row t)).proofs items ∧
          ∀ o ∈ items, o.Valid τ P := by
      intro i x hx hch t
      refine row_valid τ P out.1 (r i) x ?_ t hk
      intro j
      obtain ⟨hs, hacc⟩ := hch j
      obtain ⟨items, hd⟩ := accepts_items verifier (ω.hash rest) n _ hs hacc
      refine ⟨hs, items, hd, ?_⟩
      rcases isFalse_or_valid τ P n _ hs items hd with hf | hv
      · exact absurd ⟨_, mem_allColumns hx j, hf, hacc⟩ hfalse
      · exact hv
    have hbs : ∀ s, (∃ i x, (out.2 i = some x ∧ CheckedColumns verifier (ω.hash rest) out.1 (r i) x) ∧
        s = (r i).batch (out.1 t) (x.row t)) → s.Sized k ∧ s.commitments = List.replicate s.inds.length (out.1 t) ∧
        ∃ items : List (Spec.Opening G1), Spec.Decodes s.commitments s.inds s.cells s.proofs items ∧ ∀ o ∈ items, o.Valid τ P := by
      rintro s ⟨i, x, ⟨hx, hch⟩, rfl⟩
      exact hrows i x hx hch t
    have hlt : b.inds.length ≤ 63 := by
      by_contra hge
      rcases collects_available (GT := GT) setup τ P H hpt hτ ctx hctx hc hbs (by omega) with h | h
      · exact hav h
      · exact hbr h
    obtain ⟨items, hd, -⟩ := collects_items τ P hc (fun c h => (hbs c h).2)
    have hU := card_columns b.inds hc.distinct (decodes_lengths hd).2.2.2.2
    obtain ⟨U, hUs, hUc⟩ := exists_superset_card_eq (s := univ.filter (fun c : Fin 128 => (c : Nat) ∈ b.inds)) (n := 63)
      (by rw [hU]; exact hlt) (by simp)
    obtain ⟨T, hTs, hTc⟩ := exists_subset_card_eq hm
    refine mem_product.2 ⟨mem_univ _, mem_filter.2 ⟨mem_univ _, T, hTc, U, hUc, ?_⟩⟩
    intro i hi j
    obtain ⟨-, x, hx⟩ := mem_filter.1 (hTs hi)
    refine hUs (mem_filter.2 ⟨mem_univ _, ?_⟩)
    exact hc.complete _ ⟨i, x, hx, rfl⟩ _ ((List.mem_ofFn' _ _).2 ⟨j, rfl⟩)
  refine (Nat.mul_le_mul_right _ ((card_le_card hsub).trans (card_union_le _ _))).trans ?_
  rw [Nat.add_mul]
  refine Nat.add_le_add ?_ ?_
  · rw [card_product, card_univ, Nat.mul_comm (Fintype.card _)]
    exact Nat.mul_le_mul_right _ (Nat.mul_le_mul_right _ (card_few_columns c k m 63))
  · rw [card_filter_prod, sum_mul]
    refine (sum_le_card_nsmul _ _ ((q + c * k) * (3 * (n - 1)) * Fintype.card (Spec.Table D)) ?_).trans ?_
    · intro r _
      exact few_false_list setup up τ P H hpt hnd verifier hver hn D hD rest (A r) q (hA r)
        (fun o => allColumns o.1 r o.2) (fun o => allColumns_length o.1 r o.2)
    · rw [card_univ, smul_eq_mul, Nat.mul_comm]

/-- C84, agreement: two sets of cells from which the blob behind the same commitment has been recovered. Recovery has
returned the same cells and the same proofs from both, or the two blobs are different and reveal the secret. -/
theorem C84_agree [LawfulPointCodec G1 48] (setup : SetupPoints G1 G2) (τ : Fr) (P : G1) (H : G2)
    (hpt : Spec.PowersOfTau setup.g1Monomial setup.g2Monomial τ P H) (hP : P ≠ 0) (ctx : DASContext K G1 G2)
    (hctx : (DASContext.new setup .no : Outcome Error (DASContext K G1 G2)) = .ok ctx) (cm : List UInt8)
    (inds inds' : List Nat) (cells cells' : List (List UInt8)) (h : Available ctx cm inds cells) (h' : Available ctx cm inds' cells') :
    (∃ all, ctx.recoverCellsAndKzgProofs inds cells = .ok all ∧ ctx.recoverCellsAndKzgProofs inds' cells' = .ok all) ∨
    ∃ blob blob', ctx.blobToKzgCommitment blob = .ok cm ∧ ctx.blobToKzgCommitment blob' = .ok cm ∧
      ctx.recoverCellsAndKzgProofs inds cells = ctx.computeCellsAndKzgProofs blob ∧
      ctx.recoverCellsAndKzgProofs inds' cells' = ctx.computeCellsAndKzgProofs blob' ∧ Spec.RevealsSecret τ blob blob' := by
  obtain ⟨blob, out, proofs, hl, hcm, hrec, hcomp, -⟩ := h
  obtain ⟨blob', out', proofs', hl', hcm', hrec', hcomp', -⟩ := h'
  obtain ⟨M, hp, hM, hrs, -⟩ := context_fields setup .no hpt.length_g1 ctx hctx
  obtain ⟨f, hf⟩ : ∃ f, Spec.IsBlobPoly blob f := by
    by_contra hn
    obtain ⟨_, -, -, -, he, -⟩ := bad_blob (ctx := ctx) hl hn
    rw [he] at hcm
    cases hcm
  obtain ⟨f', hf'⟩ : ∃ f, Spec.IsBlobPoly blob' f := by
    by_contra hn
    obtain ⟨_, -, -, -, he, -⟩ := bad_blob (ctx := ctx) hl' hn
    rw [he] at hcm'
    cases hcm'
  by_cases hff : f = f'
  · left
    subst hff
    refine ⟨(out, proofs), hrec, ?_⟩
    rw [hrec', ← hcomp', ← hcomp, cells_of_blob hp hf, cells_of_blob hp hf']
  right
  refine ⟨blob, blob', hcm, hcm', by rw [hrec, hcomp], by rw [hrec', hcomp'], f, f', hf, hf', sub_ne_zero.2 hff, ?_, ?_⟩
  · have h1 : (f - f').degree < ((4096 : Nat) : WithBot Nat) := lt_of_le_of_lt (degree_sub_le f f') (max_lt hf.1 hf'.1)
    have := natDegree_lt_iff_degree_lt (sub_ne_zero.2 hff) |>.2 h1
    omega
  · rw [C03_commitment setup .no τ P H hpt ctx hctx blob f hf] at hcm
    rw [C03_commitment setup .no τ P H hpt ctx hctx blob' f' hf', ← Outcome.ok.inj hcm] at hcm'
    have he : f'.eval τ • P = f.eval τ • P := by
      have := congrArg (fromCompressed (G := G1)) (Outcome.ok.inj hcm')
      rwa [LawfulPointCodec.fromCompressed_toCompressed, LawfulPointCodec.fromCompressed_toCompressed, Option.some.injEq] at this
    rw [IsRoot.def, eval_sub]
    have h0 : (f.eval τ - f'.eval τ) • P = 0 := by rw [sub_smul, he, sub_self]
    exact (smul_eq_zero.1 h0).resolve_right hP

open Classical in
/-- C84, nodes: an attacker asks for at most `q` hashes and then chooses a commitment and a batch for each of `c` nodes. The event that two of
the nodes get at least 64 different columns for the commitment, both accept them, and recovery does not return the same cells and proofs to
both (and neither batch breaks the setup, nor do two different blobs with that commitment reveal the secret), happens for at most the given
fraction of the hash functions. -/
theorem C84_nodes [LawfulPointCodec G1 48] [LawfulPairing G1 G2 GT] (setup : SetupPoints G1 G2) (up : UsePrecomp) (τ : Fr)
    (P : G1) (H : G2) (hpt : Spec.PowersOfTau setup.g1Monomial setup.g2Monomial τ P H) (hP : P ≠ 0)
    (hnd : ∀ a : G1, pair a H = (0 : GT) → a = 0) (hτ : ∀ i < 8192, τ ≠ Spec.point 13 i)
    (verifier ctx : DASContext K G1 G2) (hver : (DASContext.new setup up : Outcome ε (DASContext K G1 G2)) = .ok verifier)
    (hctx : (DASContext.new setup .no : Outcome Error (DASContext K G1 G2)) = .ok ctx)
    (c : Nat) (D : Finset (List UInt8)) (hD : ∀ x : List UInt8, x.length ≤ 48 + 2160 * 128 → x ∈ D)
    (rest : List UInt8 → Spec.Digest) (A : Spec.Attacker (List UInt8 × (Fin c → Spec.Batch))) (q : Nat) (hA : A.AtMost q) :
    (univ.filter (fun ω : Spec.Table D =>
      let hash := ω.hash rest
      let cm := (A.run hash).1
      let bs := (A.run hash).2
      ∃ i i', (bs i).Sized 128 ∧ (bs i).Half cm ∧ Accepts verifier hash (bs i) ∧
        (bs i').Sized 128 ∧ (bs i').Half cm ∧ Accepts verifier hash (bs i') ∧
        (¬ ∃ all, ctx.recoverCellsAndKzgProofs (bs i).inds (bs i).cells = .ok all ∧
          ctx.recoverCellsAndKzgProofs (bs i').inds (bs i').cells = .ok all) ∧
        ¬ Spec.BreaksSetup (GT := GT) setup.g1Monomial setup.g2Monomial τ P H (bs i) cm ∧
        ¬ Spec.BreaksSetup (GT := GT) setup.g1Monomial setup.g2Monomial τ P H (bs i') cm ∧
        ¬ ∃ blob blob', ctx.blobToKzgCommitment blob = .ok cm ∧ ctx.blobToKzgCommitment blob' = .ok cm ∧
          Spec.RevealsSecret τ blob blob')).card * 2 ^ 256 ≤
      (q + c) * (3 * 127) * Fintype.card (Spec.Table D) := by
  refine le_trans (Nat.mul_le_mul_right _ (card_le_card ?_))
    (few_false_list setup up τ P H hpt hnd verifier hver (N := 128) (m := c) (by norm_num) D hD rest A q hA
      (fun o => List.ofFn o.2) (fun o => by simp))
  intro ω hω
  obtain ⟨-, i, i', hs, hh, ha, hs', hh', ha', hdiff, hbr, hbr', hrev⟩ := mem_filter.1 hω
  have key : ∀ i, ((A.run (ω.hash rest)).2 i).Sized 128 → ((A.run (ω.hash rest)).2 i).Half (A.run (ω.hash rest)).1 →
      Accepts verifier (ω.hash rest) ((A.run (ω.hash rest)).2 i) →
      ¬ Spec.BreaksSetup (GT := GT) setup.g1Monomial setup.g2Monomial τ P H ((A.run (ω.hash rest)).2 i) (A.run (ω.hash rest)).1 →
      ((A.run (ω.hash rest)).2 i).IsFalse τ P 128 ∨
      Available ctx (A.run (ω.hash rest)).1 ((A.run (ω.hash rest)).2 i).inds ((A.run (ω.hash rest)).2 i).cells := by
    intro i
    generalize (A.run (ω.hash rest)).1 = cm
    generalize (A.run (ω.hash rest)).2 i = b
    intro hs hh ha hbr
    obtain ⟨items, hd⟩ := accepts_items verifier _ 128 b hs ha
    rcases isFalse_or_valid τ P 128 b hs items hd with hf | hv
    · exact .inl hf
    right
    obtain ⟨hcm, hc, -⟩ := hs
    obtain ⟨he, h64, hdist⟩ := hh
    have hd2 := hd
    rw [he] at hd2
    have hcm' : cm.length = 48 := hcm cm (by rw [he]; exact List.mem_replicate.2 ⟨by omega, rfl⟩)
    obtain ⟨f, hf, h⟩ := available_of_valid (GT := GT) setup τ P H hpt ctx hctx cm b.inds b.cells b.proofs hcm' hc h64 hdist items hd2
    rcases h hv with ⟨i, hi, h⟩ | h | ⟨C, N, W, hC, rfl, h1, h2, rfl, h3, h4⟩ | h
    · exact absurd h (hτ i hi)
    · exact h
    · exact absurd ⟨items, f, hd, hf, .inl ⟨C, hC, h1, h2, h3, h4⟩⟩ hbr
    · exact absurd ⟨items, f, hd, hf, .inr h⟩ hbr
  rcases key i hs hh ha hbr with hf | hav
  · exact mem_filter.2 ⟨mem_univ _, _, (List.mem_ofFn' _ _).2 ⟨i, rfl⟩, hf, ha⟩
  rcases key i' hs' hh' ha' hbr' with hf | hav'
  · exact mem_filter.2 ⟨mem_univ _, _, (List.mem_ofFn' _ _).2 ⟨i', rfl⟩, hf, ha'⟩
  rcases C84_agree setup τ P H hpt hP ctx hctx _ _ _ _ _ hav hav' with h | ⟨blob, blob', h1, h2, -, -, h3⟩
  · exact absurd h hdiff
  · exact absurd ⟨blob, blob', h1, h2, h3⟩ hrev

end

/-! ### concrete cases -/
section
open Toy

/-- all cells of a polynomial are available -/
theorem Toy.all_available (ctx : DASContext Fr Fr Fr) (hctx : (DASContext.new (setup 7) .no : Outcome Error _) = .ok ctx)
    (f : Fr[X]) (hf : f.degree < 4096) :
    Available ctx (toCompressed (f.eval 7 • (1 : Fr))) (List.range 128) (cellsOf f) := by
  have hlen : (cellsOf f).length = 128 := by rw [cellsOf_eq]; simp
  have hz : ∀ p ∈ (List.range 128).zip (cellsOf f), Spec.IsCell f p.1 p.2 := by
    intro p hp
    obtain ⟨i, hi, rfl⟩ := List.mem_iff_getElem.1 hp
    rw [List.getElem_zip]
    simp only [cellsOf_eq, List.getElem_map, List.getElem_range]
    exact (isCell_iff _ _ _).2 rfl
  have hcell : ∀ c ∈ cellsOf f, ∃ k, Spec.IsCell f k c := by
    intro c hc
    rw [cellsOf_eq] at hc
    obtain ⟨k, -, rfl⟩ := List.mem_map.1 hc
    exact ⟨k, (isCell_iff _ _ _).2 rfl⟩
  have hw : Spec.RecoveryWellFormed (List.range 128) (cellsOf f) :=
    ⟨by rw [hlen]; simp, fun i hi => List.mem_range.1 hi, List.nodup_range, by simp,
      fun c hc => isCell_canonical (hcell c hc).choose_spec⟩
  obtain ⟨out, proofs, h1, h2, h3⟩ := recover_of_consistent (setup 7) (length_g1 7) ctx hctx (List.range 128) (cellsOf f)
    (fun c hc => (hcell c hc).choose_spec.1) hw f ⟨hf, hz⟩
  refine ⟨blobOf f, out, proofs, (isBlobPoly_blobOf f hf).2.1, ?_, h1, h2, h3⟩
  exact C03_commitment (setup 7) .no 7 1 1 (powersOfTau 7) ctx hctx _ f (isBlobPoly_blobOf f hf)

/-- Both cases of C84_agree occur: with one polynomial the two sets give the same, and with the secret 7 the polynomials `3 X + 5` and `26`
have the same commitment, and the recovered cells are different. -/
example : ∃ ctx : DASContext Fr Fr Fr, (DASContext.new (setup 7) .no : Outcome Error _) = .ok ctx ∧
    ∃ cm cells cells', Available ctx cm (List.range 128) cells ∧ Available ctx cm (List.range 128) cells' ∧
      ¬ ∃ all, ctx.recoverCellsAndKzgProofs (List.range 128) cells = .ok all ∧
        ctx.recoverCellsAndKzgProofs (List.range 128) cells' = .ok all := by
  obtain ⟨ctx, hctx⟩ := context 7
  have h26 : (C (26 : Fr)).degree < 4096 := lt_of_le_of_lt degree_C_le (by exact_mod_cast (by norm_num : (0 : Nat) < 4096))
  have a1 := Toy.all_available ctx hctx poly poly_degree
  have a2 := Toy.all_available ctx hctx (C 26) h26
  have he : poly.eval (7 : Fr) = (C (26 : Fr)).eval 7 := by
    simp [poly]
    norm_num
  rw [← he] at a2
  refine ⟨ctx, hctx, _, _, _, a1, a2, ?_⟩
  rintro ⟨all, h1, h2⟩
  obtain ⟨_, out, proofs, -, -, e1, -, g1⟩ := a1
  obtain ⟨_, out', proofs', -, -, e2, -, g2⟩ := a2
  rw [h1] at e1
  rw [h2] at e2
  have hout : out = out' := by
    have := (Outcome.ok.inj e1).symm.trans (Outcome.ok.inj e2)
    exact (Prod.mk.inj this).1
  have c0 : ∀ f : Fr[X], ((0 : Nat), cellOf f 0) ∈ (List.range 128).zip (cellsOf f) := by
    intro f
    rw [cellsOf_eq, List.mem_iff_getElem]
    exact ⟨0, by simp, by simp⟩
  have b1 := g1 _ (c0 poly)
  have b2 := g2 _ (c0 (C 26))
  rw [hout, b2] at b1
  have hcc : cellOf (C (26 : Fr)) 0 = cellOf poly 0 := Option.some.inj b1
  have i1 := (isCell_iff poly 0 _).2 rfl
  have i2 := (isCell_iff (C (26 : Fr)) 0 _).2 rfl
  rw [hcc] at i2
  have e3 := i1.2 0 (by norm_num)
  have e4 := i2.2 0 (by norm_num)
  have e5 := encodes_inj e3 e4
  simp only [poly, eval_add, eval_mul, eval_X, eval_C, eval_ofNat] at e5
  have h3 : (3 : Fr) ≠ 0 := by
    intro h
    have : ((3 : Nat) : Fr) = (0 : Nat) := by exact_mod_cast h
    rw [ZMod.natCast_eq_natCast_iff'] at this
    revert this
    decide +kernel
  refine Toy.seven_no_point (64 * 0 + 0) (by norm_num) (mul_left_cancel₀ h3 ?_)
  linear_combination -e5

open Classical in
/-- The hypotheses of C84_columns and C84_nodes can be met: 6 blobs, 1000 clients with 8 columns each, of which 200 accept; and 1000 nodes. -/
example (ctx : DASContext Fr Fr Fr) (hctx : (DASContext.new (setup 7) .no : Outcome Error _) = .ok ctx)
    (rest : List UInt8 → Spec.Digest)
    (A : (Fin 1000 → Spec.ColumnRequest 8) → Spec.Attacker ((Fin 6 → List UInt8) × (Fin 1000 → Option (Spec.Columns 8 6)))) (q : Nat)
    (hA : ∀ r, (A r).AtMost q) : ∃ D : Finset (List UInt8),
    (univ.filter (fun p : Spec.Table D × (Fin 1000 → Spec.ColumnRequest 8) =>
      let hash := p.1.hash rest
      let out := (A p.2).run hash
      let accepts := fun i x => out.2 i = some x ∧ CheckedColumns ctx hash out.1 (p.2 i) x
      200 ≤ (univ.filter (fun i => ∃ x, accepts i x)).card ∧
      ∃ (t : Fin 6) (b : Spec.Batch),
        b.Collects (out.1 t) (fun s => ∃ i x, accepts i x ∧ s = (p.2 i).batch (out.1 t) (x.row t)) ∧
        ¬ Available ctx (out.1 t) b.inds b.cells ∧
        ¬ Spec.BreaksSetup (GT := Fr) (setup 7).g1Monomial (setup 7).g2Monomial 7 1 1 b (out.1 t))).card * 2 ^ 256 ≤
    (1000 : Nat).choose 200 * ((128 : Nat).choose 63 * ((63 : Nat).descFactorial 8 ^ 200 * (128 : Nat).descFactorial 8 ^ (1000 - 200))) *
        Fintype.card (Spec.Table D) * 2 ^ 256 +
      (q + 1000 * 8) * (3 * (6 - 1)) * Fintype.card (Spec.Table D) * Fintype.card (Fin 1000 → Spec.ColumnRequest 8) := by
  obtain ⟨D, hD⟩ := exists_domain (48 + 2160 * 6)
  exact ⟨D, C84_columns (setup 7) .no 7 1 1 (powersOfTau 7) nondegenerate Toy.seven_no_point ctx ctx hctx hctx 8 6 1000 200 (by norm_num)
    (by norm_num) D hD rest A q hA⟩

end
end Verif
