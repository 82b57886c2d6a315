import Verif.Props.Verification
import Verif.Props.Recovery
import Verif.Lemmas.Binding

set_option linter.unusedSectionVars false

/-! C56, C57: what acceptance by the verifier guarantees to a node that holds only a commitment, some cells and their
proofs, when commitment and proofs come from an attacker. -/
namespace Verif
open Polynomial Finset

section
variable {ε K G1 G2 GT : Type} [Field K] [DecidableEq K] [AddCommGroup G1] [Module Fr G1] [DecidableEq G1]
  [Curve K G1] [PointCodec G1] [AddCommGroup G2] [Module Fr G2] [AddCommGroup GT] [DecidableEq GT]
  [Pairing G1 G2 GT]

/-- Two claims with the same commitment and index and different cells, both satisfying the KZG equation: the secret is a
point of the coset, or the two claims give the solution of the bilinear strong Diffie-Hellman problem at a point where
the cells differ. -/
theorem binding_claims [LawfulPairing G1 G2 GT] {g1 : List G1} {g2 : List G2} {τ : Fr} {P : G1} {H : G2}
    (hpt : Spec.PowersOfTau g1 g2 τ P H) (o o' : Spec.Opening G1) (hc : o.commitment = o'.commitment)
    (hk : o.index = o'.index) (hI : o.interp.degree < 64) (hI' : o'.interp.degree < 64) (hv : o.Valid τ P)
    (hv' : o'.Valid τ P) (cell cell' : List UInt8) (hcell : Spec.IsCell o.interp o.index cell)
    (hcell' : Spec.IsCell o'.interp o'.index cell') (hne : cell ≠ cell') :
    (∃ i < 64, τ = Spec.point 13 (64 * o.index + i)) ∨
    ∃ j < 64, Spec.block 32 j cell ≠ Spec.block 32 j cell' ∧
      (Spec.sdhSolution g1 g2 o.index j o.interp o'.interp o.proof o'.proof : GT) =
        pair ((τ - Spec.point 13 (64 * o.index + j))⁻¹ • P) H := by
  by_cases hτ : ∃ i < 64, τ = Spec.point 13 (64 * o.index + i)
  · exact .inl hτ
  push Not at hτ
  right
  have hex : ∃ j < 64, o.interp.eval (Spec.point 13 (64 * o.index + j)) ≠
      o'.interp.eval (Spec.point 13 (64 * o.index + j)) := by
    by_contra hall
    push Not at hall
    apply hne
    rw [(isCell_iff _ _ _).1 hcell, (isCell_iff _ _ _).1 hcell', ← hk]
    unfold cellOf
    congr 1
    apply List.map_congr_left
    intro j hj
    rw [hall j (List.mem_range.1 hj)]
  obtain ⟨j, hj, hne'⟩ := hex
  refine ⟨j, hj, ?_, sdh_identity hpt o o' hc hk hI hI' hv hv' hτ j hj hne'⟩
  intro hb
  have h1 := hcell.2 j hj
  have h2 := hcell'.2 j hj
  rw [hb] at h1
  rw [← hk] at h2
  exact hne' (encodes_inj h1 h2)

/-- C56: two different cells, each accepted on its own for the same commitment and the same index, for any hash functions.
Then the secret is one of the 64 points of the coset, or the accepted bytes give the solution of the bilinear strong
Diffie-Hellman problem at a point where the cells differ. Nothing is assumed about how commitment and proofs were made. -/
theorem C56_two_cells [LawfulPointCodec G1 48] [LawfulPairing G1 G2 GT] (setup : SetupPoints G1 G2) (up : UsePrecomp) (τ : Fr)
    (P : G1) (H : G2) (hpt : Spec.PowersOfTau setup.g1Monomial setup.g2Monomial τ P H)
    (hnd : ∀ a : G1, pair a H = (0 : GT) → a = 0)
    (ctx : DASContext K G1 G2) (hctx : (DASContext.new setup up : Outcome ε (DASContext K G1 G2)) = .ok ctx)
    (sha256 sha256' : List UInt8 → List UInt8) (commitment : List UInt8) (k : Nat) (cell cell' proof proof' : List UInt8)
    (hcm : commitment.length = 48) (hpf : proof.length = 48) (hpf' : proof'.length = 48) (hcl : cell.length = 2048)
    (hcl' : cell'.length = 2048) (hne : cell ≠ cell')
    (hok : ctx.verifyCellKzgProofBatch sha256 [commitment] [k] [cell] [proof] = .ok ())
    (hok' : ctx.verifyCellKzgProofBatch sha256' [commitment] [k] [cell'] [proof'] = .ok ()) :
    (∃ i < 64, τ = Spec.point 13 (64 * k + i)) ∨
    ∃ (j : Nat) (I I' : Fr[X]) (π π' : G1), j < 64 ∧ Spec.block 32 j cell ≠ Spec.block 32 j cell' ∧
      (I.degree < 64 ∧ Spec.IsCell I k cell) ∧ (I'.degree < 64 ∧ Spec.IsCell I' k cell') ∧
      fromCompressed proof = some π ∧ fromCompressed proof' = some π' ∧
      (Spec.sdhSolution setup.g1Monomial setup.g2Monomial k j I I' π π' : GT) =
        pair ((τ - Spec.point 13 (64 * k + j))⁻¹ • P) H := by
  have key : ∀ (s : List UInt8 → List UInt8) (cell proof : List UInt8), cell.length = 2048 → proof.length = 48 →
      ctx.verifyCellKzgProofBatch s [commitment] [k] [cell] [proof] = .ok () →
      ∃ o : Spec.Opening G1, fromCompressed commitment = some o.commitment ∧ o.index = k ∧ o.interp.degree < 64 ∧
        Spec.IsCell o.interp k cell ∧ fromCompressed proof = some o.proof ∧ o.Valid τ P := by
    intro s cell proof hl hp hok
    have hw : Spec.VerifyWellFormed G1 [commitment] [k] [cell] [proof] := by
      rcases C13_validation ctx s [commitment] [k] [cell] [proof] (by simpa using hl) (by simpa using hcm) (by simpa using hp)
        with ⟨hw, -⟩ | ⟨-, e, -, h⟩
      · exact hw
      · rw [h] at hok; cases hok
    obtain ⟨items, hd⟩ := exists_items (by simpa using hl) hw
    obtain ⟨h1, h2, h3, h4⟩ := hd
    cases h1 with
    | cons a1 r1 =>
      cases r1
      cases h2 with
      | cons a2 r2 =>
        cases h3 with
        | cons a3 r3 =>
          cases h4 with
          | cons a4 r4 =>
            rename_i o
            obtain ⟨a21, a22⟩ := a2
            refine ⟨o, a1, a21.symm, a3.1, by rw [a21]; exact a3.2, a4, ?_⟩
            have := (C06_single setup up τ P H hpt hnd ctx hctx s commitment k cell proof hcm hp o.commitment o.proof o.interp
              a1 a22 a3.1 (by rw [a21]; exact a3.2) a4).1 hok
            unfold Spec.Opening.Valid
            rw [← a21]
            exact this
  obtain ⟨o, h1, h2, h3, h4, h5, h6⟩ := key sha256 cell proof hcl hpf hok
  obtain ⟨o', h1', h2', h3', h4', h5', h6'⟩ := key sha256' cell' proof' hcl' hpf' hok'
  rcases binding_claims (GT := GT) hpt o o' (by rw [h1] at h1'; exact Option.some.inj h1') (h2.trans h2'.symm) h3 h3' h6 h6' cell
    cell' (by rw [h2]; exact h4) (by rw [h2']; exact h4') hne with h | ⟨j, hj, hb, h⟩
  · rw [h2] at h; exact .inl h
  · rw [h2] at h
    exact .inr ⟨j, o.interp, o'.interp, o.proof, o'.proof, hj, hb, ⟨h3, h4⟩, ⟨h3', h4'⟩, h5, h5', h⟩

/-- An accepted batch consists of true claims unless the challenge is one of few. -/
theorem accepted_valid [LawfulPointCodec G1 48] [LawfulPairing G1 G2 GT] (setup : SetupPoints G1 G2) (up : UsePrecomp) (τ : Fr)
    (P : G1) (H : G2) (hpt : Spec.PowersOfTau setup.g1Monomial setup.g2Monomial τ P H)
    (hnd : ∀ a : G1, pair a H = (0 : GT) → a = 0)
    (ctx : DASContext K G1 G2) (hctx : (DASContext.new setup up : Outcome ε (DASContext K G1 G2)) = .ok ctx)
    (commitments : List (List UInt8)) (inds : List Nat)
    (cells proofs : List (List UInt8)) (hcm : ∀ c ∈ commitments, c.length = 48) (hpf : ∀ c ∈ proofs, c.length = 48)
    (items : List (Spec.Opening G1)) (hd : Spec.Decodes commitments inds cells proofs items) :
    ∃ bad : Finset Fr, bad.card ≤ items.length - 1 ∧ ∀ sha256 : List UInt8 → List UInt8,
      ctx.verifyCellKzgProofBatch sha256 commitments inds cells proofs = .ok () →
        Spec.challenge sha256 commitments inds cells proofs ∈ bad ∨ ∀ o ∈ items, o.Valid τ P := by
  by_cases hall : ∀ o ∈ items, o.Valid τ P
  · exact ⟨∅, by simp, fun _ _ => .inr hall⟩
  · push Not at hall
    obtain ⟨bad, hb, h⟩ := C07_false_item setup up τ P H hpt hnd ctx hctx commitments inds cells proofs hcm hpf items hd hall
    exact ⟨bad, hb, fun s hs => .inl (h s hs)⟩

/-- Two well-formed batches with different cells for the same commitment and index, all claims of both satisfying the KZG equation. -/
theorem contradiction_of_valid [LawfulPairing G1 G2 GT] {g1 : List G1} {g2 : List G2} {τ : Fr} {P : G1} {H : G2}
    (hpt : Spec.PowersOfTau g1 g2 τ P H)
    (commitments commitments' : List (List UInt8)) (inds inds' : List Nat) (cells cells' proofs proofs' : List (List UInt8))
    (items items' : List (Spec.Opening G1)) (hd : Spec.Decodes commitments inds cells proofs items)
    (hd' : Spec.Decodes commitments' inds' cells' proofs' items') (i i' : Nat) (cm cell cell' : List UInt8) (k : Nat)
    (o o' : Spec.Opening G1)
    (hi : commitments[i]? = some cm ∧ inds[i]? = some k ∧ cells[i]? = some cell ∧ items[i]? = some o)
    (hi' : commitments'[i']? = some cm ∧ inds'[i']? = some k ∧ cells'[i']? = some cell' ∧ items'[i']? = some o')
    (hne : cell ≠ cell') (h : ∀ o ∈ items, o.Valid τ P) (h' : ∀ o ∈ items', o.Valid τ P) :
    (∃ i < 64, τ = Spec.point 13 (64 * k + i)) ∨
    ∃ j < 64, Spec.block 32 j cell ≠ Spec.block 32 j cell' ∧
      (Spec.sdhSolution g1 g2 k j o.interp o'.interp o.proof o'.proof : GT) =
        pair ((τ - Spec.point 13 (64 * k + j))⁻¹ • P) H := by
  have get : ∀ {commitments : List (List UInt8)} {inds : List Nat} {cells proofs : List (List UInt8)}
      {items : List (Spec.Opening G1)} {i : Nat} {cell : List UInt8} {o : Spec.Opening G1},
      Spec.Decodes commitments inds cells proofs items →
      (commitments[i]? = some cm ∧ inds[i]? = some k ∧ cells[i]? = some cell ∧ items[i]? = some o) →
      fromCompressed cm = some o.commitment ∧ k = o.index ∧ o.interp.degree < 64 ∧ Spec.IsCell o.interp o.index cell ∧
        o ∈ items := by
    intro commitments inds cells proofs items i cell o hd hi
    obtain ⟨h1, h2, h3, h4⟩ := hi
    obtain ⟨l1, rfl⟩ := List.getElem?_eq_some_iff.1 h1
    obtain ⟨l2, rfl⟩ := List.getElem?_eq_some_iff.1 h2
    obtain ⟨l3, rfl⟩ := List.getElem?_eq_some_iff.1 h3
    obtain ⟨l4, rfl⟩ := List.getElem?_eq_some_iff.1 h4
    have a3 := forall₂_getElem hd.cells l3 l4
    exact ⟨forall₂_getElem hd.commitments l1 l4, (forall₂_getElem hd.indices l2 l4).1, a3.1, a3.2, List.getElem_mem l4⟩
  obtain ⟨a1, a2, a3, a4, a5⟩ := get hd hi
  obtain ⟨b1, b2, b3, b4, b5⟩ := get hd' hi'
  rcases binding_claims (GT := GT) hpt o o' (by rw [a1] at b1; exact Option.some.inj b1) (a2.symm.trans b2) a3 b3 (h _ a5)
    (h' _ b5) cell cell' a4 b4 hne with h | ⟨j, hj, hb, h⟩
  · rw [← a2] at h; exact .inl h
  · rw [← a2] at h; exact .inr ⟨j, hj, hb, h⟩

/-- C56 for batches: two batches, each with any number of entries, that contain different cells for the same commitment and
index. There are sets of challenges, smaller than the batches and independent of the hash functions, such that if both
are accepted, one of the hashes fell into its set, or the secret is one of the 64 points of the coset, or the batches give the
solution of the bilinear strong Diffie-Hellman problem at a point where the cells differ. -/
theorem C56_batches [LawfulPointCodec G1 48] [LawfulPairing G1 G2 GT] (setup : SetupPoints G1 G2) (up : UsePrecomp) (τ : Fr)
    (P : G1) (H : G2) (hpt : Spec.PowersOfTau setup.g1Monomial setup.g2Monomial τ P H)
    (hnd : ∀ a : G1, pair a H = (0 : GT) → a = 0)
    (ctx : DASContext K G1 G2) (hctx : (DASContext.new setup up : Outcome ε (DASContext K G1 G2)) = .ok ctx)
    (commitments commitments' : List (List UInt8)) (inds inds' : List Nat) (cells cells' proofs proofs' : List (List UInt8))
    (hcm : ∀ c ∈ commitments, c.length = 48) (hpf : ∀ c ∈ proofs, c.length = 48)
    (hcm' : ∀ c ∈ commitments', c.length = 48) (hpf' : ∀ c ∈ proofs', c.length = 48)
    (items items' : List (Spec.Opening G1)) (hd : Spec.Decodes commitments inds cells proofs items)
    (hd' : Spec.Decodes commitments' inds' cells' proofs' items') (i i' : Nat) (cm cell cell' : List UInt8) (k : Nat)
    (o o' : Spec.Opening G1)
    (hi : commitments[i]? = some cm ∧ inds[i]? = some k ∧ cells[i]? = some cell ∧ items[i]? = some o)
    (hi' : commitments'[i']? = some cm ∧ inds'[i']? = some k ∧ cells'[i']? = some cell' ∧ items'[i']? = some o')
    (hne : cell ≠ cell') :
    ∃ bad bad' : Finset Fr, bad.card ≤ items.length - 1 ∧ bad'.card ≤ items'.length - 1 ∧
      ∀ sha256 sha256' : List UInt8 → List UInt8,
        ctx.verifyCellKzgProofBatch sha256 commitments inds cells proofs = .ok () →
        ctx.verifyCellKzgProofBatch sha256' commitments' inds' cells' proofs' = .ok () →
        Spec.challenge sha256 commitments inds cells proofs ∈ bad ∨
        Spec.challenge sha256' commitments' inds' cells' proofs' ∈ bad' ∨
        (∃ i < 64, τ = Spec.point 13 (64 * k + i)) ∨
        ∃ j < 64, Spec.block 32 j cell ≠ Spec.block 32 j cell' ∧
          (Spec.sdhSolution setup.g1Monomial setup.g2Monomial k j o.interp o'.interp o.proof o'.proof : GT) =
            pair ((τ - Spec.point 13 (64 * k + j))⁻¹ • P) H := by
  obtain ⟨bad, hb, h⟩ := accepted_valid setup up τ P H hpt hnd ctx hctx commitments inds cells proofs hcm hpf items hd
  obtain ⟨bad', hb', h'⟩ := accepted_valid setup up τ P H hpt hnd ctx hctx commitments' inds' cells' proofs' hcm' hpf' items' hd'
  refine ⟨bad, bad', hb, hb', ?_⟩
  intro s s' hs hs'
  rcases h s hs with h | h
  · exact .inl h
  rcases h' s' hs' with h' | h'
  · exact .inr (.inl h')
  exact .inr (.inr (contradiction_of_valid hpt commitments commitments' inds inds' cells cells' proofs proofs' items items' hd hd'
    i i' cm cell cell' k o o' hi hi' hne h h'))

theorem isCell_canonical {f : Fr[X]} {k : Nat} {c : List UInt8} (h : Spec.IsCell f k c) : Spec.Canonical 64 c := by
  intro j hj
  rw [(h.2 j hj).2]
  exact ZMod.val_lt _

/-- what a batch for one commitment denotes -/
theorem decodes_one {cm : List UInt8} {inds : List Nat} {cells proofs : List (List UInt8)} {items : List (Spec.Opening G1)}
    (hd : Spec.Decodes (List.replicate inds.length cm) inds cells proofs items) :
    items.map (·.index) = inds ∧ items.length = inds.length ∧ cells.length = inds.length ∧ (∀ k ∈ inds, k < 128) ∧
    (∀ o ∈ items, fromCompressed cm = some o.commitment ∧ o.index < 128 ∧ o.interp.degree < 64) ∧
    (∀ i (h : i < items.length) (h' : i < cells.length), Spec.IsCell (items[i]).interp (items[i]).index cells[i]) := by
  have l2 := hd.indices.length_eq
  have l3 := hd.cells.length_eq
  have hidx : items.map (·.index) = inds := by
    apply List.ext_getElem (by simp [l2])
    intro i h1 h2
    rw [List.getElem_map]
    exact ((forall₂_getElem hd.indices h2 (by omega)).1).symm
  refine ⟨hidx, l2.symm, l3.trans l2.symm, ?_, ?_, ?_⟩
  · intro k hk
    obtain ⟨i, hi, rfl⟩ := List.mem_iff_getElem.1 hk
    exact (forall₂_getElem hd.indices hi (by omega)).2
  · intro o ho
    obtain ⟨i, hi, rfl⟩ := List.mem_iff_getElem.1 ho
    have a1 := forall₂_getElem hd.commitments (i := i) (by simp; omega) hi
    have a2 := forall₂_getElem hd.indices (i := i) (by omega) hi
    have a3 := forall₂_getElem hd.cells (i := i) (by omega) hi
    rw [List.getElem_replicate] at a1
    exact ⟨a1, by rw [← a2.1]; exact a2.2, a3.1⟩
  · intro i h h'
    exact (forall₂_getElem hd.cells h' h).2

/-- recovery from cells that are consistent with a polynomial is proving its blob -/
theorem recover_of_consistent (setup : SetupPoints G1 G2) (h1 : setup.g1Monomial.length = 4096)
    (ctx : DASContext K G1 G2) (hctx : (DASContext.new setup .no : Outcome Error (DASContext K G1 G2)) = .ok ctx)
    (inds : List Nat) (cells : List (List UInt8)) (hcl : ∀ c ∈ cells, c.length = 2048)
    (hw : Spec.RecoveryWellFormed inds cells) (f : Fr[X]) (hf : Spec.Consistent inds cells f) :
    ∃ out proofs, ctx.recoverCellsAndKzgProofs inds cells = .ok (out, proofs) ∧
      ctx.computeCellsAndKzgProofs (blobOf f) = .ok (out, proofs) ∧ ∀ p ∈ inds.zip cells, out[p.1]? = some p.2 := by
  obtain ⟨M, hp, hM, hrs, -⟩ := context_fields setup .no h1 ctx hctx
  refine ⟨cellsOf f, proofsOf setup.g1Monomial f, ?_, ?_, ?_⟩
  · rcases recoverPolynomialCoeff_cases hw.1 hw.2 hcl hw.3 hw.4 hw.5 with ⟨⟨g, hg, h⟩ | ⟨hne, -⟩, huniq⟩
    · rw [huniq g f hg hf] at h
      rw [recover_run hp hrs h, prove_exact _ h1 M (msmExact_no _ 6 6 M hM) f hf.1]
    · exact absurd ⟨f, hf⟩ hne
  · rw [cells_of_blob hp (isBlobPoly_blobOf f hf.1), prove_exact _ h1 M (msmExact_no _ 6 6 M hM) f hf.1]
  · intro p hpm
    have h3 := (isCell_iff _ _ _).1 (hf.2 p hpm)
    have h4 := hw.inRange p.1 (List.of_mem_zip hpm).1
    rw [h3, cellsOf_eq, List.getElem?_map, List.getElem?_range h4]
    rfl

/-- The blob behind an accepted set of cells: a blob with that commitment, whose cells and proofs are what recovery returns, every
supplied cell being the cell of the blob at its index. -/
def Available (ctx : DASContext K G1 G2) (cm : List UInt8) (inds : List Nat) (cells : List (List UInt8)) : Prop :=
  ∃ blob out proofs, blob.length = 131072 ∧ ctx.blobToKzgCommitment blob = .ok cm ∧
    ctx.recoverCellsAndKzgProofs inds cells = .ok (out, proofs) ∧ ctx.computeCellsAndKzgProofs blob = .ok (out, proofs) ∧
    ∀ p ∈ inds.zip cells, out[p.1]? = some p.2

/-- A well-formed batch of at least 64 cells with different indices for one commitment, all claims satisfying the KZG equation. -/
theorem available_of_valid [LawfulPointCodec G1 48] [LawfulPairing G1 G2 GT] (setup : SetupPoints G1 G2) (τ : Fr)
    (P : G1) (H : G2) (hpt : Spec.PowersOfTau setup.g1Monomial setup.g2Monomial τ P H)
    (ctx : DASContext K G1 G2)
    (hctx : (DASContext.new setup .no : Outcome Error (DASContext K G1 G2)) = .ok ctx)
    (cm : List UInt8) (inds : List Nat) (cells proofs : List (List UInt8)) (hcm : cm.length = 48)
    (hcl : ∀ c ∈ cells, c.length = 2048) (hn : 64 ≤ inds.length) (hdist : inds.Nodup)
    (items : List (Spec.Opening G1)) (hd : Spec.Decodes (List.replicate inds.length cm) inds cells proofs items) :
    ∃ f : Fr[X], Spec.Consistent (inds.take 64) (cells.take 64) f ∧ ((∀ o ∈ items, o.Valid τ P) →
        (∃ i < 8192, τ = Spec.point 13 i) ∨
        Available ctx cm inds cells ∨
        (∃ (C : G1) (N : Fr[X]) (W : G1), fromCompressed cm = some C ∧ N = Spec.allVanishing (items.take 64) ∧ N.Monic ∧
          N.natDegree = 4096 ∧ W = Spec.excess setup.g1Monomial f (items.take 64) ∧ W ≠ 0 ∧
          N.eval τ • W = C - Spec.commitment setup.g1Monomial f) ∨
        ∃ o ∈ items, ∃ j < 64,
          (Spec.sdhSolution setup.g1Monomial setup.g2Monomial o.index j o.interp (f %ₘ Spec.vanishing 13 6 o.index) o.proof
            (Spec.openingProof setup.g1Monomial 13 6 f o.index) : GT) =
            pair ((τ - Spec.point 13 (64 * o.index + j))⁻¹ • P) H) := by
  obtain ⟨hidx, hlen, hlc, hrange, hall, hcells⟩ := decodes_one hd
  have hcan : ∀ c ∈ cells, Spec.Canonical 64 c := by
    intro c hc
    obtain ⟨i, hi, rfl⟩ := List.mem_iff_getElem.1 hc
    exact isCell_canonical (hcells i (by omega) hi)
  have hw : Spec.RecoveryWellFormed inds cells := ⟨hlc.symm, hrange, hdist, hn, hcan⟩
  obtain ⟨f, hf⟩ := consistent_exists (inds := inds.take 64) (cells := cells.take 64) (by simp [hlc])
    (fun i hi => hrange i (List.mem_of_mem_take hi)) (fun c hc => hcl c (List.mem_of_mem_take hc))
    (hdist.sublist (List.take_sublist _ _)) (by simp; omega) (fun c hc => hcan c (List.mem_of_mem_take hc))
  refine ⟨f, hf, fun hv => ?_⟩
  by_cases hτ : ∃ i < 8192, τ = Spec.point 13 i
  · exact .inl hτ
  right
  obtain ⟨C₀, hC₀⟩ : ∃ C₀ : G1, fromCompressed cm = some C₀ := by
    have : items[0]'(by omega) ∈ items := List.getElem_mem _
    exact ⟨_, (hall _ this).1⟩
  have hcom : ∀ o ∈ items, o.commitment = C₀ := by
    intro o ho
    have := (hall o ho).1
    rw [hC₀] at this
    exact (Option.some.inj this).symm
  have hint : ∀ o ∈ items.take 64, o.interp = f %ₘ Spec.vanishing 13 6 o.index := by
    intro o ho
    obtain ⟨i, hi, rfl⟩ := List.mem_iff_getElem.1 ho
    have hi' : i < items.length := by rw [List.length_take] at hi; omega
    have h64 : i < 64 := by rw [List.length_take] at hi; omega
    rw [List.getElem_take]
    have h1 := hcells i hi' (by omega)
    have h2 : Spec.IsCell f (items[i]).index cells[i] := by
      have hm : ((inds.take 64)[i]'(by simp; omega), (cells.take 64)[i]'(by simp; omega)) ∈
          (inds.take 64).zip (cells.take 64) := by
        rw [List.mem_iff_getElem]
        exact ⟨i, by simp; omega, by rw [List.getElem_zip]⟩
      have := hf.2 _ hm
      simp only [List.getElem_take] at this
      have hii : inds[i]'(by omega) = (items[i]).index := by
        have := List.getElem_of_eq hidx (i := i) (by simp; omega)
        rw [List.getElem_map] at this
        exact this.symm
      rwa [hii] at this
    rw [cellDivisor_eq]
    exact interp_unique (hall _ (List.getElem_mem _)).2.2 (mod_degree f _) h1 ((isCell_mod f _ _).2 h2)
  have hne : items.take 64 ≠ [] := by
    intro h
    have := congrArg List.length h
    rw [List.length_take, List.length_nil] at this
    omega
  have hex := excess_identity hpt (items.take 64) C₀ f hf.1 hne (fun o ho => hcom o (List.mem_of_mem_take ho))
    (fun o ho => (hall o (List.mem_of_mem_take ho)).2.1)
    (by rw [List.map_take, hidx]; exact hdist.sublist (List.take_sublist _ _)) hint
    (fun o ho => hv o (List.mem_of_mem_take ho))
  by_cases hW : Spec.excess setup.g1Monomial f (items.take 64) = 0
  swap
  · refine .inr (.inl ⟨C₀, _, _, hC₀, rfl, ?_, ?_, rfl, hW, hex⟩)
    · exact allVanishing_monic _
    · exact allVanishing_natDegree _ (by rw [List.length_take]; omega)
  rw [hW, smul_zero] at hex
  have hCf : C₀ = f.eval τ • P := by
    rw [← commitment_eval hpt f hf.1]; exact sub_eq_zero.1 hex.symm
  by_cases hcons : ∀ p ∈ inds.zip cells, Spec.IsCell f p.1 p.2
  · left
    obtain ⟨out, prfs, e1, e2, e3⟩ := recover_of_consistent setup hpt.length_g1 ctx hctx inds cells hcl hw f ⟨hf.1, hcons⟩
    refine ⟨blobOf f, out, prfs, (isBlobPoly_blobOf f hf.1).2.1, ?_, e1, e2, e3⟩
    rw [C03_commitment setup .no τ P H hpt ctx hctx _ f (isBlobPoly_blobOf f hf.1), ← hCf,
      LawfulPointCodec.toCompressed_fromCompressed cm C₀ hcm hC₀]
  · right; right
    push Not at hcons
    obtain ⟨p, hpm, hnot⟩ := hcons
    obtain ⟨i, hi, rfl⟩ := List.mem_iff_getElem.1 hpm
    rw [List.length_zip] at hi
    rw [List.getElem_zip] at hnot
    simp only at hnot
    have hi' : i < items.length := by omega
    have hii : inds[i]'(by omega) = (items[i]).index := by
      have := List.getElem_of_eq hidx (i := i) (by simp; omega)
      rw [List.getElem_map] at this
      exact this.symm
    rw [hii] at hnot
    have hm : items[i] ∈ items := List.getElem_mem _
    generalize ho : items[i] = o at *
    have hcell : Spec.IsCell o.interp o.index cells[i] := by rw [← ho]; exact hcells i hi' (by omega)
    have hv2 : Spec.Opening.Valid τ P ⟨C₀, o.index, f %ₘ cellDivisor o.index, Spec.openingProof setup.g1Monomial 13 6 f o.index⟩ := by
      rw [openingProof_eval hpt f hf.1, hCf]
      exact honest_valid τ P f o.index
    rcases binding_claims (GT := GT) hpt o ⟨C₀, o.index, f %ₘ cellDivisor o.index,
      Spec.openingProof setup.g1Monomial 13 6 f o.index⟩ (hcom o hm) rfl (hall o hm).2.2 (mod_degree f _) (hv o hm) hv2 cells[i]
      (cellOf f o.index) hcell ((isCell_mod f _ _).2 ((isCell_iff _ _ _).2 rfl))
      (fun h => hnot ((isCell_iff _ _ _).2 h)) with ⟨l, hl, h⟩ | ⟨j, hj, -, h⟩
    · exact absurd ⟨_, by have := (hall o hm).2.1; omega, h⟩ hτ
    · refine ⟨o, hm, j, hj, ?_⟩
      rw [cellDivisor_eq]
      exact h

/-- C57: a batch of at least 64 cells with different indices for one commitment. There are a polynomial of degree below 4096
through its first 64 cells and a set of fewer challenges than cells, independent of the hash function, such that if the batch is
accepted, then the hash fell into the set, or the secret is one of the 8192 evaluation points, or recovery returns the cells and
proofs of a blob with exactly that commitment, or the setup is broken in one of two ways: the claims give a point other than zero
together with its multiple by the value at the secret of a monic polynomial of degree 4096 (the setup ends at degree 4095), or
the solution of the bilinear strong Diffie-Hellman problem at a point of one of the cosets. Nothing is assumed about how commitment
and proofs were made. -/
theorem C57_available [LawfulPointCodec G1 48] [LawfulPairing G1 G2 GT] (setup : SetupPoints G1 G2) (up : UsePrecomp) (τ : Fr)
    (P : G1) (H : G2) (hpt : Spec.PowersOfTau setup.g1Monomial setup.g2Monomial τ P H)
    (hnd : ∀ a : G1, pair a H = (0 : GT) → a = 0)
    (verifier ctx : DASContext K G1 G2) (hver : (DASContext.new setup up : Outcome ε (DASContext K G1 G2)) = .ok verifier)
    (hctx : (DASContext.new setup .no : Outcome Error (DASContext K G1 G2)) = .ok ctx)
    (cm : List UInt8) (inds : List Nat) (cells proofs : List (List UInt8)) (hcm : cm.length = 48)
    (hpf : ∀ c ∈ proofs, c.length = 48) (hcl : ∀ c ∈ cells, c.length = 2048) (hn : 64 ≤ inds.length) (hdist : inds.Nodup)
    (items : List (Spec.Opening G1)) (hd : Spec.Decodes (List.replicate inds.length cm) inds cells proofs items) :
    ∃ (f : Fr[X]) (bad : Finset Fr), Spec.Consistent (inds.take 64) (cells.take 64) f ∧ bad.card ≤ inds.length - 1 ∧
      ∀ sha256 : List UInt8 → List UInt8,
        verifier.verifyCellKzgProofBatch sha256 (List.replicate inds.length cm) inds cells proofs = .ok () →
        Spec.challenge sha256 (List.replicate inds.length cm) inds cells proofs ∈ bad ∨
        (∃ i < 8192, τ = Spec.point 13 i) ∨
        Available ctx cm inds cells ∨
        (∃ (C : G1) (N : Fr[X]) (W : G1), fromCompressed cm = some C ∧ N = Spec.allVanishing (items.take 64) ∧ N.Monic ∧
          N.natDegree = 4096 ∧ W = Spec.excess setup.g1Monomial f (items.take 64) ∧ W ≠ 0 ∧
          N.eval τ • W = C - Spec.commitment setup.g1Monomial f) ∨
        ∃ o ∈ items, ∃ j < 64,
          (Spec.sdhSolution setup.g1Monomial setup.g2Monomial o.index j o.interp (f %ₘ Spec.vanishing 13 6 o.index) o.proof
            (Spec.openingProof setup.g1Monomial 13 6 f o.index) : GT) =
            pair ((τ - Spec.point 13 (64 * o.index + j))⁻¹ • P) H := by
  obtain ⟨hidx, hlen, -⟩ := decodes_one hd
  obtain ⟨f, hf, h⟩ := available_of_valid (GT := GT) setup τ P H hpt ctx hctx cm inds cells proofs hcm hcl hn hdist items hd
  obtain ⟨bad, hb, hacc⟩ := accepted_valid setup up τ P H hpt hnd verifier hver _ inds cells proofs
    (by intro c hc; rw [List.eq_of_mem_replicate hc]; exact hcm) hpf items hd
  refine ⟨f, bad, hf, by rw [← hlen]; exact hb, ?_⟩
  intro s hs
  rcases hacc s hs with hin | hv
  · exact .inl hin
  · exact .inr (h hv)

/-- C57 for attackers that compute commitment and proofs as combinations of the setup points, as polynomials chosen before the
secret: outside of at most `4159 n` secrets, depending only on these polynomials, the indices and the cells, an accepted batch
of `n` cells is available: recovery returns the cells and proofs of a blob with that commitment, unless the hash
fell into a set of fewer than `n` challenges. -/
theorem C57_algebraic [LawfulPointCodec G1 48] [LawfulPairing G1 G2 GT] (c : Fr[X]) (hc : c.degree < 4096) (inds : List Nat)
    (cells : List (List UInt8)) (qs : List Fr[X]) (hq : ∀ q ∈ qs, q.degree < 4096) (hlq : qs.length = inds.length)
    (hcl : ∀ x ∈ cells, x.length = 2048) (hw : Spec.RecoveryWellFormed inds cells) :
    ∃ secrets : Finset Fr, secrets.card ≤ inds.length * 4159 ∧
      ∀ (setup : SetupPoints G1 G2) (up : UsePrecomp) (τ : Fr) (P : G1) (H : G2) (verifier ctx : DASContext K G1 G2)
        (cm : List UInt8) (proofs : List (List UInt8)),
        Spec.PowersOfTau setup.g1Monomial setup.g2Monomial τ P H → (∀ a : G1, pair a H = (0 : GT) → a = 0) → P ≠ 0 →
        (DASContext.new setup up : Outcome ε (DASContext K G1 G2)) = .ok verifier →
        (DASContext.new setup .no : Outcome Error (DASContext K G1 G2)) = .ok ctx →
        cm = toCompressed (c.eval τ • P) → proofs = qs.map (fun q => toCompressed (q.eval τ • P)) → τ ∉ secrets →
        ∃ bad : Finset Fr, bad.card ≤ inds.length - 1 ∧ ∀ sha256 : List UInt8 → List UInt8,
          verifier.verifyCellKzgProofBatch sha256 (List.replicate inds.length cm) inds cells proofs = .ok () →
          Spec.challenge sha256 (List.replicate inds.length cm) inds cells proofs ∈ bad ∨ Available ctx cm inds cells := by
  have nd : ∀ p : Fr[X], p.degree < 4096 → p.natDegree ≤ 4095 := by
    intro p hp
    by_cases h0 : p = 0
    · rw [h0]; simp
    · have := (natDegree_lt_iff_degree_lt (n := 4096) h0).2 (by exact_mod_cast hp)
      omega
  have hlc := hw.lengths
  have hex : ∀ i : Fin inds.length, ∃ bad : Finset Fr, bad.card ≤ 4159 ∧
      ∀ (setup : SetupPoints G1 G2) (up : UsePrecomp) (τ : Fr) (P : G1) (H : G2) (ctx : DASContext K G1 G2)
        (sha256 : List UInt8 → List UInt8),
        Spec.PowersOfTau setup.g1Monomial setup.g2Monomial τ P H → (∀ a : G1, pair a H = (0 : GT) → a = 0) → P ≠ 0 →
        (DASContext.new setup up : Outcome ε (DASContext K G1 G2)) = .ok ctx →
        ctx.verifyCellKzgProofBatch sha256 [toCompressed (c.eval τ • P)] [inds[i]] [cells[i]'(hlc ▸ i.2)]
          [toCompressed ((qs[i]'(hlq.symm ▸ i.2)).eval τ • P)] = .ok () → τ ∉ bad → Spec.IsCell c inds[i] (cells[i]'(hlc ▸ i.2)) := by
    intro i
    by_cases h : Spec.IsCell c inds[i] (cells[i]'(hlc ▸ i.2))
    · exact ⟨∅, by simp, fun _ _ _ _ _ _ _ _ _ _ _ _ _ => h⟩
    · obtain ⟨bad, hb, hall⟩ := C08_few_secrets (ε := ε) (K := K) (G1 := G1) (G2 := G2) (GT := GT) c (qs[i]'(hlq.symm ▸ i.2)) inds[i]
        (hw.inRange _ (List.getElem_mem _)) (cells[i]'(hlc ▸ i.2)) (hcl _ (List.getElem_mem _)) (hw.canonical _ (List.getElem_mem _)) h
      refine ⟨bad, hb.trans ?_, fun setup up τ P H ctx sha h1 h2 h3 h4 h5 h6 => absurd (hall setup up τ P H ctx sha h1 h2 h3 h4 h5) h6⟩
      have h1 := nd c hc
      have h2 := nd _ (hq (qs[i]'(hlq.symm ▸ i.2)) (List.getElem_mem _))
      simp only [max_le_iff]
      omega
  choose B hB hBall using hex
  refine ⟨univ.biUnion B, ?_, ?_⟩
  · refine card_biUnion_le.trans ((sum_le_card_nsmul _ _ 4159 (fun i _ => hB i)).trans ?_)
    simp
  intro setup up τ P H verifier ctx cm proofs hpt hnd hP hver hctx hcm hproofs hτ
  have hlcm : cm.length = 48 := by rw [hcm]; exact LawfulPointCodec.length_toCompressed _
  have hpf : ∀ x ∈ proofs, x.length = 48 := by
    rw [hproofs]
    intro x hx
    obtain ⟨q, -, rfl⟩ := List.mem_map.1 hx
    exact LawfulPointCodec.length_toCompressed _
  have hwf : Spec.VerifyWellFormed G1 (List.replicate inds.length cm) inds cells proofs := by
    refine ⟨⟨by simp, by simp [hlc], by simp [hproofs, hlq]⟩, hw.inRange, ?_, ?_, hw.canonical⟩
    · intro b hb
      rw [List.eq_of_mem_replicate hb, hcm]
      exact ⟨_, LawfulPointCodec.fromCompressed_toCompressed _⟩
    · rw [hproofs]
      intro x hx
      obtain ⟨q, -, rfl⟩ := List.mem_map.1 hx
      exact ⟨_, LawfulPointCodec.fromCompressed_toCompressed _⟩
  obtain ⟨items, hd⟩ := exists_items hcl hwf
  obtain ⟨hidx, hlen, -, hrange, hall, hcells⟩ := decodes_one hd
  obtain ⟨bad, hb, hacc⟩ := accepted_valid setup up τ P H hpt hnd verifier hver _ inds cells proofs
    (by intro c hc; rw [List.eq_of_mem_replicate hc]; exact hlcm) hpf items hd
  refine ⟨bad, by rw [← hlen]; exact hb, ?_⟩
  intro s hs
  rcases hacc s hs with h | hv
  · exact .inl h
  right
  have hcons : Spec.Consistent inds cells c := by
    refine ⟨hc, ?_⟩
    intro p hpm
    obtain ⟨i, hi, rfl⟩ := List.mem_iff_getElem.1 hpm
    rw [List.length_zip] at hi
    rw [List.getElem_zip]
    simp only
    have hi1 : i < inds.length := by omega
    have hi2 : i < items.length := by omega
    have hii : inds[i] = (items[i]).index := by
      have := List.getElem_of_eq hidx (i := i) (by simp; omega)
      rw [List.getElem_map] at this
      exact this.symm
    have hm : items[i] ∈ items := List.getElem_mem _
    refine hBall ⟨i, hi1⟩ setup up τ P H verifier s hpt hnd hP hver ?_ (fun h => hτ (mem_biUnion.2 ⟨⟨i, hi1⟩, mem_univ _, h⟩))
    have hpi : fromCompressed (toCompressed ((qs[i]'(by omega)).eval τ • P)) = some (items[i]).proof := by
      have := forall₂_getElem hd.proofs (i := i) (by rw [hproofs, List.length_map]; omega) hi2
      simp only [hproofs, List.getElem_map] at this
      exact this
    have h := hall _ hm
    refine (C06_single setup up τ P H hpt hnd verifier hver s _ _ _ _ (LawfulPointCodec.length_toCompressed _)
      (LawfulPointCodec.length_toCompressed _) (items[i]).commitment (items[i]).proof (items[i]).interp (by rw [← hcm]; exact h.1)
      (hrange _ (List.getElem_mem _)) h.2.2 ?_ hpi).2 ?_
    · show Spec.IsCell _ (inds[i]) (cells[i])
      rw [hii]; exact hcells i hi2 (by omega)
    show (τ ^ 64 - Spec.point 13 (64 * inds[i]) ^ 64) • _ = _
    rw [hii]
    exact hv _ hm
  obtain ⟨out, prfs, e1, e2, e3⟩ := recover_of_consistent setup hpt.length_g1 ctx hctx inds cells hcl hw c hcons
  refine ⟨blobOf c, out, prfs, (isBlobPoly_blobOf c hc).2.1, ?_, e1, e2, e3⟩
  rw [C03_commitment setup .no τ P H hpt ctx hctx _ c (isBlobPoly_blobOf c hc), hcm]

end

/-! Non-vacuity. -/
section
open Toy

/-- C56: whoever knows the secret (here 7) can have two cells accepted for the same commitment and index: the zero cell and the cell
of the constant 9, for the commitment 0 at index 5. -/
example (sha256 : List UInt8 → List UInt8) : ∃ (ctx : DASContext Fr Fr Fr) (proof : List UInt8),
    (DASContext.new (setup 7) .no : Outcome Error _) = .ok ctx ∧ proof.length = 48 ∧ cellOf 0 5 ≠ cellOf (C 9) 5 ∧
    (¬ ∃ i < 64, (7 : Fr) = Spec.point 13 (64 * 5 + i)) ∧
    ctx.verifyCellKzgProofBatch sha256 [toCompressed (0 : Fr)] [5] [cellOf 0 5] [toCompressed (0 : Fr)] = .ok () ∧
    ctx.verifyCellKzgProofBatch sha256 [toCompressed (0 : Fr)] [5] [cellOf (C 9) 5] [proof] = .ok () := by
  obtain ⟨ctx, hctx⟩ := context 7
  have hl : ∀ x : Fr, (toCompressed x).length = 48 := LawfulPointCodec.length_toCompressed
  have h : ∀ x : Fr, fromCompressed (toCompressed x) = some x := LawfulPointCodec.fromCompressed_toCompressed
  have hz : ∀ a : Fr, ((C a).degree : WithBot Nat) < 64 := fun a => lt_of_le_of_lt degree_C_le (by norm_num)
  have h0 : ((7 : Fr) ^ 64 - Spec.point 13 (64 * 5) ^ 64) ≠ 0 := by
    intro h0
    have h1 : ((7 ^ 8192 : Nat) : Fr) = (1 : Nat) := by
      have h2 := congrArg (· ^ 128) (sub_eq_zero.1 h0)
      simp only [← pow_mul] at h2
      have h3 : Spec.point 13 (64 * 5) ^ (64 * 128) = 1 := by
        unfold Spec.point
        rw [← pow_mul, mul_comm, pow_mul]
        have := (omega_primitive 13 (by norm_num)).pow_eq_one
        norm_num at this ⊢
        rw [this, one_pow]
      rw [h3] at h2
      rw [Nat.cast_pow, Nat.cast_one, Nat.cast_ofNat]
      exact h2
    have h4 := (ZMod.natCast_eq_natCast_iff' _ _ _).1 h1
    exact absurd h4 (by decide +kernel)
  refine ⟨ctx, toCompressed (((7 : Fr) ^ 64 - Spec.point 13 (64 * 5) ^ 64)⁻¹ * (-9)), hctx, hl _, ?_, ?_, ?_, ?_⟩
  · intro he
    have h1 := ((isCell_iff 0 5 _).2 rfl).2 0 (by norm_num)
    have h2 := ((isCell_iff (C 9) 5 _).2 rfl).2 0 (by norm_num)
    rw [he] at h1
    have := encodes_inj h1 h2
    rw [eval_C, eval_zero] at this
    exact absurd this (by decide +kernel)
  · rintro ⟨i, hi, h⟩
    apply h0
    rw [← cellDivisor_eval, h]
    exact cellDivisor_root 5 i hi
  · rw [C06_single (setup 7) .no 7 1 1 (powersOfTau 7) nondegenerate ctx hctx sha256 _ 5 _ _ (hl _) (hl _) 0 0 0 (h _)
      (by norm_num) (by simpa using hz 0) ((isCell_iff 0 5 _).2 rfl) (h _)]
    simp
  · rw [C06_single (setup 7) .no 7 1 1 (powersOfTau 7) nondegenerate ctx hctx sha256 _ 5 _ _ (hl _) (hl _) 0 _ (C 9) (h _)
      (by norm_num) (hz 9) ((isCell_iff (C 9) 5 _).2 rfl) (h _)]
    rw [smul_eq_mul, mul_inv_cancel_left₀ h0, eval_C, smul_eq_mul]
    ring

/-- C57: an honest batch of 64 cells meets the hypotheses and is accepted. -/
example (sha256 : List UInt8 → List UInt8) : ∃ (ctx : DASContext Fr Fr Fr) (cm : List UInt8) (inds : List Nat)
    (cells proofs : List (List UInt8)) (items : List (Spec.Opening Fr)),
    (DASContext.new (setup 7) .no : Outcome Error _) = .ok ctx ∧ cm.length = 48 ∧ (∀ c ∈ proofs, c.length = 48) ∧
    (∀ c ∈ cells, c.length = 2048) ∧ inds.length = 64 ∧ inds.Nodup ∧
    Spec.Decodes (List.replicate inds.length cm) inds cells proofs items ∧ Spec.RecoveryWellFormed inds cells ∧
    ctx.verifyCellKzgProofBatch sha256 (List.replicate inds.length cm) inds cells proofs = .ok () := by
  obtain ⟨ctx, hctx⟩ := context 7
  have hl : ∀ x : Fr, (toCompressed x).length = 48 := LawfulPointCodec.length_toCompressed
  have h : ∀ x : Fr, fromCompressed (toCompressed x) = some x := LawfulPointCodec.fromCompressed_toCompressed
  let item : Nat → Spec.Opening Fr := fun k =>
    ⟨poly.eval 7 • 1, k, poly %ₘ cellDivisor k, (poly /ₘ cellDivisor k).eval 7 • 1⟩
  have hd : Spec.Decodes (List.replicate (List.range 64).length (toCompressed (poly.eval 7 • (1 : Fr)))) (List.range 64)
      ((List.range 64).map (cellOf poly)) ((List.range 64).map (fun k => toCompressed ((poly /ₘ cellDivisor k).eval 7 • (1 : Fr))))
      ((List.range 64).map item) := by
    have hr : List.replicate (List.range 64).length (toCompressed (poly.eval 7 • (1 : Fr))) =
        (List.range 64).map (fun _ => toCompressed (poly.eval 7 • (1 : Fr))) := by
      rw [List.map_const']
    refine ⟨?_, ?_, ?_, ?_⟩
    · rw [hr, List.forall₂_map_left_iff, List.forall₂_map_right_iff, List.forall₂_same]
      exact fun k _ => h _
    · rw [List.forall₂_map_right_iff, List.forall₂_same]
      exact fun k hk => ⟨rfl, by have := List.mem_range.1 hk; omega⟩
    · rw [List.forall₂_map_left_iff, List.forall₂_map_right_iff, List.forall₂_same]
      exact fun k _ => ⟨mod_degree poly k, (isCell_mod poly k _).2 ((isCell_iff poly k _).2 rfl)⟩
    · rw [List.forall₂_map_left_iff, List.forall₂_map_right_iff, List.forall₂_same]
      exact fun k _ => h _
  have hcm : ∀ c ∈ List.replicate (List.range 64).length (toCompressed (poly.eval 7 • (1 : Fr))), c.length = 48 := by
    intro c hc; rw [List.eq_of_mem_replicate hc]; exact hl _
  have hpf : ∀ c ∈ (List.range 64).map (fun k => toCompressed ((poly /ₘ cellDivisor k).eval 7 • (1 : Fr))), c.length = 48 := by
    intro c hc; obtain ⟨k, -, rfl⟩ := List.mem_map.1 hc; exact hl _
  refine ⟨ctx, _, _, _, _, _, hctx, hl _, hpf, ?_, by simp, List.nodup_range, hd, ⟨by simp, ?_, List.nodup_range, by simp, ?_⟩, ?_⟩
  · intro c hc; obtain ⟨k, -, rfl⟩ := List.mem_map.1 hc; exact cellOf_length _ _
  · intro i hi; have := List.mem_range.1 hi; omega
  · intro c hc; obtain ⟨k, -, rfl⟩ := List.mem_map.1 hc; exact isCell_canonical ((isCell_iff poly k _).2 rfl)
  · rw [(C06_batch (setup 7) .no 7 1 1 (powersOfTau 7) nondegenerate ctx hctx sha256 _ _ _ _ hcm hpf _ hd).1]
    unfold Spec.combined
    apply sum_eq_zero
    intro i _
    have : (((List.range 64).map item)[i]).defect 7 1 = 0 := by
      rw [← Spec.Opening.valid_iff]
      simp only [Fin.getElem_fin, List.getElem_map]
      exact honest_valid 7 1 poly _
    rw [this, smul_zero]

end
end Verif
