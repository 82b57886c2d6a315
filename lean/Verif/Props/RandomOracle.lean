import Mathlib.Data.Set.Finite.List
import Verif.Lemmas.RandomOracle
import Verif.Props.Binding
import Verif.Props.Transcript

set_option linter.unusedSectionVars false

/-!
C61: soundness of batch verification, and binding of commitments, against attackers who choose their batches after asking for hashes.
-/
namespace Verif
open Polynomial Finset

theorem challengeInput_length {n : Nat} (b : Spec.Batch) (h1 : b.commitments.length = n) (h2 : b.inds.length = n)
    (h3 : b.cells.length = n) (h4 : b.proofs.length = n) (hcm : ∀ c ∈ b.commitments, c.length = 48)
    (hc : ∀ c ∈ b.cells, c.length = 2048) (hp : ∀ c ∈ b.proofs, c.length = 48) : b.input.length ≤ 48 + 2160 * n := by
  have hd : b.commitments.eraseDups.length ≤ n := by
    have hnd : b.commitments.eraseDups.Nodup := by
      have := eraseDups_order b.commitments
      rw [beq_bytes] at this
      exact this.imp (fun hab e => by rw [e] at hab; exact lt_irrefl _ hab)
    rw [← h1]
    exact (hnd.subperm (fun x hx => (mem_eraseDups_bytes _ x).1 hx)).length_le
  unfold Spec.Batch.input Spec.challengeInput
  simp only [← u64be_eq, List.length_append, length_natToBE]
  rw [length_flatten_const (w := 48) (fun x hx => hcm x ((mem_eraseDups_bytes _ _).1 hx)),
    length_flatten_const (w := 16 + 2048 + 48) (by
      intro x hx
      obtain ⟨q, hq, rfl⟩ := List.mem_map.1 hx
      have m2 := List.of_mem_zip (List.of_mem_zip (List.of_mem_zip hq).2).2
      simp only [List.length_append, length_natToBE, hc _ m2.1, hp _ m2.2])]
  have hs : "RCKZGCBATCH__V1_".toUTF8.toList.length = 16 := by decide +kernel
  rw [hs, List.length_map]
  simp only [List.length_zip]
  omega

theorem decodes_lengths {G1 : Type} [AddCommGroup G1] [Module Fr G1] [PointCodec G1] {b : Spec.Batch}
    {items : List (Spec.Opening G1)} (h : Spec.Decodes b.commitments b.inds b.cells b.proofs items) :
    b.commitments.length = items.length ∧ b.inds.length = items.length ∧ b.cells.length = items.length ∧
      b.proofs.length = items.length ∧ ∀ i ∈ b.inds, i < 128 := by
  refine ⟨h.commitments.length_eq, h.indices.length_eq, h.cells.length_eq, h.proofs.length_eq, ?_⟩
  have := h.indices
  intro i hi
  generalize b.inds = l at this hi
  clear h
  induction this with
  | nil => simp at hi
  | cons h _ ih =>
    rcases List.mem_cons.1 hi with rfl | hi
    · exact h.2
    · exact ih hi

section
variable {ε K G1 G2 GT : Type} [Field K] [DecidableEq K] [AddCommGroup G1] [Module Fr G1] [DecidableEq G1]
  [Curve K G1] [PointCodec G1] [AddCommGroup G2] [Module Fr G2] [AddCommGroup GT] [DecidableEq GT]
  [Pairing G1 G2 GT]

/-- the call with a batch and a hash function -/
def Accepts (ctx : DASContext K G1 G2) (hash : List UInt8 → Spec.Digest) (b : Spec.Batch) : Prop :=
  ctx.verifyCellKzgProofBatch (fun x => (hash x).bytes) b.commitments b.inds b.cells b.proofs = .ok ()

open Classical in
/-- For each hash input there are few bad digests, the same for all false batches with that input (there is at most one). -/
theorem bad_digests [LawfulPointCodec G1 48] [LawfulPairing G1 G2 GT] (setup : SetupPoints G1 G2) (up : UsePrecomp) (τ : Fr)
    (P : G1) (H : G2) (hpt : Spec.PowersOfTau setup.g1Monomial setup.g2Monomial τ P H)
    (hnd : ∀ a : G1, pair a H = (0 : GT) → a = 0)
    (ctx : DASContext K G1 G2) (hctx : (DASContext.new setup up : Outcome ε (DASContext K G1 G2)) = .ok ctx)
    (n : Nat) (hn : n < 2 ^ 64) :
    ∃ bad : List UInt8 → Finset Spec.Digest, (∀ x, (bad x).card ≤ 3 * (n - 1)) ∧ ∀ b : Spec.Batch, b.IsFalse τ P n →
      ∀ hash, Accepts ctx hash b → hash b.input ∈ bad b.input := by
  have key : ∀ x : List UInt8, ∃ bad : Finset Spec.Digest, bad.card ≤ 3 * (n - 1) ∧ ∀ b : Spec.Batch, b.input = x →
      b.IsFalse τ P n → ∀ hash, Accepts ctx hash b → hash x ∈ bad := by
    intro x
    by_cases hex : ∃ b : Spec.Batch, b.input = x ∧ b.IsFalse τ P n
    · obtain ⟨b, hb, hcm, hc, hp, items, hd, hle, hbad⟩ := hex
      obtain ⟨bad, hcard, hall⟩ := C07_digests setup up τ P H hpt hnd ctx hctx b.commitments b.inds b.cells b.proofs hcm hp items hd hbad
      obtain ⟨bad', hcard', hbad'⟩ := exists_preimage bytes_injective bad
      refine ⟨bad', by omega, ?_⟩
      · intro b' hb' hf hash hacc
        have heq : b' = b := by
          obtain ⟨hcm', hc', hp', items', hd', hle', -⟩ := hf
          obtain ⟨l1, l2, l3, l4, l5⟩ := decodes_lengths hd
          obtain ⟨l1', l2', l3', l4', l5'⟩ := decodes_lengths hd'
          obtain ⟨e1, e2, e3, e4⟩ := C16_batch_binding b'.commitments b.commitments b'.inds b.inds b'.cells b.cells b'.proofs b.proofs
            (by omega) (by omega) (by omega) (by omega) (by omega) (by omega) (by omega) (by omega)
            (fun i hi => (l5' i hi).trans (by norm_num)) (fun i hi => (l5 i hi).trans (by norm_num))
            hcm' hcm hc' hc hp' hp (hb'.trans hb.symm)
          cases b; cases b'
          simp only at e1 e2 e3 e4
          subst e1 e2 e3 e4
          rfl
        subst heq
        refine hbad' _ ?_
        have := hall (fun x => (hash x).bytes) (bytes_length _) hacc
        rw [← hb']
        exact this
    · exact ⟨∅, by simp, fun b hb hf => absurd ⟨b, hb, hf⟩ hex⟩
  choose bad h1 h2 using key
  exact ⟨bad, h1, fun b hf hash hacc => h2 b.input b rfl hf hash hacc⟩

open Classical in
/-- C61: the hash is a random oracle. An attacker who knows the secret of the setup, asks for at most `q` hashes and puts out at most
`m` batches of at most `n` claims, makes the verifier accept a false one for a fraction of at most `(q + m) · 3 (n - 1) / 2^256` of the
hash functions. -/
theorem C61_soundness [LawfulPointCodec G1 48] [LawfulPairing G1 G2 GT] (setup : SetupPoints G1 G2) (up : UsePrecomp) (τ : Fr)
    (P : G1) (H : G2) (hpt : Spec.PowersOfTau setup.g1Monomial setup.g2Monomial τ P H)
    (hnd : ∀ a : G1, pair a H = (0 : GT) → a = 0)
    (ctx : DASContext K G1 G2) (hctx : (DASContext.new setup up : Outcome ε (DASContext K G1 G2)) = .ok ctx)
    (n : Nat) (hn : n < 2 ^ 64) (D : Finset (List UInt8)) (hD : ∀ x : List UInt8, x.length ≤ 48 + 2160 * n → x ∈ D)
    (rest : List UInt8 → Spec.Digest) (A : Spec.Attacker (List Spec.Batch)) (q m : Nat) (hA : A.AtMost q) :
    (univ.filter (fun ω : Spec.Table D =>
      ∃ b ∈ (A.run (ω.hash rest)).take m, b.IsFalse τ P n ∧ Accepts ctx (ω.hash rest) b)).card * 2 ^ 256 ≤
      (q + m) * (3 * (n - 1)) * Fintype.card (Spec.Table D) := by
  obtain ⟨bad, hcard, hbad⟩ := bad_digests setup up τ P H hpt hnd ctx hctx n hn
  refine le_trans (Nat.mul_le_mul_right _ (card_le_card ?_))
    (few_tables (D := D) rest (fun bs : List Spec.Batch => (bs.take m).map Spec.Batch.input) m
      (fun bs => by rw [List.length_map, List.length_take]; exact Nat.min_le_left _ _) bad _ hcard A q hA)
  intro ω hω
  obtain ⟨-, b, hb, hf, hacc⟩ := mem_filter.1 hω
  refine mem_filter.2 ⟨mem_univ _, b.input, List.mem_map.2 ⟨b, hb, rfl⟩, hD _ ?_, hbad b hf _ hacc⟩
  obtain ⟨hcm, hc, hp, items, hd, hle, -⟩ := hf
  obtain ⟨l1, l2, l3, l4, -⟩ := decodes_lengths hd
  have := challengeInput_length b l1 l2 l3 l4 hcm hc hp
  omega

/-- an accepted batch denotes claims -/
theorem accepts_items (ctx : DASContext K G1 G2) (hash : List UInt8 → Spec.Digest) (n : Nat) (b : Spec.Batch) (hs : b.Sized n)
    (h : Accepts ctx hash b) : ∃ items : List (Spec.Opening G1), Spec.Decodes b.commitments b.inds b.cells b.proofs items := by
  obtain ⟨h1, h2, h3, -⟩ := hs
  refine exists_items h2 ?_
  rcases C13_validation ctx (fun x => (hash x).bytes) b.commitments b.inds b.cells b.proofs h2 h1 h3 with ⟨hw, -⟩ | ⟨-, e, -, he⟩
  · exact hw
  · unfold Accepts at h
    rw [h] at he
    cases he

/-- an accepted batch whose claims are not all true is a false batch -/
theorem isFalse_or_valid (τ : Fr) (P : G1) (n : Nat) (b : Spec.Batch) (hs : b.Sized n) (items : List (Spec.Opening G1))
    (hd : Spec.Decodes b.commitments b.inds b.cells b.proofs items) : b.IsFalse τ P n ∨ ∀ o ∈ items, o.Valid τ P := by
  by_cases h : ∀ o ∈ items, o.Valid τ P
  · exact .inr h
  · push Not at h
    obtain ⟨h1, h2, h3, h4⟩ := hs
    exact .inl ⟨h1, h2, h3, items, hd, by rw [← hd.commitments.length_eq]; exact h4, h⟩

open Classical in
/-- C61, binding: an attacker who asks for at most `q` hashes and puts out two contradicting batches, both accepted, solves the bilinear
strong Diffie-Hellman problem of the setup by a fixed computation on its output, for all of these hash functions except a
fraction of at most `(q + 2) · 3 (n - 1) / 2^256`. -/
theorem C61_binding [LawfulPointCodec G1 48] [LawfulPairing G1 G2 GT] (setup : SetupPoints G1 G2) (up : UsePrecomp) (τ : Fr)
    (P : G1) (H : G2) (hpt : Spec.PowersOfTau setup.g1Monomial setup.g2Monomial τ P H)
    (hnd : ∀ a : G1, pair a H = (0 : GT) → a = 0) (hτ : ∀ i < 8192, τ ≠ Spec.point 13 i)
    (ctx : DASContext K G1 G2) (hctx : (DASContext.new setup up : Outcome ε (DASContext K G1 G2)) = .ok ctx)
    (n : Nat) (hn : n < 2 ^ 64) (D : Finset (List UInt8)) (hD : ∀ x : List UInt8, x.length ≤ 48 + 2160 * n → x ∈ D)
    (rest : List UInt8 → Spec.Digest) (A : Spec.Attacker (List Spec.Batch)) (q : Nat) (hA : A.AtMost q) :
    (univ.filter (fun ω : Spec.Table D => ∃ b b', A.run (ω.hash rest) = [b, b'] ∧ b.Sized n ∧ b'.Sized n ∧ b.Contradicts b' ∧
      Accepts ctx (ω.hash rest) b ∧ Accepts ctx (ω.hash rest) b')).card * 2 ^ 256 ≤
    (univ.filter (fun ω : Spec.Table D => ∃ b b', A.run (ω.hash rest) = [b, b'] ∧
      Spec.SolvesSdh (GT := GT) setup.g1Monomial setup.g2Monomial τ P H b b')).card * 2 ^ 256 +
      (q + 2) * (3 * (n - 1)) * Fintype.card (Spec.Table D) := by
  refine le_trans ?_ (Nat.add_le_add_left (C61_soundness setup up τ P H hpt hnd ctx hctx n hn D hD rest A q 2 hA) _)
  rw [← Nat.add_mul]
  refine Nat.mul_le_mul_right _ (le_trans (card_le_card ?_) (card_union_le _ _))
  intro ω hω
  obtain ⟨-, b, b', hrun, hs, hs', hcon, ha, ha'⟩ := mem_filter.1 hω
  obtain ⟨items, hd⟩ := accepts_items ctx _ n b hs ha
  obtain ⟨items', hd'⟩ := accepts_items ctx _ n b' hs' ha'
  rw [mem_union]
  rcases isFalse_or_valid τ P n b hs items hd with hf | hv
  · exact .inr (mem_filter.2 ⟨mem_univ _, b, by rw [hrun]; simp, hf, ha⟩)
  rcases isFalse_or_valid τ P n b' hs' items' hd' with hf | hv'
  · exact .inr (mem_filter.2 ⟨mem_univ _, b', by rw [hrun]; simp, hf, ha'⟩)
  refine .inl (mem_filter.2 ⟨mem_univ _, b, b', hrun, ?_⟩)
  obtain ⟨i, i', cm, k, cell, cell', a1, a2, a3, a1', a2', a3', hne⟩ := hcon
  obtain ⟨l1, -, -, -, l5⟩ := decodes_lengths hd
  obtain ⟨l1', -⟩ := decodes_lengths hd'
  have hk : k < 128 := l5 k (List.mem_of_getElem? a2)
  obtain ⟨o, ho⟩ : ∃ o, items[i]? = some o := ⟨_, List.getElem?_eq_getElem (by
    have := (List.getElem?_eq_some_iff.1 a1).1; omega)⟩
  obtain ⟨o', ho'⟩ : ∃ o', items'[i']? = some o' := ⟨_, List.getElem?_eq_getElem (by
    have := (List.getElem?_eq_some_iff.1 a1').1; omega)⟩
  rcases contradiction_of_valid (GT := GT) hpt b.commitments b'.commitments b.inds b'.inds b.cells b'.cells b.proofs b'.proofs items items'
    hd hd' i i' cm cell cell' k o o' ⟨a1, a2, a3, ho⟩ ⟨a1', a2', a3', ho'⟩ hne hv hv' with ⟨l, hl, h⟩ | ⟨j, hj, -, h⟩
  · exact absurd h (hτ _ (by omega))
  · exact ⟨items, items', i, i', k, j, o, o', hd, hd', a2, ho, a2', ho', hk, hj, h⟩

open Classical in
/-- C61, availability: an attacker who asks for at most `q` hashes and puts out an accepted batch of at least 64 cells for one
commitment, from which recovery does not return the cells and proofs of a blob with that commitment, breaks the setup by a fixed
computation on its output, for all of these hash functions except a fraction of at most `(q + 1) · 3 (n - 1) / 2^256`. -/
theorem C61_availability [LawfulPointCodec G1 48] [LawfulPairing G1 G2 GT] (setup : SetupPoints G1 G2) (up : UsePrecomp) (τ : Fr)
    (P : G1) (H : G2) (hpt : Spec.PowersOfTau setup.g1Monomial setup.g2Monomial τ P H)
    (hnd : ∀ a : G1, pair a H = (0 : GT) → a = 0) (hτ : ∀ i < 8192, τ ≠ Spec.point 13 i)
    (verifier ctx : DASContext K G1 G2) (hver : (DASContext.new setup up : Outcome ε (DASContext K G1 G2)) = .ok verifier)
    (hctx : (DASContext.new setup .no : Outcome Error (DASContext K G1 G2)) = .ok ctx)
    (n : Nat) (hn : n < 2 ^ 64) (D : Finset (List UInt8)) (hD : ∀ x : List UInt8, x.length ≤ 48 + 2160 * n → x ∈ D)
    (rest : List UInt8 → Spec.Digest) (A : Spec.Attacker (List Spec.Batch)) (q : Nat) (hA : A.AtMost q) :
    (univ.filter (fun ω : Spec.Table D => ∃ b cm, A.run (ω.hash rest) = [b] ∧ b.Sized n ∧ b.Half cm ∧
      Accepts verifier (ω.hash rest) b ∧ ¬ Available ctx cm b.inds b.cells)).card * 2 ^ 256 ≤
    (univ.filter (fun ω : Spec.Table D => ∃ b cm, A.run (ω.hash rest) = [b] ∧ b.Half cm ∧
      Spec.BreaksSetup (GT := GT) setup.g1Monomial setup.g2Monomial τ P H b cm)).card * 2 ^ 256 +
      (q + 1) * (3 * (n - 1)) * Fintype.card (Spec.Table D) := by
  refine le_trans ?_ (Nat.add_le_add_left (C61_soundness setup up τ P H hpt hnd verifier hver n hn D hD rest A q 1 hA) _)
  rw [← Nat.add_mul]
  refine Nat.mul_le_mul_right _ (le_trans (card_le_card ?_) (card_union_le _ _))
  intro ω hω
  obtain ⟨-, b, cm, hrun, hs, hh, ha, hav⟩ := mem_filter.1 hω
  obtain ⟨items, hd⟩ := accepts_items verifier _ n b hs ha
  rw [mem_union]
  rcases isFalse_or_valid τ P n b hs items hd with hf | hv
  · exact .inr (mem_filter.2 ⟨mem_univ _, b, by rw [hrun]; simp, hf, ha⟩)
  refine .inl (mem_filter.2 ⟨mem_univ _, b, cm, hrun, hh, items, ?_⟩)
  obtain ⟨hcm, hc, -⟩ := hs
  obtain ⟨he, h64, hdist⟩ := hh
  have hd2 := hd
  rw [he] at hd2
  have hcm' : cm.length = 48 := hcm cm (by rw [he]; exact List.mem_replicate.2 ⟨by omega, rfl⟩)
  obtain ⟨f, hf, h⟩ := available_of_valid (GT := GT) setup τ P H hpt ctx hctx cm b.inds b.cells b.proofs hcm' hc h64 hdist items hd2
  rcases h hv with ⟨i, hi, h⟩ | h | ⟨C, N, W, hC, rfl, h1, h2, rfl, h3, h4⟩ | h
  · exact absurd h (hτ i hi)
  · exact absurd h hav
  · exact ⟨f, hd, hf, .inl ⟨C, hC, h1, h2, h3, h4⟩⟩
  · exact ⟨f, hd, hf, .inr h⟩

end
/-! ### the hypotheses, and that the bound is not about nothing -/
section
open Toy

/-- There is a finite set with all strings up to any length. -/
theorem exists_domain (L : Nat) : ∃ D : Finset (List UInt8), ∀ x : List UInt8, x.length ≤ L → x ∈ D := by
  have : Finite UInt8 := Finite.of_injective UInt8.toFin (fun a b h => UInt8.toFin_inj.1 h)
  have hf : {x : List UInt8 | x.length ≤ L}.Finite := List.finite_length_le UInt8 L
  exact ⟨hf.toFinset, fun x hx => hf.mem_toFinset.2 hx⟩

/-- the batch of one true and one false claim -/
noncomputable def Toy.batch : Spec.Batch :=
  ⟨Toy.commitments, [5, 5], [zeroCell, zeroCell], [toCompressed (0 : Fr), toCompressed (0 : Fr)]⟩

theorem Toy.batch_false : Toy.batch.IsFalse (7 : Fr) (1 : Fr) 2 := by
  have hl : ∀ x : Fr, (toCompressed x).length = 48 := LawfulPointCodec.length_toCompressed
  refine ⟨by simp [Toy.batch, Toy.commitments, hl], ?_, by simp [Toy.batch, hl], Toy.items, Toy.decodes, by simp [Toy.items],
    Toy.false_item⟩
  intro c hc
  have : c = zeroCell := by simpa [Toy.batch] using hc
  rw [this]
  exact isCell_zero.1

/-- Some hash functions accept the false batch (those that hash it to zero). -/
theorem Toy.batch_accepted (ctx : DASContext Fr Fr Fr) (hctx : (DASContext.new (setup 7) .no : Outcome Error _) = .ok ctx) :
    Accepts ctx (fun _ _ => 0) Toy.batch := by
  have hl : ∀ x : Fr, (toCompressed x).length = 48 := LawfulPointCodec.length_toCompressed
  refine ((C06_batch (setup 7) .no 7 1 1 (powersOfTau 7) nondegenerate ctx hctx _ _ _ _ _ (by simp [Toy.commitments, hl])
    (by simp [hl]) Toy.items Toy.decodes).1).2 ?_
  have h0 : ((Spec.beValue (Spec.Digest.bytes (fun _ => 0)) : Nat) : Fr) = 0 := by
    have : Spec.beValue (Spec.Digest.bytes (fun _ => 0)) = 0 := by decide +kernel
    rw [this, Nat.cast_zero]
  unfold Spec.challenge Spec.combined
  dsimp only
  rw [h0]
  show ∑ i : Fin 2, _ = _
  rw [Fin.sum_univ_two]
  simp [Toy.items, Spec.Opening.defect]

open Classical in
/-- An attacker who tries two batches after one question: at most a fraction of `9 / 2^256` of the hash functions accepts a false one. -/
example (ctx : DASContext Fr Fr Fr) (hctx : (DASContext.new (setup 7) .no : Outcome Error _) = .ok ctx) (x : List UInt8)
    (b : Spec.Digest → Spec.Batch) (rest : List UInt8 → Spec.Digest) :
    ∃ D : Finset (List UInt8), (univ.filter (fun ω : Spec.Table D => ∃ c ∈ [b (ω.hash rest x), Toy.batch],
      c.IsFalse (7 : Fr) (1 : Fr) 2 ∧ Accepts ctx (ω.hash rest) c)).card * 2 ^ 256 ≤ 9 * Fintype.card (Spec.Table D) := by
  obtain ⟨D, hD⟩ := exists_domain (48 + 2160 * 2)
  refine ⟨D, ?_⟩
  have := C61_soundness (setup 7) .no 7 1 1 (powersOfTau 7) nondegenerate ctx hctx 2 (by norm_num) D hD rest
    (.ask x (fun d => .output [b d, Toy.batch])) 1 2 (fun _ => trivial)
  exact this

end

end Verif
