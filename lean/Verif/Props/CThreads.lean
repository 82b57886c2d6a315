import Verif.Lemmas.CPool
import Verif.Props.CApi
import Verif.Props.Verification

set_option linter.unusedSectionVars false

/-! C68: several threads of a process call the C API at the same time. -/
namespace Verif
open Spec (commitmentEffect Holds Mapped HoldsWord HoldsWords Span ItemSpans HoldsItemsAt ValidCall Request NoConflict Finished Race CCall cellsEffect verifyEffect
  OutBuffers)
open CPool (Post SafeFor Local Inv)
open CProg

section
variable {K G1 G2 GT : Type} [Field K] [DecidableEq K] [AddCommGroup G1] [Module Fr G1] [DecidableEq G1]
  [Curve K G1] [PointCodec G1] [AddCommGroup G2] [Module Fr G2] [AddCommGroup GT] [DecidableEq GT]
  [Pairing G1 G2 GT]

/-- C68: a call as a program, without other threads, is the function of `Model/CBinding`. -/
theorem C68_same_functions (A : Allocator (DASContext K G1 G2)) (sha256 : List UInt8 → List UInt8) (a b c d e f g h i j : Nat) :
    (CProg.blobToKzgCommitment a b c).run A = ethKzgBlobToKzgCommitment A a b c ∧
    (CProg.computeCellsAndKzgProofs a b c d).run A = ethKzgComputeCellsAndKzgProofs A a b c d ∧
    (CProg.recoverCellsAndProofs a b c d e f g).run A = ethKzgRecoverCellsAndProofs A a b c d e f g ∧
    (CProg.verifyCellKzgProofBatch sha256 a b c d e f g h i j).run A = ethKzgVerifyCellKzgProofBatch A sha256 a b c d e f g h i j := by
  have hv : ∀ r : Outcome Error Unit, (CProg.verificationResultToBoolCResult r : CProg (DASContext K G1 G2) _ _).run A =
      Verif.verificationResultToBoolCResult A r := by
    intro r
    unfold CProg.verificationResultToBoolCResult Verif.verificationResultToBoolCResult
    rcases r with _ | x | _
    · rfl
    · by_cases hx : x.invalidProof = true
      · simp only [if_pos hx]
        rfl
      · simp only [if_neg hx, run_bind, run_withError]
        rfl
    · rfl
  refine ⟨?_, ?_, ?_, ?_⟩
  · simp only [CProg.blobToKzgCommitment, ethKzgBlobToKzgCommitment, blobToKzgCommitmentC, run_cResult, run_bind, run_assert, run_derefCtx,
      run_createArrayRef, run_tryRust, run_writeToSlice]
  · simp only [CProg.computeCellsAndKzgProofs, ethKzgComputeCellsAndKzgProofs, computeCellsAndKzgProofsC, run_cResult, run_bind, run_assert,
      run_derefCtx, run_createArrayRef, run_tryRust, run_writeTo2dSlice]
  · simp only [CProg.recoverCellsAndProofs, ethKzgRecoverCellsAndProofs, recoverCellsAndProofsC, run_cResult, run_bind, run_assert,
      run_derefCtx, run_ptrPtr, run_createSliceViewU64, run_tryRust, run_writeTo2dSlice]
  · simp only [CProg.verifyCellKzgProofBatch, ethKzgVerifyCellKzgProofBatch, verifyCellKzgProofBatchC, run_cResult, run_bind, run_assert,
      run_derefCtx, run_ptrPtr, run_createSliceViewU64, run_derefMut, hv, run_writeByte]

/-! The footprints of the calls -/

theorem mapped_span {m : Nat → Option UInt8} {p n a : Nat} (h : Mapped m p n) (ha : Span p n a) : m a ≠ none := by
  obtain ⟨b, hb⟩ := h (a - p) (by have := ha.1; have := ha.2; omega)
  rw [show p + (a - p) = a by have := ha.1; omega] at hb
  simp [hb]

theorem holds_span {m : Nat → Option UInt8} {p a n : Nat} {bytes : List UInt8} (hn : bytes.length = n) (h : Holds m p bytes)
    (ha : Span p n a) : m a ≠ none := by
  have hlt : a - p < bytes.length := by have := ha.1; have := ha.2; omega
  have := h (a - p) bytes[a - p] (by simp [hlt])
  rw [show p + (a - p) = a by have := ha.1; omega] at this
  simp [this]

theorem words_span {m : Nat → Option UInt8} {p a : Nat} {vs : List Nat} (h : HoldsWords m p vs) (ha : Span p (8 * vs.length) a) :
    m a ≠ none := by
  have h1 := ha.1
  have h2 := ha.2
  have hlt : (a - p) / 8 < vs.length := by omega
  obtain ⟨b, hb, -⟩ := h.2 ((a - p) / 8) vs[(a - p) / 8] (by simp [hlt])
  have := hb ⟨(a - p) % 8, by omega⟩
  simp only at this
  rw [show p + 8 * ((a - p) / 8) + (a - p) % 8 = a by omega] at this
  simp [this]

theorem items_span {m : Nat → Option UInt8} {p a n : Nat} {ptrs : List Nat} {items : List (List UInt8)} (hn : ∀ x ∈ items, x.length = n)
    (h : HoldsItemsAt m p ptrs items) (ha : ItemSpans p ptrs n a) : m a ≠ none := by
  rcases ha with ha | ⟨q, hq, ha⟩
  · exact words_span h.1 ha
  · obtain ⟨i, hi, rfl⟩ := List.mem_iff_getElem.1 hq
    have h2 := h.2
    rw [List.forall₂_iff_get] at h2
    have := h2.2 i hi (by omega)
    exact holds_span (hn _ (List.getElem_mem _)) this.2 ha

theorem outBuffers_mapped {m : Nat → Option UInt8} {oc op a : Nat} {cp pp : List Nat} (h : OutBuffers m oc op cp pp) :
    (Span oc 1024 a → m a ≠ none) ∧ (Span op 1024 a → m a ≠ none) ∧
    ((∃ q ∈ cp, Span q 2048 a) ∨ (∃ q ∈ pp, Span q 48 a) → m a ≠ none) := by
  refine ⟨fun ha => words_span h.cells ?_, fun ha => words_span h.proofs ?_, ?_⟩
  · rw [h.cellsLength]; exact ha
  · rw [h.proofsLength]; exact ha
  · rintro (⟨q, hq, ha⟩ | ⟨q, hq, ha⟩)
    · exact mapped_span (h.cellMapped q hq).2 ha
    · exact mapped_span (h.proofMapped q hq).2 ha

variable {sha256 : List UInt8 → List UInt8} {s : CState (DASContext K G1 G2)}

theorem validCall_mapped {c : CCall} {R W : Nat → Prop} {e : Spec.Effect} (h : ValidCall sha256 s c R W e) (a : Nat) (ha : R a ∨ W a) :
    s.mem a ≠ none := by
  cases h with
  | commitment _ _ hl _ hb _ ho =>
    rcases ha with ha | ha
    · exact holds_span hl hb ha
    · exact mapped_span ho ha
  | compute _ _ hl _ hb ho =>
    obtain ⟨h1, h2, h3⟩ := outBuffers_mapped (a := a) ho
    rcases ha with (ha | ha | ha) | ha
    · exact holds_span hl hb ha
    · exact h1 ha
    · exact h2 ha
    · exact h3 ha
  | recover _ _ hcl hcs hc hil hi ho =>
    obtain ⟨h1, h2, h3⟩ := outBuffers_mapped (a := a) ho
    rcases ha with (ha | ha | ha | ha) | ha
    · exact items_span hcs hc ha
    · exact words_span hi ha
    · exact h1 ha
    · exact h2 ha
    · exact h3 ha
  | verify _ _ _ hms hm _ hi _ hcs hc _ hps hp _ hv =>
    rcases ha with (ha | ha | ha | ha) | ha
    · exact items_span hms hm ha
    · exact words_span hi ha
    · exact items_span hcs hc ha
    · exact items_span hps hp ha
    · exact mapped_span hv ha

variable [LawfulPointCodec G1 48]

theorem zip_writes {cp pp : List Nat} {cells proofs : List (List UInt8)}
    (hsz : cells.length = 128 ∧ (∀ c ∈ cells, c.length = 2048) ∧ proofs.length = 128 ∧ ∀ p ∈ proofs, p.length = 48)
    {g : Nat × List UInt8} (hg : g ∈ cp.zip cells ++ pp.zip proofs) {a : Nat} (ha : Span g.1 g.2.length a) :
    (∃ q ∈ cp, Span q 2048 a) ∨ ∃ q ∈ pp, Span q 48 a := by
  rcases List.mem_append.1 hg with hg | hg
  · have h := List.of_mem_zip (a := g.1) (b := g.2) hg
    exact .inl ⟨g.1, h.1, hsz.2.1 _ h.2 ▸ ha⟩
  · have h := List.of_mem_zip (a := g.1) (b := g.2) hg
    exact .inr ⟨g.1, h.1, hsz.2.2.2 _ h.2 ▸ ha⟩

theorem validCall_local {r : Request} (h : ValidCall sha256 s r.call r.reads r.writes r.effect) : Local r := by
  obtain ⟨c, R, W, e⟩ := r
  intro regions he g hg a ha
  simp only at h he ⊢
  cases h with
  | @commitment _ _ out ctx blob _ _ _ _ _ _ _ =>
    cases hc : ctx.blobToKzgCommitment blob <;> simp only [hc, commitmentEffect] at he <;> cases he
    simp only [List.mem_singleton] at hg
    subst hg
    exact blobToKzgCommitment_size hc ▸ ha
  | @compute _ _ _ _ ctx blob cp pp _ _ _ _ _ _ =>
    rcases hc : ctx.computeCellsAndKzgProofs blob with ⟨cells, proofs⟩ | _ | _ <;> simp only [hc, cellsEffect] at he <;> cases he
    exact zip_writes (computeCellsAndKzgProofs_sizes hc) hg ha
  | @recover _ _ _ _ _ _ _ ctx _ cells inds cp pp _ _ _ _ _ _ _ _ =>
    rcases hc : ctx.recoverCellsAndKzgProofs inds cells with ⟨cells', proofs⟩ | _ | _ <;> simp only [hc, cellsEffect] at he <;> cases he
    exact zip_writes (recoverCellsAndKzgProofs_sizes hc) hg ha
  | verify =>
    revert he
    unfold verifyEffect
    split <;> intro he <;> cases he <;>
    · simp only [List.mem_singleton] at hg
      subst hg
      exact ha

/-- writing cells and proofs -/
theorem runs_write_cells_and_proofs {R W : Nat → Prop} {m : Nat → Option UInt8} {outCells outProofs : Nat} {cp pp : List Nat}
    (hout : OutBuffers m outCells outProofs cp pp) {cells proofs : List (List UInt8)}
    (hsz : cells.length = 128 ∧ (∀ c ∈ cells, c.length = 2048) ∧ proofs.length = 128 ∧ ∀ p ∈ proofs, p.length = 48)
    (hr : ∀ a, Span outCells 1024 a ∨ Span outProofs 1024 a → R a) (hw : ∀ a, ((∃ q ∈ cp, Span q 2048 a) ∨ ∃ q ∈ pp, Span q 48 a) → W a) :
    Runs R W (do
      CProg.writeTo2dSlice outCells cells
      CProg.writeTo2dSlice outProofs proofs : CProg (DASContext K G1 G2) CResult Unit) m ()
      (overwriteAll m (cp.zip cells ++ pp.zip proofs)) := by
  have hz := fun g hg a ha => hw a (zip_writes (cp := cp) (pp := pp) hsz (g := g) hg (a := a) ha)
  obtain ⟨h1, h2, h3, h4⟩ := hsz
  have hc : ∀ r ∈ cp.zip cells, r.1 ∈ cp ∧ r.2.length = 2048 := fun r hr => ⟨(List.of_mem_zip hr).1, h2 _ (List.of_mem_zip hr).2⟩
  have hp : ∀ r ∈ pp.zip proofs, r.1 ∈ pp ∧ r.2.length = 48 := fun r hr => ⟨(List.of_mem_zip hr).1, h4 _ (List.of_mem_zip hr).2⟩
  rw [← overwriteAll_append]
  refine runs_bind (runs_writeTo2dSlice hout.cells (by rw [h1, hout.cellsLength]) ?_ ?_ ?_ fun r hr => hz r (by simp [hr]))
    (runs_writeTo2dSlice (ptrs := pp) ?_ ?_ ?_ ?_ ?_ fun r hr => hz r (by simp [hr]))
  · intro r hr
    rw [(hc r hr).2]
    exact hout.cellMapped _ (hc r hr).1
  · intro r hr
    rw [(hc r hr).2, hout.cellsLength]
    exact (hout.arrayApart _ (hc r hr).1).1
  · intro a ha
    rw [hout.cellsLength] at ha
    exact .inl (hr a (.inl ha))
  · refine holdsWords_overwriteAll _ hout.proofs fun r hr => ?_
    rw [(hc r hr).2, hout.proofsLength]
    exact (hout.arrayApart _ (hc r hr).1).2
  · rw [h3, hout.proofsLength]
  · intro r hr
    rw [(hp r hr).2]
    exact ⟨(hout.proofMapped _ (hp r hr).1).1, mapped_overwriteAll _ (hout.proofMapped _ (hp r hr).1).2⟩
  · intro r hr
    rw [(hp r hr).2, hout.proofsLength]
    exact hout.arrayApart' _ (hp r hr).1
  · intro a ha
    rw [hout.proofsLength] at ha
    exact .inl (hr a (.inr ha))

theorem validCall_safe {r : Request} (h : ValidCall sha256 s r.call r.reads r.writes r.effect) :
    SafeFor s.ctxs r (r.call.prog sha256) none s.mem := by
  obtain ⟨c, R, W, e⟩ := r
  simp only at h
  unfold SafeFor
  simp only
  have wrote : ∀ {regions : List (Nat × List UInt8)},
      regions.Pairwise (fun r r' => Spec.Apart r.1 r.2.length r'.1 r'.2.length) →
      Post (.ok regions) ⟨.Ok, 0⟩ none (overwriteAll s.mem regions) := fun hp => ⟨rfl, (wrote_overwriteAll _ _ hp).1⟩
  cases h with
  | @commitment ctxp blobp out ctx blob h0 hctx hl hb0 hb ho0 ho =>
    refine safe_cResult (safe_runs (runs_assert h0 _) (safe_derefCtx hctx
      (safe_runs (runs_createArrayRef hl hb0 hb fun a ha => .inl ha) ?_)))
    cases hc : ctx.blobToKzgCommitment blob with
    | ok c =>
      have hcl := blobToKzgCommitment_size hc
      refine safe_runs (runs_pure _ _) (safe_runs (runs_assert hcl _) (runs_writeToSlice ho0 (hcl ▸ ho) (hcl ▸ fun a ha => ha) _ _ _ _ _ ?_))
      exact wrote (regions := [(out, c)]) (by simp)
    | err e => exact safe_tryRust_err (by simp [commitmentEffect]) fun p hp => ⟨p, hp, rfl, rfl⟩
    | panic => exact (by simp : ∀ regions, (Outcome.panic : Spec.Effect) ≠ .ok regions)
  | @compute ctxp blobp outCells outProofs ctx blob cp pp h0 hctx hl hb0 hb hout =>
    refine safe_cResult (safe_runs (runs_assert h0 _) (safe_derefCtx hctx
      (safe_runs (runs_createArrayRef hl hb0 hb fun a ha => .inl (.inl ha)) ?_)))
    rcases hc : ctx.computeCellsAndKzgProofs blob with ⟨cells, proofs⟩ | e | _
    · have hsz := computeCellsAndKzgProofs_sizes hc
      refine safe_runs (runs_pure _ _) (runs_write_cells_and_proofs hout hsz (fun a ha => .inr ha) (fun a ha => ha) _ _ _ _ _ ?_)
      exact wrote (write_cells_and_proofs (ε := CResult) hout hsz).2
    · exact safe_tryRust_err (by simp [cellsEffect]) fun p hp => ⟨p, hp, rfl, rfl⟩
    · exact (by simp : ∀ regions, (Outcome.panic : Spec.Effect) ≠ .ok regions)
  | @recover ctxp cellsLength cellsp cellIndicesLength cellIndicesp outCells outProofs ctx ptrs cells inds cp pp h0 hctx hcl hcs hc hil hi
      hout =>
    refine safe_cResult (safe_runs (runs_assert h0 _) (safe_derefCtx hctx
      (safe_runs (runs_ptrPtr hcl hcs hc fun a ha => .inl (.inl ha))
      (safe_runs (runs_createSliceViewU64 hil hi fun a ha => .inl (.inr (.inl ha))) ?_))))
    rcases hc : ctx.recoverCellsAndKzgProofs inds cells with ⟨cells', proofs⟩ | e | _
    · have hsz := recoverCellsAndKzgProofs_sizes hc
      refine safe_runs (runs_pure _ _) (runs_write_cells_and_proofs hout hsz (fun a ha => .inr (.inr ha)) (fun a ha => ha) _ _ _ _ _ ?_)
      exact wrote (write_cells_and_proofs (ε := CResult) hout hsz).2
    · exact safe_tryRust_err (by simp [cellsEffect]) fun p hp => ⟨p, hp, rfl, rfl⟩
    · exact (by simp : ∀ regions, (Outcome.panic : Spec.Effect) ≠ .ok regions)
  | @verify ctxp commitmentsLength commitmentsp cellIndicesLength cellIndicesp cellsLength cellsp proofsLength proofsp verified ctx
      mptrs commitments inds cptrs cells pptrs proofs h0 hctx hml hms hm hil hi hcl hcs hc hpl hps hp hv0 hv =>
    have hspan : ∀ a, a = verified → Span verified 1 a := by rintro a rfl; exact ⟨le_rfl, by omega⟩
    obtain ⟨b0, hb0⟩ := hv 0 (by omega)
    rw [Nat.add_zero] at hb0
    refine safe_cResult (safe_runs (runs_assert h0 _) (safe_derefCtx hctx
      (safe_runs (runs_ptrPtr hml hms hm fun a ha => .inl (.inl ha))
      (safe_runs (runs_createSliceViewU64 hil hi fun a ha => .inl (.inr (.inl ha)))
      (safe_runs (runs_ptrPtr hcl hcs hc fun a ha => .inl (.inr (.inr (.inl ha))))
      (safe_runs (runs_ptrPtr hpl hps hp fun a ha => .inl (.inr (.inr (.inr ha))))
      (safe_runs (runs_bind (runs_require hv0 _) (runs_bind (runs_readByte (.inr (hspan _ rfl)) hb0) (runs_pure _ _))) ?_)))))))
    have hw : ∀ b, Post (.ok [(verified, [b])]) ⟨.Ok, 0⟩ none (fun a => if a = verified then some b else s.mem a) := by
      intro b
      refine ⟨rfl, fun g hg i c hc => ?_⟩
      simp only [List.mem_singleton] at hg
      subst hg
      rcases i with _ | i
      · simpa using hc
      · simp at hc
    simp only
    generalize ctx.verifyCellKzgProofBatch sha256 commitments inds cells proofs = res
    rcases res with _ | e | _
    · exact safe_runs (runs_pure _ _) (runs_writeByte (hspan _ rfl) (by simp [hb0]) _ _ _ _ _ (hw 1))
    · by_cases hinv : e.invalidProof = true
      · have he : ∃ e', e = .Verifier (.FK20 e') := by
          unfold Error.invalidProof at hinv
          split at hinv
          · split at hinv
            · exact ⟨_, rfl⟩
            · cases hinv
          · cases hinv
        obtain ⟨e', rfl⟩ := he
        exact safe_runs (runs_pure _ _) (runs_writeByte (hspan _ rfl) (by simp [hb0]) _ _ _ _ _ (hw 0))
      · have he : verifyEffect verified (.err e) = .err e := by
          unfold verifyEffect
          split
          · rename_i h; cases h
          · rename_i e' h
            cases h
            exact absurd rfl hinv
          · rename_i h; cases h; rfl
          · rename_i h; cases h
        rw [he]
        have : (CProg.verificationResultToBoolCResult (.err e) : CProg (DASContext K G1 G2) CResult Bool) = CProg.tryRust (.err e) := by
          simp only [CProg.verificationResultToBoolCResult, if_neg hinv]
          rfl
        rw [this]
        exact safe_tryRust_err (by simp) fun p hp => ⟨p, hp, rfl, rfl⟩
    · exact (by simp : ∀ regions, (Outcome.panic : Spec.Effect) ≠ .ok regions)

/-- the state when the threads start their calls -/
def startPool (sha256 : List UInt8 → List UInt8) (s : CState (DASContext K G1 G2)) (rs : List Request) : CPool (DASContext K G1 G2) :=
  ⟨s, rs.map fun r => r.call.prog sha256⟩

theorem startPool_inv {rs : List Request} (hv : ∀ r ∈ rs, ValidCall sha256 s r.call r.reads r.writes r.effect) :
    Inv s rs (startPool sha256 s rs) (fun _ => none) where
  ctxs := rfl
  length := by simp [startPool]
  mapped := fun _ h => h
  frame := fun _ _ _ => rfl
  safe := by
    intro i r x hr hx
    simp only [startPool, List.getElem?_map, hr, Option.map_some, Option.some.injEq] at hx
    subst hx
    exact validCall_safe (hv r (List.mem_of_getElem? hr))
  owned := by simp
  apart := by simp

/-- C68: any number of threads call any of the functions at the same time, with valid arguments, and none writes where another reads or
writes. Then in every interleaving there is no undefined behaviour; a call that has ended has returned what the library computes from its
inputs; the rest of the memory and the contexts are as before; and the messages of different calls are different. -/
theorem C68_threads {rs : List Request} (hv : ∀ r ∈ rs, ValidCall sha256 s r.call r.reads r.writes r.effect) (hn : NoConflict rs)
    {w : CPool (DASContext K G1 G2)} (hw : Relation.ReflTransGen CPoolStep (startPool sha256 s rs) w) :
    (.fault ∉ w.threads) ∧
    (∀ (i : Nat) r x, rs[i]? = some r → w.threads[i]? = some x → (x = .panic ∨ ∃ res, x = .ret res) → Finished w.s x r.effect) ∧
    (∀ a, s.mem a ≠ none → (∀ r ∈ rs, ¬ r.writes a) → w.s.mem a = s.mem a) ∧ w.s.ctxs = s.ctxs ∧
    (∀ (i j : Nat) p q, i ≠ j → w.threads[i]? = some (.ret ⟨.Err, p⟩) → w.threads[j]? = some (.ret ⟨.Err, q⟩) → p ≠ q) := by
  obtain ⟨o, h⟩ := (startPool_inv hv).reach hn (fun r hr => validCall_mapped (hv r hr)) (fun r hr => validCall_local (hv r hr)) hw
  have hreq : ∀ (i : Nat) x, w.threads[i]? = some x → ∃ r, rs[i]? = some r := by
    intro i x hx
    have := (List.getElem?_eq_some_iff.1 hx).1
    have hi : i < rs.length := by have := h.length; omega
    exact ⟨rs[i], List.getElem?_eq_getElem hi⟩
  refine ⟨?_, ?_, h.frame, h.ctxs, ?_⟩
  · intro hf
    obtain ⟨i, hi⟩ := List.mem_iff_getElem?.1 hf
    obtain ⟨r, hr⟩ := hreq i _ hi
    exact h.safe i r _ hr hi
  · intro i r x hr hx hfin
    have hs := h.safe i r x hr hx
    rcases hfin with rfl | ⟨res, rfl⟩
    · have hne : ∀ regions, r.effect ≠ .ok regions := hs
      cases he : r.effect with
      | ok regions => exact absurd he (hne regions)
      | err e => exact .inl rfl
      | panic => rfl
    · have hp : Post r.effect res (o i) w.s.mem := hs
      cases he : r.effect with
      | ok regions =>
        rw [he] at hp
        exact ⟨by rw [hp.1], hp.2⟩
      | err e =>
        rw [he] at hp
        obtain ⟨p, h0, ho, rfl⟩ := hp
        obtain ⟨h1, h2, -⟩ := h.owned i p _ ho
        exact .inr ⟨p, rfl, h0, ⟨Error.debug_no_zero e, h2⟩, h1⟩
      | panic =>
        rw [he] at hp
        exact hp.elim
  · intro i j p q hij hi hj
    have own : ∀ (k : Nat) p, w.threads[k]? = some (.ret ⟨.Err, p⟩) → ∃ msg, o k = some (p, msg) := by
      intro k p hk
      obtain ⟨r, hr⟩ := hreq k _ hk
      have hp : Post r.effect _ (o k) w.s.mem := h.safe k r _ hr hk
      cases he : r.effect with
      | ok regions =>
        rw [he] at hp
        have := hp.1
        cases this
      | err e =>
        rw [he] at hp
        obtain ⟨p', -, ho, hpp⟩ := hp
        cases hpp
        exact ⟨_, ho⟩
      | panic =>
        rw [he] at hp
        exact hp.elim
    obtain ⟨m, hm⟩ := own i p hi
    obtain ⟨m', hm'⟩ := own j q hj
    exact h.apart i j p q m m' hij hm hm'

/-- C68: under the same conditions there is no data race. -/
theorem C68_no_race {rs : List Request} (hv : ∀ r ∈ rs, ValidCall sha256 s r.call r.reads r.writes r.effect) (hn : NoConflict rs)
    {w : CPool (DASContext K G1 G2)} (hw : Relation.ReflTransGen CPoolStep (startPool sha256 s rs) w) : ¬ Race w := by
  obtain ⟨o, h⟩ := (startPool_inv hv).reach hn (fun r hr => validCall_mapped (hv r hr)) (fun r hr => validCall_local (hv r hr)) hw
  rintro ⟨i, j, p, b, k, hij, hi, hj⟩
  have hreq : ∀ (i : Nat) x, w.threads[i]? = some x → ∃ r, rs[i]? = some r := by
    intro i x hx
    have := (List.getElem?_eq_some_iff.1 hx).1
    have hi : i < rs.length := by have := h.length; omega
    exact ⟨rs[i], List.getElem?_eq_getElem hi⟩
  obtain ⟨r, hr⟩ := hreq i _ hi
  have h1 : r.writes p := (h.safe i r _ hr hi).1
  rcases hj with ⟨k', hj⟩ | ⟨b', k', hj⟩
  · obtain ⟨r', hr'⟩ := hreq j _ hj
    have h2 : r'.reads p ∨ r'.writes p := (h.safe j r' _ hr' hj).1
    have := hn i j r r' hr hr' hij p h1
    tauto
  · obtain ⟨r', hr'⟩ := hreq j _ hj
    have h2 : r'.writes p := (h.safe j r' _ hr' hj).1
    exact (hn i j r r' hr hr' hij p h1).2 h2

end

section
variable {Ctx : Type}

/-- C68: a thread that has not ended can always go on. -/
theorem C68_progress {w : CPool Ctx} {i : Nat} {x : CProg Ctx Empty CResult} (hi : w.threads[i]? = some x)
    (hx : x ≠ .panic ∧ x ≠ .fault ∧ ∀ res, x ≠ .ret res) : ∃ w', CPoolStep w w' := by
  obtain ⟨s, threads⟩ := w
  cases x with
  | ret a => exact absurd rfl (hx.2.2 a)
  | throw e => exact e.elim
  | panic => exact absurd rfl hx.1
  | fault => exact absurd rfl hx.2.1
  | read p k =>
    cases h : s.mem p with
    | none => exact ⟨_, .mk hi (.badRead h)⟩
    | some b => exact ⟨_, .mk hi (.read h)⟩
  | write p b k =>
    cases h : s.mem p with
    | none => exact ⟨_, .mk hi (.badWrite h)⟩
    | some b => exact ⟨_, .mk hi (.write (by simp [h]))⟩
  | ctx p k =>
    cases h : s.ctxs p with
    | none => exact ⟨_, .mk hi (.badCtx h)⟩
    | some b => exact ⟨_, .mk hi (.ctx h)⟩
  | alloc msg k => exact ⟨_, .mk hi .noMemory⟩

/-- C68: no execution goes on for ever. -/
theorem C68_terminates (w : CPool Ctx) : Acc (fun w' w => CPoolStep w w') w := by
  let sub (x' x : CProg Ctx Empty CResult) : Prop := ∃ s s', CProg.Step s x s' x'
  have hsub : ∀ x, Acc sub x := by
    have hf : Acc sub .fault := ⟨_, by rintro y ⟨s, s', h⟩; cases h⟩
    have hp : Acc sub .panic := ⟨_, by rintro y ⟨s, s', h⟩; cases h⟩
    intro x
    induction x with
    | ret a => exact ⟨_, by rintro y ⟨s, s', h⟩; cases h⟩
    | throw e => exact e.elim
    | panic => exact hp
    | fault => exact hf
    | read p k ih => exact ⟨_, by rintro y ⟨s, s', h⟩; cases h; exacts [ih _, hf]⟩
    | write p b k ih => exact ⟨_, by rintro y ⟨s, s', h⟩; cases h; exacts [ih, hf]⟩
    | ctx p k ih => exact ⟨_, by rintro y ⟨s, s', h⟩; cases h; exacts [ih _, hf]⟩
    | alloc msg k ih => exact ⟨_, by rintro y ⟨s, s', h⟩; cases h; exacts [ih _, hp]⟩
  let one (l' l : List (CProg Ctx Empty CResult)) : Prop := ∃ (i : Nat) (x x' : CProg Ctx Empty CResult), l[i]? = some x ∧ sub x' x ∧ l' = l.set i x'
  have hcons : ∀ x, Acc sub x → ∀ l, Acc one l → Acc one (x :: l) := by
    intro x hx
    induction hx with
    | intro x _ ihx =>
      intro l hl
      induction hl with
      | intro l hl ihl =>
        refine ⟨_, ?_⟩
        rintro _ ⟨i, y, y', hi, hy, rfl⟩
        rcases i with _ | i
        · simp only [List.getElem?_cons_zero, Option.some.injEq] at hi
          subst hi
          exact ihx y' hy l ⟨l, hl⟩
        · simp only [List.getElem?_cons_succ] at hi
          exact ihl _ ⟨i, y, y', hi, hy, rfl⟩
  have hone : ∀ l, Acc one l := by
    intro l
    induction l with
    | nil => exact ⟨_, by rintro _ ⟨i, y, y', hi, -⟩; simp at hi⟩
    | cons x l ih => exact hcons x (hsub x) l ih
  obtain ⟨s, threads⟩ := w
  have := hone threads
  induction this generalizing s with
  | intro l _ ih =>
    refine ⟨_, ?_⟩
    intro w' hw
    cases hw with
    | mk hx hst => exact ih _ ⟨_, _, _, hx, ⟨_, _, hst⟩, rfl⟩ _

end

/-! Necessity of the condition, and a concrete case that meets it -/

section
variable {K G1 G2 GT : Type} [Field K] [DecidableEq K] [AddCommGroup G1] [Module Fr G1] [DecidableEq G1]
  [Curve K G1] [PointCodec G1] [AddCommGroup G2] [Module Fr G2] [AddCommGroup GT] [DecidableEq GT]
  [Pairing G1 G2 GT]

/-- C68: two calls that share an output race, even with valid arguments: here two verifications of an empty batch. -/
theorem C68_shared_output_races (sha256 : List UInt8 → List UInt8) (ctx : DASContext K G1 G2) :
    let s : CState (DASContext K G1 G2) := ⟨fun _ => some 7, fun a => if a = 16 then some ctx else none, fun _ => none⟩
    let r : Request := ⟨.verify 16 0 0 0 0 0 0 0 0 64, fun a => ItemSpans 0 [] 48 a ∨ Span 0 (8 * ([] : List Nat).length) a ∨
      ItemSpans 0 [] 2048 a ∨ ItemSpans 0 [] 48 a, Span 64 1, .ok [(64, [1])]⟩
    ValidCall sha256 s r.call r.reads r.writes r.effect ∧
    ∃ w, Relation.ReflTransGen CPoolStep (startPool sha256 s [r, r]) w ∧ Race w := by
  intro s r
  have hver : ctx.verifyCellKzgProofBatch sha256 [] [] [] [] = .ok () := C13_empty ctx sha256
  constructor
  · have := ValidCall.verify (sha256 := sha256) (s := s) (ctxp := 16) (commitmentsLength := 0) (commitmentsp := 0) (cellIndicesLength := 0)
      (cellIndicesp := 0) (cellsLength := 0) (cellsp := 0) (proofsLength := 0) (proofsp := 0) (verified := 64) (ctx := ctx)
      (mptrs := []) (commitments := []) (inds := []) (cptrs := []) (cells := []) (pptrs := []) (proofs := [])
      (by decide) (by simp [s]) rfl (by simp) ⟨⟨by simp, by simp⟩, .nil⟩ rfl ⟨by simp, by simp⟩ rfl (by simp) ⟨⟨by simp, by simp⟩, .nil⟩
      rfl (by simp) ⟨⟨by simp, by simp⟩, .nil⟩ (by decide) (fun i _ => ⟨7, rfl⟩)
    rw [hver] at this
    exact this
  · have hp : (r.call.prog sha256 : CProg (DASContext K G1 G2) Empty CResult) = .ctx 16 (fun c => .read 64 (fun _ => CProg.cResult (do
        let b ← CProg.verificationResultToBoolCResult (c.verifyCellKzgProofBatch sha256 [] [] [] [])
        CProg.writeByte 64 (if b then 1 else 0)))) := rfl
    have hw : (CProg.cResult (do
        let b ← CProg.verificationResultToBoolCResult (ctx.verifyCellKzgProofBatch sha256 [] [] [] [])
        CProg.writeByte 64 (if b then 1 else 0)) : CProg (DASContext K G1 G2) Empty CResult) = .write 64 1 (.ret ⟨.Ok, 0⟩) := by
      rw [hver]
      rfl
    refine ⟨⟨s, [.write 64 1 (.ret ⟨.Ok, 0⟩), .write 64 1 (.ret ⟨.Ok, 0⟩)]⟩, ?_, 0, 1, 64, 1, _, by decide, rfl, .inr ⟨1, _, rfl⟩⟩
    have hctx : s.ctxs 16 = some ctx := by simp [s]
    unfold startPool
    simp only [List.map_cons, List.map_nil, hp]
    refine .tail (.tail (.tail (.tail .refl (.mk (i := 0) rfl (.ctx hctx))) (.mk (i := 0) rfl (.read rfl))) (.mk (i := 1) rfl (.ctx hctx))) ?_
    simp only [hw]
    have := CPoolStep.mk (s := s) (i := 1) (threads := [.write 64 1 (.ret ⟨.Ok, 0⟩), .read 64 (fun _ => CProg.cResult (do
        let b ← CProg.verificationResultToBoolCResult (ctx.verifyCellKzgProofBatch sha256 [] [] [] [])
        CProg.writeByte 64 (if b then 1 else 0)))]) rfl (CProg.Step.read (b := 7) rfl)
    rw [hw] at this
    exact this

end

namespace CExample
open Toy

/-- three threads: two that read the same blob, and a verification -/
def requests (ctx : DASContext Fr Fr Fr) (blob : List UInt8) : List Request := [
  ⟨.commitment 16 8388608 12345, Span 8388608 131072, Span 12345 48,
    commitmentEffect 12345 (ctx.blobToKzgCommitment blob)⟩,
  ⟨.compute 16 8388608 1024 2048, fun a => Span 8388608 131072 a ∨ Span 1024 1024 a ∨ Span 2048 1024 a,
    fun a => (∃ q ∈ (List.range 128).map cellPtr, Span q 2048 a) ∨ ∃ q ∈ (List.range 128).map proofPtr, Span q 48 a,
    cellsEffect ((List.range 128).map cellPtr) ((List.range 128).map proofPtr) (ctx.computeCellsAndKzgProofs blob)⟩,
  ⟨.verify 16 0 0 0 0 0 0 0 0 20000, fun a => ItemSpans 0 [] 48 a ∨ Span 0 (8 * ([] : List Nat).length) a ∨
      ItemSpans 0 [] 2048 a ∨ ItemSpans 0 [] 48 a, Span 20000 1,
    verifyEffect 20000 (ctx.verifyCellKzgProofBatch id [] [] [] [])⟩]

/-- the hypotheses of `C68_threads` hold for them -/
example (ctx : DASContext Fr Fr Fr) : ∃ blob,
    (∀ r ∈ requests ctx blob, ValidCall id (⟨mem, fun a => if a = 16 then some ctx else none, fun _ => none⟩ : CState (DASContext Fr Fr Fr))
      r.call r.reads r.writes r.effect) ∧ NoConflict (requests ctx blob) := by
  have hblob : Holds mem 8388608 (List.replicate 131072 0) := by
    intro i b hb
    rw [List.getElem?_replicate] at hb
    split_ifs at hb
    cases hb
    show mem (8388608 + i) = some 0
    unfold mem
    rw [if_neg (by omega), if_neg (by omega)]
  have hlen : (List.replicate 131072 (0 : UInt8)).length = 131072 := List.length_replicate
  generalize List.replicate 131072 (0 : UInt8) = blob at hblob hlen
  refine ⟨blob, ?_⟩
  constructor
  · intro r hr
    simp only [requests, List.mem_cons, List.not_mem_nil, or_false] at hr
    rcases hr with rfl | rfl | rfl
    · exact .commitment (by decide) (by simp) hlen (by decide) hblob (by decide) (mapped _ _)
    · exact .compute (by decide) (by simp) hlen (by decide) hblob outBuffers
    · exact ValidCall.verify (ctxp := 16) (ctx := ctx) (commitments := []) (inds := []) (cells := []) (proofs := []) (verified := 20000)
        (by decide) (by simp) rfl (by simp) ⟨⟨by simp, by simp⟩, .nil⟩ rfl ⟨by simp, by simp⟩ rfl (by simp)
        ⟨⟨by simp, by simp⟩, .nil⟩ rfl (by simp) ⟨⟨by simp, by simp⟩, .nil⟩ (by decide) (mapped _ _)
  · intro i j r r' hi hj hij a ha
    have hcell : ∀ a, (∃ q ∈ (List.range 128).map cellPtr, Span q 2048 a) → 1048576 ≤ a ∧ a < 1310720 := by
      rintro a ⟨q, hq, h1, h2⟩
      simp only [List.mem_map, List.mem_range] at hq
      obtain ⟨k, hk, rfl⟩ := hq
      unfold cellPtr at h1 h2
      omega
    have hproof : ∀ a, (∃ q ∈ (List.range 128).map proofPtr, Span q 48 a) → 4194304 ≤ a ∧ a < 4200448 := by
      rintro a ⟨q, hq, h1, h2⟩
      simp only [List.mem_map, List.mem_range] at hq
      obtain ⟨k, hk, rfl⟩ := hq
      unfold proofPtr at h1 h2
      omega
    have hnil : ∀ n a, ¬ ItemSpans 0 [] n a := by
      rintro n a (⟨-, h⟩ | ⟨q, hq, -⟩)
      · simp at h
      · cases hq
    have hb : ∀ p n a, Span p n a ↔ p ≤ a ∧ a < p + n := fun _ _ _ => Iff.rfl
    generalize hC : (fun a => ∃ q ∈ (List.range 128).map cellPtr, Span q 2048 a) = C at *
    generalize hP : (fun a => ∃ q ∈ (List.range 128).map proofPtr, Span q 48 a) = P at *
    have hC' : ∀ a, (∃ q ∈ (List.range 128).map cellPtr, Span q 2048 a) ↔ C a := fun a => by rw [← hC]
    have hP' : ∀ a, (∃ q ∈ (List.range 128).map proofPtr, Span q 48 a) ↔ P a := fun a => by rw [← hP]
    rcases i with _ | _ | _ | i <;> rcases j with _ | _ | _ | j <;> first
      | exact absurd rfl hij
      | (simp only [requests, List.getElem?_cons_zero, List.getElem?_cons_succ, List.getElem?_nil, Option.some.injEq, reduceCtorEq] at hi hj
         first | cases hi | cases hj
         first | cases hj | cases hi
         simp only [hC', hP', hb, hnil, List.length_nil, Nat.mul_zero, Nat.add_zero, false_or, or_false] at ha hcell hproof ⊢
         have h1 := hcell a
         have h2 := hproof a
         constructor <;> intro hc <;> first | omega | (rcases ha with ha | ha <;> [have := h1 ha; have := h2 ha] <;> omega) | (rcases hc with hc | hc <;> [have := h1 hc; have := h2 hc] <;> omega))
      | (simp only [requests, List.getElem?_cons_succ, List.getElem?_nil, reduceCtorEq] at hi hj)

end CExample
end Verif
