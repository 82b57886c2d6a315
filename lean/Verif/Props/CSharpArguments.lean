import Verif.Lemmas.CSharpArguments
import Verif.Props.CSharp

set_option linter.unusedSectionVars false

/-! C71: C# arguments that contain null references, and arguments that another thread changes during the call. -/
namespace Verif
open Spec (Holds HoldsWords Extends OutOfMemory ArrayHolds Gets Answers Verdict Sized HasNull ItemsSized unchanged replaced Raises count)

section
variable {K G1 G2 GT : Type} [Field K] [DecidableEq K] [AddCommGroup G1] [Module Fr G1] [DecidableEq G1]
  [Curve K G1] [PointCodec G1] [AddCommGroup G2] [Module Fr G2] [AddCommGroup GT] [DecidableEq GT]
  [Pairing G1 G2 GT]
variable (H : Heap (DASContext K G1 G2)) (A : Allocator (DASContext K G1 G2)) (gc : Gc (DASContext K G1 G2))

/-- C71: Arguments without null references that do not change during the call: the methods are those of C34, for arrays of any lengths. -/
theorem C71_unchanged (sha256 : List UInt8 → List UInt8) (context : Nat) (blob ids : CsArray) (commitments cells proofs : List CsArray) :
    csBlobToKzgCommitmentArgs H A context (some blob) = raise (csBlobToKzgCommitment H A context blob) ∧
    csComputeCellsAndKZGProofsArgs H A gc context (some blob) = raise (csComputeCellsAndKZGProofs H A gc context blob) ∧
    csVerifyCellKZGProofBatchArgs H A gc sha256 context (unchanged commitments) (some ids) (unchanged cells) (unchanged proofs) =
      raise (csVerifyCellKZGProofBatch H A gc sha256 context commitments ids cells proofs) ∧
    csRecoverCellsAndKZGProofsArgs H A gc context (some ids) (unchanged cells) =
      raise (csRecoverCellsAndKZGProofs H A gc context ids cells) := by
  have f : ∀ l : List CsArray, (l.map some).map CsRef.fixed = l.map CsArray.fixed := fun l => by rw [List.map_map]; rfl
  have g : ∀ l : List CsArray, (l.map some).map CsRef.addr = l.map CsArray.addr := fun l => by rw [List.map_map]; rfl
  refine ⟨rfl, rfl, ?_, ?_⟩
  · unfold csVerifyCellKZGProofBatchArgs csVerifyCellKZGProofBatch
    simp only [checkItems_unchanged, raise_bind, raise_newPointers, raise_newBytes, raise_collect, raise_callC, raise_readByte,
      raise_pure, bind_assoc, pure_bind, f, List.length_map, CsRef.deref, ← List.map_append, g]
  · unfold csRecoverCellsAndKZGProofsArgs csRecoverCellsAndKZGProofs
    simp only [checkItems_unchanged, raise_bind, raise_newPointers, raise_collect, raise_callC, raise_mapM,
      raise_readBytes, raise_initializeJaggedArray, raise_pure, bind_assoc, pure_bind, f, List.length_map, CsRef.deref, g]

/-- C71: Items that are replaced between the length check and the `fixed` statement: the method gives the result for the `n` bytes at the
addresses of the new items, where `n` is the size that the check demands, whatever the lengths of the new items are. -/
theorem C71_replaced (sha256 : List UInt8 → List UInt8) (context : Nat) (ids : CsArray)
    (commitments cells proofs commitments' cells' proofs' : List CsArray)
    (h1 : ∀ a ∈ commitments, a.length = 48) (h2 : ∀ a ∈ cells, a.length = 2048) (h3 : ∀ a ∈ proofs, a.length = 48)
    (l1 : commitments.length = commitments'.length) (l2 : cells.length = cells'.length) (l3 : proofs.length = proofs'.length)
    (n1 : ∀ a ∈ commitments', a.length ≠ 0) (n2 : ∀ a ∈ cells', a.length ≠ 0) (n3 : ∀ a ∈ proofs', a.length ≠ 0) :
    csVerifyCellKZGProofBatchArgs H A gc sha256 context (replaced commitments commitments') (some ids) (replaced cells cells')
        (replaced proofs proofs') =
      raise (csVerifyCellKZGProofBatch H A gc sha256 context (commitments'.map fun a => ⟨a.addr, 48⟩) ids
        (cells'.map fun a => ⟨a.addr, 2048⟩) (proofs'.map fun a => ⟨a.addr, 48⟩)) ∧
    csRecoverCellsAndKZGProofsArgs H A gc context (some ids) (replaced cells cells') =
      raise (csRecoverCellsAndKZGProofs H A gc context ids (cells'.map fun a => ⟨a.addr, 2048⟩)) := by
  have f : ∀ (n : Nat) (l : List CsArray), n ≠ 0 → (∀ a ∈ l, a.length ≠ 0) →
      (l.map some).map CsRef.fixed = (l.map fun a => (⟨a.addr, n⟩ : CsArray)).map CsArray.fixed := by
    intro n l hn hl
    rw [List.map_map, List.map_map]
    refine List.map_congr_left fun a ha => ?_
    show (if a.length = 0 then 0 else a.addr) = (if n = 0 then 0 else a.addr)
    rw [if_neg (hl a ha), if_neg hn]
  have g : ∀ (n : Nat) (l : List CsArray), (l.map some).map CsRef.addr = (l.map fun a => (⟨a.addr, n⟩ : CsArray)).map CsArray.addr :=
    fun n l => by rw [List.map_map, List.map_map]; rfl
  have w : ∀ (n : Nat) (l : List CsArray), ∀ a ∈ l.map fun a => (⟨a.addr, n⟩ : CsArray), a.length = n := by
    intro n l a ha
    obtain ⟨b, -, rfl⟩ := List.mem_map.1 ha
    rfl
  constructor
  · funext s
    unfold csVerifyCellKZGProofBatchArgs csVerifyCellKZGProofBatch
    rw [CM.bind_ok (checkItems_replaced (n := BYTES_PER_CELL) "cell" h2 l2 s),
      CM.bind_ok (checkItems_replaced (n := BYTES_PER_COMMITMENT) "proof" h3 l3 s),
      CM.bind_ok (checkItems_replaced (n := BYTES_PER_COMMITMENT) "commitments" h1 l1 s)]
    have e : ∀ {n : Nat} {name : String} {l : List CsArray}, (∀ a ∈ l, a.length = n) → ∀ {β : Type} (k : Unit → CM (DASContext K G1 G2) CsFailure β),
        (raise (checkLengths n name l) >>= k) s = k () s := fun hl _ k => CM.bind_ok (by unfold raise; rw [checkLengths_ok _ hl])
    simp only [raise_bind]
    refine Eq.trans ?_ ((e (w BYTES_PER_CELL cells') _).trans ((e (w BYTES_PER_COMMITMENT proofs') _).trans
      (e (w BYTES_PER_COMMITMENT commitments') _))).symm
    simp only [raise_newPointers, raise_newBytes, raise_collect, raise_callC, raise_readByte, raise_pure, pure_bind,
      f 48 commitments' (by decide) n1, f 2048 cells' (by decide) n2, f 48 proofs' (by decide) n3, g 48 commitments', g 2048 cells',
      g 48 proofs', List.map_append, List.length_map, CsRef.deref]
  · funext s
    unfold csRecoverCellsAndKZGProofsArgs csRecoverCellsAndKZGProofs
    rw [CM.bind_ok (checkItems_replaced (n := BYTES_PER_CELL) "cell" h2 l2 s)]
    have e : ∀ {n : Nat} {name : String} {l : List CsArray}, (∀ a ∈ l, a.length = n) → ∀ {β : Type} (k : Unit → CM (DASContext K G1 G2) CsFailure β),
        (raise (checkLengths n name l) >>= k) s = k () s := fun hl _ k => CM.bind_ok (by unfold raise; rw [checkLengths_ok _ hl])
    simp only [raise_bind]
    refine Eq.trans ?_ (e (w BYTES_PER_CELL cells') _).symm
    simp only [raise_newPointers, raise_collect, raise_callC, raise_mapM, raise_readBytes, raise_initializeJaggedArray,
      raise_pure, pure_bind, f 2048 cells' (by decide) n2, g 2048 cells', List.length_map, CsRef.deref]

variable (s : CState (DASContext K G1 G2))

/-- C71: A null reference to a blob is an exception. -/
theorem C71_null_blob (context : Nat) :
    csBlobToKzgCommitmentArgs H A context none s = .err .nullReference s ∧
    csComputeCellsAndKZGProofsArgs H A gc context none s = .err .nullReference s := ⟨rfl, rfl⟩

/-- C71: A null reference among the arguments of `VerifyCellKZGProofBatch`, when the lengths are checked: the library is not called. The
method raises an exception, which is `NullReferenceException` if the arrays have the right lengths, or the process ends because there is
no memory for the arrays of pointers. -/
theorem C71_null_verify (sha256 : List UInt8 → List UInt8) (context : Nat) (commitments cells proofs : CsItems) (ids : CsRef)
    (h : HasNull commitments ∨ HasNull cells ∨ HasNull proofs ∨ ids = none) :
    (OutOfMemory H A s [8 * count commitments, 8 * count cells, 8 * count proofs, 1] none ∧
      csVerifyCellKZGProofBatchArgs H A gc sha256 context commitments ids cells proofs s = .panic) ∨
    Raises s (csVerifyCellKZGProofBatchArgs H A gc sha256 context commitments ids cells proofs s) (fun e =>
      ItemsSized 48 commitments → ItemsSized 2048 cells → ItemsSized 48 proofs → e = .nullReference) := by
  unfold csVerifyCellKZGProofBatchArgs
  rcases checkItems_cases BYTES_PER_CELL "cell" cells s with ⟨⟨lc, rfl, hc⟩, nc⟩ | ⟨e, hc, he⟩
  swap
  · exact .inr ⟨e, s, CM.bind_err hc, fun _ hs _ => (he hs).2, Extends.refl s⟩
  rcases checkItems_cases BYTES_PER_COMMITMENT "proof" proofs s with ⟨⟨lp, rfl, hp⟩, np⟩ | ⟨e, hp, he⟩
  swap
  · exact .inr ⟨e, s, (CM.bind_ok hc).trans (CM.bind_err hp), fun _ _ hs => (he hs).2, Extends.refl s⟩
  rcases checkItems_cases BYTES_PER_COMMITMENT "commitments" commitments s with ⟨⟨lm, rfl, hm⟩, nm⟩ | ⟨e, hm, he⟩
  swap
  · exact .inr ⟨e, s, (CM.bind_ok hc).trans ((CM.bind_ok hp).trans (CM.bind_err hm)), fun hs _ _ => (he hs).2, Extends.refl s⟩
  obtain rfl : ids = none := by tauto
  rw [CM.bind_ok hc, CM.bind_ok hp, CM.bind_ok hm]
  refine newArray_bind (P := fun o => Raises s o _) H A _ (by rw [length_flatMap_wordBytes, List.length_map, List.length_map]; rfl) ?_
  intro p1 s1 a1 _ _
  refine newArray_bind (P := fun o => Raises s o _) H A _ (by rw [length_flatMap_wordBytes, List.length_map, List.length_map]; rfl) ?_
  intro p2 s2 a2 _ _
  refine newArray_bind (P := fun o => Raises s o _) H A _ (by rw [length_flatMap_wordBytes, List.length_map, List.length_map]; rfl) ?_
  intro p3 s3 a3 _ _
  refine newArray_bind (P := fun o => Raises s o _) H A _ List.length_replicate ?_
  intro p4 s4 a4 _ _
  exact .inr ⟨_, s4, rfl, fun _ _ _ => rfl, ((a1.ext.trans a2.ext).trans a3.ext).trans a4.ext⟩

/-- C71: A null reference among the arguments of `RecoverCellsAndKZGProofs`. -/
theorem C71_null_recover (context : Nat) (cells : CsItems) (ids : CsRef) (h : HasNull cells ∨ ids = none) :
    (OutOfMemory H A s (List.replicate 128 2048 ++ (List.replicate 128 48 ++ [8 * count cells, 1024, 1024])) none ∧
      csRecoverCellsAndKZGProofsArgs H A gc context ids cells s = .panic) ∨
    Raises s (csRecoverCellsAndKZGProofsArgs H A gc context ids cells s) (fun e => ItemsSized 2048 cells → e = .nullReference) := by
  unfold csRecoverCellsAndKZGProofsArgs
  rcases checkItems_cases BYTES_PER_CELL "cell" cells s with ⟨⟨lc, rfl, hc⟩, nc⟩ | ⟨e, hc, he⟩
  swap
  · exact .inr ⟨e, s, CM.bind_err hc, fun hs => (he hs).2, Extends.refl s⟩
  obtain rfl : ids = none := by tauto
  rw [CM.bind_ok hc]
  refine newAll_bind (P := fun o => Raises s o _) H A BYTES_PER_CELL (by decide) (List.range CELLS_PER_EXT_BLOB) ?_
  intro cp s₁ lc' h1
  refine newAll_bind (P := fun o => Raises s o _) H A BYTES_PER_COMMITMENT (by decide) (List.range CELLS_PER_EXT_BLOB) ?_
  intro pp s₂ lp' h2
  refine newArray_bind (P := fun o => Raises s o _) H A _ (by rw [length_flatMap_wordBytes, List.length_map, List.length_map]; rfl) ?_
  intro p1 s3 a1 _ _
  refine newArray_bind (P := fun o => Raises s o _) H A (cp.flatMap wordBytes) (by rw [length_flatMap_wordBytes, lc', List.length_range]; rfl) ?_
  intro p2 s4 a2 _ _
  refine newArray_bind (P := fun o => Raises s o _) H A (pp.flatMap wordBytes) (by rw [length_flatMap_wordBytes, lp', List.length_range]; rfl) ?_
  intro p3 s5 a3 _ _
  exact .inr ⟨_, s5, rfl, fun _ => rfl, (((h1.ext.trans h2.ext).trans a1.ext).trans a2.ext).trans a3.ext⟩

/-- C71: An item that is null or empty when its address is taken, although it had the right length when the length was checked: the
native code of `RecoverCellsAndKZGProofs` makes a slice from a null pointer, which is undefined behaviour. -/
theorem C71_null_later_recover (ctxp : Nat) (ctx : DASContext K G1 G2) (h0 : ctxp ≠ 0) (hctx : s.ctxs ctxp = some ctx) (ids : CsArray)
    (items : List (CsRef × CsRef)) (hchecked : ∀ q ∈ items, ∃ a, q.1 = some a ∧ a.length = 2048)
    (pre : List CsArray) (r : CsRef) (post : List CsRef) (hitems : items.map Prod.snd = pre.map some ++ r :: post)
    (hr : ∀ a, r = some a → a.length = 0)
    (contents : List (List UInt8)) (hpre : List.Forall₂ (fun a b => ArrayHolds s.mem a.addr a.length b) pre contents)
    (hsz : Sized 2048 contents) (hpost : ∀ a, some a ∈ post → a.addr < 2 ^ 64) :
    (OutOfMemory H A s (List.replicate 128 2048 ++ (List.replicate 128 48 ++ [8 * items.length, 1024, 1024])) none ∧
      csRecoverCellsAndKZGProofsArgs H A noGc ctxp (some ids) (some items) s = .panic) ∨
    csRecoverCellsAndKZGProofsArgs H A noGc ctxp (some ids) (some items) s = .fault := by
  unfold csRecoverCellsAndKZGProofsArgs
  have hlen : items.length = (pre.map some ++ r :: post).length := by rw [← hitems, List.length_map]
  rw [CM.bind_ok (checkItems_ok (n := BYTES_PER_CELL) "cell" hchecked s), hitems]
  have hfix := fixed_before hpre (by norm_num) hsz
  have hr0 : r.fixed = 0 := by
    rcases r with _ | a
    · rfl
    · show (if a.length = 0 then 0 else a.addr) = 0
      rw [if_pos (hr a rfl)]
  have hmap : (pre.map some ++ r :: post).map CsRef.fixed = pre.map CsArray.addr ++ 0 :: post.map CsRef.fixed := by
    rw [List.map_append, List.map_cons, hr0, hfix]
  have hbound : ∀ v ∈ pre.map CsArray.addr ++ 0 :: post.map CsRef.fixed, v < 2 ^ 64 := fixed_bound hpre hsz (by norm_num) hpost
  refine newAll_bind (P := fun o => o = .fault) H A BYTES_PER_CELL (by decide) (List.range CELLS_PER_EXT_BLOB) ?_
  intro cp s₁ lc h1
  replace lc : cp.length = 128 := by rw [lc, List.length_range]; rfl
  refine newAll_bind (P := fun o => o = .fault) H A BYTES_PER_COMMITMENT (by decide) (List.range CELLS_PER_EXT_BLOB) ?_
  intro pp s₂ lp h2
  replace lp : pp.length = 128 := by rw [lp, List.length_range]; rfl
  refine newArray_bind (P := fun o => o = .fault) H A _ (by rw [length_flatMap_wordBytes, List.length_map, hlen]) ?_
  intro ic s₃ h3 _ _
  refine newArray_bind (P := fun o => o = .fault) H A (cp.flatMap wordBytes) (by rw [length_flatMap_wordBytes, lc]) ?_
  intro oc s₄ h4 _ _
  refine newArray_bind (P := fun o => o = .fault) H A (pp.flatMap wordBytes) (by rw [length_flatMap_wordBytes, lp]) ?_
  intro op s₅ h5 _ _
  have e5 : Extends s s₅ := (((h1.ext.trans h2.ext).trans h3.ext).trans h4.ext).trans h5.ext
  rw [hmap] at h3
  right
  have hne : (pre.map some ++ r :: post).length ≠ 0 := by simp
  have hnull : (ptrPtrToVecSliceConst BYTES_PER_CELL (CsArray.fixed ⟨ic, (pre.map some ++ r :: post).length⟩)
      (pre.map some ++ r :: post).length : CM (DASContext K G1 G2) CResult _) s₅ = .fault := by
    refine ptrPtr_null (pre := pre.map CsArray.addr) (post := post.map CsRef.fixed) (by decide) (by simp) (inner := BYTES_PER_CELL) hsz ?_ (forall₂_addr hpre e5)
    unfold CsArray.fixed
    rw [if_neg hne]
    exact holdsWords_mono (h4.ext.trans h5.ext) (holdsWords_of_allocated h3 hbound)
  refine (CM.bind_ok (show CsRef.deref (some ids) s₅ = .ok ids s₅ from rfl)).trans ?_
  refine (CM.bind_ok (show collect noGc _ s₅ = .ok _ s₅ from rfl)).trans ?_
  refine bind_fault (callC_fault ?_)
  unfold ethKzgRecoverCellsAndProofs cResult recoverCellsAndProofsC
  rw [CM.assert_true h0, pure_bind, CM.bind_ok (show derefCtx ctxp s₅ = .ok ctx s₅ by unfold derefCtx; rw [e5.ctxs, hctx])]
  rw [bind_fault hnull]

/-- C71: The same for a cell of `VerifyCellKZGProofBatch`; the commitments were not changed. -/
theorem C71_null_later_verify (sha256 : List UInt8 → List UInt8) (ctxp : Nat) (ctx : DASContext K G1 G2) (h0 : ctxp ≠ 0)
    (hctx : s.ctxs ctxp = some ctx) (ids : CsArray) (inds : List Nat) (hil : inds.length = ids.length)
    (hi : HoldsWords s.mem ids.fixed inds) (commitments : List CsArray) (commitmentBytes : List (List UInt8))
    (hm : List.Forall₂ (fun a b => ArrayHolds s.mem a.addr a.length b) commitments commitmentBytes) (hms : Sized 48 commitmentBytes)
    (proofs : List (CsRef × CsRef)) (hproofs : ∀ q ∈ proofs, ∃ a, q.1 = some a ∧ a.length = 48)
    (items : List (CsRef × CsRef)) (hchecked : ∀ q ∈ items, ∃ a, q.1 = some a ∧ a.length = 2048)
    (pre : List CsArray) (r : CsRef) (post : List CsRef) (hitems : items.map Prod.snd = pre.map some ++ r :: post)
    (hr : ∀ a, r = some a → a.length = 0)
    (contents : List (List UInt8)) (hpre : List.Forall₂ (fun a b => ArrayHolds s.mem a.addr a.length b) pre contents)
    (hsz : Sized 2048 contents) (hpost : ∀ a, some a ∈ post → a.addr < 2 ^ 64) :
    (OutOfMemory H A s [8 * commitments.length, 8 * items.length, 8 * proofs.length, 1] none ∧
      csVerifyCellKZGProofBatchArgs H A noGc sha256 ctxp (unchanged commitments) (some ids) (some items) (some proofs) s = .panic) ∨
    csVerifyCellKZGProofBatchArgs H A noGc sha256 ctxp (unchanged commitments) (some ids) (some items) (some proofs) s = .fault := by
  unfold csVerifyCellKZGProofBatchArgs
  have hlen : items.length = (pre.map some ++ r :: post).length := by rw [← hitems, List.length_map]
  have hml : ∀ a ∈ commitments, a.length = 48 := by
    intro a ha
    obtain ⟨b, hb, hab⟩ := forall₂_mem_left hm ha
    rw [hab.length, hms b hb]
  have hcm : checkItems BYTES_PER_COMMITMENT "commitments" (unchanged commitments) s = .ok (commitments.map some) s := by
    rw [checkItems_unchanged]
    refine CM.bind_ok (a := ()) (s' := s) ?_
    unfold raise
    rw [checkLengths_ok (n := BYTES_PER_COMMITMENT) _ hml]
  rw [CM.bind_ok (checkItems_ok (n := BYTES_PER_CELL) "cell" hchecked s), hitems,
    CM.bind_ok (checkItems_ok (n := BYTES_PER_COMMITMENT) "proof" hproofs s), CM.bind_ok hcm]
  have hfix := fixed_before hpre (by norm_num) hsz
  have hr0 : r.fixed = 0 := by
    rcases r with _ | a
    · rfl
    · show (if a.length = 0 then 0 else a.addr) = 0
      rw [if_pos (hr a rfl)]
  have hmap : (pre.map some ++ r :: post).map CsRef.fixed = pre.map CsArray.addr ++ 0 :: post.map CsRef.fixed := by
    rw [List.map_append, List.map_cons, hr0, hfix]
  have hbound : ∀ v ∈ pre.map CsArray.addr ++ 0 :: post.map CsRef.fixed, v < 2 ^ 64 := fixed_bound hpre hsz (by norm_num) hpost
  refine newArray_bind (P := fun o => o = .fault) H A _ (by rw [length_flatMap_wordBytes, List.length_map, List.length_map]) ?_
  intro cm s₁ h1 _ _
  refine newArray_bind (P := fun o => o = .fault) H A _ (by rw [length_flatMap_wordBytes, List.length_map, hlen]) ?_
  intro cl s₂ h2 _ _
  refine newArray_bind (P := fun o => o = .fault) H A _ (by rw [length_flatMap_wordBytes, List.length_map, List.length_map]) ?_
  intro pf s₃ h3 _ _
  refine newArray_bind (P := fun o => o = .fault) H A _ List.length_replicate ?_
  intro vf s₄ h4 _ _
  have e4 : Extends s s₄ := ((h1.ext.trans h2.ext).trans h3.ext).trans h4.ext
  rw [hmap] at h2
  rw [show (commitments.map some).map CsRef.fixed = commitments.map CsArray.fixed by rw [List.map_map]; rfl] at h1
  have i1 := holdsItems_of_arrays (by norm_num) hm hms (Extends.refl s) h1
  right
  have hne : (pre.map some ++ r :: post).length ≠ 0 := by simp
  have hnull : (ptrPtrToVecSliceConst BYTES_PER_CELL (CsArray.fixed ⟨cl, (pre.map some ++ r :: post).length⟩)
      (pre.map some ++ r :: post).length : CM (DASContext K G1 G2) CResult _) s₄ = .fault := by
    refine ptrPtr_null (pre := pre.map CsArray.addr) (post := post.map CsRef.fixed) (by decide) (by simp) (inner := BYTES_PER_CELL) hsz ?_ (forall₂_addr hpre e4)
    unfold CsArray.fixed
    rw [if_neg hne]
    exact holdsWords_mono (h3.ext.trans h4.ext) (holdsWords_of_allocated h2 hbound)
  refine (CM.bind_ok (show CsRef.deref (some ids) s₄ = .ok ids s₄ from rfl)).trans ?_
  refine (CM.bind_ok (show collect noGc _ s₄ = .ok _ s₄ from rfl)).trans ?_
  refine bind_fault (callC_fault ?_)
  unfold ethKzgVerifyCellKzgProofBatch cResult verifyCellKzgProofBatchC
  rw [CM.assert_true h0, pure_bind, CM.bind_ok (show derefCtx ctxp s₄ = .ok ctx s₄ by unfold derefCtx; rw [e4.ctxs, hctx]),
    List.length_map, CM.bind_ok (ptrPtr_ok (inner := BYTES_PER_COMMITMENT) hm.length_eq.symm hms
      (holdsItems_mono ((h2.ext.trans h3.ext).trans h4.ext) i1)),
    CM.bind_ok (createSliceViewU64_ok hil (holdsWords_mono e4 hi))]
  rw [bind_fault hnull]

/-- C71: What the caller gets for items that were replaced: the answer for the 2048 bytes, or 48 bytes, at their addresses. For items of the
right size these are their contents; for shorter items they include memory behind the items. -/
theorem C71_replaced_answers [LawfulPointCodec G1 48] (sha256 : List UInt8 → List UInt8) (ctxp : Nat) (ctx : DASContext K G1 G2)
    (h0 : ctxp ≠ 0) (hctx : s.ctxs ctxp = some ctx) (ids : CsArray) (inds : List Nat) (hil : inds.length = ids.length)
    (hi : HoldsWords s.mem ids.fixed inds) (commitments cells proofs commitments' cells' proofs' : List CsArray)
    (h1 : ∀ a ∈ commitments, a.length = 48) (h2 : ∀ a ∈ cells, a.length = 2048) (h3 : ∀ a ∈ proofs, a.length = 48)
    (l1 : commitments.length = commitments'.length) (l2 : cells.length = cells'.length) (l3 : proofs.length = proofs'.length)
    (n1 : ∀ a ∈ commitments', a.length ≠ 0) (n2 : ∀ a ∈ cells', a.length ≠ 0) (n3 : ∀ a ∈ proofs', a.length ≠ 0)
    (commitmentBytes cellBytes proofBytes : List (List UInt8))
    (hm : List.Forall₂ (fun a b => ArrayHolds s.mem a.addr 48 b) commitments' commitmentBytes)
    (hc : List.Forall₂ (fun a b => ArrayHolds s.mem a.addr 2048 b) cells' cellBytes)
    (hp : List.Forall₂ (fun a b => ArrayHolds s.mem a.addr 48 b) proofs' proofBytes)
    (verdict : Outcome Error Bool)
    (hverdict : Verdict (ctx.verifyCellKzgProofBatch sha256 commitmentBytes inds cellBytes proofBytes) verdict) :
    Answers H A s [8 * commitments.length, 8 * cells.length, 8 * proofs.length, 1] verdict (fun e => .raised (csError e))
      (csVerifyCellKZGProofBatchArgs H A noGc sha256 ctxp (replaced commitments commitments') (some ids) (replaced cells cells')
        (replaced proofs proofs')) ∧
    Answers H A s (List.replicate 128 2048 ++ (List.replicate 128 48 ++ [8 * cells.length, 1024, 1024]))
      (ctx.recoverCellsAndKzgProofs inds cellBytes) (fun e => .raised (csError e))
      (csRecoverCellsAndKZGProofsArgs H A noGc ctxp (some ids) (replaced cells cells')) := by
  obtain ⟨r1, r2⟩ := C71_replaced H A noGc sha256 ctxp ids commitments cells proofs commitments' cells' proofs' h1 h2 h3 l1 l2 l3 n1 n2 n3
  have w : ∀ (n : Nat) (l : List CsArray), ∀ a ∈ l.map fun a => (⟨a.addr, n⟩ : CsArray), a.length = n := by
    intro n l a ha
    obtain ⟨b, -, rfl⟩ := List.mem_map.1 ha
    rfl
  rw [r1, r2]
  constructor
  · have := (C34_csharp_verify_cell_kzg_proof_batch H A s sha256 ctxp ctx h0 hctx ids inds hil hi _ _ _ commitmentBytes cellBytes proofBytes
      (List.forall₂_map_left_iff.2 hm) (List.forall₂_map_left_iff.2 hc) (List.forall₂_map_left_iff.2 hp) verdict hverdict).2.2.2
      (w 2048 cells') (w 48 proofs') (w 48 commitments')
    rw [List.length_map, List.length_map, List.length_map, ← l1, ← l2, ← l3] at this
    exact answers_raise this
  · have := (C34_csharp_recover_cells_and_kzg_proofs H A s ctxp ctx h0 hctx ids inds hil hi _ cellBytes
      (List.forall₂_map_left_iff.2 hc)).2 (w 2048 cells')
    rw [List.length_map, ← l2] at this
    exact answers_raise this

end

open Toy in
/-- A null item: the exception of C#, in any process. -/
example (H : Heap (DASContext Fr Fr Fr)) (A : Allocator (DASContext Fr Fr Fr)) (gc : Gc (DASContext Fr Fr Fr))
    (s : CState (DASContext Fr Fr Fr)) (ids a : CsArray) (ha : a.length = 2048) :
    csRecoverCellsAndKZGProofsArgs H A gc 16 (some ids) (some [(some a, some a), (none, none)]) s = .err .nullReference s := by
  refine CM.bind_err (checkItems_err (n := BYTES_PER_CELL) "cell" [(some a, some a)] [] (none, none) ?_ (by simp) s)
  intro q hq
  rw [List.mem_singleton] at hq
  subst hq
  exact ⟨a, rfl, ha⟩

open Toy in
/-- The hypotheses of `C71_null_later_recover` are met by a process with one cell of 2048 bytes, which another thread replaces by null: the
call is undefined, because the toy allocators have room. -/
example (ctx : DASContext Fr Fr Fr) (cell : List UInt8) (hlen : cell.length = 2048) :
    csRecoverCellsAndKZGProofsArgs (ToyHeap.heap _) (ToyHeap.allocator _) noGc 16 (some ⟨0, 0⟩) (some [(some ⟨4096, 2048⟩, none)])
      (ToyHeap.start ctx cell) = .fault := by
  rcases C71_null_later_recover (ToyHeap.heap _) (ToyHeap.allocator _) (ToyHeap.start ctx cell) 16 ctx (by decide)
    (by simp [ToyHeap.start]) ⟨0, 0⟩ [(some ⟨4096, 2048⟩, none)] (by simp) [] none [] rfl (by simp) [] .nil (by intro x hx; cases hx) (by simp)
    with ⟨ho, -⟩ | h
  · refine absurd ho (ToyHeap.not_outOfMemory (ToyHeap.start_top _ _) ?_)
    rw [hlen]
    decide +kernel
  · exact h

open Toy in
/-- The hypotheses of `C71_replaced_answers` are met by a process where another thread replaces a cell of 2048 bytes by an array of one byte:
the recovery is given the 2048 bytes that start with this byte. -/
example (ctx : DASContext Fr Fr Fr) (cell : List UInt8) (hlen : cell.length = 2048) (e : Error)
    (he : ctx.recoverCellsAndKzgProofs [] [cell] = .err e) (hm : e.debug.length ≤ 2 ^ 20) :
    ∃ s', csRecoverCellsAndKZGProofsArgs (ToyHeap.heap _) (ToyHeap.allocator _) noGc 16 (some ⟨0, 0⟩)
      (some [(some ⟨8192, 2048⟩, some ⟨4096, 1⟩)]) (ToyHeap.start ctx cell) = .err (.raised (csError e)) s' := by
  have hb : ArrayHolds (ToyHeap.start ctx cell).mem 4096 2048 cell :=
    ⟨hlen.symm, by decide, by rw [hlen]; norm_num, ToyHeap.start_holds _ _⟩
  have hv : ∃ v, Verdict (ctx.verifyCellKzgProofBatch (fun _ => []) [] [] [cell] []) v := by
    rcases ctx.verifyCellKzgProofBatch (fun _ => []) [] [] [cell] [] with _ | e | _
    · exact ⟨_, .valid⟩
    · by_cases h : ∃ e', e = .Verifier (.FK20 e')
      · obtain ⟨e', rfl⟩ := h
        exact ⟨_, .invalid e'⟩
      · exact ⟨_, .error e fun e' h' => h ⟨e', h'⟩⟩
    · exact ⟨_, .panic⟩
  obtain ⟨v, hv⟩ := hv
  rcases (C71_replaced_answers (ToyHeap.heap _) (ToyHeap.allocator _) (ToyHeap.start ctx cell) (fun _ => []) 16 ctx (by decide)
    (by simp [ToyHeap.start]) ⟨0, 0⟩ [] rfl ⟨fun h => absurd rfl h, fun i v hv => by simp at hv⟩ [] [⟨8192, 2048⟩] [] [] [⟨4096, 1⟩] []
    (by simp) (by simp) (by simp) rfl rfl rfl (by simp) (by simp) (by simp) [] [cell] [] .nil (.cons hb .nil) .nil v hv).2 with ⟨ho, -⟩ | h
  · refine absurd ho (ToyHeap.not_outOfMemory (ToyHeap.start_top _ _) ?_)
    rw [he, hlen, show Spec.messageSize (.err e : Outcome Error (List (List UInt8) × List (List UInt8))) = some (e.debug.length + 1) from rfl,
      Option.getD_some]
    refine le_trans (Nat.add_le_add_left (Nat.add_le_add_right hm 1) _) ?_
    decide +kernel
  · rw [he] at h
    obtain ⟨s', h1, -⟩ := h
    exact ⟨s', h1⟩

end Verif
