import Verif.Lemmas.ErrorMessages
import Verif.Props.CSharp
import Verif.Props.Go
import Verif.Props.Nim

set_option linter.unusedSectionVars false

/-! C77: the error messages of the C library are freed exactly once, except in Go, where they are never freed. -/
namespace Verif
open Spec (Owes Ends MessageProgram CsCall NimCall GoProgram messages ArrayHolds)

section
variable {K G1 G2 GT : Type} [Field K] [DecidableEq K] [AddCommGroup G1] [Module Fr G1] [DecidableEq G1]
  [Curve K G1] [PointCodec G1] [AddCommGroup G2] [Module Fr G2] [AddCommGroup GT] [DecidableEq GT]
  [Pairing G1 G2 GT]
variable (H : Heap (DASContext K G1 G2)) (A : Allocator (DASContext K G1 G2))

theorem owes_blobToKzgCommitment (ctx blob out : Nat) : Owes (ethKzgBlobToKzgCommitment A ctx blob out) := by
  refine Owing.owes (.bind (.assert _) (.assert _) fun _ => .bind (.derefCtx _) (.derefCtx _) fun _ =>
    .bind (.createArrayRef _ _) (.createArrayRef _ _) fun _ => .bind_quiet (.tryRust _ _) (fun _ => ?_) fun _ => ?_)
  · exact (Keeps.assert _).bind fun _ => .writeToSlice _ _
  · exact (Quiet.assert _).bind fun _ => .writeToSlice _ _

/-- C77: for all arguments, valid or not, and in every state, a function of the C API that returns gives the caller no message with the
status `Ok`, and exactly one new, readable message with the status `Err`. -/
theorem C77_capi (sha256 : List UInt8 → List UInt8) :
    (∀ ctx blob out, Owes (ethKzgBlobToKzgCommitment A ctx blob out)) ∧
    (∀ ctx blob outCells outProofs, Owes (ethKzgComputeCellsAndKzgProofs A ctx blob outCells outProofs)) ∧
    (∀ ctx cellsLength cells indicesLength indices outCells outProofs,
      Owes (ethKzgRecoverCellsAndProofs A ctx cellsLength cells indicesLength indices outCells outProofs)) ∧
    (∀ ctx commitmentsLength commitments indicesLength indices cellsLength cells proofsLength proofs verified,
      Owes (ethKzgVerifyCellKzgProofBatch A sha256 ctx commitmentsLength commitments indicesLength indices cellsLength cells
        proofsLength proofs verified)) := by
  refine ⟨?_, ?_, ?_, ?_⟩
  · exact owes_blobToKzgCommitment A
  · intro ctx blob oc op
    refine Owing.owes (.bind (.assert _) (.assert _) fun _ => .bind (.derefCtx _) (.derefCtx _) fun _ =>
      .bind (.createArrayRef _ _) (.createArrayRef _ _) fun _ => .bind_quiet (.tryRust _ _) (fun _ => ?_) fun _ => ?_)
    · exact (Keeps.writeTo2dSlice _ _).bind fun _ => .writeTo2dSlice _ _
    · exact (Quiet.writeTo2dSlice _ _).bind fun _ => .writeTo2dSlice _ _
  · intro ctx cl c il i oc op
    refine Owing.owes (.bind (.assert _) (.assert _) fun _ => .bind (.derefCtx _) (.derefCtx _) fun _ =>
      .bind (.ptrPtrToVecSliceConst _ _ _) (.ptrPtrToVecSliceConst _ _ _) fun _ =>
      .bind (.createSliceViewU64 _ _) (.createSliceViewU64 _ _) fun _ => .bind_quiet (.tryRust _ _) (fun _ => ?_) fun _ => ?_)
    · exact (Keeps.writeTo2dSlice _ _).bind fun _ => .writeTo2dSlice _ _
    · exact (Quiet.writeTo2dSlice _ _).bind fun _ => .writeTo2dSlice _ _
  · intro ctx ml m il i cl c pl p v
    refine Owing.owes (.bind (.assert _) (.assert _) fun _ => .bind (.derefCtx _) (.derefCtx _) fun _ =>
      .bind (.ptrPtrToVecSliceConst _ _ _) (.ptrPtrToVecSliceConst _ _ _) fun _ =>
      .bind (.createSliceViewU64 _ _) (.createSliceViewU64 _ _) fun _ =>
      .bind (.ptrPtrToVecSliceConst _ _ _) (.ptrPtrToVecSliceConst _ _ _) fun _ =>
      .bind (.ptrPtrToVecSliceConst _ _ _) (.ptrPtrToVecSliceConst _ _ _) fun _ =>
      .bind (.derefMut _) (.derefMut _) fun _ => .bind_quiet ?_ (fun _ => .writeByte _ _) fun _ => .writeByte _ _)
    unfold verificationResultToBoolCResult
    split
    · exact .of_quiet (.pure _) (.pure _)
    · split
      · exact .of_quiet (.pure _) (.pure _)
      · exact .fail A _
    · exact .of_quiet .panic .panic

/-- C77: a caller of the C API who frees the message of a failed call once has the messages from before the call, and the call of
`eth_kzg_free_error_message` is not undefined; a second one is. -/
theorem C77_free {Ctx : Type} (call : CM Ctx Empty CResult) (h : Owes call) (s s' : CState Ctx) (r : CResult)
    (hc : call s = .ok r s') :
    ∃ t, ethKzgFreeErrorMessage r.errorMsg s' = .ok () t ∧ t.strings = s.strings ∧
      (r.status = .Err → ethKzgFreeErrorMessage r.errorMsg t = .fault) := by
  rcases h s r s' hc with ⟨rfl, hs⟩ | ⟨h1, h2, h3, msg, h4, h5, h6⟩
  · exact ⟨s', rfl, hs, fun h => by cases h⟩
  · obtain ⟨t, ht, hts⟩ := free_owed h2 h3 h6
    refine ⟨t, ht, hts, fun _ => ?_⟩
    unfold ethKzgFreeErrorMessage
    rw [if_neg h2, hts, h3]

/-- C77: `ThrowOnError` (C#) and `verify_result` (Nim) settle what a function of the C API owes: they never run into undefined
behaviour after it, whatever its arguments were. -/
theorem C77_settled {Ctx : Type} (dollar : CResult → List UInt8) (call : CM Ctx Empty CResult) (h : Owes call) (s s' : CState Ctx)
    (r : CResult) (hc : call s = .ok r s') :
    (∃ t, Ends (throwOnErrorCs r) s' t ∧ t.strings = s.strings) ∧
    (∃ t, Ends (verifyResultNim dollar r) s' t ∧ t.strings = s.strings) := by
  constructor
  · rcases throwOnErrorCs_owed h hc with ⟨-, h1, h2⟩ | ⟨_, t, -, h1, h2⟩
    · exact ⟨s', .inl ⟨_, h1⟩, h2⟩
    · exact ⟨t, .inr ⟨_, h1⟩, h2⟩
  · rcases verifyResultNim_owed dollar h hc with ⟨-, h1, h2⟩ | ⟨_, t, -, h1, h2⟩
    · exact ⟨s', .inl ⟨_, h1⟩, h2⟩
    · exact ⟨t, .inr ⟨_, h1⟩, h2⟩

theorem CsCall.strings {s s' : CState (DASContext K G1 G2)} (h : CsCall (GT := GT) H A s s') : s'.strings = s.strings := by
  have deref : ∀ r : CsRef, Keeps (r.deref : CM (DASContext K G1 G2) CsFailure CsArray) := by
    rintro (_ | a)
    · exact .throw _
    · exact .pure _
  have jagged : ∀ {ε} n m, Keeps (initializeJaggedArray H n m : CM (DASContext K G1 G2) ε (List Nat)) :=
    fun n m => .mapM (fun _ => .newBytes _ _) _
  have items : ∀ n name (l : CsItems), Keeps (checkItems n name l : CM (DASContext K G1 G2) CsFailure (List CsRef)) := by
    rintro n name (_ | l)
    · exact .throw _
    · exact (Keeps.forM (fun (q : (CsRef × CsRef) × Nat) => (deref q.1.1).bind fun _ => .ite (.throw _) (.pure _)) _).bind fun _ => .pure _
  obtain ⟨c1, c2, c3, -⟩ := C77_capi (GT := GT) A id
  cases h with
  | commitment context blob h =>
    refine ((deref blob).bind fun b => Keeps.raise (.ite (.throw _) ?_) : Keeps (csBlobToKzgCommitmentArgs H A context blob)) _ _ h
    exact (Keeps.newBytes _ _).bind fun _ => .checkedCs (c1 _ _ _) fun _ => .readBytes _ _
  | compute gc hgc context blob h =>
    refine ((deref blob).bind fun b => Keeps.raise (.ite (.throw _) ?_) :
      Keeps (csComputeCellsAndKZGProofsArgs H A gc context blob)) _ _ h
    exact (jagged _ _).bind fun _ => (jagged _ _).bind fun _ => (Keeps.newPointers _ _).bind fun _ => (Keeps.newPointers _ _).bind fun _ =>
      (Keeps.collect gc hgc _).bind fun _ => .checkedCs (c2 _ _ _ _) fun _ => (Keeps.mapM (fun _ => .readBytes _ _) _).bind fun _ =>
      (Keeps.mapM (fun _ => .readBytes _ _) _).bind fun _ => .pure _
  | verify gc hgc sha256 context commitments cellIndices cells proofs h =>
    obtain ⟨-, -, -, c4⟩ := C77_capi (GT := GT) A sha256
    refine ((items _ _ _).bind fun _ => (items _ _ _).bind fun _ => (items _ _ _).bind fun _ => (Keeps.newPointers _ _).bind fun _ =>
      (Keeps.newPointers _ _).bind fun _ => (Keeps.newPointers _ _).bind fun _ => (Keeps.newBytes _ _).bind fun _ =>
      (deref _).bind fun _ => (Keeps.collect gc hgc _).bind fun _ => .checkedArgs (c4 _ _ _ _ _ _ _ _ _ _) fun _ =>
      (Keeps.readByte _).bind fun _ => .pure _ :
      Keeps (csVerifyCellKZGProofBatchArgs H A gc sha256 context commitments cellIndices cells proofs)) _ _ h
  | recover gc hgc context cellIds cells h =>
    refine ((items _ _ _).bind fun _ => (jagged _ _).bind fun _ => (jagged _ _).bind fun _ => (Keeps.newPointers _ _).bind fun _ =>
      (Keeps.newPointers _ _).bind fun _ => (Keeps.newPointers _ _).bind fun _ =>
      (deref _).bind fun _ => (Keeps.collect gc hgc _).bind fun _ => .checkedArgs (c3 _ _ _ _ _ _ _) fun _ =>
      (Keeps.mapM (fun _ => .readBytes _ _) _).bind fun _ => (Keeps.mapM (fun _ => .readBytes _ _) _).bind fun _ => .pure _ :
      Keeps (csRecoverCellsAndKZGProofsArgs H A gc context cellIds cells)) _ _ h

/-- C77: a C# program, whatever it passes to the methods of the class, ends with exactly the messages that it started with. -/
theorem C77_csharp {s s' : CState (DASContext K G1 G2)} (h : MessageProgram (CsCall (GT := GT) H A) s s') : s'.strings = s.strings := by
  induction h with
  | start => rfl
  | other _ e ih => rw [e, ih]
  | call _ hc ih => rw [CsCall.strings H A hc, ih]

theorem NimCall.strings {dollar : CResult → List UInt8} {s s' : CState (DASContext K G1 G2)}
    (h : NimCall (GT := GT) H A dollar s s') : s'.strings = s.strings := by
  have ptrs : ∀ n a, Keeps (toPtrPtr H n a : CM (DASContext K G1 G2) NimError Nat) := fun n a => .ite (.pure _) (.newPointers _ _)
  have both : ∀ r, Keeps (readCellsAndProofs r : CM (DASContext K G1 G2) NimError _) := fun r =>
    (Keeps.mapM (fun _ => .readBytes _ _) _).bind fun _ => (Keeps.mapM (fun _ => .readBytes _ _) _).bind fun _ => .pure _
  obtain ⟨c1, c2, c3, -⟩ := C77_capi (GT := GT) A id
  cases h with
  | commitment ctx blob h =>
    refine ((Keeps.newBytes _ _).bind fun _ => .checkedNim dollar (c1 _ _ _) fun _ => .readBytes _ _ :
      Keeps (nimBlobToKZGCommitment H A dollar ctx blob)) _ _ h
  | compute ctx blob h =>
    refine ((Keeps.newBytes _ _).bind fun _ => (ptrs _ _).bind fun _ => (ptrs _ _).bind fun _ =>
      .checkedNim dollar (c2 _ _ _ _) fun _ => both _ : Keeps (nimComputeCellsAndProofs H A dollar ctx blob)) _ _ h
  | verify sha256 ctx commitments cellIndices cells proofs h =>
    obtain ⟨-, -, -, c4⟩ := C77_capi (GT := GT) A sha256
    refine ((Keeps.newBytes _ _).bind fun _ => (ptrs _ _).bind fun _ => (ptrs _ _).bind fun _ => (ptrs _ _).bind fun _ =>
      .checkedNim dollar (c4 _ _ _ _ _ _ _ _ _ _) fun _ => (Keeps.readByte _).bind fun _ => .pure _ :
      Keeps (nimVerifyCellKZGProofBatch H A dollar sha256 ctx commitments cellIndices cells proofs)) _ _ h
  | recover ctx cellIds cells h =>
    refine ((Keeps.newBytes _ _).bind fun _ => (ptrs _ _).bind fun _ => (ptrs _ _).bind fun _ => (ptrs _ _).bind fun _ =>
      .checkedNim dollar (c3 _ _ _ _ _ _ _) fun _ => both _ : Keeps (nimRecoverCellsAndProofs H A dollar ctx cellIds cells)) _ _ h

/-- C77: a Nim program, whatever it passes to the procedures of the module, ends with exactly the messages that it started with. -/
theorem C77_nim {dollar : CResult → List UInt8} {s s' : CState (DASContext K G1 G2)}
    (h : MessageProgram (NimCall (GT := GT) H A dollar) s s') : s'.strings = s.strings := by
  induction h with
  | start => rfl
  | other _ e ih => rw [e, ih]
  | call _ hc ih => rw [NimCall.strings H A hc, ih]

/-- what one Go call does to the messages -/
theorem goCall_strings (inner addr len : Nat) (s s' : CState (DASContext K G1 G2))
    (h : Ends (goBlobToKZGCommitment H A inner addr len) s s') :
    s'.strings = s.strings ∨ ∃ p n, s.strings p = none ∧ s'.strings = fun a => if a = p then some n else s.strings a := by
  unfold goBlobToKZGCommitment at h
  split_ifs at h with hl
  · rcases h with ⟨b, h⟩ | ⟨e, h⟩ <;> cases h
    exact .inl rfl
  · unfold Ends at h
    simp only [CM.bind_apply] at h
    rcases h1 : (newBytes H 48 : CM (DASContext K G1 G2) Empty Nat) s with ⟨out, t⟩ | ⟨e, t⟩ | _ | _ <;> simp only [h1] at h
    · have e1 := Keeps.newBytes (ε := Empty) H 48 s t (.inl ⟨out, h1⟩)
      rcases h2 : ethKzgBlobToKzgCommitment A inner addr out t with ⟨r, u⟩ | ⟨e, u⟩ | _ | _ <;> simp only [h2] at h
      · have e2 : s'.strings = u.strings := by
          rcases h3 : (readBytes out 48 : CM (DASContext K G1 G2) Empty (List UInt8)) u with ⟨r, v⟩ | ⟨e, v⟩ | _ | _ <;>
            simp only [h3] at h <;> rcases h with ⟨b, h⟩ | ⟨e, h⟩ <;> cases h
          · exact Keeps.readBytes (ε := Empty) out 48 u _ (.inl ⟨r, h3⟩)
          · rename_i e _
            exact nomatch e
        rcases owes_blobToKzgCommitment A inner addr out t r u h2 with ⟨-, h4⟩ | ⟨-, -, h4, msg, -, -, h5⟩
        · left
          rw [e2, h4, e1]
        · right
          refine ⟨r.errorMsg, msg.length + 1, by rw [← e1]; exact h4, ?_⟩
          rw [e2, h5, e1]
      · exact nomatch e
      all_goals rcases h with ⟨b, h⟩ | ⟨e, h⟩ <;> cases h
    · exact nomatch e
    all_goals rcases h with ⟨b, h⟩ | ⟨e, h⟩ <;> cases h

/-- C77, Go: the messages are never freed. After any program the number of messages has grown by the number of its calls in which the
library rejects a blob of the right length. -/
theorem C77_go [LawfulPointCodec G1 48] {n : Nat} {s s' : CState (DASContext K G1 G2)} (h : GoProgram H A n s s') :
    messages s ⊆ messages s' ∧ (messages s').encard = (messages s).encard + n := by
  induction h with
  | start => exact ⟨subset_rfl, by simp⟩
  | other _ e ih =>
    unfold messages at *
    rw [e]
    exact ih
  | @accepted n s t u inner ctx addr len blob _ h0 hctx hb hacc hE ih =>
    have e : u.strings = t.strings := by
      by_cases hl : len = 131072
      · obtain ⟨c, hc⟩ := hacc hl
        rcases (C35_go_partial H A t inner ctx h0 hctx addr len blob hb).2 hl c hc with ⟨-, h⟩ | ⟨t', h, hx⟩
        · rcases hE with ⟨b, hE⟩ | ⟨b, hE⟩ <;> rw [h] at hE <;> cases hE
        · rcases hE with ⟨b, hE⟩ | ⟨b, hE⟩ <;> rw [h] at hE <;> cases hE
          exact hx.strings
      · have h := (C35_go_partial H A t inner ctx h0 hctx addr len blob hb).1 hl
        rcases hE with ⟨b, hE⟩ | ⟨b, hE⟩ <;> rw [h] at hE <;> cases hE
        rfl
    unfold messages at *
    rw [e]
    exact ih
  | @rejected n s t u inner ctx addr blob _ h0 hctx hb hrej hE ih =>
    obtain ⟨e, he⟩ := hrej
    rcases C35_go_hides_errors H A t inner ctx h0 hctx addr blob hb e he with ⟨-, h⟩ | ⟨t', p, h, hp, hp'⟩
    · rcases hE with ⟨b, hE⟩ | ⟨b, hE⟩ <;> rw [h] at hE <;> cases hE
    · have hu : u = t' := by
        rcases hE with ⟨b, hE⟩ | ⟨b, hE⟩ <;> rw [h] at hE <;> cases hE
        rfl
      subst hu
      rcases goCall_strings H A inner addr 131072 t u hE with hs | ⟨q, m, hq, hs⟩
      · rw [hs, hp] at hp'
        cases hp'
      · have hm : messages u = insert q (messages t) := by
          ext a
          simp only [messages, Set.mem_ofPred_eq, Set.mem_insert_iff, hs]
          by_cases ha : a = q
          · simp [ha]
          · simp [ha]
        rw [hm, Set.encard_insert_of_notMem (by simp [messages, hq]), ih.2, add_assoc]
        exact ⟨ih.1.trans (Set.subset_insert _ _), by push_cast; rfl⟩

end

/-! ### the hypotheses can be met -/

/-- A Go program that leaves a message behind: one call with a field element that is not reduced. -/
theorem C77_go_leaks {K G1 G2 GT : Type} [Field K] [DecidableEq K] [AddCommGroup G1] [Module Fr G1] [DecidableEq G1]
    [Curve K G1] [PointCodec G1] [AddCommGroup G2] [Module Fr G2] [AddCommGroup GT] [DecidableEq GT]
    [Pairing G1 G2 GT] [LawfulPointCodec G1 48] (ctx : DASContext K G1 G2) :
    ∃ (H : Heap (DASContext K G1 G2)) (A : Allocator (DASContext K G1 G2)) (s s' : CState (DASContext K G1 G2)),
      GoProgram H A 1 s s' ∧ messages s = ∅ ∧ (messages s').encard = 1 := by
  have h3 := badBlob_rejected ctx
  have hb : ArrayHolds (ToyHeap.start ctx badBlob).mem 4096 131072 badBlob :=
    ⟨length_badBlob.symm, by decide, by rw [length_badBlob]; norm_num, ToyHeap.start_holds ctx badBlob⟩
  rcases C35_go_hides_errors (ToyHeap.heap _) (ToyHeap.allocator _) (ToyHeap.start ctx badBlob) 16 ctx (by decide)
    (by simp [ToyHeap.start]) 4096 badBlob hb _ h3 with ⟨ho, -⟩ | ⟨s', p, h, -, -⟩
  · refine absurd ho (ToyHeap.not_outOfMemory (ToyHeap.start_top _ _) ?_)
    rw [length_badBlob]
    have : (Error.Serialization (.CouldNotDeserializeScalar orderBytes)).debug.length ≤ 1000 := by decide +kernel
    simp only [List.map_cons, List.map_nil, List.sum_cons, List.sum_nil, Option.getD_some]
    omega
  · have hg : GoProgram (ToyHeap.heap _) (ToyHeap.allocator _) 1 (ToyHeap.start ctx badBlob) s' :=
      .rejected 16 ctx 4096 badBlob (.start _) (by decide) (by simp [ToyHeap.start]) hb ⟨_, h3⟩ (.inl ⟨_, h⟩)
    have hm : messages (ToyHeap.start ctx badBlob) = ∅ := by
      ext a
      simp [messages, ToyHeap.start]
    refine ⟨_, _, _, s', hg, hm, ?_⟩
    rw [(C77_go _ _ hg).2, hm]
    simp

set_option linter.constructorNameAsVariable false in
open Toy in
/-- The same blob in C# and in Nim: the calls end with an error, and the message is freed. -/
example (dollar : CResult → List UInt8) (ctx : DASContext Fr Fr Fr) :
    (∃ e s', csBlobToKzgCommitmentArgs (ToyHeap.heap _) (ToyHeap.allocator _) 16 (some ⟨4096, 131072⟩) (ToyHeap.start ctx badBlob) =
      .err e s' ∧ messages s' = ∅) ∧
    (∃ e s', nimBlobToKZGCommitment (ToyHeap.heap _) (ToyHeap.allocator _) dollar 16 4096 (ToyHeap.start ctx badBlob) = .err e s' ∧
      messages s' = ∅) := by
  have h3 := badBlob_rejected ctx
  have hb : ArrayHolds (ToyHeap.start ctx badBlob).mem 4096 131072 badBlob :=
    ⟨length_badBlob.symm, by decide, by rw [length_badBlob]; norm_num, ToyHeap.start_holds ctx badBlob⟩
  have hm : messages (ToyHeap.start ctx badBlob) = ∅ := by
    ext a
    simp [messages, ToyHeap.start]
  have hroom : ¬ Spec.OutOfMemory (ToyHeap.heap _) (ToyHeap.allocator _) (ToyHeap.start ctx badBlob) [48]
      (Spec.messageSize (ctx.blobToKzgCommitment badBlob)) := by
    refine ToyHeap.not_outOfMemory (ToyHeap.start_top _ _) ?_
    rw [length_badBlob, h3]
    have : (Error.Serialization (.CouldNotDeserializeScalar orderBytes)).debug.length ≤ 1000 := by decide +kernel
    simp only [List.map_cons, List.map_nil, List.sum_cons, List.sum_nil, Spec.messageSize, Option.getD_some]
    omega
  constructor
  · rcases (C34_csharp_blob_to_kzg_commitment (ToyHeap.heap _) (ToyHeap.allocator _) (ToyHeap.start ctx badBlob) 16 ctx (by decide)
      (by simp [ToyHeap.start]) ⟨4096, 131072⟩ badBlob hb).2 rfl with ⟨ho, -⟩ | h
    · exact absurd ho hroom
    · rw [h3] at h
      obtain ⟨s', h, -⟩ := h
      have hE : csBlobToKzgCommitmentArgs (ToyHeap.heap _) (ToyHeap.allocator _) 16 (some ⟨4096, 131072⟩) (ToyHeap.start ctx badBlob) =
          .err (.raised (csError (.Serialization (.CouldNotDeserializeScalar orderBytes)))) s' := by
        show raise (csBlobToKzgCommitment _ _ 16 ⟨4096, 131072⟩) _ = _
        unfold raise
        rw [h]
      refine ⟨_, s', hE, ?_⟩
      have := C77_csharp (GT := Fr) (ToyHeap.heap _) (ToyHeap.allocator _) (.call (.start _) (.commitment 16 _ (.inr ⟨_, hE⟩)))
      rw [← hm]
      unfold messages
      rw [this]
  · rcases C42_nim_blob_to_kzg_commitment (ToyHeap.heap _) (ToyHeap.allocator _) dollar (ToyHeap.start ctx badBlob) 16 ctx (by decide)
      (by simp [ToyHeap.start]) 4096 badBlob length_badBlob (by decide) hb.holds with ⟨ho, -⟩ | h
    · exact absurd ho hroom
    · rw [h3] at h
      obtain ⟨p, s', -, h, -⟩ := h
      refine ⟨_, s', h, ?_⟩
      have := C77_nim (GT := Fr) (ToyHeap.heap _) (ToyHeap.allocator _) (.call (.start _) (.commitment 16 4096 (.inr ⟨_, h⟩)))
      rw [← hm]
      unfold messages
      rw [this]

end Verif
