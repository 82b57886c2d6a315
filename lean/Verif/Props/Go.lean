import Verif.Props.Codec
import Verif.Props.ToyHeap

set_option linter.unusedSectionVars false

/-! C35: the Go wrapper drops the status of the C call. -/
namespace Verif
open Spec (Holds Extends OutOfMemory ArrayHolds)

section
variable {K G1 G2 GT : Type} [Field K] [DecidableEq K] [AddCommGroup G1] [Module Fr G1] [DecidableEq G1]
  [Curve K G1] [PointCodec G1] [AddCommGroup G2] [Module Fr G2] [AddCommGroup GT] [DecidableEq GT]
  [Pairing G1 G2 GT] [LawfulPointCodec G1 48]
variable (H : Heap (DASContext K G1 G2)) (A : Allocator (DASContext K G1 G2)) (s : CState (DASContext K G1 G2))

/-- C35 for the inputs where it holds: a blob of the wrong size gives an error, and a blob that the library accepts gives its commitment.
Missing from the property are the blobs of the right size that the library rejects, see `C35_go_hides_errors`. -/
theorem C35_go_partial (inner : Nat) (ctx : DASContext K G1 G2) (h0 : inner ≠ 0) (hctx : s.ctxs inner = some ctx) (addr len : Nat)
    (blob : List UInt8) (hb : ArrayHolds s.mem addr len blob) :
    (len ≠ 131072 → goBlobToKZGCommitment H A inner addr len s = .ok (none, some (ascii "invalid blob size")) s) ∧
    (len = 131072 → ∀ c, ctx.blobToKzgCommitment blob = .ok c →
      (OutOfMemory H A s [48] none ∧ goBlobToKZGCommitment H A inner addr len s = .panic) ∨
      ∃ s', goBlobToKZGCommitment H A inner addr len s = .ok (some c, none) s' ∧ Extends s s') := by
  have hl := hb.length
  unfold goBlobToKZGCommitment
  constructor
  · intro h
    rw [if_pos (show len ≠ BYTES_PER_BLOB from h)]
    rfl
  · intro h c hc
    rw [if_neg (show ¬ len ≠ BYTES_PER_BLOB from fun hn => hn h)]
    refine newArray_bind (P := fun r => ∃ s', r = .ok (some c, none) s' ∧ Extends s s') H A (List.replicate 48 0)
      List.length_replicate ?_
    intro out s₁ h1 _ _
    have hm := mapped_of_holds h1.holds
    rw [List.length_replicate] at hm
    obtain ⟨t1, -, -⟩ := C32_blob_to_kzg_commitment A s₁ inner addr out ctx h0 (by rw [h1.ext.ctxs, hctx]) blob (by omega)
      hb.ne (holds_mono h1.ext hb.holds) h1.ne hm
    obtain ⟨⟨s', hs', hw, hcs, hst⟩, hcl⟩ := t1 c hc
    right
    refine ⟨s', ?_, extends_of_wrote h1.ext hw hcs hst ?_⟩
    · rw [CM.bind_ok hs', CM.bind_ok (readBytes_ok' hcl (hw.1 (out, c) (List.mem_singleton.2 rfl)))]
      rfl
    · intro r hrm
      rw [List.mem_singleton] at hrm
      subst hrm
      have := h1.unmapped
      rwa [List.length_replicate, ← hcl] at this

/-- C35 fails for every blob of the right size that the library rejects: the caller gets 48 zero bytes and a nil error, and the message of
the C library stays allocated. -/
theorem C35_go_hides_errors (inner : Nat) (ctx : DASContext K G1 G2) (h0 : inner ≠ 0) (hctx : s.ctxs inner = some ctx) (addr : Nat)
    (blob : List UInt8) (hb : ArrayHolds s.mem addr 131072 blob) (e : Error) (he : ctx.blobToKzgCommitment blob = .err e) :
    (OutOfMemory H A s [48] (some (e.debug.length + 1)) ∧ goBlobToKZGCommitment H A inner addr 131072 s = .panic) ∨
    ∃ s' p, goBlobToKZGCommitment H A inner addr 131072 s = .ok (some (List.replicate 48 0), none) s' ∧
      s.strings p = none ∧ s'.strings p = some (e.debug.length + 1) := by
  have hl := hb.length
  unfold goBlobToKZGCommitment
  rw [if_neg (show ¬ 131072 ≠ BYTES_PER_BLOB from fun hn => hn rfl)]
  refine newArray_bind (P := fun r => ∃ s' p, r = .ok (some (List.replicate 48 0), none) s' ∧ s.strings p = none ∧
    s'.strings p = some (e.debug.length + 1)) H A (List.replicate 48 0) List.length_replicate ?_
  intro out s₁ h1 _ _
  have hm := mapped_of_holds h1.holds
  rw [List.length_replicate] at hm
  obtain ⟨-, t2, -⟩ := C32_blob_to_kzg_commitment A s₁ inner addr out ctx h0 (by rw [h1.ext.ctxs, hctx]) blob hl.symm
    hb.ne (holds_mono h1.ext hb.holds) h1.ne hm
  rcases t2 e he with ⟨hA, hp⟩ | ⟨p, s', hs', -, hp, -, -, hst, hmem, -, -, hfree⟩
  · exact .inl ⟨.message hA, CM.bind_panic hp⟩
  · right
    refine ⟨s', p, ?_, ?_, hst⟩
    · rw [CM.bind_ok hs', CM.bind_ok (readBytes_ok' (n := 48) List.length_replicate ?_)]
      · rfl
      · intro i b hib
        have := h1.holds i b hib
        rw [hmem _ (by simp [this]), this]
    · rw [← h1.ext.strings]
      unfold ethKzgFreeErrorMessage at hfree
      rw [if_neg hp, hst] at hfree
      injection hfree with _ h3
      rw [← h3]
      exact if_pos rfl

end

/-- C35 is false: there are a process and a blob with a field element that is not reduced such that the wrapper returns 48 zero bytes
and a nil error, for every context. -/
theorem C35_go_refuted {K G1 G2 GT : Type} [Field K] [DecidableEq K] [AddCommGroup G1] [Module Fr G1] [DecidableEq G1]
    [Curve K G1] [PointCodec G1] [AddCommGroup G2] [Module Fr G2] [AddCommGroup GT] [DecidableEq GT]
    [Pairing G1 G2 GT] [LawfulPointCodec G1 48] (ctx : DASContext K G1 G2) :
    ∃ (H : Heap (DASContext K G1 G2)) (A : Allocator (DASContext K G1 G2)) (s : CState (DASContext K G1 G2)) (inner addr : Nat)
      (blob : List UInt8), s.ctxs inner = some ctx ∧ ArrayHolds s.mem addr 131072 blob ∧
      (∃ k < 4096, frOrder ≤ Spec.beValue (Spec.block 32 k blob)) ∧ (∃ e, ctx.blobToKzgCommitment blob = .err e) ∧
      ∃ s', goBlobToKZGCommitment H A inner addr 131072 s = .ok (some (List.replicate 48 0), none) s' := by
  have hk : frOrder ≤ Spec.beValue (Spec.block 32 1 badBlob) := by
    have hb1 : Spec.block 32 1 badBlob = orderBytes := (block_pair List.length_replicate (length_natToBE _ _)).2
    rw [hb1, beValue_orderBytes]
  have h3 := badBlob_rejected ctx
  have hb : ArrayHolds (ToyHeap.start ctx badBlob).mem 4096 131072 badBlob :=
    ⟨length_badBlob.symm, by decide, by rw [length_badBlob]; norm_num, ToyHeap.start_holds ctx badBlob⟩
  refine ⟨ToyHeap.heap _, ToyHeap.allocator _, ToyHeap.start ctx badBlob, 16, 4096, badBlob, by simp [ToyHeap.start], hb,
    ⟨1, by norm_num, hk⟩, ⟨_, h3⟩, ?_⟩
  rcases C35_go_hides_errors (ToyHeap.heap _) (ToyHeap.allocator _) (ToyHeap.start ctx badBlob) 16 ctx (by decide)
    (by simp [ToyHeap.start]) 4096 badBlob hb _ h3 with ⟨ho, -⟩ | ⟨s', p, h, -, -⟩
  · refine absurd ho (ToyHeap.not_outOfMemory (ToyHeap.start_top _ _) ?_)
    rw [length_badBlob]
    have : (Error.Serialization (.CouldNotDeserializeScalar orderBytes)).debug.length ≤ 1000 := by decide +kernel
    simp only [List.map_cons, List.map_nil, List.sum_cons, List.sum_nil, Option.getD_some]
    omega
  · exact ⟨s', h⟩

end Verif
