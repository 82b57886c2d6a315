import Verif.Model.BindingTests
import Verif.Props.Lifecycle
import Verif.Props.Precomp
import Verif.Props.Toy

set_option linter.unusedSectionVars false

/-! C92: the tests of the bindings that are not about test vectors. -/
namespace Verif
open Spec (ArrayHolds OutOfMemory JavaBytes)

section
variable {Ctx ε α : Type} {x : CM Ctx ε α} {y : CM Ctx ε Unit} {s s₁ s₂ : CState Ctx}

theorem tryFinally_ok {a : α} (hx : x s = .ok a s₁) (hy : y s₁ = .ok () s₂) : tryFinally x y s = .ok a s₂ := by
  simp only [tryFinally, hx, hy]

theorem tryFinally_err {e : ε} (hx : x s = .err e s₁) (hy : y s₁ = .ok () s₂) : tryFinally x y s = .err e s₂ := by
  simp only [tryFinally, hx, hy]

theorem tryFinally_panic (hx : x s = .panic) : tryFinally x y s = .panic := by
  simp only [tryFinally, hx]
end

section
variable {K G1 G2 GT : Type} [Field K] [DecidableEq K] [AddCommGroup G1] [Module Fr G1] [DecidableEq G1]
  [Curve K G1] [PointCodec G1] [AddCommGroup G2] [Module Fr G2] [AddCommGroup GT] [DecidableEq GT]
  [Pairing G1 G2 GT] [LawfulPointCodec G1 48]
variable (H : Heap (DASContext K G1 G2)) (A : Allocator (DASContext K G1 G2)) (s : CState (DASContext K G1 G2)) (setup : SetupPoints G1 G2)

/-- the native function does not panic -/
theorem commitmentJ_ne_panic (h1 : setup.g1Monomial.length = 4096) {up : UsePrecomp} {ctx : DASContext K G1 G2}
    (hctx : (DASContext.new setup up : Outcome Empty (DASContext K G1 G2)) = .ok ctx) (blob : JByteArray) :
    blobToKzgCommitmentJ blob ctx ≠ .panic := by
  cases blob with
  | none => exact fun h => by cases h
  | some l =>
    unfold blobToKzgCommitmentJ sliceToArrayRefJ
    simp only [convertByteArray, Outcome.ok_bind]
    split
    · rename_i hl
      obtain ⟨M, hM, -, -, -⟩ := context_fields setup up h1 ctx hctx
      by_cases hex : ∃ f, Spec.IsBlobPoly (l.map Int8.toUInt8) f
      · obtain ⟨f, hf⟩ := hex
        rw [Outcome.ok_bind, commitment_of_blob h1 hM hf]
        exact fun h => by cases h
      · obtain ⟨i, -, -, -, ha, -⟩ := bad_blob (ctx := ctx) hl hex
        rw [Outcome.ok_bind, ha]
        exact fun h => by cases h
    · exact fun h => by cases h

/-- C92 (Java): with a setup of 4096 points, if the two contexts can be created, then whatever blob the test uses, the two instances agree,
and both contexts are gone afterwards. If the blob has 131072 bytes and canonical elements, the test passes; otherwise it ends with the
exception of the first call. -/
theorem C92_java (jniDebug : List UInt8) (h1 : setup.g1Monomial.length = 4096) {ctx : DASContext K G1 G2}
    (hctx : (DASContext.new setup (.yes 8) : Outcome Empty (DASContext K G1 G2)) = .ok ctx) {p q : Nat} (hp : A.placeCtx s = some p)
    (hq : A.placeCtx { s with ctxs := fun a => if a = p then some ctx else s.ctxs a } = some q) (blob : JByteArray) :
    (testMultipleInstanceCreation jniDebug A setup blob s = .ok true s ∧
      ∃ l b, blob = some l ∧ JavaBytes l b ∧ b.length = 131072 ∧ Spec.Canonical 4096 b) ∨
    ((∃ e, testMultipleInstanceCreation jniDebug A setup blob s = .err e s) ∧
      ¬ ∃ l b, blob = some l ∧ JavaBytes l b ∧ b.length = 131072 ∧ Spec.Canonical 4096 b) := by
  obtain ⟨p0, -, hpn⟩ := A.freshCtx _ _ hp
  obtain ⟨q0, -, hqn⟩ := A.freshCtx _ _ hq
  have hpq : q ≠ p := fun h => by simp [h] at hqn
  have hsq : s.ctxs q = none := by simpa [hpq] using hqn
  obtain ⟨s₁, e₁⟩ : ∃ t : CState (DASContext K G1 G2), t = { s with ctxs := fun a => if a = p then some ctx else s.ctxs a } := ⟨_, rfl⟩
  obtain ⟨s₂, e₂⟩ : ∃ t : CState (DASContext K G1 G2), t = { s₁ with ctxs := fun a => if a = q then some ctx else s₁.ctxs a } := ⟨_, rfl⟩
  rw [← e₁] at hq
  have new1 : (callC (LibEthKZG.new A setup true) : CM _ JException _) s = .ok ⟨p⟩ s₁ := by
    refine callC_ok ((CM.bind_ok (a := p) (s' := s₁) ?_).trans rfl)
    unfold ethKzgDasContextNew
    rw [if_pos rfl, show RECOMMENDED_PRECOMP_WIDTH = 8 from rfl, hctx]
    simp only [hp, e₁]
  have new2 : (callC (LibEthKZG.new A setup true) : CM _ JException _) s₁ = .ok ⟨q⟩ s₂ := by
    refine callC_ok ((CM.bind_ok (a := q) (s' := s₂) ?_).trans rfl)
    unfold ethKzgDasContextNew
    rw [if_pos rfl, show RECOMMENDED_PRECOMP_WIDTH = 8 from rfl, hctx]
    simp only [hq, e₂]
  have fin : (do
      let _ ← callC (LibEthKZG.destroy ⟨p⟩)
      let _ ← callC (LibEthKZG.destroy ⟨q⟩)
      pure () : CM (DASContext K G1 G2) JException Unit) s₂ = .ok () s := by
    have d1 : (LibEthKZG.destroy ⟨p⟩ : CM (DASContext K G1 G2) Empty _) s₂ =
        .ok ⟨0⟩ { s₂ with ctxs := fun a => if a = p then none else s₂.ctxs a } := by
      unfold LibEthKZG.destroy
      rw [if_pos p0]
      refine (CM.bind_ok (a := ()) (s' := { s₂ with ctxs := fun a => if a = p then none else s₂.ctxs a }) ?_).trans rfl
      simp [ethKzgDasContextFree, p0, e₂, e₁, Ne.symm hpq]
    have d2 : (LibEthKZG.destroy ⟨q⟩ : CM (DASContext K G1 G2) Empty _) { s₂ with ctxs := fun a => if a = p then none else s₂.ctxs a } =
        .ok ⟨0⟩ s := by
      unfold LibEthKZG.destroy
      rw [if_pos q0]
      refine (CM.bind_ok (a := ()) (s' := s) ?_).trans rfl
      have hs : (fun a => if a = q then none else if a = p then none else if a = q then some ctx else if a = p then some ctx else s.ctxs a) =
          s.ctxs := by
        funext a
        by_cases ha : a = q
        · simp [ha, hsq]
        · by_cases hb : a = p
          · simp [hb, hpn]
          · simp [ha, hb]
      simp [ethKzgDasContextFree, q0, e₂, e₁, hpq, hs]
    exact (CM.bind_ok (callC_ok d1)).trans ((CM.bind_ok (callC_ok d2)).trans rfl)
  have c1 : s₂.ctxs p = some ctx := by simp [e₂, e₁, Ne.symm hpq]
  have c2 : s₂.ctxs q = some ctx := by simp [e₂]
  have run : testMultipleInstanceCreation jniDebug A setup blob s = match blobToKzgCommitmentJ blob ctx with
      | .ok _ => .ok true s
      | .err e => .err (throwOnErrorJ jniDebug e "blobToKZGCommitment") s
      | .panic => .panic := by
    have hj1 := nativeJ_eq (jniDebug := jniDebug) (self := ⟨p⟩) p0 c1 "blobToKZGCommitment" (blobToKzgCommitmentJ blob)
    have hj2 := nativeJ_eq (jniDebug := jniDebug) (self := ⟨q⟩) q0 c2 "blobToKZGCommitment" (blobToKzgCommitmentJ blob)
    change LibEthKZG.blobToKZGCommitment jniDebug ⟨p⟩ blob s₂ = _ at hj1
    change LibEthKZG.blobToKZGCommitment jniDebug ⟨q⟩ blob s₂ = _ at hj2
    refine (CM.bind_ok new1).trans ((CM.bind_ok new2).trans ?_)
    cases hr : blobToKzgCommitmentJ blob ctx with
    | ok r =>
      rw [hr] at hj1 hj2
      refine tryFinally_ok (s₁ := s₂) ?_ fin
      rw [CM.bind_ok hj1, CM.bind_ok hj2, decide_eq_true rfl]
      rfl
    | err e =>
      rw [hr] at hj1
      exact tryFinally_err (CM.bind_err hj1) fin
    | panic =>
      rw [hr] at hj1
      exact tryFinally_panic (CM.bind_panic hj1)
  rw [run]
  have good : (∃ r, blobToKzgCommitmentJ blob ctx = .ok r) ↔
      ∃ l b, blob = some l ∧ JavaBytes l b ∧ b.length = 131072 ∧ Spec.Canonical 4096 b := by
    obtain ⟨M, hM, -, -, -⟩ := context_fields setup (.yes 8) h1 ctx hctx
    constructor
    · rintro ⟨r, hr⟩
      cases blob with
      | none => cases hr
      | some l =>
        refine ⟨l, l.map Int8.toUInt8, rfl, (javaBytes_iff _ _).2 rfl, ?_⟩
        unfold blobToKzgCommitmentJ sliceToArrayRefJ at hr
        simp only [convertByteArray, Outcome.ok_bind] at hr
        split at hr
        · rename_i hl
          refine ⟨hl, ?_⟩
          rw [← blobPoly_iff hl]
          by_contra hn
          obtain ⟨i, -, -, -, he, -⟩ := bad_blob (ctx := ctx) hl hn
          rw [Outcome.ok_bind, he] at hr
          cases hr
        · cases hr
    · rintro ⟨l, b, rfl, hb, hl, hc⟩
      rw [javaBytes_iff] at hb
      obtain ⟨f, hf⟩ := (blobPoly_iff hl).2 hc
      refine ⟨byteArrayFromSlice (toCompressed (Spec.commitment setup.g1Monomial f)), ?_⟩
      unfold blobToKzgCommitmentJ sliceToArrayRefJ
      simp only [convertByteArray, Outcome.ok_bind, hb]
      rw [if_pos (show b.length = BYTES_PER_BLOB from hl), Outcome.ok_bind, commitment_of_blob h1 hM hf]
      rfl
  cases hr : blobToKzgCommitmentJ blob ctx with
  | ok r => exact .inl ⟨rfl, good.1 ⟨r, hr⟩⟩
  | err e =>
    refine .inr ⟨⟨_, rfl⟩, fun h => ?_⟩
    obtain ⟨r, hr'⟩ := good.2 h
    rw [hr] at hr'; cases hr'
  | panic => exact absurd hr (commitmentJ_ne_panic setup h1 hctx blob)

/-- the blob of the Go test -/
def goTestBlob : List UInt8 := 0 :: 1 :: List.replicate 131070 0

theorem goTestBlob_canonical : Spec.Canonical 4096 goTestBlob := by
  intro i hi
  have e : goTestBlob = (0 :: 1 :: List.replicate 30 0) ++ List.replicate 131040 0 := by
    unfold goTestBlob
    rw [show (131070 : Nat) = 30 + 131040 from rfl, List.replicate_add]
    rfl
  rw [e, ← beToNat_eq]
  unfold Spec.block
  rcases Nat.eq_zero_or_pos i with rfl | h
  · rw [Nat.mul_zero, List.drop_zero, List.take_append_of_le_length (by simp), List.take_of_length_le (by simp)]
    decide +kernel
  · rw [List.drop_append, List.drop_of_length_le (by simp; omega), List.nil_append, List.drop_replicate, List.take_replicate,
      show min 32 _ = 32 by simp; omega]
    decide +kernel

/-- C92 (Go): in the state after the test has made its blob and its context, with a setup of 4096 points: if the 48 bytes of the result can
be placed, the test passes provided that no garbage is collected before the C function starts; otherwise the C function uses a freed
context. -/
theorem C92_go (h1 : setup.g1Monomial.length = 4096) {ctx : DASContext K G1 G2}
    (hctx : (DASContext.new setup (.yes 8) : Outcome Empty (DASContext K G1 G2)) = .ok ctx) {blob inner out : Nat}
    (hb : H.place s 131072 = some blob) (hi : A.placeCtx { s with mem := overwrite s.mem blob goTestBlob } = some inner)
    (ho : H.place { s with mem := overwrite s.mem blob goTestBlob, ctxs := fun a => if a = inner then some ctx else s.ctxs a } 48 =
      some out) :
    (∃ s', testBridgeNewProverCtx H A setup false s = .ok () s') ∧ testBridgeNewProverCtx H A setup true s = .fault := by
  obtain ⟨b0, -, bb, -⟩ := H.fresh _ _ _ hb
  obtain ⟨i0, -, -⟩ := A.freshCtx _ _ hi
  have hlen : goTestBlob.length = 131072 := by
    unfold goTestBlob
    rw [List.length_cons, List.length_cons, List.length_replicate]
  obtain ⟨s₁, e₁⟩ : ∃ t : CState (DASContext K G1 G2), t = { s with mem := overwrite s.mem blob goTestBlob } := ⟨_, rfl⟩
  obtain ⟨s₂, e₂⟩ : ∃ t : CState (DASContext K G1 G2), t = { s₁ with ctxs := fun a => if a = inner then some ctx else s₁.ctxs a } := ⟨_, rfl⟩
  have mk : ∀ gc, testBridgeNewProverCtx H A setup gc s =
      ((if gc then goBlobToKZGCommitmentGc H A false inner blob 131072 else goBlobToKZGCommitment H A inner blob 131072) >>=
        fun _ => pure ()) s₂ := by
    intro gc
    unfold testBridgeNewProverCtx
    rw [CM.bind_ok (a := blob) (s' := { s with mem := overwrite s.mem blob (List.replicate 131072 0) })
      (by unfold newBytes newArray; rw [List.length_replicate, hb])]
    rw [CM.bind_ok (a := ()) (s' := s₁) ?_, CM.bind_ok (a := inner) (s' := s₂) ?_]
    · cases gc <;> rfl
    · unfold goNewProverContext ethKzgDasContextNew
      rw [if_pos rfl, show RECOMMENDED_PRECOMP_WIDTH = 8 from rfl, hctx]
      rw [← e₁] at hi
      simp only [hi, e₂]
    · have hm : overwrite s.mem blob (List.replicate 131072 0) (blob + 1) = some 0 := by
        unfold overwrite
        rw [if_pos (by rw [List.length_replicate]; omega), List.getElem?_replicate, if_pos (by omega)]
      unfold writeByte
      simp only [hm]
      rw [e₁]
      congr 2
      funext a
      unfold overwrite
      rw [hlen, List.length_replicate]
      by_cases h : a = blob + 1
      · subst h
        rw [if_pos rfl, if_pos (by omega), show blob + 1 - blob = 1 by omega]
        rfl
      · rw [if_neg h]
        by_cases h' : blob ≤ a ∧ a < blob + 131072
        · rw [if_pos h', if_pos h', List.getElem?_replicate, if_pos (by omega)]
          unfold goTestBlob
          obtain hz | ⟨k, hk⟩ : a - blob = 0 ∨ ∃ k, a - blob = k + 2 := by
            by_cases hz : a - blob = 0
            · exact .inl hz
            · exact .inr ⟨a - blob - 2, by omega⟩
          · rw [hz]; rfl
          · rw [hk, List.getElem?_cons_succ, List.getElem?_cons_succ, List.getElem?_replicate, if_pos (by omega)]
        · rw [if_neg h', if_neg h']
  have c2 : s₂.ctxs inner = some ctx := by simp [e₂]
  have ho' : H.place s₂ 48 = some out := by rw [e₂, e₁]; exact ho
  rw [mk, mk]
  constructor
  · obtain ⟨M, hM, -, -, -⟩ := context_fields setup (.yes 8) h1 ctx hctx
    obtain ⟨f, hf⟩ := (blobPoly_iff hlen).2 goTestBlob_canonical
    have hh : ArrayHolds s₂.mem blob 131072 goTestBlob := by
      refine ⟨hlen.symm, b0, by rw [hlen]; exact bb, ?_⟩
      rw [e₂, e₁]
      exact holds_overwrite_self _ _ _
    rcases (C35_go_partial H A s₂ inner ctx i0 c2 blob 131072 goTestBlob hh).2 rfl _ (commitment_of_blob h1 hM hf) with ⟨hoom, -⟩ | ⟨s', hs', -⟩
    · cases hoom with
      | array h => rw [ho'] at h; cases h
      | later _ _ _ _ h => cases h
    · exact ⟨s', by rw [if_neg (by simp)]; exact (CM.bind_ok hs').trans rfl⟩
  · rw [if_pos rfl]
    exact CM.bind_fault (C47_go_refuted A H i0 c2 ho')
end

section
open Toy

theorem context_recommended (τ : Fr) : ∃ ctx : DASContext Fr Fr Fr, (DASContext.new (setup τ) (.yes 8) : Outcome Empty _) = .ok ctx :=
  context_exists_of (setup τ) (length_g1 τ) (by rw [length_g2]) (by rw [length_g2]; norm_num) (.yes 8)
    (fun v => .precomp (tableOf 8 v) 8) (fun v => by
      simp only [FixedBaseMSM.new, precompWindowNew_eq 8 (by norm_num), Outcome.ok_bind, Outcome.pure_eq])

/-- an allocator that can place two contexts -/
noncomputable def twoContexts (Ctx : Type) : Allocator Ctx where
  place := (ToyHeap.allocator Ctx).place
  fresh := (ToyHeap.allocator Ctx).fresh
  placeCtx s := match s.ctxs 16, s.ctxs 32 with
    | none, _ => some 16
    | some _, none => some 32
    | some _, some _ => none
  freshCtx s p h := by
    split at h
    · cases h
      exact ⟨by decide, by norm_num, by assumption⟩
    · cases h
      exact ⟨by decide, by norm_num, by assumption⟩
    · cases h

/-- The Java test passes with a blob of ones, and fails with a blob of bytes 255. -/
example (jniDebug : List UInt8) :
    testMultipleInstanceCreation jniDebug (twoContexts (DASContext Fr Fr Fr)) (setup 7) (some (List.replicate 131072 1)) nothing =
      .ok true nothing ∧
    ∃ e, testMultipleInstanceCreation jniDebug (twoContexts (DASContext Fr Fr Fr)) (setup 7) (some (List.replicate 131072 (-1))) nothing =
      .err e nothing := by
  obtain ⟨ctx, hctx⟩ := context_recommended 7
  have bytes : ∀ v : Int8, JavaBytes (List.replicate 131072 v) (List.replicate 131072 v.toUInt8) := fun v => by
    rw [javaBytes_iff, List.map_replicate]
  have value : ∀ (v : UInt8) i, i < 4096 → Spec.beValue (Spec.block 32 i (List.replicate 131072 v)) = beToNat (List.replicate 32 v) := by
    intro v i hi
    rw [← beToNat_eq]
    unfold Spec.block
    rw [List.drop_replicate, List.take_replicate, show min 32 _ = 32 by omega]
  constructor
  · rcases C92_java (twoContexts _) nothing (setup 7) jniDebug (length_g1 7) hctx (p := 16) (q := 32) rfl rfl
      (some (List.replicate 131072 1)) with ⟨h, -⟩ | ⟨-, h⟩
    · exact h
    · refine absurd ⟨_, _, rfl, bytes 1, List.length_replicate, fun i hi => ?_⟩ h
      rw [value _ i hi]
      decide +kernel
  · rcases C92_java (twoContexts _) nothing (setup 7) jniDebug (length_g1 7) hctx (p := 16) (q := 32) rfl rfl
      (some (List.replicate 131072 (-1))) with ⟨-, l, b, hl, hb, -, hc⟩ | ⟨h, -⟩
    · cases hl
      rw [javaBytes_iff] at hb
      have := hc 0 (by norm_num)
      rw [← hb, (javaBytes_iff _ _).1 (bytes (-1)), value _ 0 (by norm_num)] at this
      exact absurd this (by decide +kernel)
    · exact h

/-- In an empty process with room for the arrays the Go test passes or is undefined behaviour, depending on the garbage collector. -/
example : (∃ s', testBridgeNewProverCtx (ToyHeap.heap _) (ToyHeap.allocator _) (setup 7) false nothing = .ok () s') ∧
    testBridgeNewProverCtx (ToyHeap.heap _) (ToyHeap.allocator _) (setup 7) true nothing = .fault := by
  obtain ⟨ctx, hctx⟩ := context_recommended 7
  obtain ⟨blob, hb, hle⟩ := ToyHeap.bump_ok (s := nothing) (b := 0) (n := 131072) (fun a _ => ⟨rfl, rfl⟩) (by norm_num)
  obtain ⟨out, ho, -⟩ := ToyHeap.bump_ok (b := 8 + 131072) (n := 48)
    (s := { nothing with mem := overwrite nothing.mem blob goTestBlob, ctxs := fun a => if a = 16 then some ctx else nothing.ctxs a })
    (fun a ha => ⟨by
      show overwrite nothing.mem blob goTestBlob a = none
      unfold overwrite
      rw [if_neg (by unfold goTestBlob; rw [List.length_cons, List.length_cons, List.length_replicate]; omega)]
      rfl, rfl⟩) (by norm_num)
  exact C92_go (ToyHeap.heap _) (ToyHeap.allocator _) nothing (setup 7) (length_g1 7) hctx hb rfl ho
end
end Verif
