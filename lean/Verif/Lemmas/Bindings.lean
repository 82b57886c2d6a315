import Verif.Lemmas.CBinding
import Verif.Lemmas.Outcome
import Verif.Model.JavaBinding
import Verif.Model.NodeBinding
import Verif.Spec.Bindings

set_option linter.unusedSectionVars false

/-! Lemmas on the Java and Node bindings. -/
namespace Verif
open Spec (Sized FirstWrong JavaByte JavaBytes)

theorem toUInt8_toNat (x : Int8) : (x.toUInt8.toNat : Int) = x.toInt % 256 := by
  have h : x.toInt = x.toBitVec.toInt := rfl
  have h2 : x.toUInt8.toNat = x.toBitVec.toNat := rfl
  rw [h, h2, BitVec.toInt_eq_toNat_cond]
  have := x.toBitVec.isLt
  split <;> omega

theorem toUInt64_toNat (x : Int64) : (x.toUInt64.toNat : Int) = x.toInt % 2 ^ 64 := by
  have h : x.toInt = x.toBitVec.toInt := rfl
  have h2 : x.toUInt64.toNat = x.toBitVec.toNat := rfl
  rw [h, h2, BitVec.toInt_eq_toNat_cond]
  have := x.toBitVec.isLt
  split <;> omega

theorem int64_bounds (x : Int64) : -2 ^ 63 ≤ x.toInt ∧ x.toInt < 2 ^ 63 := by
  have h : x.toInt = x.toBitVec.toInt := rfl
  rw [h, BitVec.toInt_eq_toNat_cond]
  have := x.toBitVec.isLt
  split <;> omega

theorem javaByte_iff (x : Int8) (b : UInt8) : JavaByte x b ↔ x.toUInt8 = b := by
  unfold JavaByte
  rw [← toUInt8_toNat, ← UInt8.toNat_inj]
  omega

theorem javaBytes_iff (l : List Int8) (b : List UInt8) : JavaBytes l b ↔ l.map Int8.toUInt8 = b := by
  unfold JavaBytes
  induction l generalizing b with
  | nil => cases b <;> simp
  | cons x l ih => cases b <;> simp [javaByte_iff, ih]

theorem javaBytes_length {l : List Int8} {b : List UInt8} (h : JavaBytes l b) : l.length = b.length := h.length_eq

theorem forall₂_javaBytes_iff (l : List (List Int8)) (b : List (List UInt8)) :
    List.Forall₂ JavaBytes l b ↔ l.map (fun x => x.map Int8.toUInt8) = b := by
  induction l generalizing b with
  | nil => cases b <;> simp
  | cons x l ih => cases b <;> simp [javaBytes_iff, ih]

theorem javaBytes_toInt8 (b : List UInt8) : JavaBytes (byteArrayFromSlice b) b := by
  rw [javaBytes_iff, byteArrayFromSlice, List.map_map]
  exact (List.map_congr_left fun x _ => rfl).trans (List.map_id b)

theorem forall₂_byteArrayFromSlice (l : List (List UInt8)) : List.Forall₂ JavaBytes (l.map byteArrayFromSlice) l := by
  rw [List.forall₂_map_left_iff, List.forall₂_same]
  exact fun x _ => javaBytes_toInt8 x

theorem indices_eq {inds : List Int64} {indices : List Nat}
    (h : List.Forall₂ (fun (x : Int64) (i : Nat) => (i : Int) = x.toInt % 2 ^ 64) inds indices) :
    inds.map (fun x => x.toUInt64.toNat) = indices := by
  induction h with
  | nil => rfl
  | cons hx _ ih =>
    rw [List.map_cons, ih]
    congr 1
    have h1 := toUInt64_toNat ‹_›
    omega

theorem not_invalidProof {e : Error} (h : ∀ e', e ≠ .Verifier (.FK20 e')) : e.invalidProof = false := by
  unfold Error.invalidProof
  split
  · split
    · rename_i e'; exact absurd rfl (h e')
    · rfl
  · rfl

/-- If `x` does not panic and the rest fails with an error for every value of `x`, the whole fails with an error. -/
theorem err_or_bind {ε α β : Type} {x : Outcome ε α} {f : α → Outcome ε β} (hx : x ≠ .panic)
    (hf : ∀ a, x = .ok a → ∃ e, f a = .err e) : ∃ e, (x >>= f) = .err e := by
  cases x with
  | ok a => exact hf a rfl
  | err e => exact ⟨e, rfl⟩
  | panic => exact absurd rfl hx

theorem mapM_noPanic {ε α β : Type} {f : α → Outcome ε β} (h : ∀ x, f x ≠ .panic) (l : List α) : l.mapM f ≠ .panic := by
  induction l with
  | nil => simp
  | cons a l ih =>
    rw [List.mapM_cons]
    cases ha : f a with
    | ok b =>
      cases hl : l.mapM f with
      | ok bs => simp
      | err e => simp
      | panic => exact absurd hl ih
    | err e => simp
    | panic => exact absurd ha (h a)

theorem noPanic_objects (a : JObjectArray) : jobjectArrayTo2dByteArray a ≠ .panic := by
  cases a with
  | none => simp [jobjectArrayTo2dByteArray]
  | some l => exact mapM_noPanic (fun x => by cases x <;> simp [convertByteArray]) l

theorem noPanic_sizes (n : Nat) (name : String) (l : List (List UInt8)) :
    l.mapM (fun x => sliceToArrayRefJ n x name) ≠ .panic :=
  mapM_noPanic (fun x => by unfold sliceToArrayRefJ; split <;> simp) l

theorem convert_some (l : List Int8) : convertByteArray (some l) = .ok (l.map Int8.toUInt8) := rfl

theorem jobjectArray_some (l : List (List Int8)) :
    jobjectArrayTo2dByteArray (some (l.map some)) = .ok (l.map (fun x => x.map Int8.toUInt8)) := by
  unfold jobjectArrayTo2dByteArray
  simp only
  rw [mapM_ok (g := fun a => (a.getD []).map Int8.toUInt8), List.map_map]
  · rfl
  · intro a ha
    obtain ⟨x, -, rfl⟩ := List.mem_map.1 ha
    rfl

theorem jobjectArray_null {l : List JByteArray} (h : none ∈ l) : jobjectArrayTo2dByteArray (some l) = .err .Jni := by
  unfold jobjectArrayTo2dByteArray
  simp only
  induction l with
  | nil => simp at h
  | cons a l ih =>
    rw [List.mapM_cons]
    cases a with
    | none => rfl
    | some x =>
      rw [convert_some, ih (by simpa using h)]
      rfl

theorem sized_map {α β : Type} {f : α → β} {n : Nat} {l : List (List α)} : Sized n (l.map (fun x => x.map f)) ↔ Sized n l := by
  simp [Sized]

theorem firstWrong_map {α β : Type} {f : α → β} {n got : Nat} {l : List (List α)} (h : FirstWrong n got l) :
    FirstWrong n got (l.map (fun x => x.map f)) := by
  obtain ⟨pre, x, post, rfl, hpre, hx, hg⟩ := h
  exact ⟨pre.map (fun x => x.map f), x.map f, post.map (fun x => x.map f), by simp, sized_map.2 hpre, by simpa using hx, hg⟩

theorem sizedJ {n : Nat} {name : String} {l : List (List UInt8)} (h : Sized n l) :
    l.mapM (fun x => sliceToArrayRefJ n x name) = .ok l := by
  rw [mapM_ok (g := id) (fun x hx => by simp [sliceToArrayRefJ, h x hx]), List.map_id]

theorem firstWrongJ {n got : Nat} {name : String} {l : List (List UInt8)} (h : FirstWrong n got l) :
    l.mapM (fun x => sliceToArrayRefJ n x name) = .err (.IncorrectSize n got name) := by
  obtain ⟨pre, x, post, rfl, hpre, hx, hg⟩ := h
  exact mapM_err (fun y hy => ⟨y, by simp [sliceToArrayRefJ, hpre y hy]⟩) (by simp [sliceToArrayRefJ, hx, hg])

theorem sizedN {n : Nat} {name : String} {l : List (List UInt8)} (h : Sized n l) :
    l.mapM (fun x => sliceToArrayRefN n x name) = .ok l := by
  rw [mapM_ok (g := id) (fun x hx => by simp [sliceToArrayRefN, h x hx]), List.map_id]

theorem firstWrongN {n got : Nat} {name : String} {l : List (List UInt8)} (h : FirstWrong n got l) :
    l.mapM (fun x => sliceToArrayRefN n x name) = .err (ascii name ++ ascii " must have size " ++ debugNat n ++
      ascii ", found size " ++ debugNat got ++ ascii "\n err:could not convert slice to array") := by
  obtain ⟨pre, x, post, rfl, hpre, hx, hg⟩ := h
  exact mapM_err (fun y hy => ⟨y, by simp [sliceToArrayRefN, hpre y hy]⟩) (by simp [sliceToArrayRefN, hx, hg])

theorem bigint_ok {v : Int} (h : 0 ≤ v) : bigintToU64 v = .ok (v.natAbs % 2 ^ 64) := by
  unfold bigintToU64 bigIntGetU128
  simp only [decide_eq_true_eq]
  rw [assertP_true (by omega), Outcome.ok_bind, Nat.mod_mod_of_dvd _ (by norm_num)]
  rfl

theorem bigint_negative {v : Int} (h : v < 0) : bigintToU64 v = .panic := by
  unfold bigintToU64 bigIntGetU128
  simp only [decide_eq_true_eq]
  rw [assertP_false (by omega)]
  rfl

theorem bigints_ok {l : List Int} (h : ∀ v ∈ l, 0 ≤ v) :
    l.mapM bigintToU64 = .ok (l.map (fun v => v.natAbs % 2 ^ 64)) := mapM_ok (fun v hv => bigint_ok (h v hv))

theorem bigint_indices {inds : List Int} {indices : List Nat}
    (h : List.Forall₂ (fun (x : Int) (i : Nat) => 0 ≤ x ∧ (i : Int) = x % 2 ^ 64) inds indices) :
    (∀ v ∈ inds, 0 ≤ v) ∧ inds.map (fun v => v.natAbs % 2 ^ 64) = indices := by
  induction h with
  | nil => simp
  | @cons x i l l' hx _ ih =>
    refine ⟨by simpa using ⟨hx.1, ih.1⟩, ?_⟩
    rw [List.map_cons, ih.2]
    congr 1
    have := hx.1
    have := hx.2
    omega

theorem bigints_negative {l : List Int} (h : ∃ v ∈ l, v < 0) : l.mapM bigintToU64 = .panic := by
  induction l with
  | nil => simp at h
  | cons a l ih =>
    rw [List.mapM_cons]
    by_cases ha : a < 0
    · rw [bigint_negative ha]; rfl
    · rw [bigint_ok (by omega), ih (by simpa [ha] using h)]; rfl

section
variable {K G1 G2 GT : Type} [Field K] [DecidableEq K] [AddCommGroup G1] [Module Fr G1] [DecidableEq G1]
  [Curve K G1] [PointCodec G1] [AddCommGroup G2] [Module Fr G2] [AddCommGroup GT] [DecidableEq GT]
  [Pairing G1 G2 GT]

theorem find_large {l : List Nat} (h : ∃ i ∈ l, 128 ≤ i) :
    ∃ i, l.find? (fun i => decide (i ≥ CELLS_PER_EXT_BLOB)) = some i := by
  obtain ⟨i, hi, h128⟩ := h
  exact Option.isSome_iff_exists.1 (List.find?_isSome.2 ⟨i, hi, decide_eq_true h128⟩)

/-- An index of 128 or more is an error of the verification other than an invalid proof. -/
theorem verify_large (sha256 : List UInt8 → List UInt8) (ctx : DASContext K G1 G2) (commitments : List (List UInt8))
    {inds : List Nat} (cells proofs : List (List UInt8)) (h : ∃ i ∈ inds, 128 ≤ i) :
    ∃ e, ctx.verifyCellKzgProofBatch sha256 commitments inds cells proofs = .err e ∧ e.invalidProof = false := by
  obtain ⟨i, hi⟩ := find_large h
  have hv : ∀ d r, ∃ e, validateVerify d r inds cells proofs = .err e ∧ (Error.Verifier e).invalidProof = false := by
    intro d r
    unfold validateVerify
    simp only
    split
    · exact ⟨_, rfl, rfl⟩
    · split
      · exact ⟨_, rfl, rfl⟩
      · rw [hi]; exact ⟨_, rfl, rfl⟩
  obtain ⟨e, he, hi⟩ := hv (deduplicateWithIndices commitments).1 (deduplicateWithIndices commitments).2
  refine ⟨.Verifier e, ?_, hi⟩
  unfold DASContext.verifyCellKzgProofBatch
  simp only
  rw [he]
  rfl

/-- An index of 128 or more is an error of the recovery. -/
theorem recover_large (ctx : DASContext K G1 G2) {inds : List Nat} (cells : List (List UInt8)) (h : ∃ i ∈ inds, 128 ≤ i) :
    ∃ e, ctx.recoverCellsAndKzgProofs inds cells = .err e := by
  obtain ⟨i, hi⟩ := find_large h
  have hv : ∃ e, validateRecover inds cells = .err e := by
    unfold validateRecover
    split
    · exact ⟨_, rfl⟩
    · rw [hi]; exact ⟨_, rfl⟩
  obtain ⟨e, he⟩ := hv
  refine ⟨.Recovery e, ?_⟩
  unfold DASContext.recoverCellsAndKzgProofs recoverPolynomialCoeff
  rw [he]
  rfl

theorem nativeJ_eq {α : Type} {jniDebug : List UInt8} {s : CState (DASContext K G1 G2)} {self : LibEthKZG}
    {ctx : DASContext K G1 G2} (h0 : self.contextPtr ≠ 0) (hctx : s.ctxs self.contextPtr = some ctx) (name : String)
    (f : DASContext K G1 G2 → Outcome JError α) :
    (self.checkContextHasNotBeenFreed >>= fun _ => nativeJ jniDebug self.contextPtr name f) s = match f ctx with
      | .ok a => .ok a s
      | .err e => .err (throwOnErrorJ jniDebug e name) s
      | .panic => .panic := by
  unfold LibEthKZG.checkContextHasNotBeenFreed
  rw [if_neg h0, pure_bind]
  unfold nativeJ
  refine (CM.bind_ok (a := ctx) (s' := s) (by simp [derefCtx, hctx])).trans ?_
  cases f ctx <;> rfl

end
end Verif
