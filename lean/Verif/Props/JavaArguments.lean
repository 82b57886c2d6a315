import Verif.Lemmas.JavaArguments
import Verif.Props.Jni
import Verif.Props.Toy

set_option linter.unusedSectionVars false

/-! C81: Java arguments that other threads change while a call reads them. -/
namespace Verif
open Spec Jni HeapM

section
variable {K G1 G2 GT : Type} [Field K] [DecidableEq K] [AddCommGroup G1] [Module Fr G1] [DecidableEq G1]
  [Curve K G1] [PointCodec G1] [AddCommGroup G2] [Module Fr G2] [AddCommGroup GT] [DecidableEq GT]
  [Pairing G1 G2 GT]
variable (vm : Jvm) (jniDebug : List UInt8) (sha256 : List UInt8 → List UInt8)

theorem native_sees {α β : Type} {m : HeapM α} {P : β → Prop} {v : β → JniM α} (h : Sees m P v) (name : String) :
    ∃ b, P b ∧ nativeH vm jniDebug name m = nativeJni vm jniDebug name (v b) := by
  obtain ⟨b, hb, c, e⟩ := h 0 .entry
  refine ⟨b, hb, ?_⟩
  unfold nativeH nativeJni
  simp only [e]

theorem jni_bind {α β : Type} (m : JniM α) (k : α → JniM β) : jni (m >>= k) = (jni m >>= fun a => jni (k a)) := by
  funext s
  rcases h : m s.2 with ⟨a | x | _, s'⟩
  · have e : jni m s = (.ok a, (s.1, s')) := by unfold jni; rw [h]
    rw [heap_ok e]
    unfold jni
    rw [jni_ok h]
  · have e : jni m s = (.err x, (s.1, s')) := by unfold jni; rw [h]
    rw [heap_err e]
    unfold jni
    rw [jni_err h]
  · have e : jni m s = (.panic, (s.1, s')) := by unfold jni; rw [h]
    rw [heap_panic e]
    unfold jni
    rw [jni_panic h]

/-- C81: whatever other threads write to the blob while it is read, the method does what it does with a blob that stays the same, each
byte of which was in its place at some moment. -/
theorem C81_blob (H : JHistory) (hH : FixedLengths H) (ctx : DASContext K G1 G2) (blob : Option Nat) :
    (∃ v, BytesSeen H blob v ∧ nativeH vm jniDebug "blobToKZGCommitment" (blobToKzgCommitmentH vm H blob ctx) =
      (JavaCall.blobToKZGCommitment v).native vm jniDebug sha256 ctx) ∧
    (∃ v, BytesSeen H blob v ∧ nativeH vm jniDebug "computeCellsAndKZGProofs" (computeCellsAndKzgProofsH vm H blob ctx) =
      (JavaCall.computeCellsAndKZGProofs v).native vm jniDebug sha256 ctx) := by
  constructor
  · refine native_sees vm jniDebug (v := fun v => blobToKzgCommitmentJni vm v ctx) ?_ _
    have e := sees_bind_jni (k := fun blob => do
      let blob ← JniM.lift (sliceToArrayRefJ BYTES_PER_BLOB blob "blob")
      let commitment ← JniM.lift ((ctx.blobToKzgCommitment blob).mapErr .Cryptography)
      byteArrayFromSliceJni vm commitment) (sees_convert vm hH blob)
    simp only [jni_bind] at e
    exact e
  · refine native_sees vm jniDebug (v := fun v => computeCellsAndKzgProofsJni vm v ctx) ?_ _
    have e := sees_bind_jni (k := fun blob => do
      let blob ← JniM.lift (sliceToArrayRefJ BYTES_PER_BLOB blob "blob")
      let (cells, proofs) ← JniM.lift ((ctx.computeCellsAndKzgProofs blob).mapErr .Cryptography)
      cellsAndProofsToJobjectJni vm cells proofs) (sees_convert vm hH blob)
    simp only [jni_bind] at e
    exact e

/-- C81: the same for the verification of a batch: the method does what it does with one set of values, each of them seen by it. -/
theorem C81_verify (H : JHistory) (hH : FixedLengths H) (ctx : DASContext K G1 G2) (commitments cellIndices cells proofs : Option Nat) :
    ∃ a b c d, ItemsSeen H commitments a ∧ LongsSeen H cellIndices b ∧ ItemsSeen H cells c ∧ ItemsSeen H proofs d ∧
      nativeH vm jniDebug "verifyCellKZGProofBatch" (verifyCellKzgProofBatchH vm H sha256 commitments cellIndices cells proofs ctx) =
        (JavaCall.verifyCellKZGProofBatch a b c d).native vm jniDebug sha256 ctx := by
  have e := fun (com : List (List UInt8)) (ind : List Nat) (cel : List (List UInt8)) => sees_bind_jni (k := fun pro => do
    let cells ← JniM.lift (cel.mapM (fun cell => sliceToArrayRefJ BYTES_PER_CELL cell "cell"))
    let commitments ← JniM.lift
      (com.mapM (fun commitment => sliceToArrayRefJ BYTES_PER_COMMITMENT commitment "commitment"))
    let proofs ← JniM.lift (pro.mapM (fun proof => sliceToArrayRefJ BYTES_PER_COMMITMENT proof "proof"))
    JniM.lift (match ctx.verifyCellKzgProofBatch sha256 commitments ind cells proofs with
      | .ok _ => pure true
      | .err x => if x.invalidProof then pure false else .err (.Cryptography x)
      | .panic => .panic)) (sees_items vm hH proofs)
  simp only [jni_bind] at e
  have e1 := fun com ind => sees_bind (itemsSeen_exists proofs) (sees_items vm hH cells) fun cel => e com ind cel
  have e2 := fun com => sees_bind (Q := fun p : JObjectArray × JObjectArray => ItemsSeen H cells p.1 ∧ ItemsSeen H proofs p.2)
    (by
      obtain ⟨x, hx⟩ := itemsSeen_exists (H := H) cells
      obtain ⟨y, hy⟩ := itemsSeen_exists (H := H) proofs
      exact ⟨(x, y), hx, hy⟩) (sees_longs vm hH cellIndices) fun ind => e1 com ind
  have e3 := sees_bind (Q := fun p : JLongArray × JObjectArray × JObjectArray =>
      LongsSeen H cellIndices p.1 ∧ ItemsSeen H cells p.2.1 ∧ ItemsSeen H proofs p.2.2)
    (by
      obtain ⟨x, hx⟩ := itemsSeen_exists (H := H) cells
      obtain ⟨y, hy⟩ := itemsSeen_exists (H := H) proofs
      obtain ⟨z, hz⟩ := longsSeen_exists (H := H) cellIndices
      exact ⟨(z, x, y), hz, hx, hy⟩) (sees_items vm hH commitments) fun com => e2 com
  obtain ⟨⟨a, b, c, d⟩, ⟨ha, hb, hc, hd⟩, h⟩ := native_sees vm jniDebug e3 "verifyCellKZGProofBatch"
  exact ⟨a, b, c, d, ha, hb, hc, hd, h⟩

/-- C81: the same for recovery. -/
theorem C81_recover (H : JHistory) (hH : FixedLengths H) (ctx : DASContext K G1 G2) (cellIDs cells : Option Nat) :
    ∃ a b, LongsSeen H cellIDs a ∧ ItemsSeen H cells b ∧
      nativeH vm jniDebug "recoverCellsAndKZGProofs" (recoverCellsAndKzgProofsH vm H cellIDs cells ctx) =
        (JavaCall.recoverCellsAndKZGProofs a b).native vm jniDebug sha256 ctx := by
  have e := fun (ids : List Nat) => sees_bind_jni (k := fun cells => do
    let cells ← JniM.lift (cells.mapM (fun cell => sliceToArrayRefJ BYTES_PER_CELL cell "cell"))
    let (recoveredCells, recoveredProofs) ← JniM.lift ((ctx.recoverCellsAndKzgProofs ids cells).mapErr .Cryptography)
    cellsAndProofsToJobjectJni vm recoveredCells recoveredProofs) (sees_items vm hH cells)
  simp only [jni_bind] at e
  have e1 := sees_bind (itemsSeen_exists cells) (sees_longs vm hH cellIDs) fun ids => e ids
  obtain ⟨⟨a, b⟩, ⟨ha, hb⟩, h⟩ := native_sees vm jniDebug e1 "recoverCellsAndKZGProofs"
  exact ⟨a, b, ha, hb, h⟩

/-- C81: what is seen of arrays that do not change is their contents. -/
theorem C81_unchanged (h : JHeap) :
    (∀ r v, BytesSeen (fun _ => h) r v ↔ v = r.map h.bytes) ∧
    (∀ r v, LongsSeen (fun _ => h) r v ↔ v = r.map h.longs) ∧
    (∀ r v, ItemsSeen (fun _ => h) r v ↔ v = r.map fun r => (h.objects r).map fun r => r.map h.bytes) := by
  have hb : ∀ r v, BytesSeen (fun _ => h) r v ↔ v = r.map h.bytes := by
    rintro (_ | r) (_ | l)
    · exact ⟨fun _ => rfl, fun _ => trivial⟩
    · exact ⟨fun h => absurd h id, fun h => by cases h⟩
    · exact ⟨fun h => absurd h id, fun h => by cases h⟩
    · constructor
      · rintro ⟨hl, hx⟩
        refine congrArg some (List.ext_getElem? fun j => ?_)
        by_cases hj : j < l.length
        · obtain ⟨_, e⟩ := hx j hj
          exact e
        · have hl' : l.length = (h.bytes r).length := hl
          rw [List.getElem?_eq_none (by omega), List.getElem?_eq_none (by omega)]
      · intro e
        obtain rfl := Option.some.inj e
        exact ⟨rfl, fun j _ => ⟨0, rfl⟩⟩
  refine ⟨hb, ?_, ?_⟩
  · rintro (_ | r) (_ | l)
    · exact ⟨fun _ => rfl, fun _ => trivial⟩
    · exact ⟨fun h => absurd h id, fun h => by cases h⟩
    · exact ⟨fun h => absurd h id, fun h => by cases h⟩
    · constructor
      · rintro ⟨hl, hx⟩
        refine congrArg some (List.ext_getElem? fun j => ?_)
        by_cases hj : j < l.length
        · obtain ⟨t, t', a, b, ha, hb, e⟩ := hx j hj
          have hab : a = b := Option.some.inj (ha.symm.trans hb)
          rw [e, ← hab, halves_self]
          exact ha.symm
        · have hl' : l.length = (h.longs r).length := hl
          rw [List.getElem?_eq_none (by omega), List.getElem?_eq_none (by omega)]
      · intro e
        obtain rfl := Option.some.inj e
        refine ⟨rfl, fun j hj => ⟨0, 0, _, _, List.getElem?_eq_getElem hj, List.getElem?_eq_getElem hj, ?_⟩⟩
        rw [halves_self]
        exact List.getElem?_eq_getElem hj
  · rintro (_ | r) (_ | l)
    · exact ⟨fun _ => rfl, fun _ => trivial⟩
    · exact ⟨fun h => absurd h id, fun h => by cases h⟩
    · exact ⟨fun h => absurd h id, fun h => by cases h⟩
    · constructor
      · rintro ⟨hl, hx⟩
        refine congrArg some (List.ext_getElem? fun j => ?_)
        rw [List.getElem?_map]
        by_cases hj : j < l.length
        · obtain ⟨t, r', h1, h2⟩ := hx j _ (List.getElem?_eq_getElem hj)
          rw [List.getElem?_eq_getElem hj, (hb _ _).1 h2]
          exact (congrArg (Option.map _) h1).symm
        · have hl' : l.length = (h.objects r).length := hl
          rw [List.getElem?_eq_none (by omega), List.getElem?_eq_none (by omega)]
          rfl
      · intro e
        obtain rfl := Option.some.inj e
        refine ⟨List.length_map _, fun j x hx => ?_⟩
        rw [List.getElem?_map, Option.map_eq_some_iff] at hx
        obtain ⟨r', h1, rfl⟩ := hx
        exact ⟨0, r', h1, (hb _ _).2 rfl⟩

theorem object_ok {a : JObjectArray} {y : List (List UInt8)} (h : jobjectArrayTo2dByteArray a = .ok y) :
    ∃ l : List (List Int8), a = some (l.map some) ∧ y = l.map (·.map Int8.toUInt8) := by
  rcases a with _ | l
  · cases h
  · have h' : l.mapM convertByteArray = .ok y := h
    rw [mapM_eq_ok_iff] at h'
    clear h
    induction h' with
    | nil => exact ⟨[], rfl, rfl⟩
    | @cons x y' l' ys hx _ ih =>
      obtain ⟨l, h1, h2⟩ := ih
      rcases x with _ | x
      · cases hx
      · refine ⟨x :: l, ?_, ?_⟩
        · rw [List.map_cons, ← Option.some.inj h1]
        · rw [List.map_cons, ← h2, ← Outcome.ok.inj hx]

theorem sizes_ok {n : Nat} {name : String} {l y : List (List UInt8)}
    (h : l.mapM (fun x => sliceToArrayRefJ n x name) = .ok y) : y = l ∧ ∀ x ∈ l, x.length = n := by
  rw [mapM_eq_ok_iff] at h
  induction h with
  | nil => exact ⟨rfl, by simp⟩
  | @cons x y' l' ys hx _ ih =>
    obtain ⟨rfl, h⟩ := ih
    unfold sliceToArrayRefJ at hx
    split at hx
    · next hn =>
      cases hx
      exact ⟨rfl, List.forall_mem_cons.2 ⟨hn, h⟩⟩
    · cases hx

section
variable [LawfulPointCodec G1 48]

/-- C81: a call that answers `true` has verified one batch, and that is the batch that it has seen. -/
theorem C81_accepted (H : JHistory) (hH : FixedLengths H) (ctx : DASContext K G1 G2) (commitments cellIndices cells proofs : Option Nat)
    (h : (nativeH vm jniDebug "verifyCellKZGProofBatch"
      (verifyCellKzgProofBatchH vm H sha256 commitments cellIndices cells proofs ctx)).1 = .returned true) :
    ∃ (a c d : List (List Int8)) (b : List Int64), ItemsSeen H commitments (some (a.map some)) ∧ LongsSeen H cellIndices (some b) ∧
      ItemsSeen H cells (some (c.map some)) ∧ ItemsSeen H proofs (some (d.map some)) ∧
      (∀ x ∈ a, x.length = 48) ∧ (∀ x ∈ c, x.length = 2048) ∧ (∀ x ∈ d, x.length = 48) ∧
      ctx.verifyCellKzgProofBatch sha256 (a.map (·.map Int8.toUInt8)) (b.map fun x => x.toUInt64.toNat)
        (c.map (·.map Int8.toUInt8)) (d.map (·.map Int8.toUInt8)) = .ok () := by
  obtain ⟨a, b, c, d, ha, hb, hc, hd, e⟩ := C81_verify vm jniDebug sha256 H hH ctx commitments cellIndices cells proofs
  rw [e] at h
  obtain ⟨h1, h2, -⟩ := native_runs vm (runs_verify vm sha256 a b c d ctx) jniDebug "verifyCellKZGProofBatch" _ rfl
  have hok : verifyCellKzgProofBatchJ sha256 a b c d ctx = .ok true := by
    have hno : ∀ x ∈ (nativeJni vm jniDebug "verifyCellKZGProofBatch" (verifyCellKzgProofBatchJni vm sha256 a b c d ctx)).2.trace,
        x.failed = false := by
      intro x hx
      by_contra hne
      have := (h2 ⟨x, hx, Bool.eq_true_of_not_eq_false hne⟩).1
      rw [show (nativeJni vm jniDebug "verifyCellKZGProofBatch" (verifyCellKzgProofBatchJni vm sha256 a b c d ctx)).1 = _ from h] at this
      cases this
    have h3 := (h1 hno).symm.trans h
    unfold endOf at h3
    split at h3
    · next x hx => cases h3; exact hx
    · cases h3
    · cases h3
  unfold verifyCellKzgProofBatchJ at hok
  obtain ⟨a', ea, hok⟩ := bind_eq_ok.1 hok
  obtain ⟨b', eb, hok⟩ := bind_eq_ok.1 hok
  obtain ⟨c', ec, hok⟩ := bind_eq_ok.1 hok
  obtain ⟨d', ed, hok⟩ := bind_eq_ok.1 hok
  obtain ⟨_, e1, hok⟩ := bind_eq_ok.1 hok
  obtain ⟨_, e2, hok⟩ := bind_eq_ok.1 hok
  obtain ⟨_, e3, hfin⟩ := bind_eq_ok.1 hok
  obtain ⟨rfl, s1⟩ := sizes_ok e1
  obtain ⟨rfl, s2⟩ := sizes_ok e2
  obtain ⟨rfl, s3⟩ := sizes_ok e3
  obtain ⟨la, rfl, rfl⟩ := object_ok ea
  obtain ⟨lc, rfl, rfl⟩ := object_ok ec
  obtain ⟨ld, rfl, rfl⟩ := object_ok ed
  rcases b with _ | b
  · cases eb
  obtain rfl := Outcome.ok.inj eb
  have hsize : ∀ {n : Nat} {l : List (List Int8)}, (∀ x ∈ l.map (·.map Int8.toUInt8), x.length = n) → ∀ x ∈ l, x.length = n := by
    intro n l h x hx
    rw [← h _ (List.mem_map_of_mem hx), List.length_map]
  refine ⟨la, lc, ld, b, ha, hb, hc, hd, hsize s2, hsize s1, hsize s3, ?_⟩
  split at hfin
  · next h => exact h
  · split at hfin
    · cases hfin
    · cases hfin
  · cases hfin

end

theorem region_reads {H : JHistory} {r : Nat} {v : List Int8} : ∀ (n off c : Nat) (s : JniState), off + n ≤ v.length →
    (∀ j < n, ((H (c + j)).bytes r)[off + j]? = v[off + j]?) →
    ((List.range' off n).mapM (fun j => look H (fun h => (h.bytes r)[0 + j]?) >>= fun x => jni (JniM.lift (expect x))) :
      HeapM (List Int8)) (c, s) = (.ok ((v.drop off).take n), (c + n, s)) := by
  intro n
  induction n with
  | zero => intro off c s _ _; rw [List.take_zero]; rfl
  | succ n ih =>
    intro off c s hn h
    have hoff : off < v.length := by omega
    rw [List.range'_succ, List.mapM_cons]
    have h0 := h 0 (by omega)
    rw [Nat.add_zero, Nat.add_zero, List.getElem?_eq_getElem hoff] at h0
    have e : (do
      let x ← look H (fun h => (h.bytes r)[0 + off]?)
      jni (JniM.lift (expect x)) : HeapM Int8) (c, s) = (.ok v[off], (c + 1, s)) := by
      show ((JniM.lift (expect (((H c).bytes r)[0 + off]?)) s).1, ((c + 1, s) : Nat × JniState)) = _
      rw [Nat.zero_add, h0]
      rfl
    rw [heap_ok e, heap_ok (ih (off + 1) (c + 1) s (by omega) fun j hj => ?_)]
    · rw [List.drop_eq_getElem_cons hoff, List.take_succ_cons, show c + 1 + n = c + (n + 1) by omega]
      rfl
    · have := h (j + 1) (by omega)
      rw [show c + 1 + j = c + (j + 1) by omega, show off + 1 + j = off + (j + 1) by omega]
      exact this

/-- C81: one moment need not be enough: for each blob there is a history in which the array never holds this blob, and the method
still does what it does with it. -/
theorem C81_mixture (ctx : DASContext K G1 G2) (blob : List Int8) (h2 : 2 ≤ blob.length) : ∃ H : JHistory, FixedLengths H ∧
    (∀ t, (H t).bytes 0 ≠ blob) ∧
    nativeH vm jniDebug "blobToKZGCommitment" (blobToKzgCommitmentH vm H (some 0) ctx) =
      (JavaCall.blobToKZGCommitment (some blob)).native vm jniDebug sha256 ctx := by
  let other : Int8 → Int8 := fun x => if x = 0 then 1 else 0
  have hother : ∀ x, other x ≠ x := by
    intro x h
    unfold other at h
    split at h
    · next hx => rw [hx] at h; exact absurd h (by decide)
    · next hx => exact hx h.symm
  let H : JHistory := fun t => ⟨fun _ => if t = 2 then blob.set 1 (other blob[1]) else blob.set 0 (other blob[0]), fun _ => [], fun _ => []⟩
  have hb : ∀ t r, (H t).bytes r = if t = 2 then blob.set 1 (other blob[1]) else blob.set 0 (other blob[0]) := fun _ _ => rfl
  have hlen : ∀ t r, ((H t).bytes r).length = blob.length := by
    intro t r
    rw [hb]
    split <;> rw [List.length_set]
  refine ⟨H, ⟨fun t r => by rw [hlen, hlen], fun _ _ => rfl, fun _ _ => rfl⟩, fun t e => ?_, ?_⟩
  · rw [hb] at e
    split at e
    · have h := congrArg (fun l : List Int8 => l[1]?) e
      simp only [List.getElem?_set_self (show 1 < blob.length by omega), List.getElem?_eq_getElem (show 1 < blob.length by omega)] at h
      exact hother _ (Option.some.inj h)
    · have h := congrArg (fun l : List Int8 => l[0]?) e
      simp only [List.getElem?_set_self (show 0 < blob.length by omega), List.getElem?_eq_getElem (show 0 < blob.length by omega)] at h
      exact hother _ (Option.some.inj h)
  · have e : convertByteArrayH vm H (some 0) = (jni (jniCall vm .GetArrayLength true 0) >>= fun _ =>
        look H (fun h => (h.bytes 0).length) >>= fun length => look H (fun h => (h.bytes 0).length) >>= fun length' =>
        jni (jniCall vm .GetByteArrayRegion (decide (0 + length ≤ length')) 0) >>= fun _ =>
        (List.range length).mapM (fun j => look H (fun h => (h.bytes 0)[0 + j]?) >>= fun x => jni (JniM.lift (expect x))) >>= fun v =>
        pure (v.map Int8.toUInt8)) := by
      simp only [convertByteArrayH, getArrayLengthH, getByteArrayRegionH, bind_assoc, jni_nonNull, pure_bind]
    have e' : convertByteArrayJni vm (some blob) = (jniCall vm .GetArrayLength true 0 >>= fun _ =>
        jniCall vm .GetByteArrayRegion true 0 >>= fun _ => pure (blob.map Int8.toUInt8)) := by
      simp only [convertByteArrayJni, getArrayLength, getByteArrayRegion, nonNull_some, bind_assoc, pure_bind, List.drop_zero,
        List.take_length, Nat.zero_add, le_refl, decide_true]
    obtain ⟨s1, h1⟩ : ∃ s1, jniCall vm .GetArrayLength true 0 .entry = (.ok (), s1) ∧ s1.pending = false := ⟨_, rfl, rfl⟩
    obtain ⟨s2, h2⟩ : ∃ s2, jniCall vm .GetByteArrayRegion true 0 s1 = (.ok (), s2) := by
      refine ⟨(jniCall vm .GetByteArrayRegion true 0 s1).2, ?_⟩
      unfold jniCall
      simp [h1.2, JniFn.mayFail]
    have hH : convertByteArrayH vm H (some 0) (0, .entry) = (.ok (blob.map Int8.toUInt8), (2 + blob.length, s2)) := by
      rw [e]
      have g1 : jni (jniCall vm .GetArrayLength true 0) (0, .entry) = (.ok (), (0, s1)) := by
        unfold jni
        rw [h1.1]
      rw [heap_ok g1, heap_ok (show look H (fun h => (h.bytes 0).length) (0, s1) = (.ok ((H 0).bytes 0).length, (1, s1)) from rfl),
        heap_ok (show look H (fun h => (h.bytes 0).length) (1, s1) = (.ok ((H 1).bytes 0).length, (2, s1)) from rfl),
        hlen, hlen, Nat.zero_add, decide_eq_true (le_refl _)]
      have g2 : jni (jniCall vm .GetByteArrayRegion true 0) (2, s1) = (.ok (), (2, s2)) := by
        unfold jni
        rw [h2]
      rw [heap_ok g2, List.range_eq_range', heap_ok (region_reads (v := blob) blob.length 0 2 s2 (by omega) fun j hj => ?_), List.drop_zero,
        List.take_length]
      · rfl
      · rw [hb, Nat.zero_add]
        split
        · next hj => rw [show j = 0 by omega, List.getElem?_set_ne (by omega)]
        · next hj => rw [List.getElem?_set_ne (by omega)]
    have hJ : convertByteArrayJni vm (some blob) .entry = (.ok (blob.map Int8.toUInt8), s2) := by
      rw [e', jni_ok h1.1, jni_ok h2]
      rfl
    have hfin : (blobToKzgCommitmentH vm H (some 0) ctx (0, .entry)).1 = (blobToKzgCommitmentJni vm (some blob) ctx .entry).1 ∧
        (blobToKzgCommitmentH vm H (some 0) ctx (0, .entry)).2.2 = (blobToKzgCommitmentJni vm (some blob) ctx .entry).2 := by
      have e0 : blobToKzgCommitmentH vm H (some 0) ctx = (convertByteArrayH vm H (some 0) >>= fun blob => jni (do
          let blob ← JniM.lift (sliceToArrayRefJ BYTES_PER_BLOB blob "blob")
          let commitment ← JniM.lift ((ctx.blobToKzgCommitment blob).mapErr .Cryptography)
          byteArrayFromSliceJni vm commitment)) := by
        simp only [jni_bind]
        rfl
      unfold blobToKzgCommitmentJni
      rw [e0, heap_ok hH, jni_ok hJ]
      exact ⟨rfl, rfl⟩
    show nativeJni vm jniDebug _ (fun s => ((blobToKzgCommitmentH vm H (some 0) ctx (0, s)).1,
      (blobToKzgCommitmentH vm H (some 0) ctx (0, s)).2.2)) = nativeJni vm jniDebug _ (blobToKzgCommitmentJni vm (some blob) ctx)
    unfold nativeJni
    simp only [hfin.1, hfin.2]

end

/-! ### The hypotheses can be met -/

open Toy

/-- C81: a blob that is never in the array; the method returns its commitment -/
example (vm : Jvm) (hvm : ∀ k, vm.raises k = false) : ∃ (ctx : DASContext Fr Fr Fr) (H : JHistory) (c : List Int8), FixedLengths H ∧
    (∀ t, (H t).bytes 0 ≠ byteArrayFromSlice Toy.blob) ∧ JavaBytes c (toCompressed (poly.eval 7 • (1 : Fr))) ∧
    (nativeH vm [] "blobToKZGCommitment" (blobToKzgCommitmentH vm H (some 0) ctx)).1 = .returned c := by
  obtain ⟨ctx, hctx⟩ := context 7
  have h1 := C03_commitment (setup 7) .no 7 1 1 (powersOfTau 7) ctx hctx blob poly blob_poly
  have hb : Toy.blob.length = 131072 := Toy.blob_poly.2.1
  generalize Toy.blob = blob at h1 hb
  have hb' : (byteArrayFromSlice blob).length = 131072 := by rw [byteArrayFromSlice, List.length_map, hb]
  obtain ⟨H, hH, hne, e⟩ := C81_mixture vm [] (fun _ => []) ctx (byteArrayFromSlice blob) (by rw [hb']; norm_num)
  obtain ⟨c, hr, hc⟩ := ((C34_java_blob_to_kzg_commitment (Jni.proc ctx) [] ⟨16⟩ ctx (by decide) (by simp [Jni.proc])
    (byteArrayFromSlice blob) blob (javaBytes_toInt8 _)).2 hb').1 _ h1
  refine ⟨ctx, H, c, hH, hne, hc, ?_⟩
  rw [e]
  exact Jni.returned_of vm hvm (fun _ => []) ctx (.blobToKZGCommitment (some (byteArrayFromSlice blob))) c hr

/-- C81: a batch that stays in its arrays is verified -/
example (vm : Jvm) (hvm : ∀ k, vm.raises k = false) (sha256 : List UInt8 → List UInt8) :
    ∃ (ctx : DASContext Fr Fr Fr) (h : JHeap), FixedLengths (fun _ => h) ∧
    (nativeH vm [] "verifyCellKZGProofBatch" (verifyCellKzgProofBatchH vm (fun _ => h) sha256 (some 0) (some 0) (some 1) (some 0) ctx)).1 =
      .returned true := by
  obtain ⟨ctx, hctx⟩ := context 7
  have hd : fromCompressed (toCompressed (0 : Fr)) = some (0 : Fr) :=
    LawfulPointCodec.fromCompressed_toCompressed (size := 48) (0 : Fr)
  have hl : (toCompressed (0 : Fr)).length = 48 := LawfulPointCodec.length_toCompressed (size := 48) (0 : Fr)
  have h64 : (Polynomial.C (0 : Fr)).degree < 64 := lt_of_le_of_lt Polynomial.degree_C_le (by norm_num)
  have hgood : ctx.verifyCellKzgProofBatch sha256 [toCompressed (0 : Fr)] [5] [cellOf (Polynomial.C 0) 5] [toCompressed (0 : Fr)] = .ok () := by
    rw [C06_single (setup 7) .no 7 1 1 (powersOfTau 7) nondegenerate ctx hctx sha256 _ 5 _ _ hl hl 0 0 (Polynomial.C 0) hd
      (by norm_num) h64 ((isCell_iff _ 5 _).2 rfl) hd, Polynomial.eval_C]
    simp
  have lc : (cellOf (Polynomial.C 0) 5).length = 2048 := cellOf_length _ _
  generalize cellOf (Polynomial.C 0) 5 = cell at hgood lc
  generalize toCompressed (0 : Fr) = z at hgood hl
  let h : JHeap := ⟨fun r => if r = 0 then byteArrayFromSlice z else byteArrayFromSlice cell, fun _ => [5], fun r => [some r]⟩
  have hH : FixedLengths (fun _ => h) := ⟨fun _ _ => rfl, fun _ _ => rfl, fun _ _ => rfl⟩
  refine ⟨ctx, h, hH, ?_⟩
  obtain ⟨a, b, c, d, ha, hb, hc, hd, e⟩ := C81_verify vm [] sha256 (fun _ => h) hH ctx (some 0) (some 0) (some 1) (some 0)
  obtain ⟨-, u1, u2⟩ := C81_unchanged h
  obtain rfl := (u2 _ _).1 ha
  obtain rfl := (u1 _ _).1 hb
  obtain rfl := (u2 _ _).1 hc
  obtain rfl := (u2 _ _).1 hd
  rw [e]
  refine Jni.returned_of vm hvm sha256 ctx (.verifyCellKZGProofBatch _ _ _ _) true ?_
  have hs : ∀ (n : Nat) (x : List UInt8), x.length = n → Sized n [byteArrayFromSlice x] := by
    intro n x hx y hy
    rw [List.mem_singleton.1 hy, byteArrayFromSlice, List.length_map, hx]
  exact ((C34_java_verify_cell_kzg_proof_batch (Jni.proc ctx) [] sha256 ⟨16⟩ ctx (by decide) (by simp [Jni.proc]) [byteArrayFromSlice z]
    [byteArrayFromSlice cell] [byteArrayFromSlice z] [5] [z] [cell] [z] [5] (.cons (javaBytes_toInt8 _) .nil)
    (.cons (javaBytes_toInt8 _) .nil) (.cons (javaBytes_toInt8 _) .nil) (.cons (by decide) .nil) _ rfl _ rfl).2.2.2 (hs _ _ lc) (hs _ _ hl)
    (hs _ _ hl)).1 hgood

/-- C81: a number that is read in two halves: 1 and 2 ^ 32 are written in turns, and 0 is seen -/
example : halves 1 4294967296 = 0 := by decide +kernel

end Verif
