import Verif.Model.JavaCellsAndProofs
import Verif.Props.Bindings

set_option linter.unusedSectionVars false

/-! C59: the class `CellsAndProofs` of the Java bindings. -/
namespace Verif
open Spec (JavaByte JavaBytes javaListHash javaArrayHash)

namespace JResult

theorem ofNat_add (a b : Nat) : Int32.ofNat a + Int32.ofNat b = Int32.ofNat (a + b) := by
  apply Int32.toBitVec.inj
  simp

/-- the sum of the lengths, as an `int` -/
theorem sumOfLengths_some (a : List (List Int8)) :
    sumOfLengths (some (a.map some)) = .ok (Int32.ofNat (a.map List.length).sum) := by
  have h : ∀ (l : List (List Int8)) (n : Nat), (l.map some).foldlM
      (fun (sum : Int32) (x : JByteArray) => do let x ← deref x; pure (sum + Int32.ofNat x.length)) (Int32.ofNat n) =
        (.ok (Int32.ofNat (n + (l.map List.length).sum)) : Outcome JRuntimeException Int32) := by
    intro l
    induction l with
    | nil => intro n; simp
    | cons x l ih =>
      intro n
      rw [List.map_cons, List.foldlM_cons]
      show List.foldlM _ (Int32.ofNat n + Int32.ofNat x.length) _ = _
      rw [ofNat_add, ih, List.map_cons, List.sum_cons, Nat.add_assoc]
  have := h a 0
  simpa [sumOfLengths, deref] using this

theorem sumOfLengths_null {a : JObjectArray} (h : a = none ∨ ∃ l, a = some l ∧ none ∈ l) :
    sumOfLengths a = .err .nullPointer := by
  rcases h with rfl | ⟨l, rfl, hl⟩
  · rfl
  · have h : ∀ (l : List JByteArray) (s : Int32), none ∈ l → l.foldlM
        (fun (sum : Int32) (x : JByteArray) => do let x ← deref x; pure (sum + Int32.ofNat x.length)) s =
          (.err .nullPointer : Outcome JRuntimeException Int32) := by
      intro l
      induction l with
      | nil => intro s h; cases h
      | cons x l ih =>
        intro s h
        cases x with
        | none => rfl
        | some x =>
          rw [List.foldlM_cons]
          exact ih _ (by simpa using h)
    exact h l _ hl

theorem puts_fit (a : List (List Int8)) (b : ByteBuffer) (h : b.bytes.length + (a.map List.length).sum ≤ b.capacity) :
    (a.map some).foldlM ByteBuffer.put b = .ok ⟨b.capacity, b.bytes ++ a.flatten⟩ := by
  induction a generalizing b with
  | nil => simp
  | cons x a ih =>
    rw [List.map_cons, List.sum_cons] at h
    have : ByteBuffer.put b (some x) = .ok ⟨b.capacity, b.bytes ++ x⟩ := by
      simp only [ByteBuffer.put, deref, Outcome.ok_bind]
      rw [if_neg (by omega)]; rfl
    rw [List.map_cons, List.foldlM_cons, this, Outcome.ok_bind, ih _ (by simp only [List.length_append]; omega)]
    simp

/-- too much for the buffer: an exception -/
theorem puts_overflow (a : List (List Int8)) (b : ByteBuffer) (hb : b.bytes.length ≤ b.capacity)
    (h : b.capacity < b.bytes.length + (a.map List.length).sum) :
    (a.map some).foldlM ByteBuffer.put b = .err .bufferOverflow := by
  induction a generalizing b with
  | nil => simp at h; omega
  | cons x a ih =>
    rw [List.map_cons, List.sum_cons] at h
    rw [List.map_cons, List.foldlM_cons]
    by_cases hx : b.capacity - b.bytes.length < x.length
    · have : ByteBuffer.put b (some x) = .err .bufferOverflow := by
        simp only [ByteBuffer.put, deref, Outcome.ok_bind]
        rw [if_pos hx]
      rw [this]; rfl
    · have : ByteBuffer.put b (some x) = .ok ⟨b.capacity, b.bytes ++ x⟩ := by
        simp only [ByteBuffer.put, deref, Outcome.ok_bind]
        rw [if_neg hx]; rfl
      rw [this, Outcome.ok_bind]
      exact ih _ (by simp only [List.length_append]; omega) (by simp only [List.length_append]; omega)

theorem arrayEquals_iff (a b : JByteArray) : JCellsAndProofs.arrayEquals a b = true ↔ a = b := by
  have h : ∀ a b : List Int8, a.length = b.length → ((List.zip a b).all (fun p => p.1 == p.2) = true ↔ a = b) := by
    intro a
    induction a with
    | nil => intro b hb; cases b with
      | nil => simp
      | cons y b => simp at hb
    | cons x a ih =>
      intro b hb
      cases b with
      | nil => simp at hb
      | cons y b =>
        have := ih b (by simpa using hb)
        simp only [List.zip_cons_cons, List.all_cons, Bool.and_eq_true, this, beq_iff_eq, List.cons.injEq]
  cases a <;> cases b
  · simp [JCellsAndProofs.arrayEquals]
  · simp [JCellsAndProofs.arrayEquals]
  · simp [JCellsAndProofs.arrayEquals]
  · rename_i a b
    simp only [JCellsAndProofs.arrayEquals, Option.some.injEq]
    split_ifs with hl
    · simp only [false_iff]
      rintro rfl
      exact hl rfl
    · exact h a b (not_not.1 hl)

theorem deepEquals_iff (a b : JObjectArray) : JCellsAndProofs.deepEquals a b = true ↔ a = b := by
  have h : ∀ a b : List JByteArray, a.length = b.length →
      ((List.zip a b).all (fun p => JCellsAndProofs.arrayEquals p.1 p.2) = true ↔ a = b) := by
    intro a
    induction a with
    | nil => intro b hb; cases b with
      | nil => simp
      | cons y b => simp at hb
    | cons x a ih =>
      intro b hb
      cases b with
      | nil => simp at hb
      | cons y b =>
        have := ih b (by simpa using hb)
        simp only [List.zip_cons_cons, List.all_cons, Bool.and_eq_true, this, arrayEquals_iff, List.cons.injEq]
  cases a <;> cases b
  · simp [JCellsAndProofs.deepEquals]
  · simp [JCellsAndProofs.deepEquals]
  · simp [JCellsAndProofs.deepEquals]
  · rename_i a b
    simp only [JCellsAndProofs.deepEquals, Option.some.injEq]
    split_ifs with hl
    · simp only [false_iff]
      rintro rfl
      exact hl rfl
    · exact h a b (not_not.1 hl)

theorem javaListHash_append (l : List Int) (x : Int) : javaListHash (l ++ [x]) = 31 * javaListHash l + x := by
  unfold javaListHash
  have h : ∀ (m : List Int) (n : Nat) (hn : m.length = n), (∑ i : Fin m.length, m[i] * 31 ^ (m.length - 1 - i.val) : Int) =
      ∑ i : Fin n, m[i.val]'(hn ▸ i.2) * 31 ^ (n - 1 - i.val) := by
    rintro m n rfl; rfl
  rw [h (l ++ [x]) (l.length + 1) (by simp), Fin.sum_univ_castSucc, mul_add, Finset.mul_sum, add_assoc]
  congr 1
  · simp [pow_succ, mul_comm]
  · congr 1
    · apply Finset.sum_congr rfl
      intro i _
      have hi := i.2
      simp only [Fin.val_castSucc, List.getElem_append_left hi, Fin.getElem_fin]
      have : l.length + 1 - 1 - i.val = (l.length - 1 - i.val) + 1 := by omega
      rw [this, pow_succ]; ring
    · simp

theorem toInt_step (r x : Int32) (n m : Int) (hr : r.toInt ≡ n [ZMOD 2 ^ 32]) (hx : x.toInt ≡ m [ZMOD 2 ^ 32]) :
    (31 * r + x).toInt ≡ 31 * n + m [ZMOD 2 ^ 32] := by
  have hb : ∀ a : Int, a.bmod (2 ^ 32) ≡ a [ZMOD 2 ^ 32] := fun a => by
    have := @Int.bmod_emod a (2 ^ 32)
    exact_mod_cast this
  rw [Int32.toInt_add, Int32.toInt_mul]
  refine (hb _).trans (Int.ModEq.add ((hb _).trans ?_) hx)
  exact Int.ModEq.mul (by decide) hr

theorem foldl_hash {α : Type} (f : α → Int32) (g : α → Int) (hfg : ∀ a, (f a).toInt ≡ g a [ZMOD 2 ^ 32]) (l : List α) :
    (l.foldl (fun result x => 31 * result + f x) 1).toInt ≡ javaListHash (l.map g) [ZMOD 2 ^ 32] := by
  induction l using List.reverseRecOn with
  | nil => rw [List.map_nil]; simp [javaListHash]
  | append_singleton l a ih =>
    rw [List.foldl_append, List.map_append, List.map_singleton, javaListHash_append]
    exact toInt_step _ _ _ _ ih (hfg a)
end JResult
open JResult

/-- C59: `toBytes` returns the cells one after the other and then the proofs if this has less than 2^31 bytes, and throws otherwise,
although it computes the length in wrapping arithmetic; with a null array it throws as well. It never returns anything else. -/
theorem C59_to_bytes (cells proofs : List (List Int8)) :
    (cells.flatten.length + proofs.flatten.length < 2 ^ 31 →
      (⟨some (cells.map some), some (proofs.map some)⟩ : JCellsAndProofs).toBytes = .ok (cells.flatten ++ proofs.flatten)) ∧
    (2 ^ 31 ≤ cells.flatten.length + proofs.flatten.length →
      ∃ e, (⟨some (cells.map some), some (proofs.map some)⟩ : JCellsAndProofs).toBytes = .err e) ∧
    ∀ o : JCellsAndProofs, (∃ a, (a = o.cells ∨ a = o.proofs) ∧ (a = none ∨ ∃ l, a = some l ∧ none ∈ l)) →
      o.toBytes = .err .nullPointer := by
  rw [List.length_flatten, List.length_flatten]
  have hunf : (⟨some (cells.map some), some (proofs.map some)⟩ : JCellsAndProofs).toBytes =
      (do let buffer ← ByteBuffer.allocate (Int32.ofNat ((cells.map List.length).sum + (proofs.map List.length).sum))
          let buffer ← (cells.map some).foldlM ByteBuffer.put buffer
          let buffer ← (proofs.map some).foldlM ByteBuffer.put buffer
          pure buffer.array) := by
    unfold JCellsAndProofs.toBytes
    simp only [sumOfLengths_some, Outcome.ok_bind, ofNat_add, deref]
  refine ⟨?_, ?_, ?_⟩
  · intro h
    have ht : (Int32.ofNat ((cells.map List.length).sum + (proofs.map List.length).sum)).toInt =
        (((cells.map List.length).sum + (proofs.map List.length).sum : Nat) : Int) := Int32.toInt_ofNat_of_lt h
    rw [hunf, ByteBuffer.allocate, ht, if_neg (by omega), Outcome.ok_bind, Int.toNat_natCast, puts_fit _ _ (by simp),
      Outcome.ok_bind, puts_fit _ _ (by simp [List.length_flatten])]
    simp [ByteBuffer.array, List.length_flatten]
  · intro h
    rw [hunf]
    generalize hn : (Int32.ofNat ((cells.map List.length).sum + (proofs.map List.length).sum)).toInt = n
    have hlt : n < 2 ^ 31 := by
      rw [← hn]
      exact Int32.toInt_lt _
    rw [ByteBuffer.allocate, hn]
    by_cases h0 : n < 0
    · rw [if_pos h0]; exact ⟨_, rfl⟩
    · rw [if_neg h0, Outcome.ok_bind]
      by_cases hc : (cells.map List.length).sum ≤ n.toNat
      · rw [puts_fit _ _ (by simpa using hc), Outcome.ok_bind, puts_overflow]
        · exact ⟨_, rfl⟩
        · simpa [List.length_flatten] using hc
        · simp only [List.nil_append, List.length_flatten]
          omega
      · rw [puts_overflow _ _ (by simp) (by simp only [List.length_nil]; omega)]
        exact ⟨_, rfl⟩
  · rintro ⟨c, p⟩ ⟨a, ha, hnull⟩
    unfold JCellsAndProofs.toBytes
    rcases ha with rfl | rfl
    · rw [sumOfLengths_null hnull]; rfl
    · by_cases hc : c = none ∨ ∃ l, c = some l ∧ none ∈ l
      · rw [sumOfLengths_null hc]; rfl
      · obtain ⟨l, rfl⟩ : ∃ l : List (List Int8), c = some (l.map some) := by
          cases c with
          | none => exact absurd (.inl rfl) hc
          | some l =>
            have hl : none ∉ l := fun h => hc (.inr ⟨l, rfl, h⟩)
            refine ⟨l.map (fun x => x.getD []), ?_⟩
            rw [List.map_map]
            congr 1
            conv_lhs => rw [← List.map_id l]
            apply List.map_congr_left
            intro x hx
            cases x with
            | none => exact absurd hx hl
            | some x => rfl
        simp only [sumOfLengths_some, Outcome.ok_bind]
        rw [sumOfLengths_null hnull]; rfl

/-- C59: `equals` compares contents, is false for null and other classes, and equal objects have equal hash codes. -/
theorem C59_equals (o : JCellsAndProofs) :
    o.equals .null = false ∧ o.equals .otherClass = false ∧
    ∀ (o' : JCellsAndProofs) (same : Bool), (same = true → o' = o) →
      (o.equals (.cellsAndProofs same o') = true ↔ o.cells = o'.cells ∧ o.proofs = o'.proofs) ∧
      (o.equals (.cellsAndProofs same o') = true → o.hashCode = o'.hashCode) := by
  refine ⟨rfl, rfl, ?_⟩
  intro o' same hs
  have h : o.equals (.cellsAndProofs same o') = true ↔ o.cells = o'.cells ∧ o.proofs = o'.proofs := by
    cases same with
    | true => simp [JCellsAndProofs.equals, hs rfl]
    | false => simp [JCellsAndProofs.equals, deepEquals_iff]
  refine ⟨h, fun he => ?_⟩
  obtain ⟨h1, h2⟩ := h.1 he
  unfold JCellsAndProofs.hashCode
  rw [h1, h2]

/-- C59: the hash code is, modulo `2 ^ 32`, the documented one of the list of the two arrays: it depends on every byte. -/
theorem C59_hash_code (o : JCellsAndProofs) :
    o.hashCode.toInt ≡ javaListHash [javaArrayHash (javaArrayHash Int8.toInt) o.cells,
      javaArrayHash (javaArrayHash Int8.toInt) o.proofs] [ZMOD 2 ^ 32] := by
  have h1 : ∀ a, (JCellsAndProofs.arrayHashCode a).toInt ≡ javaArrayHash Int8.toInt a [ZMOD 2 ^ 32] := by
    rintro (_ | a)
    · rfl
    · exact foldl_hash _ _ (fun x => by rw [Int8.toInt_toInt32]) a
  have h2 : ∀ a, (JCellsAndProofs.deepHashCode a).toInt ≡ javaArrayHash (javaArrayHash Int8.toInt) a [ZMOD 2 ^ 32] := by
    rintro (_ | a)
    · rfl
    · exact foldl_hash _ _ h1 a
  rw [show [javaArrayHash (javaArrayHash Int8.toInt) o.cells, javaArrayHash (javaArrayHash Int8.toInt) o.proofs] =
    ([] ++ [javaArrayHash (javaArrayHash Int8.toInt) o.cells]) ++ [javaArrayHash (javaArrayHash Int8.toInt) o.proofs] from rfl,
    javaListHash_append, javaListHash_append]
  exact toInt_step _ _ _ _ (toInt_step _ _ _ _ (by simp [javaListHash]) (h2 _)) (h2 _)

section
variable {K G1 G2 GT : Type} [Field K] [DecidableEq K] [AddCommGroup G1] [Module Fr G1] [DecidableEq G1]
  [Curve K G1] [PointCodec G1] [AddCommGroup G2] [Module Fr G2] [AddCommGroup GT] [DecidableEq GT]
  [Pairing G1 G2 GT]
variable (s : CState (DASContext K G1 G2)) (jniDebug : List UInt8)

/-- C59: what `computeCellsAndKZGProofs(blob).toBytes()` gives in Java is, byte for byte, the 128 cells and the 128 proofs of the Rust
library, 268288 bytes. -/
theorem C59_library [LawfulPointCodec G1 48] (self : LibEthKZG) (ctx : DASContext K G1 G2) (h0 : self.contextPtr ≠ 0)
    (hctx : s.ctxs self.contextPtr = some ctx) (blob : List Int8) (blobBytes : List UInt8) (hb : JavaBytes blob blobBytes)
    (hl : blob.length = 131072) (cells proofs : List (List UInt8))
    (hlib : ctx.computeCellsAndKzgProofs blobBytes = .ok (cells, proofs)) :
    ∃ r b, self.computeCellsAndKZGProofs jniDebug (some blob) s = .ok r s ∧
      (JCellsAndProofs.ofArrays r).toBytes = .ok b ∧ JavaBytes b (cells.flatten ++ proofs.flatten) ∧ b.length = 268288 := by
  obtain ⟨c, p, hr, hc, hp⟩ := ((C34_java_compute_cells_and_kzg_proofs s jniDebug self ctx h0 hctx blob blobBytes hb).2 hl).1
    cells proofs hlib
  obtain ⟨n1, n2, n3, n4⟩ := computeCellsAndKzgProofs_sizes hlib
  rw [forall₂_javaBytes_iff] at hc hp
  have hlen : ∀ (l : List (List UInt8)) (n : Nat), (∀ x ∈ l, x.length = n) → l.flatten.length = n * l.length := by
    intro l n h
    rw [List.length_flatten, List.map_congr_left h, List.map_const', List.sum_replicate_nat, Nat.mul_comm]
  have hm : ∀ l : List (List Int8), l.flatten.length = (l.map (fun x => x.map Int8.toUInt8)).flatten.length := by
    intro l
    rw [List.length_flatten, List.length_flatten, List.map_map]
    congr 1
    apply List.map_congr_left
    intro x hx
    simp
  have hc' : c.flatten.length = 262144 := by rw [hm, hc, hlen _ _ n2, n1]
  have hp' : p.flatten.length = 6144 := by rw [hm, hp, hlen _ _ n4, n3]
  refine ⟨(c, p), c.flatten ++ p.flatten, hr, ?_, ?_, ?_⟩
  · exact (C59_to_bytes c p).1 (by rw [hc', hp']; norm_num)
  · rw [javaBytes_iff, List.map_append, List.map_flatten, List.map_flatten, ← hc, ← hp]
  · rw [List.length_append, hc', hp']

end

/-! ### The hypotheses can be met -/

/-- C59: two cells and a proof -/
example : (⟨some [some [1, 2], some [-3]], some [some [4]]⟩ : JCellsAndProofs).toBytes = .ok [1, 2, -3, 4] := by decide

/-- C59: two objects with the same contents -/
example : (⟨some [some [1, 2]], some [none]⟩ : JCellsAndProofs).equals
    (.cellsAndProofs false ⟨some [some [1, 2]], some [none]⟩) = true := by decide

/-- C59: different contents may have the same hash code, which `equals` tells apart -/
example : (⟨some [some [0, 31]], none⟩ : JCellsAndProofs).hashCode = (⟨some [some [1, 0]], none⟩ : JCellsAndProofs).hashCode ∧
    (⟨some [some [0, 31]], none⟩ : JCellsAndProofs).equals (.cellsAndProofs false ⟨some [some [1, 0]], none⟩) = false := by decide

/-- C59: one cell `[1, -2]` and no proofs: `31 · (31 + (31 + (31² + 31 - 2))) + 1` -/
example : (⟨some [some [1, -2]], some []⟩ : JCellsAndProofs).hashCode = 31 * (31 + (31 + (961 + 31 - 2))) + 1 ∧
    (⟨some [some [1, -2]], some []⟩ : JCellsAndProofs).hashCode ≠ (⟨some [some [1, -3]], some []⟩ : JCellsAndProofs).hashCode := by
  decide

open Toy in
/-- C59: a Java object with a live context and the blob of a polynomial: the call and `toBytes` succeed. -/
example : ∃ (ctx : DASContext Fr Fr Fr) (r : _) (b : List Int8),
    LibEthKZG.computeCellsAndKZGProofs [] ⟨16⟩ (some (byteArrayFromSlice Toy.blob))
      (⟨fun _ => none, fun a => if a = 16 then some ctx else none, fun _ => none⟩ : CState (DASContext Fr Fr Fr)) =
        .ok r ⟨fun _ => none, fun a => if a = 16 then some ctx else none, fun _ => none⟩ ∧
      (JCellsAndProofs.ofArrays r).toBytes = .ok b ∧ b.length = 268288 := by
  obtain ⟨ctx, hctx⟩ := context 7
  obtain ⟨cells, proofs, h, -⟩ := C04_proofs (setup 7) 7 1 1 (powersOfTau 7) ctx hctx Toy.blob Toy.poly Toy.blob_poly
  obtain ⟨r, b, h1, h2, -, h4⟩ := C59_library (⟨fun _ => none, fun a => if a = 16 then some ctx else none, fun _ => none⟩) []
    ⟨16⟩ ctx (by decide) (by simp) (byteArrayFromSlice Toy.blob) Toy.blob (javaBytes_toInt8 _)
    (by simp [byteArrayFromSlice, Toy.blob_poly.2.1]) cells proofs h
  exact ⟨ctx, r, b, h1, h2, h4⟩

end Verif
