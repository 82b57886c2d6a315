import Verif.Lemmas.Verifier
import Verif.Lemmas.Recovery
import Verif.Spec.Verify

set_option linter.unusedSectionVars false

/-! `verify_cell_kzg_proof_batch`: deduplication, validation, decoding, equation. -/
namespace Verif
open Polynomial Finset

/-! ### deduplication -/
section
variable {α : Type} [DecidableEq α]

/-- One iteration of the loop of `deduplicate_with_indices`. -/
def dedupStep (st : List α × List (α × Nat) × List Nat) (item : α) : List α × List (α × Nat) × List Nat :=
  match st.2.1.lookup item with
  | some index => (st.1, st.2.1, st.2.2 ++ [index])
  | none => (st.1 ++ [item], (item, st.1.length) :: st.2.1, st.2.2 ++ [st.1.length])

theorem dedup_eq_foldl (input : List α) :
    deduplicateWithIndices input = ((input.foldl dedupStep ([], [], [])).1, (input.foldl dedupStep ([], [], [])).2.2) := rfl

/-- Loop invariant after reading `pre`. -/
structure DedupInv (pre : List α) (st : List α × List (α × Nat) × List Nat) : Prop where
  lookup : ∀ x, st.2.1.lookup x = if x ∈ st.1 then some (st.1.idxOf x) else none
  eq : st.1 = pre.eraseDups
  mem : ∀ x, x ∈ st.1 ↔ x ∈ pre
  order : st.1.Pairwise (fun a b => pre.idxOf a < pre.idxOf b)
  len : st.2.2.length = pre.length
  idx : ∀ i, (h : i < pre.length) → ∃ j, st.2.2[i]? = some j ∧ j < st.1.length ∧ st.1[j]? = some pre[i]

theorem dedupInv_step {pre : List α} {st : List α × List (α × Nat) × List Nat} (h : DedupInv pre st) (x : α) :
    DedupInv (pre ++ [x]) (dedupStep st x) := by
  have hnd : st.1.Nodup := h.order.imp (fun hab e => by rw [e] at hab; exact lt_irrefl _ hab)
  unfold dedupStep
  by_cases hx : x ∈ st.1
  · have hl : st.2.1.lookup x = some (st.1.idxOf x) := by rw [h.lookup, if_pos hx]
    rw [hl]
    simp only
    have hp : x ∈ pre := (h.mem x).1 hx
    refine ⟨h.lookup, ?_, ?_, ?_, by simp [h.len], ?_⟩
    · rw [List.eraseDups_append, ← h.eq]
      simp [List.removeAll, hp]
    · intro y
      rw [h.mem, List.mem_append, List.mem_singleton]
      constructor
      · exact Or.inl
      · rintro (h' | rfl)
        · exact h'
        · exact hp
    · refine List.Pairwise.imp_of_mem ?_ h.order
      intro a b ha hb hab
      rw [List.idxOf_append_of_mem ((h.mem a).1 ha), List.idxOf_append_of_mem ((h.mem b).1 hb)]
      exact hab
    · intro i hi
      by_cases hip : i < pre.length
      · obtain ⟨j, h1, h2, h3⟩ := h.idx i hip
        refine ⟨j, ?_, h2, ?_⟩
        · rw [List.getElem?_append_left (by rw [h.len]; exact hip)]; exact h1
        · rw [h3, List.getElem_append_left hip]
      · have : i = pre.length := by simp at hi; omega
        subst this
        have hlt : st.1.idxOf x < st.1.length := List.idxOf_lt_length_iff.2 hx
        refine ⟨st.1.idxOf x, ?_, hlt, ?_⟩
        · rw [List.getElem?_append_right (by rw [h.len]), h.len]; simp
        · rw [List.getElem?_eq_getElem hlt, List.getElem_idxOf]; simp
  · have hl : st.2.1.lookup x = none := by rw [h.lookup, if_neg hx]
    rw [hl]
    simp only
    have hp : x ∉ pre := fun h' => hx ((h.mem x).2 h')
    refine ⟨?_, ?_, ?_, ?_, by simp [h.len], ?_⟩
    rotate_left
    · rw [List.eraseDups_append, ← h.eq]
      simp [List.removeAll, hp, List.eraseDups_cons]
    rotate_left 3
    · intro y
      rw [List.lookup_cons]
      by_cases hyx : y = x
      · subst hyx
        simp [List.idxOf_append_of_notMem hx]
      · have : (y == x) = false := by simpa using hyx
        rw [this]
        simp only
        rw [h.lookup]
        by_cases hy : y ∈ st.1
        · rw [if_pos hy, if_pos (by simp [hy]), List.idxOf_append_of_mem hy]
        · rw [if_neg hy, if_neg (by simp [hy, hyx])]
    · intro y
      simp [h.mem]
    · rw [List.pairwise_append]
      refine ⟨?_, by simp, ?_⟩
      · refine List.Pairwise.imp_of_mem ?_ h.order
        intro a b ha hb hab
        rw [List.idxOf_append_of_mem ((h.mem a).1 ha), List.idxOf_append_of_mem ((h.mem b).1 hb)]
        exact hab
      · intro a ha b hb
        rw [List.mem_singleton] at hb
        subst hb
        have hap := (h.mem a).1 ha
        rw [List.idxOf_append_of_mem hap, List.idxOf_append_of_notMem hp]
        have := List.idxOf_lt_length_iff.2 hap
        omega
    · intro i hi
      by_cases hip : i < pre.length
      · obtain ⟨j, h1, h2, h3⟩ := h.idx i hip
        refine ⟨j, ?_, by simp; omega, ?_⟩
        · rw [List.getElem?_append_left (by rw [h.len]; exact hip)]; exact h1
        · rw [List.getElem?_append_left h2, h3, List.getElem_append_left hip]
      · have : i = pre.length := by simp at hi; omega
        subst this
        refine ⟨st.1.length, ?_, by simp, ?_⟩
        · rw [List.getElem?_append_right (by rw [h.len]), h.len]; simp
        · simp

theorem dedup_spec (input : List α) :
    ∃ st, deduplicateWithIndices input = (st.1, st.2.2) ∧ DedupInv input st := by
  refine ⟨input.foldl dedupStep ([], [], []), dedup_eq_foldl input, ?_⟩
  have key : ∀ (l pre : List α) st, DedupInv pre st → DedupInv (pre ++ l) (l.foldl dedupStep st) := by
    intro l
    induction l with
    | nil => intro pre st h; simpa using h
    | cons x l ih =>
      intro pre st h
      have := ih (pre ++ [x]) _ (dedupInv_step h x)
      simpa using this
  have := key input [] ([], [], []) ⟨by simp, by simp, by simp, by simp, by simp, by simp⟩
  simpa using this


theorem dedup_eq (input : List α) :
    deduplicateWithIndices input = (input.eraseDups, input.map (fun x => input.eraseDups.idxOf x)) := by
  obtain ⟨st, h, inv⟩ := dedup_spec input
  rw [h, inv.eq]
  congr 1
  have hnd : st.1.Nodup := inv.order.imp (fun hab e => by rw [e] at hab; exact lt_irrefl _ hab)
  refine List.ext_getElem (by simp [inv.len]) ?_
  intro i h1 h2
  have hi : i < input.length := by simpa using h2
  obtain ⟨j, hj, hjl, hje⟩ := inv.idx i hi
  rw [List.getElem?_eq_getElem h1] at hj
  rw [List.getElem_map, Option.some.inj hj]
  show j = List.idxOf input[i] input.eraseDups
  have he := inv.eq
  rw [List.getElem?_eq_getElem hjl] at hje
  have := List.get_idxOf hnd ⟨j, hjl⟩
  simp only [List.get_eq_getElem] at this
  rw [Option.some.inj hje] at this
  exact this.symm.trans (congrArg (List.idxOf input[i]) he)

theorem eraseDups_order (input : List α) : input.eraseDups.Pairwise (fun a b => input.idxOf a < input.idxOf b) := by
  obtain ⟨st, -, inv⟩ := dedup_spec input
  rw [← inv.eq]; exact inv.order

theorem mem_eraseDups' (input : List α) (x : α) : x ∈ input.eraseDups ↔ x ∈ input := by
  obtain ⟨st, -, inv⟩ := dedup_spec input
  rw [← inv.eq]; exact inv.mem x

/-- The first bad entry of the list without repetitions is the first bad entry of the list. -/
theorem eraseDups_split {input pre post : List α} {b : α} (hs : input = pre ++ b :: post) (Q : α → Prop)
    (hpre : ∀ x ∈ pre, Q x) (hb : ¬ Q b) :
    ∃ pre' post', input.eraseDups = pre' ++ b :: post' ∧ ∀ x ∈ pre', Q x := by
  have hmem : b ∈ input.eraseDups := (mem_eraseDups' input b).2 (by rw [hs]; simp)
  obtain ⟨pre', post', hsp⟩ := List.append_of_mem hmem
  refine ⟨pre', post', hsp, ?_⟩
  intro x hx
  have hord := eraseDups_order input
  rw [hsp, List.pairwise_append] at hord
  have hlt := hord.2.2 x hx b (by simp)
  have hbn : b ∉ pre := fun h => hb (hpre b h)
  have hib : input.idxOf b = pre.length := by
    rw [hs, List.idxOf_append_of_notMem hbn]; simp
  rw [hib, hs] at hlt
  have hxp : x ∈ pre := by
    by_contra hn
    rw [List.idxOf_append_of_notMem hn] at hlt
    omega
  exact hpre x hxp

end

theorem beq_bytes : (instBEqOfDecidableEq : BEq (List UInt8)) = List.instBEq := lawful_beq_subsingleton _ _

theorem dedup_bytes (input : List (List UInt8)) :
    deduplicateWithIndices input = (input.eraseDups, input.map (fun x => input.eraseDups.idxOf x)) := by
  have := dedup_eq input
  rwa [beq_bytes] at this

theorem mem_eraseDups_bytes (input : List (List UInt8)) (x : List UInt8) : x ∈ input.eraseDups ↔ x ∈ input := by
  have := mem_eraseDups' input x
  rwa [beq_bytes] at this

theorem eraseDups_split_bytes {input pre post : List (List UInt8)} {b : List UInt8} (hs : input = pre ++ b :: post)
    (Q : List UInt8 → Prop) (hpre : ∀ x ∈ pre, Q x) (hb : ¬ Q b) :
    ∃ pre' post', input.eraseDups = pre' ++ b :: post' ∧ ∀ x ∈ pre', Q x := by
  have := eraseDups_split hs Q hpre hb
  rwa [beq_bytes] at this

/-! ### decoding -/
section
variable {G1 : Type} [PointCodec G1]

theorem deserializeCompressedG1_some {b : List UInt8} (hb : b.length = 48) {p : G1} (h : fromCompressed b = some p) :
    (deserializeCompressedG1 b : SerOutcome G1) = .ok p := by
  unfold deserializeCompressedG1
  rw [if_neg (by omega), h]

theorem deserializeCompressedG1_none {b : List UInt8} (hb : b.length = 48) (h : (fromCompressed b : Option G1) = none) :
    (deserializeCompressedG1 b : SerOutcome G1) = .err (.CouldNotDeserializeG1Point b) := by
  unfold deserializeCompressedG1
  rw [if_neg (by omega), h]

theorem points_ok {l : List (List UInt8)} {pts : List G1} (hl : ∀ b ∈ l, b.length = 48)
    (h : List.Forall₂ (fun b p => fromCompressed b = some p) l pts) :
    (deserializeCompressedG1Points l : SerOutcome (List G1)) = .ok pts := by
  unfold deserializeCompressedG1Points
  rw [mapM_eq_ok_iff]
  induction h with
  | nil => exact .nil
  | cons hr _ ih =>
    exact .cons (deserializeCompressedG1_some (hl _ (by simp)) hr) (ih (fun b hb => hl b (by simp [hb])))

theorem points_err {pre post : List (List UInt8)} {b : List UInt8} (hl : ∀ c ∈ pre ++ b :: post, c.length = 48)
    (hpre : ∀ c ∈ pre, ∃ p : G1, fromCompressed c = some p) (hb : (fromCompressed b : Option G1) = none) :
    (deserializeCompressedG1Points (pre ++ b :: post) : SerOutcome (List G1)) =
      .err (.CouldNotDeserializeG1Point b) := by
  unfold deserializeCompressedG1Points
  apply mapM_err
  · intro c hc
    obtain ⟨p, hp⟩ := hpre c hc
    exact ⟨p, deserializeCompressedG1_some (hl c (by simp [hc])) hp⟩
  · exact deserializeCompressedG1_none (hl b (by simp)) hb

theorem exists_points {l : List (List UInt8)} (h : ∀ b ∈ l, ∃ p : G1, fromCompressed b = some p) :
    ∃ pts : List G1, List.Forall₂ (fun b p => fromCompressed b = some p) l pts := by
  induction l with
  | nil => exact ⟨[], .nil⟩
  | cons b l ih =>
    obtain ⟨p, hp⟩ := h b (by simp)
    obtain ⟨pts, hpts⟩ := ih (fun b hb => h b (by simp [hb]))
    exact ⟨p :: pts, .cons hp hpts⟩

theorem split_points (G1 : Type) [PointCodec G1] (l : List (List UInt8)) : (∀ b ∈ l, ∃ p : G1, fromCompressed b = some p) ∨
    ∃ pre b post, l = pre ++ b :: post ∧ (∀ c ∈ pre, ∃ p : G1, fromCompressed c = some p) ∧
      (fromCompressed b : Option G1) = none := by
  induction l with
  | nil => left; simp
  | cons a l ih =>
    cases ha : (fromCompressed a : Option G1) with
    | none => right; exact ⟨[], a, l, rfl, by simp, ha⟩
    | some p =>
      rcases ih with h | ⟨pre, b, post, rfl, hpre, hb⟩
      · left
        intro b hb
        rcases List.mem_cons.1 hb with rfl | hb
        · exact ⟨p, ha⟩
        · exact h b hb
      · right
        refine ⟨a :: pre, b, post, rfl, ?_, hb⟩
        intro c hc
        rcases List.mem_cons.1 hc with rfl | hc
        · exact ⟨p, ha⟩
        · exact hpre c hc

end

/-! ### validation -/

theorem validateVerify_lengths {commitments : List (List UInt8)} {inds : List Nat} {cells proofs : List (List UInt8)}
    (h : ¬ (commitments.length = inds.length ∧ commitments.length = cells.length ∧ commitments.length = proofs.length)) :
    validateVerify commitments.eraseDups (commitments.map (fun x => commitments.eraseDups.idxOf x)) inds cells proofs =
      .err (.BatchVerificationInputsMustHaveSameLength commitments.length inds.length cells.length proofs.length) := by
  unfold validateVerify
  simp only [List.length_map]
  rw [if_pos]
  simp only [Bool.and_eq_true, beq_iff_eq]
  tauto

theorem rows_lt (commitments : List (List UInt8)) :
    ∀ i ∈ commitments.map (fun x => commitments.eraseDups.idxOf x), i < commitments.eraseDups.length := by
  intro i hi
  obtain ⟨x, hx, rfl⟩ := List.mem_map.1 hi
  exact List.idxOf_lt_length_iff.2 ((mem_eraseDups_bytes _ _).2 hx)

theorem validateVerify_tail {commitments : List (List UInt8)} {inds : List Nat} {cells proofs : List (List UInt8)}
    (h : commitments.length = inds.length ∧ commitments.length = cells.length ∧ commitments.length = proofs.length) :
    validateVerify commitments.eraseDups (commitments.map (fun x => commitments.eraseDups.idxOf x)) inds cells proofs =
      match inds.find? (fun i => decide (i ≥ CELLS_PER_EXT_BLOB)) with
      | some i => .err (.CellIndexOutOfRange i CELLS_PER_EXT_BLOB)
      | none => .ok () := by
  unfold validateVerify
  simp only [List.length_map]
  rw [if_neg (by simp only [Bool.and_eq_true, beq_iff_eq]; tauto)]
  have : (commitments.map (fun x => commitments.eraseDups.idxOf x)).find?
      (fun i => decide (i ≥ commitments.eraseDups.length)) = none := by
    rw [List.find?_eq_none]
    intro i hi
    have := rows_lt commitments i hi
    simpa using this
  simp only [this]
  cases inds.find? (fun i => decide (i ≥ CELLS_PER_EXT_BLOB)) <;> rfl

end Verif
