import Verif.Model.CBinding
import Verif.Spec.CApi
import Verif.Lemmas.Serialization
import Verif.Lemmas.Outcome

set_option linter.unusedSectionVars false

/-! Lemmas about the C bindings: reads and writes of memory, error strings. -/
namespace Verif
open Spec (Holds Mapped HoldsWord HoldsWords HoldsItems Apart Wrote FailsWith Returns)

variable {Ctx ε α β : Type}

namespace CM

theorem bind_apply (x : CM Ctx ε α) (f : α → CM Ctx ε β) (s : CState Ctx) :
    (x >>= f) s = match x s with
      | .ok a s => f a s
      | .err e s => .err e s
      | .panic => .panic
      | .fault => .fault := rfl

theorem pure_apply (a : α) (s : CState Ctx) : (pure a : CM Ctx ε α) s = .ok a s := rfl

theorem bind_ok {x : CM Ctx ε α} {f : α → CM Ctx ε β} {s s' : CState Ctx} {a : α} (h : x s = .ok a s') :
    (x >>= f) s = f a s' := by rw [bind_apply, h]

theorem bind_err {x : CM Ctx ε α} {f : α → CM Ctx ε β} {s s' : CState Ctx} {e : ε} (h : x s = .err e s') :
    (x >>= f) s = .err e s' := by rw [bind_apply, h]

theorem bind_panic {x : CM Ctx ε α} {f : α → CM Ctx ε β} {s : CState Ctx} (h : x s = .panic) :
    (x >>= f) s = .panic := by rw [bind_apply, h]

instance : LawfulMonad (CM Ctx ε) := LawfulMonad.mk'
  (id_map := by
    intro α x; funext s
    show (match x s with | .ok a s => .ok a s | .err e s => .err e s | .panic => .panic | .fault => .fault : COut Ctx ε α) = x s
    cases x s <;> rfl)
  (pure_bind := by intros; rfl)
  (bind_assoc := by
    intro α β γ x f g; funext s
    simp only [bind_apply]
    cases x s <;> rfl)

theorem assert_true {b : Prop} [Decidable b] (h : b) : (CM.assert b : CM Ctx ε Unit) = pure () := by simp [CM.assert, h]
theorem require_true {b : Prop} [Decidable b] (h : b) : (CM.require b : CM Ctx ε Unit) = pure () := by simp [CM.require, h]

theorem mapM_ok {f : α → CM Ctx ε β} {s : CState Ctx} {l : List α} {bs : List β}
    (h : List.Forall₂ (fun a b => f a s = .ok b s) l bs) : l.mapM f s = .ok bs s := by
  induction h with
  | nil => rfl
  | cons h1 _ ih =>
    rw [List.mapM_cons, bind_ok h1, bind_ok ih]
    rfl

end CM

theorem readByte_ok {s : CState Ctx} {p : Nat} {b : UInt8} (h : s.mem p = some b) : (readByte p : CM Ctx ε UInt8) s = .ok b s := by
  simp [readByte, h]

theorem forall₂_range {R : Nat → β → Prop} {bs : List β} (h : ∀ (i : Nat) b, bs[i]? = some b → R i b) :
    List.Forall₂ R (List.range bs.length) bs := by
  rw [List.forall₂_iff_get]
  refine ⟨by simp, fun i h1 h2 => ?_⟩
  simp only [List.get_eq_getElem, List.getElem_range]
  exact h i _ (by simp [List.getElem?_eq_getElem h2])

theorem readBytes_ok {s : CState Ctx} {p : Nat} {bytes : List UInt8} (h : Holds s.mem p bytes) :
    (readBytes p bytes.length : CM Ctx ε _) s = .ok bytes s :=
  CM.mapM_ok (forall₂_range fun i b hb => readByte_ok (h i b hb))

theorem readBytes_ok' {s : CState Ctx} {p n : Nat} {bytes : List UInt8} (hn : bytes.length = n) (h : Holds s.mem p bytes) :
    (readBytes p n : CM Ctx ε _) s = .ok bytes s := hn ▸ readBytes_ok h

theorem leToNat_ofFn (b : Fin 8 → UInt8) : leToNat (List.ofFn b) = ∑ i : Fin 8, (b i).toNat * 256 ^ (i : Nat) := by
  simp only [List.ofFn_succ, List.ofFn_zero, leToNat, List.foldr_cons, List.foldr_nil, Fin.sum_univ_succ, Fin.sum_univ_zero]
  simp
  ring

theorem readU64_ok {s : CState Ctx} {p v : Nat} (h : HoldsWord s.mem p v) : (readU64 p : CM Ctx ε Nat) s = .ok v s := by
  obtain ⟨b, h1, h2⟩ := h
  have hb : Holds s.mem p (List.ofFn b) := by
    intro i x hx
    rw [List.getElem?_ofFn] at hx
    split_ifs at hx with hi
    cases hx
    exact h1 ⟨i, hi⟩
  unfold readU64
  rw [CM.bind_ok (readBytes_ok' (by simp) hb), leToNat_ofFn, ← h2]
  rfl

theorem createSliceView_ok {s : CState Ctx} {p n : Nat} {bytes : List UInt8} (hn : bytes.length = n) (hp : p ≠ 0)
    (h : Holds s.mem p bytes) : (createSliceView p n : CM Ctx ε _) s = .ok bytes s := by
  unfold createSliceView
  split_ifs with h0
  · rw [h0] at hn
    rw [List.length_eq_zero_iff.1 hn]; rfl
  · rw [CM.require_true hp, pure_bind]
    exact readBytes_ok' hn h

theorem createSliceViewU64_ok {s : CState Ctx} {p n : Nat} {vs : List Nat} (hn : vs.length = n) (h : HoldsWords s.mem p vs) :
    (createSliceViewU64 p n : CM Ctx ε _) s = .ok vs s := by
  unfold createSliceViewU64
  split_ifs with h0
  · rw [h0] at hn
    rw [List.length_eq_zero_iff.1 hn]; rfl
  · have hne : vs ≠ [] := by rintro rfl; exact h0 hn.symm
    rw [CM.require_true (h.1 hne).1, CM.require_true (h.1 hne).2, pure_bind, pure_bind, ← hn]
    exact CM.mapM_ok (forall₂_range fun i v hv => readU64_ok (h.2 i v hv))

theorem createArrayRef_ok {s : CState Ctx} {p n : Nat} {bytes : List UInt8} (hn : bytes.length = n) (hp : p ≠ 0)
    (h : Holds s.mem p bytes) : (createArrayRef n p : CM Ctx ε _) s = .ok bytes s := by
  unfold createArrayRef
  rw [CM.bind_ok (createSliceView_ok hn hp h), CM.assert_true hn, pure_bind]
  rfl

theorem ptrPtr_ok {s : CState Ctx} {p inner n : Nat} {items : List (List UInt8)} (hn : items.length = n)
    (hi : ∀ x ∈ items, x.length = inner) (h : HoldsItems s.mem p items) :
    (ptrPtrToVecSliceConst inner p n : CM Ctx ε _) s = .ok items s := by
  obtain ⟨ptrs, h1, h2⟩ := h
  unfold ptrPtrToVecSliceConst
  split_ifs with h0
  · rw [h0] at hn
    rw [List.length_eq_zero_iff.1 hn]; rfl
  · rw [CM.bind_ok (createSliceViewU64_ok (h2.length_eq.trans hn) h1)]
    refine CM.mapM_ok ?_
    clear h1 hn h0
    induction h2 with
    | nil => exact .nil
    | cons hq _ ih =>
      exact .cons (createArrayRef_ok (hi _ (by simp)) hq.1 hq.2) (ih fun x hx => hi x (by simp [hx]))

/-! Writes -/

theorem overwrite_cons (mem : Nat → Option UInt8) (p : Nat) (b : UInt8) (data : List UInt8) :
    overwrite (fun a => if a = p then some b else mem a) (p + 1) data = overwrite mem p (b :: data) := by
  funext a
  unfold overwrite
  by_cases h1 : a = p
  · subst h1
    simp
  · by_cases h2 : p + 1 ≤ a ∧ a < p + 1 + data.length
    · have h3 : p ≤ a ∧ a < p + (b :: data).length := by simp; omega
      rw [if_pos h2, if_pos h3]
      obtain ⟨k, rfl⟩ : ∃ k, a = p + 1 + k := ⟨a - (p + 1), by omega⟩
      rw [show p + 1 + k - p = k + 1 by omega, show p + 1 + k - (p + 1) = k by omega]
      rfl
    · have h3 : ¬ (p ≤ a ∧ a < p + (b :: data).length) := by simp; omega
      rw [if_neg h2, if_neg h3]
      exact if_neg h1

theorem overwrite_nil (mem : Nat → Option UInt8) (p : Nat) : overwrite mem p [] = mem := by
  funext a
  unfold overwrite
  rw [if_neg (by simp)]

theorem forM_writeByte (data : List UInt8) (p k : Nat) (s : CState Ctx) (h : Mapped s.mem (p + k) data.length) :
    ((data.zipIdx k).forM (fun q => writeByte (p + q.2) q.1) : CM Ctx ε Unit) s =
      .ok () { s with mem := overwrite s.mem (p + k) data } := by
  induction data generalizing k s with
  | nil => rw [overwrite_nil]; rfl
  | cons b data ih =>
    rw [List.zipIdx_cons]
    obtain ⟨b0, hb0⟩ := h 0 (by simp)
    have h1 : (writeByte (p + k) b : CM Ctx ε Unit) s =
        .ok () { s with mem := fun a => if a = p + k then some b else s.mem a } := by
      unfold writeByte
      rw [show s.mem (p + k) = some b0 from hb0]
    refine (CM.bind_ok h1).trans ?_
    refine (ih (k + 1) _ ?_).trans ?_
    rotate_left
    · simp only
      rw [show p + (k + 1) = p + k + 1 by omega, overwrite_cons]
    · intro i hi
      obtain ⟨b1, hb1⟩ := h (i + 1) (by simpa using hi)
      refine ⟨b1, ?_⟩
      show (if p + (k + 1) + i = p + k then some b else s.mem (p + (k + 1) + i)) = some b1
      rw [if_neg (by omega), ← hb1]
      congr 1; omega

theorem writeToSlice_ok {s : CState Ctx} {p : Nat} {data : List UInt8} (hp : p ≠ 0) (h : Mapped s.mem p data.length) :
    (writeToSlice p data : CM Ctx ε Unit) s = .ok () { s with mem := overwrite s.mem p data } := by
  unfold writeToSlice
  rw [CM.require_true hp, pure_bind]
  exact forM_writeByte data p 0 s h

theorem mapped_overwrite {mem : Nat → Option UInt8} {p n q : Nat} {data : List UInt8} (h : Mapped mem p n) :
    Mapped (overwrite mem q data) p n := by
  intro i hi
  unfold overwrite
  split_ifs with h1
  · exact ⟨data[p + i - q], List.getElem?_eq_getElem (by omega)⟩
  · exact h i hi

theorem holdsWords_overwrite {mem : Nat → Option UInt8} {p q : Nat} {data : List UInt8} {vs : List Nat} (h : HoldsWords mem p vs)
    (ha : Apart q data.length p (8 * vs.length)) : HoldsWords (overwrite mem q data) p vs := by
  refine ⟨h.1, fun i v hv => ?_⟩
  obtain ⟨b, h1, h2⟩ := h.2 i v hv
  refine ⟨b, fun j => ?_, h2⟩
  have hi : i < vs.length := by
    by_contra hn
    rw [List.getElem?_eq_none (by omega)] at hv; cases hv
  unfold overwrite
  have := j.isLt
  rw [if_neg, h1]
  rcases ha with ha | ha <;> omega

/-- the memory after several writes -/
def overwriteAll (mem : Nat → Option UInt8) (regions : List (Nat × List UInt8)) : Nat → Option UInt8 :=
  regions.foldl (fun m r => overwrite m r.1 r.2) mem

theorem mapped_overwriteAll {mem : Nat → Option UInt8} {p n : Nat} (l : List (Nat × List UInt8)) (h : Mapped mem p n) :
    Mapped (overwriteAll mem l) p n := by
  induction l generalizing mem with
  | nil => exact h
  | cons r l ih => exact ih (mapped_overwrite h)

theorem holdsWords_overwriteAll {mem : Nat → Option UInt8} {p : Nat} {vs : List Nat} (l : List (Nat × List UInt8))
    (h : HoldsWords mem p vs) (ha : ∀ r ∈ l, Apart r.1 r.2.length p (8 * vs.length)) : HoldsWords (overwriteAll mem l) p vs := by
  induction l generalizing mem with
  | nil => exact h
  | cons r l ih => exact ih (holdsWords_overwrite h (ha r (by simp))) fun r' hr => ha r' (by simp [hr])

theorem holdsWord_of {mem : Nat → Option UInt8} {p : Nat} {vs : List Nat} (h : HoldsWords mem p vs) {i v : Nat}
    (hv : vs[i]? = some v) : HoldsWord mem (p + 8 * i) v := h.2 i v hv

theorem forM_write2d (p : Nat) (all : List Nat) (data : List (List UInt8)) (ptrs : List Nat) (k : Nat) (s : CState Ctx)
    (hall : HoldsWords s.mem p all) (hk : all.drop k = ptrs) (hlen : data.length = ptrs.length)
    (hm : ∀ r ∈ ptrs.zip data, r.1 ≠ 0 ∧ Mapped s.mem r.1 r.2.length)
    (ha : ∀ r ∈ ptrs.zip data, Apart r.1 r.2.length p (8 * all.length)) :
    ((data.zipIdx k).forM (fun q => do
      let outCell ← readU64 (p + 8 * q.2)
      writeToSlice outCell q.1) : CM Ctx ε Unit) s = .ok () { s with mem := overwriteAll s.mem (ptrs.zip data) } := by
  induction data generalizing k s ptrs with
  | nil => simp [overwriteAll]; rfl
  | cons d data ih =>
    cases ptrs with
    | nil => simp at hlen
    | cons q ptrs =>
      rw [List.zipIdx_cons]
      have hq : all[k]? = some q := by
        have := congrArg (fun l => l[0]?) hk
        simpa using this
      have hr := hm (q, d) (by simp)
      have h1 : ((do
          let outCell ← readU64 (p + 8 * k)
          writeToSlice outCell d) : CM Ctx ε Unit) s = .ok () { s with mem := overwrite s.mem q d } := by
        rw [CM.bind_ok (readU64_ok (holdsWord_of hall hq))]
        exact writeToSlice_ok hr.1 hr.2
      refine (CM.bind_ok h1).trans ?_
      refine (ih ptrs (k + 1) _ ?_ ?_ ?_ ?_ ?_).trans ?_
      rotate_left 5
      · rfl
      · exact holdsWords_overwrite hall (ha (q, d) (by simp))
      · rw [← List.drop_drop, hk]; rfl
      · simpa using hlen
      · intro r hr'
        have := hm r (by simp [hr'])
        exact ⟨this.1, mapped_overwrite this.2⟩
      · intro r hr'
        exact ha r (by simp [hr'])

theorem writeTo2dSlice_ok {s : CState Ctx} {p : Nat} {data : List (List UInt8)} {ptrs : List Nat}
    (hall : HoldsWords s.mem p ptrs) (hlen : data.length = ptrs.length)
    (hm : ∀ r ∈ ptrs.zip data, r.1 ≠ 0 ∧ Mapped s.mem r.1 r.2.length)
    (ha : ∀ r ∈ ptrs.zip data, Apart r.1 r.2.length p (8 * ptrs.length)) :
    (writeTo2dSlice p data : CM Ctx ε Unit) s = .ok () { s with mem := overwriteAll s.mem (ptrs.zip data) } := by
  unfold writeTo2dSlice
  split_ifs with h0
  · rw [List.length_eq_zero_iff.1 h0]; simp [overwriteAll]; rfl
  · have hne : ptrs ≠ [] := by rintro rfl; exact h0 (by simpa using hlen)
    rw [CM.require_true (hall.1 hne).1, CM.require_true (hall.1 hne).2, pure_bind, pure_bind]
    exact forM_write2d p ptrs data ptrs 0 s hall rfl hlen hm ha

theorem holds_overwrite_self (mem : Nat → Option UInt8) (p : Nat) (data : List UInt8) : Holds (overwrite mem p data) p data := by
  intro i b hb
  have hi : i < data.length := by
    by_contra hn
    rw [List.getElem?_eq_none (by omega)] at hb; cases hb
  unfold overwrite
  rw [if_pos ⟨by omega, by omega⟩, show p + i - p = i by omega, hb]

theorem holds_overwrite {mem : Nat → Option UInt8} {p q : Nat} {data bytes : List UInt8} (h : Holds mem p bytes)
    (ha : Apart p bytes.length q data.length) : Holds (overwrite mem q data) p bytes := by
  intro i b hb
  have hi : i < bytes.length := by
    by_contra hn
    rw [List.getElem?_eq_none (by omega)] at hb; cases hb
  unfold overwrite
  rw [if_neg, h i b hb]
  rcases ha with ha | ha <;> omega

theorem holds_overwriteAll {mem : Nat → Option UInt8} {p : Nat} {bytes : List UInt8} (l : List (Nat × List UInt8))
    (h : Holds mem p bytes) (ha : ∀ r ∈ l, Apart p bytes.length r.1 r.2.length) : Holds (overwriteAll mem l) p bytes := by
  induction l generalizing mem with
  | nil => exact h
  | cons r l ih => exact ih (holds_overwrite h (ha r (by simp))) fun r' hr => ha r' (by simp [hr])

theorem overwrite_outside {mem : Nat → Option UInt8} {p a : Nat} {data : List UInt8} (h : a < p ∨ p + data.length ≤ a) :
    overwrite mem p data a = mem a := by
  unfold overwrite
  rw [if_neg (by omega)]

theorem wrote_overwriteAll (mem : Nat → Option UInt8) (l : List (Nat × List UInt8))
    (h : l.Pairwise (fun r r' => Apart r.1 r.2.length r'.1 r'.2.length)) : Wrote mem (overwriteAll mem l) l := by
  constructor
  · intro r hr
    induction l generalizing mem with
    | nil => cases hr
    | cons r' l ih =>
      rw [List.pairwise_cons] at h
      rcases List.mem_cons.1 hr with rfl | hr
      · exact holds_overwriteAll l (holds_overwrite_self mem _ _) fun r' hr' => h.1 r' hr'
      · exact ih _ h.2 hr
  · intro a ha
    clear h
    induction l generalizing mem with
    | nil => rfl
    | cons r l ih =>
      show overwriteAll (overwrite mem r.1 r.2) l a = mem a
      rw [ih _ fun r' hr => ha r' (by simp [hr]), overwrite_outside (ha r (by simp))]

theorem overwriteAll_append (mem : Nat → Option UInt8) (l l' : List (Nat × List UInt8)) :
    overwriteAll (overwriteAll mem l) l' = overwriteAll mem (l ++ l') := by
  simp [overwriteAll, List.foldl_append]

/-! Error messages -/

/-- a printable ASCII character -/
def Printable (b : UInt8) : Prop := 32 ≤ b ∧ b ≤ 126

theorem debugNat_printable (n : Nat) : ∀ b ∈ debugNat n, Printable b := by
  intro b hb
  unfold debugNat at hb
  split_ifs at hb with h
  · simp only [List.mem_singleton] at hb
    subst hb
    exact ⟨by decide, by decide⟩
  · simp only [List.mem_map, List.mem_reverse] at hb
    obtain ⟨d, hd, rfl⟩ := hb
    have := Nat.digits_lt_base (by omega) hd
    constructor <;> rw [UInt8.le_iff_toNat_le] <;> simp [UInt8.toNat_ofNat'] <;> omega

theorem commaSeparated_printable {l : List (List UInt8)} (h : ∀ x ∈ l, ∀ b ∈ x, Printable b) :
    ∀ b ∈ commaSeparated l, Printable b := by
  induction l with
  | nil => intro b hb; cases hb
  | cons x l ih =>
    cases l with
    | nil => exact h x (by simp)
    | cons y l =>
      intro b hb
      unfold commaSeparated at hb
      simp only [List.mem_append] at hb
      rcases hb with (hb | hb) | hb
      · exact h x (by simp) b hb
      · revert hb b
        unfold Printable
        decide
      · exact ih (fun z hz => h z (by simp [hz])) b hb

theorem append_printable {a b : List UInt8} (ha : ∀ x ∈ a, Printable x) (hb : ∀ x ∈ b, Printable x) :
    ∀ x ∈ a ++ b, Printable x := by
  intro x hx
  rcases List.mem_append.1 hx with h | h
  · exact ha x h
  · exact hb x h

theorem debugBytes_printable (l : List UInt8) : ∀ b ∈ debugBytes l, Printable b := by
  unfold debugBytes
  refine append_printable (append_printable (by unfold Printable; decide) (commaSeparated_printable ?_))
    (by unfold Printable; decide)
  intro x hx
  simp only [List.mem_map] at hx
  obtain ⟨y, -, rfl⟩ := hx
  exact debugNat_printable _

theorem debugTuple_printable {name : String} {inner : List UInt8} (h1 : ∀ b ∈ ascii name, Printable b)
    (h2 : ∀ b ∈ inner, Printable b) : ∀ b ∈ debugTuple name inner, Printable b := by
  unfold debugTuple
  exact append_printable (append_printable (append_printable h1 (by unfold Printable; decide)) h2)
    (by unfold Printable; decide)

theorem debugStruct_printable {name : String} {fields : List (String × List UInt8)} (h1 : ∀ b ∈ ascii name, Printable b)
    (h2 : ∀ f ∈ fields, (∀ b ∈ ascii f.1, Printable b) ∧ ∀ b ∈ f.2, Printable b) :
    ∀ b ∈ debugStruct name fields, Printable b := by
  unfold debugStruct
  refine append_printable (append_printable (append_printable h1 (by unfold Printable; decide)) (commaSeparated_printable ?_))
    (by unfold Printable; decide)
  intro x hx
  simp only [List.mem_map] at hx
  obtain ⟨f, hf, rfl⟩ := hx
  exact append_printable (append_printable (h2 f hf).1 (by unfold Printable; decide)) (h2 f hf).2

instance : DecidablePred Printable := fun b => inferInstanceAs (Decidable (32 ≤ b ∧ b ≤ 126))

theorem debugStruct1_printable {name f : String} {v : List UInt8} (h1 : ∀ b ∈ ascii name, Printable b)
    (hf : ∀ b ∈ ascii f, Printable b) (hv : ∀ b ∈ v, Printable b) : ∀ b ∈ debugStruct name [(f, v)], Printable b :=
  debugStruct_printable h1 (by simpa using ⟨hf, hv⟩)

theorem debugStruct2_printable {name f g : String} {v w : List UInt8} (h1 : ∀ b ∈ ascii name, Printable b)
    (hf : ∀ b ∈ ascii f, Printable b) (hv : ∀ b ∈ v, Printable b) (hg : ∀ b ∈ ascii g, Printable b)
    (hw : ∀ b ∈ w, Printable b) : ∀ b ∈ debugStruct name [(f, v), (g, w)], Printable b :=
  debugStruct_printable h1 (by
    intro x hx
    rcases List.mem_cons.1 hx with rfl | hx
    · exact ⟨hf, hv⟩
    · rcases List.mem_cons.1 hx with rfl | hx
      · exact ⟨hg, hw⟩
      · cases hx)

theorem RSError.debug_printable (e : RSError) : ∀ b ∈ e.debug, Printable b := by
  cases e <;>
    exact debugStruct2_printable (by decide) (by decide) (debugNat_printable _) (by decide) (debugNat_printable _)

theorem RecoveryError.debug_printable (e : RecoveryError) : ∀ b ∈ e.debug, Printable b := by
  cases e with
  | CellIndicesNotUnique => decide
  | ReedSolomon e => exact debugTuple_printable (by decide) (RSError.debug_printable e)
  | _ => exact debugStruct2_printable (by decide) (by decide) (debugNat_printable _) (by decide) (debugNat_printable _)

theorem VerifierError.debug_printable (e : VerifierError) : ∀ b ∈ e.debug, Printable b := by
  cases e with
  | InvalidProof => decide
  | FK20 e => cases e; decide
  | BatchVerificationInputsMustHaveSameLength a b c d =>
    refine debugStruct_printable (by decide) ?_
    intro x hx
    simp only [List.mem_cons, List.not_mem_nil, or_false] at hx
    rcases hx with rfl | rfl | rfl | rfl <;> exact ⟨by simp only; decide, debugNat_printable _⟩
  | _ => exact debugStruct2_printable (by decide) (by decide) (debugNat_printable _) (by decide) (debugNat_printable _)

theorem SerializationError.debug_printable (e : SerializationError) : ∀ b ∈ e.debug, Printable b := by
  cases e with
  | CouldNotDeserializeScalar b => exact debugStruct1_printable (by decide) (by decide) (debugBytes_printable _)
  | CouldNotDeserializeG1Point b => exact debugStruct1_printable (by decide) (by decide) (debugBytes_printable _)
  | _ => exact debugStruct2_printable (by decide) (by decide) (debugBytes_printable _) (by decide) (debugNat_printable _)

theorem Error.debug_printable (e : Error) : ∀ b ∈ e.debug, Printable b := by
  cases e with
  | Prover e => cases e with
    | RecoveryFailure e =>
      exact debugTuple_printable (by decide) (debugTuple_printable (by decide) (RecoveryError.debug_printable e))
  | Verifier e => exact debugTuple_printable (by decide) (VerifierError.debug_printable e)
  | Recovery e => exact debugTuple_printable (by decide) (RecoveryError.debug_printable e)
  | Serialization e => exact debugTuple_printable (by decide) (SerializationError.debug_printable e)

theorem Error.debug_no_zero (e : Error) : 0 ∉ e.debug := by
  intro h
  have := (Error.debug_printable e 0 h).1
  revert this
  decide

theorem withError_ok (A : Allocator Ctx) (s : CState Ctx) (msg : List UInt8) (h : 0 ∉ msg) :
    (A.place s (msg.length + 1) = none ∧ (CResult.withError A msg : CM Ctx ε CResult) s = .panic) ∨
    ∃ p s', (CResult.withError A msg : CM Ctx ε CResult) s = .ok ⟨.Err, p⟩ s' ∧ A.place s (msg.length + 1) = some p ∧ p ≠ 0 ∧
      p + (msg.length + 1) ≤ 2 ^ 64 ∧ Spec.CString s'.mem p msg ∧
      s'.strings p = some (msg.length + 1) ∧
      (∀ a, s.mem a ≠ none → s'.mem a = s.mem a) ∧ s'.ctxs = s.ctxs ∧ (∀ q, q ≠ p → s'.strings q = s.strings q) ∧
      ethKzgFreeErrorMessage p s' = .ok () s := by
  unfold CResult.withError
  rw [CM.assert_true h, pure_bind]
  rcases hp : A.place s (msg.length + 1) with _ | p
  · left
    refine ⟨rfl, ?_⟩
    rw [CM.bind_panic]
    simp [allocString, hp]
  · right
    obtain ⟨h1, h64, h2, h3⟩ := A.fresh s _ p hp
    refine ⟨p, { s with
      mem := overwrite s.mem p (msg ++ [0])
      strings := fun a => if a = p then some (msg.length + 1) else s.strings a }, ?_, rfl, h1, h64, ⟨h, holds_overwrite_self _ _ _⟩, by simp, ?_, rfl, ?_, ?_⟩
    · rw [CM.bind_ok (a := p)]
      · rfl
      · simp [allocString, hp]
    · intro a ha
      apply overwrite_outside
      by_contra hc
      simp only [List.length_append, List.length_singleton] at hc
      apply ha
      have := h3 (a - p) (by omega)
      rwa [show p + (a - p) = a by omega] at this
    · intro q hq
      simp [hq]
    · unfold ethKzgFreeErrorMessage
      rw [if_neg h1]
      simp only [if_true]
      congr 1
      obtain ⟨mem, ctxs, strings⟩ := s
      congr 1
      · funext a
        by_cases ha : p ≤ a ∧ a < p + (msg.length + 1)
        · rw [if_pos ha]
          have := h3 (a - p) (by omega)
          rw [show p + (a - p) = a by omega] at this
          exact this.symm
        · rw [if_neg ha]
          exact overwrite_outside (by simp; omega)
      · funext a
        by_cases ha : a = p
        · subst ha
          rw [if_pos rfl]
          exact h2.symm
        · simp [ha]

theorem tryRust_err {A : Allocator Ctx} {s : CState Ctx} {x : Outcome Error α} {e : Error} (hx : x = .err e)
    (f : α → CM Ctx CResult Unit) (g : CM Ctx CResult Unit) (hg : g s = (tryRust A x >>= f) s) :
    FailsWith A (cResult g) s e.debug := by
  subst hx
  unfold FailsWith cResult
  simp only [hg]
  unfold tryRust
  rcases withError_ok (ε := CResult) A s e.debug (Error.debug_no_zero e) with ⟨h1, h2⟩ | ⟨p, s', h1, h2⟩
  · left
    refine ⟨h1, ?_⟩
    simp only [bind_assoc]
    rw [CM.bind_panic h2]
  · right
    refine ⟨p, s', ?_, h2⟩
    simp only [bind_assoc]
    rw [CM.bind_ok h1]
    rfl

theorem tryRust_panic {A : Allocator Ctx} {s : CState Ctx} {x : Outcome Error α} (hx : x = .panic)
    (f : α → CM Ctx CResult Unit) (g : CM Ctx CResult Unit) (hg : g s = (tryRust A x >>= f) s) : (cResult g) s = .panic := by
  subst hx
  unfold cResult
  rw [hg]
  rfl

theorem returns_of {g : CM Ctx CResult Unit} {s : CState Ctx} {regions : List (Nat × List UInt8)}
    (h : g s = .ok () { s with mem := overwriteAll s.mem regions })
    (hp : regions.Pairwise (fun r r' => Apart r.1 r.2.length r'.1 r'.2.length)) : Returns (cResult g) s regions := by
  refine ⟨{ s with mem := overwriteAll s.mem regions }, ?_, wrote_overwriteAll _ _ hp, rfl, rfl⟩
  unfold cResult
  rw [h]
  rfl

/-! The sizes of results -/

section
variable {K G1 G2 : Type} [Field K] [DecidableEq K] [AddCommGroup G1] [Module Fr G1] [DecidableEq G1]
  [Curve K G1] [PointCodec G1] [AddCommGroup G2] [Module Fr G2] [LawfulPointCodec G1 48]

theorem serializeCellsAndProofs_sizes {ev : List (List Fr)} {ps : List G1} {cells proofs : List (List UInt8)}
    (h : (serializeCellsAndProofs ev ps : Outcome ε _) = .ok (cells, proofs)) :
    cells.length = 128 ∧ (∀ c ∈ cells, c.length = 2048) ∧ proofs.length = 128 ∧ ∀ p ∈ proofs, p.length = 48 := by
  unfold serializeCellsAndProofs cosetEvaluationsToCells at h
  rw [Verif.bind_eq_ok] at h
  obtain ⟨cs, h1, h2⟩ := h
  rw [Verif.bind_eq_ok] at h1
  obtain ⟨cs', h3, h4⟩ := h1
  rw [Verif.bind_eq_ok] at h4
  obtain ⟨_, h5, h6⟩ := h4
  simp only at h2
  rw [Verif.bind_eq_ok] at h2
  obtain ⟨_, h7, h8⟩ := h2
  cases h6
  cases h8
  rw [Verif.assertP_eq_ok] at h5 h7
  refine ⟨h5, ?_, h7, ?_⟩
  · intro c hc
    obtain ⟨i, hi, rfl⟩ := List.mem_iff_getElem.1 hc
    have hi' : i < ev.length := by rw [← Verif.mapM_length h3]; exact hi
    have h9 := Verif.mapM_getElem h3 (i := i) hi' hi
    rw [Verif.bind_eq_ok] at h9
    obtain ⟨c', -, h11⟩ := h9
    rw [Verif.bind_eq_ok] at h11
    obtain ⟨_, h12, h13⟩ := h11
    rw [Verif.assertP_eq_ok] at h12
    cases h13
    exact h12
  · intro p hp
    simp only [List.mem_map] at hp
    obtain ⟨q, -, rfl⟩ := hp
    exact LawfulPointCodec.length_toCompressed q

theorem blobToKzgCommitment_size {ctx : DASContext K G1 G2} {blob c : List UInt8} (h : ctx.blobToKzgCommitment blob = .ok c) :
    c.length = 48 := by
  unfold DASContext.blobToKzgCommitment at h
  rw [Verif.bind_eq_ok] at h
  obtain ⟨_, -, h⟩ := h
  rw [Verif.bind_eq_ok] at h
  obtain ⟨p, -, h⟩ := h
  cases h
  exact LawfulPointCodec.length_toCompressed p

theorem computeCellsAndKzgProofs_sizes {ctx : DASContext K G1 G2} {blob : List UInt8} {cells proofs : List (List UInt8)}
    (h : ctx.computeCellsAndKzgProofs blob = .ok (cells, proofs)) :
    cells.length = 128 ∧ (∀ c ∈ cells, c.length = 2048) ∧ proofs.length = 128 ∧ ∀ p ∈ proofs, p.length = 48 := by
  unfold DASContext.computeCellsAndKzgProofs at h
  rw [Verif.bind_eq_ok] at h
  obtain ⟨_, -, h⟩ := h
  rw [Verif.bind_eq_ok] at h
  obtain ⟨⟨_, _⟩, -, h⟩ := h
  exact serializeCellsAndProofs_sizes h

theorem recoverCellsAndKzgProofs_sizes {ctx : DASContext K G1 G2} {ci : List Nat} {cs : List (List UInt8)}
    {cells proofs : List (List UInt8)} (h : ctx.recoverCellsAndKzgProofs ci cs = .ok (cells, proofs)) :
    cells.length = 128 ∧ (∀ c ∈ cells, c.length = 2048) ∧ proofs.length = 128 ∧ ∀ p ∈ proofs, p.length = 48 := by
  unfold DASContext.recoverCellsAndKzgProofs at h
  rw [Verif.bind_eq_ok] at h
  obtain ⟨_, -, h⟩ := h
  rw [Verif.bind_eq_ok] at h
  obtain ⟨⟨_, _⟩, -, h⟩ := h
  exact serializeCellsAndProofs_sizes h

end

/-- Writing cells and proofs to the output buffers. -/
theorem write_cells_and_proofs {s : CState Ctx} {outCells outProofs : Nat} {cp pp : List Nat}
    (hout : Spec.OutBuffers s.mem outCells outProofs cp pp) {cells proofs : List (List UInt8)}
    (hsz : cells.length = 128 ∧ (∀ c ∈ cells, c.length = 2048) ∧ proofs.length = 128 ∧ ∀ p ∈ proofs, p.length = 48) :
    ((do
      writeTo2dSlice outCells cells
      writeTo2dSlice outProofs proofs) : CM Ctx ε Unit) s =
        .ok () { s with mem := overwriteAll s.mem (cp.zip cells ++ pp.zip proofs) } ∧
    (cp.zip cells ++ pp.zip proofs).Pairwise (fun r r' => Apart r.1 r.2.length r'.1 r'.2.length) := by
  obtain ⟨h1, h2, h3, h4⟩ := hsz
  have hc : ∀ r ∈ cp.zip cells, r.1 ∈ cp ∧ r.2.length = 2048 := fun r hr => ⟨(List.of_mem_zip hr).1, h2 _ (List.of_mem_zip hr).2⟩
  have hp : ∀ r ∈ pp.zip proofs, r.1 ∈ pp ∧ r.2.length = 48 := fun r hr => ⟨(List.of_mem_zip hr).1, h4 _ (List.of_mem_zip hr).2⟩
  constructor
  · rw [CM.bind_ok (writeTo2dSlice_ok hout.cells (by rw [h1, hout.cellsLength]) _ _), writeTo2dSlice_ok (ptrs := pp)]
    · rw [← overwriteAll_append]
    · refine holdsWords_overwriteAll _ hout.proofs fun r hr => ?_
      rw [(hc r hr).2, hout.proofsLength]
      exact (hout.arrayApart _ (hc r hr).1).2
    · rw [h3, hout.proofsLength]
    · intro r hr
      rw [(hp r hr).2]
      exact ⟨(hout.proofMapped _ (hp r hr).1).1, mapped_overwriteAll _ (hout.proofMapped _ (hp r hr).1).2⟩
    · intro r hr
      rw [(hp r hr).2, hout.proofsLength]
      exact hout.arrayApart' _ (hp r hr).1
    · intro r hr
      rw [(hc r hr).2]
      exact hout.cellMapped _ (hc r hr).1
    · intro r hr
      rw [(hc r hr).2, hout.cellsLength]
      exact (hout.arrayApart _ (hc r hr).1).1
  · have hz : ∀ {ps : List Nat} {ds : List (List UInt8)} {n : Nat}, (∀ d ∈ ds, d.length = n) →
        ps.Pairwise (fun q q' => Apart q n q' n) →
        (ps.zip ds).Pairwise (fun r r' => Apart r.1 r.2.length r'.1 r'.2.length) := by
      intro ps
      induction ps with
      | nil => intros; simp
      | cons q ps ih =>
        intro ds n hd hq
        cases ds with
        | nil => simp
        | cons d ds =>
          rw [List.pairwise_cons] at hq
          rw [List.zip_cons_cons, List.pairwise_cons]
          refine ⟨fun r hr => ?_, ih (fun x hx => hd x (by simp [hx])) hq.2⟩
          rw [hd d (by simp), hd r.2 (by simp [(List.of_mem_zip hr).2])]
          exact hq.1 _ (List.of_mem_zip hr).1
    rw [List.pairwise_append]
    refine ⟨hz h2 hout.cellsApart, hz h4 hout.proofsApart, fun r hr r' hr' => ?_⟩
    rw [(hc r hr).2, (hp r' hr').2]
    exact hout.bothApart _ (hc r hr).1 _ (hp r' hr').1

end Verif
