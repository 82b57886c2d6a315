import Mathlib.Data.List.Basic
import Verif.Spec.NodeAsync
import Verif.Lemmas.Outcome

set_option linter.unusedSectionVars false

/-! Lemmas on reading programs and runs of the Node model. -/
namespace Verif

namespace Reading
variable {α β : Type}

/-- the result if nothing is written -/
def eval (h : JsHeap) : Reading α → α
  | .done a => a
  | .read b o l next => (next (((h b).drop o).take l)).eval h

/-- the number of reads if nothing is written -/
def steps (h : JsHeap) : Reading α → Nat
  | .done _ => 0
  | .read b o l next => (next (((h b).drop o).take l)).steps h + 1

/-- the program reads from these buffers only -/
def Within (B : List Nat) : Reading α → Prop
  | .done _ => True
  | .read b _ _ next => b ∈ B ∧ ∀ x, (next x).Within B

theorem eval_bind (h : JsHeap) (p : Reading α) (f : α → Reading β) : (p.bind f).eval h = (f (p.eval h)).eval h := by
  induction p with
  | done a => rfl
  | read b o l next ih => exact ih _

theorem steps_bind (h : JsHeap) (p : Reading α) (f : α → Reading β) :
    (p.bind f).steps h = p.steps h + (f (p.eval h)).steps h := by
  induction p with
  | done a => simp [Reading.bind, steps, eval]
  | read b o l next ih =>
    show ((next _).bind f).steps h + 1 = (next _).steps h + 1 + _
    rw [ih]
    show _ = _ + 1 + (f ((next _).eval h)).steps h
    omega

theorem within_bind {B : List Nat} {p : Reading α} {f : α → Reading β} (hp : p.Within B) (hf : ∀ a, (f a).Within B) :
    (p.bind f).Within B := by
  induction p with
  | done a => exact hf a
  | read b o l next ih => exact ⟨hp.1, fun x => ih x (hp.2 x)⟩

theorem within_mono {B C : List Nat} {p : Reading α} (hp : p.Within B) (h : ∀ b ∈ B, b ∈ C) : p.Within C := by
  induction p with
  | done a => trivial
  | read b o l next ih => exact ⟨h _ hp.1, fun x => ih x (hp.2 x)⟩

end Reading

open Reading

theorem readPieces_eval (h : JsHeap) (size b : Nat) : ∀ n o l, l ≤ size * n →
    (readPieces size b o l n).eval h = ((h b).drop o).take l
  | 0, o, l, hl => by
    obtain rfl : l = 0 := by omega
    simp [readPieces, eval]
  | n + 1, o, l, hl => by
    show (((readPieces size b (o + size) (l - size) n).bind _).eval h : List UInt8) = _
    rw [eval_bind, readPieces_eval h size b n _ _ (by rw [Nat.mul_succ] at hl; omega)]
    show ((h b).drop o).take (min size l) ++ ((h b).drop (o + size)).take (l - size) = _
    rw [← List.drop_drop]
    generalize (h b).drop o = m
    rcases Nat.le_total l size with h1 | h1
    · rw [min_eq_right h1, Nat.sub_eq_zero_of_le h1]; simp
    · rw [min_eq_left h1]
      conv_rhs => rw [show l = size + (l - size) by omega, List.take_add]

theorem readPieces_steps (h : JsHeap) (size b : Nat) : ∀ n o l, (readPieces size b o l n).steps h = n
  | 0, o, l => rfl
  | n + 1, o, l => by
    show (((readPieces size b (o + size) (l - size) n).bind _).steps h : Nat) + 1 = _
    rw [steps_bind, readPieces_steps h size b n]
    rfl

theorem readPieces_within (size b : Nat) : ∀ n o l, (readPieces size b o l n).Within [b]
  | 0, o, l => trivial
  | n + 1, o, l => ⟨by simp, fun x => within_bind (readPieces_within size b n _ _) (fun _ => trivial)⟩

theorem readView_eval (h : JsHeap) (size : Nat) (hs : 0 < size) (v : JsView) : (readView size v).eval h = h.view v := by
  refine readPieces_eval h size v.buffer _ _ _ ?_
  have := Nat.div_add_mod (v.length + size - 1) size
  have := Nat.mod_lt (v.length + size - 1) hs
  omega

theorem readView_steps (h : JsHeap) (size : Nat) (hs : 0 < size) (v : JsView) : (readView size v).steps h ≤ v.length := by
  unfold readView
  rw [readPieces_steps]
  have h1 := Nat.div_mul_le_self (v.length + size - 1) size
  have h2 : (v.length + size - 1) / size ≤ (v.length + size - 1) / size * size := Nat.le_mul_of_pos_right _ hs
  rcases Nat.eq_zero_or_pos v.length with h0 | h0
  · rw [h0, Nat.div_eq_of_lt (by omega)]
  · rw [Nat.div_le_iff_le_mul_add_pred hs]
    have : v.length ≤ size * v.length := Nat.le_mul_of_pos_left _ hs
    omega

theorem readView_within (size : Nat) (v : JsView) : (readView size v).Within [v.buffer] := readPieces_within _ _ _ _ _

theorem readViews_eval (h : JsHeap) (size : Nat) (hs : 0 < size) (vs : List JsView) :
    (readViews size vs).eval h = vs.map h.view := by
  induction vs with
  | nil => rfl
  | cons v vs ih =>
    show (((readView size v).bind _).eval h : List (List UInt8)) = _
    rw [eval_bind, eval_bind, ih, readView_eval h size hs]
    rfl

theorem readViews_steps (h : JsHeap) (size : Nat) (hs : 0 < size) (vs : List JsView) :
    (readViews size vs).steps h ≤ (vs.map (·.length)).sum := by
  induction vs with
  | nil => exact Nat.le_refl _
  | cons v vs ih =>
    show (((readView size v).bind _).steps h : Nat) ≤ _
    rw [steps_bind, steps_bind]
    have := readView_steps h size hs v
    simp only [steps, List.map_cons, List.sum_cons]
    omega

theorem readViews_within (size : Nat) (vs : List JsView) : (readViews size vs).Within (vs.map (·.buffer)) := by
  induction vs with
  | nil => trivial
  | cons v vs ih =>
    exact within_bind (within_mono (readView_within size v) (by simp)) (fun _ =>
      within_bind (within_mono ih (fun b hb => List.mem_cons_of_mem _ hb)) (fun _ => trivial))

section
variable {K G1 G2 GT : Type} [Field K] [DecidableEq K] [AddCommGroup G1] [Module Fr G1] [DecidableEq G1]
  [Curve K G1] [PointCodec G1] [AddCommGroup G2] [Module Fr G2] [AddCommGroup GT] [DecidableEq GT]
  [Pairing G1 G2 GT]
variable (sha256 : List UInt8 → List UInt8) (ctx : DASContext K G1 G2)

theorem program_eval (h : JsHeap) (c : AsyncCall) : Spec.Synchronous sha256 ctx h c ((c.program sha256 ctx).eval h) := by
  cases c <;> simp only [AsyncCall.program, eval_bind, readView_eval h _ (by norm_num : 0 < 32),
    readViews_eval h _ (by norm_num : 0 < 32), readViews_eval h _ (by norm_num : 0 < 48)] <;> constructor

theorem program_steps (h : JsHeap) (c : AsyncCall) : (c.program sha256 ctx).steps h ≤ Spec.totalLength c := by
  have h32 : 0 < 32 := by norm_num
  have h48 : 0 < 48 := by norm_num
  cases c with
  | blobToKzgCommitment v =>
    have := readView_steps h 32 h32 v
    simp only [AsyncCall.program, steps_bind, steps, Spec.totalLength]; omega
  | computeCellsAndKzgProofs v =>
    have := readView_steps h 32 h32 v
    simp only [AsyncCall.program, steps_bind, steps, Spec.totalLength]; omega
  | computeCells v =>
    have := readView_steps h 32 h32 v
    simp only [AsyncCall.program, steps_bind, steps, Spec.totalLength]; omega
  | recoverCellsAndKzgProofs is vs =>
    have := readViews_steps h 32 h32 vs
    simp only [AsyncCall.program, steps_bind, steps, Spec.totalLength]; omega
  | verifyCellKzgProofBatch c is v p =>
    have h1 := readViews_steps h 48 h48 c
    have h2 := readViews_steps h 32 h32 v
    have h3 := readViews_steps h 48 h48 p
    simp only [AsyncCall.program, steps_bind, steps, Spec.totalLength, List.map_append, List.sum_append]; omega

theorem program_within (c : AsyncCall) : (c.program sha256 ctx).Within (Spec.buffers c) := by
  cases c with
  | blobToKzgCommitment v => exact within_bind (readView_within _ _) (fun _ => trivial)
  | computeCellsAndKzgProofs v => exact within_bind (readView_within _ _) (fun _ => trivial)
  | computeCells v => exact within_bind (readView_within _ _) (fun _ => trivial)
  | recoverCellsAndKzgProofs is vs => exact within_bind (readViews_within _ _) (fun _ => trivial)
  | verifyCellKzgProofBatch c is v p =>
    refine within_bind (within_mono (readViews_within _ _) ?_) (fun _ => within_bind (within_mono (readViews_within _ _) ?_)
      (fun _ => within_bind (within_mono (readViews_within _ _) ?_) (fun _ => trivial))) <;>
    intro b hb <;> simp only [Spec.buffers, List.map_append, List.mem_append] <;> tauto

/-- a task whose buffers are not written to goes on as if nothing was ever written -/
theorem run_unshared {B : List Nat} {h : JsHeap} {i : Nat} (es : List JsEvent) (hq : ∀ e ∈ es, ¬ Spec.WritesTo B e) :
    ∀ (w : JsWorld) (p : Reading (Outcome NodeError NodeValue)), (∀ b ∈ B, w.heap b = h b) → w.tasks[i]? = some p → p.Within B →
      ∃ p', (w.run sha256 ctx es).tasks[i]? = some p' ∧ p'.eval h = p.eval h ∧
        p'.steps h = p.steps h - es.countP (Spec.IsWork i) := by
  induction es with
  | nil => intro w p hh hp hw; exact ⟨p, hp, rfl, rfl⟩
  | cons e es ih =>
    intro w p hh hp hw
    have ih' := ih (fun x hx => hq x (List.mem_cons_of_mem _ hx))
    have he := hq e List.mem_cons_self
    show ∃ p', ((w.step sha256 ctx e).run sha256 ctx es).tasks[i]? = some p' ∧ _
    cases e with
    | write b o bytes =>
      have hb : b ∉ B := he
      obtain ⟨p', h1, h2, h3⟩ := ih' (w.step sha256 ctx (.write b o bytes)) p (by
        intro b' hb'
        show w.heap.write b o bytes b' = _
        unfold JsHeap.write
        split
        · rw [Function.update_of_ne (by rintro rfl; exact hb hb')]; exact hh b' hb'
        · exact hh b' hb') hp hw
      exact ⟨p', h1, h2, by rw [h3, List.countP_cons_of_neg (by simp [Spec.IsWork])]⟩
    | call c =>
      obtain ⟨p', h1, h2, h3⟩ := ih' (w.step sha256 ctx (.call c)) p hh (by
        show (w.tasks ++ [_])[i]? = some p
        rw [List.getElem?_append_left (List.getElem?_eq_some_iff.1 hp).1]; exact hp) hw
      exact ⟨p', h1, h2, by rw [h3, List.countP_cons_of_neg (by simp [Spec.IsWork])]⟩
    | work j =>
      by_cases hij : i = j
      · subst hij
        rw [List.countP_cons_of_pos (by simp [Spec.IsWork])]
        cases p with
        | done a =>
          have e : w.step sha256 ctx (.work i) = w := by simp only [JsWorld.step, hp]
          rw [e]
          obtain ⟨p', h1, h2, h3⟩ := ih' w (.done a) hh hp hw
          exact ⟨p', h1, h2, by rw [h3]; simp [steps]⟩
        | read b o l next =>
          have e : w.step sha256 ctx (.work i) = { w with tasks := w.tasks.set i (next (((w.heap b).drop o).take l)) } := by
            simp only [JsWorld.step, hp]
          rw [e]
          obtain ⟨p', h1, h2, h3⟩ := ih' { w with tasks := w.tasks.set i (next (((w.heap b).drop o).take l)) }
            (next (((w.heap b).drop o).take l)) hh (by
              rw [List.getElem?_set_self (List.getElem?_eq_some_iff.1 hp).1]) (hw.2 _)
          rw [hh b hw.1] at h2 h3
          refine ⟨p', h1, h2, ?_⟩
          rw [h3]
          show _ = (next (((h b).drop o).take l)).steps h + 1 - _
          omega
      · rw [List.countP_cons_of_neg (by simpa [Spec.IsWork] using hij)]
        refine ih' (w.step sha256 ctx (.work j)) p ?_ ?_ hw
        · intro b hb
          rw [← hh b hb]
          simp only [JsWorld.step]
          split <;> rfl
        · rw [← hp]
          simp only [JsWorld.step]
          split
          · exact List.getElem?_set_ne (Ne.symm hij)
          · rfl

theorem run_append (w : JsWorld) (es fs : List JsEvent) :
    w.run sha256 ctx (es ++ fs) = (w.run sha256 ctx es).run sha256 ctx fs := List.foldl_append

/-- a finished task stays as it is -/
theorem run_done {i : Nat} {r : Outcome NodeError NodeValue} (es : List JsEvent) (w : JsWorld) (h : w.tasks[i]? = some (.done r)) :
    (w.run sha256 ctx es).tasks[i]? = some (.done r) := by
  induction es generalizing w with
  | nil => exact h
  | cons e es ih =>
    show ((w.step sha256 ctx e).run sha256 ctx es).tasks[i]? = _
    refine ih _ ?_
    cases e with
    | write b o bytes => exact h
    | call c =>
      show (w.tasks ++ [_])[i]? = _
      rw [List.getElem?_append_left (List.getElem?_eq_some_iff.1 h).1]; exact h
    | work j =>
      by_cases hij : i = j
      · subst hij
        simp only [JsWorld.step, h]
      · rw [← h]
        simp only [JsWorld.step]
        split
        · exact List.getElem?_set_ne (Ne.symm hij)
        · rfl

theorem synchronous_unique {h : JsHeap} {c : AsyncCall} {r r' : Outcome NodeError NodeValue}
    (h1 : Spec.Synchronous sha256 ctx h c r) (h2 : Spec.Synchronous sha256 ctx h c r') : r = r' := by
  cases h1 <;> cases h2 <;> rfl

end
end Verif
