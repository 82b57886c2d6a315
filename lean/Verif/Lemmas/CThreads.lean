import Verif.Lemmas.CBinding
import Verif.Spec.CThreads

/-! Lemmas about the calls of the C API as programs: a small logic with footprints. -/
namespace Verif
open Spec (Holds Mapped HoldsWord HoldsWords Apart Span ItemSpans HoldsItemsAt)

namespace CProg
variable {Ctx ε α β : Type}

theorem bind_eq (x : CProg Ctx ε α) (f : α → CProg Ctx ε β) : x >>= f = x.bind f := rfl
theorem pure_eq (a : α) : (pure a : CProg Ctx ε α) = .ret a := rfl

instance : LawfulMonad (CProg Ctx ε) := LawfulMonad.mk'
  (id_map := by
    intro α x
    show x.bind .ret = x
    induction x <;> simp_all [CProg.bind])
  (pure_bind := by intros; rfl)
  (bind_assoc := by
    intro α β γ x f g
    show (x.bind f).bind g = x.bind (fun a => (f a).bind g)
    induction x <;> simp_all [CProg.bind])

theorem run_bind (A : Allocator Ctx) (x : CProg Ctx ε α) (f : α → CProg Ctx ε β) : (x >>= f).run A = x.run A >>= fun a => (f a).run A := by
  show (x.bind f).run A = _
  induction x with
  | ret a => simp only [CProg.bind, run, pure_bind]
  | throw => rfl
  | panic => rfl
  | fault => rfl
  | read p k ih => simp only [CProg.bind, run, ih, bind_assoc]
  | write p b k ih => simp only [CProg.bind, run, ih, bind_assoc]
  | ctx p k ih => simp only [CProg.bind, run, ih, bind_assoc]
  | alloc msg k ih => simp only [CProg.bind, run, ih, bind_assoc]

theorem run_pure (A : Allocator Ctx) (a : α) : (pure a : CProg Ctx ε α).run A = pure a := rfl

theorem run_mapM (A : Allocator Ctx) (f : α → CProg Ctx ε β) (l : List α) : (l.mapM f).run A = l.mapM (fun a => (f a).run A) := by
  induction l with
  | nil => rfl
  | cons a l ih => simp only [List.mapM_cons, run_bind, run_pure, ih]

theorem list_forM_cons {M : Type → Type} [Monad M] (f : α → M PUnit) (a : α) (l : List α) :
    (a :: l).forM f = f a >>= fun _ => l.forM f := rfl

theorem run_forM (A : Allocator Ctx) (f : α → CProg Ctx ε PUnit) (l : List α) : (l.forM f).run A = l.forM (fun a => (f a).run A) := by
  induction l with
  | nil => rfl
  | cons a l ih => simp only [list_forM_cons, run_bind, ih]

theorem run_assert (A : Allocator Ctx) (b : Prop) [Decidable b] : (assert b : CProg Ctx ε Unit).run A = CM.assert b := by
  unfold assert CM.assert
  split <;> rfl

theorem run_require (A : Allocator Ctx) (b : Prop) [Decidable b] : (require b : CProg Ctx ε Unit).run A = CM.require b := by
  unfold require CM.require
  split <;> rfl

theorem run_readByte (A : Allocator Ctx) (p : Nat) : (readByte p : CProg Ctx ε _).run A = Verif.readByte p := by
  simp only [readByte, run, bind_pure]

theorem run_writeByte (A : Allocator Ctx) (p : Nat) (b : UInt8) : (writeByte p b : CProg Ctx ε _).run A = Verif.writeByte p b := by
  simp only [writeByte, run]
  exact bind_pure _

theorem run_derefCtx (A : Allocator Ctx) (p : Nat) : (derefCtx p : CProg Ctx ε _).run A = Verif.derefCtx p := by
  simp only [derefCtx, run, bind_pure]

theorem run_readBytes (A : Allocator Ctx) (p n : Nat) : (readBytes p n : CProg Ctx ε _).run A = Verif.readBytes p n := by
  simp only [readBytes, run_mapM, run_readByte, Verif.readBytes]

theorem run_readU64 (A : Allocator Ctx) (p : Nat) : (readU64 p : CProg Ctx ε _).run A = Verif.readU64 p := by
  simp only [readU64, run_bind, run_readBytes, run_pure, Verif.readU64]

theorem run_createSliceView (A : Allocator Ctx) (p n : Nat) : (createSliceView p n : CProg Ctx ε _).run A = Verif.createSliceView p n := by
  unfold createSliceView Verif.createSliceView
  split <;> simp only [run_bind, run_require, run_readBytes, run_pure]

theorem run_createSliceViewU64 (A : Allocator Ctx) (p n : Nat) :
    (createSliceViewU64 p n : CProg Ctx ε _).run A = Verif.createSliceViewU64 p n := by
  unfold createSliceViewU64 Verif.createSliceViewU64
  split <;> simp only [run_bind, run_require, run_mapM, run_readU64, run_pure]

theorem run_createArrayRef (A : Allocator Ctx) (n p : Nat) : (createArrayRef n p : CProg Ctx ε _).run A = Verif.createArrayRef n p := by
  simp only [createArrayRef, Verif.createArrayRef, run_bind, run_createSliceView, run_assert, run_pure]

theorem run_ptrPtr (A : Allocator Ctx) (m p n : Nat) :
    (ptrPtrToVecSliceConst m p n : CProg Ctx ε _).run A = Verif.ptrPtrToVecSliceConst m p n := by
  unfold ptrPtrToVecSliceConst Verif.ptrPtrToVecSliceConst
  split <;> simp only [run_bind, run_createSliceViewU64, run_mapM, run_createArrayRef, run_pure]

theorem run_writeToSlice (A : Allocator Ctx) (p : Nat) (data : List UInt8) :
    (writeToSlice p data : CProg Ctx ε _).run A = Verif.writeToSlice p data := by
  simp only [writeToSlice, Verif.writeToSlice, run_bind, run_require, run_forM, run_writeByte]

theorem run_writeTo2dSlice (A : Allocator Ctx) (p : Nat) (data : List (List UInt8)) :
    (writeTo2dSlice p data : CProg Ctx ε _).run A = Verif.writeTo2dSlice p data := by
  unfold writeTo2dSlice Verif.writeTo2dSlice
  split <;> simp only [run_bind, run_require, run_forM, run_readU64, run_writeToSlice, run_pure]

theorem run_withError (A : Allocator Ctx) (msg : List UInt8) : (withError msg : CProg Ctx ε _).run A = CResult.withError A msg := by
  simp only [withError, CResult.withError, run_bind, run_assert, run, bind_pure, run_pure]

theorem run_tryRust (A : Allocator Ctx) (x : Outcome Error α) : (tryRust x : CProg Ctx _ _).run A = Verif.tryRust A x := by
  cases x <;> simp only [tryRust, Verif.tryRust, run_bind, run_withError, run, run_pure]

theorem run_cResult (A : Allocator Ctx) (x : CProg Ctx CResult Unit) : x.cResult.run A = Verif.cResult (x.run A) := by
  have e : ∀ {γ : Type} (y : CM Ctx CResult γ) (y' : CM Ctx Empty γ) (f : γ → CM Ctx CResult Unit),
      (∀ s, match y s with | .ok a s' => y' s = .ok a s' | .err _ _ => False | .panic => y' s = .panic | .fault => y' s = .fault) →
      Verif.cResult (y >>= f) = y' >>= fun a => Verif.cResult (f a) := by
    intro γ y y' f h
    funext s
    have := h s
    simp only [Verif.cResult, CM.bind_apply]
    cases hy : y s <;> simp only [hy] at this <;> rw [this]
  induction x with
  | ret => rfl
  | throw => rfl
  | panic => rfl
  | fault => rfl
  | read p k ih =>
    simp only [cResult, run, ih]
    refine (e _ _ _ fun s => ?_).symm
    unfold Verif.readByte
    cases s.mem p <;> simp
  | write p b k ih =>
    simp only [cResult, run, ih]
    refine (e _ _ _ fun s => ?_).symm
    unfold Verif.writeByte
    cases s.mem p <;> simp
  | ctx p k ih =>
    simp only [cResult, run, ih]
    refine (e _ _ _ fun s => ?_).symm
    unfold Verif.derefCtx
    cases s.ctxs p <;> simp
  | alloc msg k ih =>
    simp only [cResult, run, ih]
    refine (e _ _ _ fun s => ?_).symm
    unfold allocString
    cases A.place s (msg.length + 1) <;> simp

theorem run_derefMut (A : Allocator Ctx) (p : Nat) : (derefMut p : CProg Ctx ε _).run A = Verif.derefMut p := by
  simp only [derefMut, Verif.derefMut, run_bind, run_require, run_readByte, run_pure]

/-! Footprints -/

abbrev Own := Option (Nat × List UInt8)
abbrev Mem := Nat → Option UInt8

/-- The program reads only in `R` or `W`, writes only in `W`, allocates at most one message, and its result meets the postconditions,
provided that no one else writes in `R` or `W`. -/
def Safe (R W : Nat → Prop) (ctxs : Nat → Option Ctx) (E : ε → Own → Mem → Prop) (P : Prop) (Q : α → Own → Mem → Prop) :
    CProg Ctx ε α → Own → Mem → Prop
  | .ret a, o, m => Q a o m
  | .throw e, o, m => E e o m
  | .panic, _, _ => P
  | .fault, _, _ => False
  | .read p k, o, m => (R p ∨ W p) ∧ ∃ b, m p = some b ∧ Safe R W ctxs E P Q (k b) o m
  | .write p b k, o, m => W p ∧ m p ≠ none ∧ Safe R W ctxs E P Q k o (fun a => if a = p then some b else m a)
  | .ctx p k, o, m => ∃ c, ctxs p = some c ∧ Safe R W ctxs E P Q (k c) o m
  | .alloc msg k, o, m => o = none ∧ P ∧ ∀ p, p ≠ 0 → Safe R W ctxs E P Q (k p) (some (p, msg)) m

variable {R W : Nat → Prop} {ctxs : Nat → Option Ctx} {E : ε → Own → Mem → Prop} {P : Prop}

theorem safe_bind {Q : β → Own → Mem → Prop} {x : CProg Ctx ε α} {f : α → CProg Ctx ε β} {o : Own} {m : Mem}
    (h : Safe R W ctxs E P (fun a o m => Safe R W ctxs E P Q (f a) o m) x o m) : Safe R W ctxs E P Q (x >>= f) o m := by
  rw [bind_eq]
  induction x generalizing o m with
  | ret a => exact h
  | throw => exact h
  | panic => exact h
  | fault => exact h
  | read p k ih => exact ⟨h.1, h.2.imp fun b hb => ⟨hb.1, ih b hb.2⟩⟩
  | write p b k ih => exact ⟨h.1, h.2.1, ih h.2.2⟩
  | ctx p k ih => exact h.imp fun b hb => ⟨hb.1, ih b hb.2⟩
  | alloc msg k ih => exact ⟨h.1, h.2.1, fun p hp => ih p (h.2.2 p hp)⟩

theorem safe_cResult {Q : CResult → Own → Mem → Prop} {F : Empty → Own → Mem → Prop} {x : CProg Ctx CResult Unit} {o : Own} {m : Mem}
    (h : Safe R W ctxs (fun r o m => Q r o m) P (fun _ o m => Q ⟨.Ok, 0⟩ o m) x o m) : Safe R W ctxs F P Q x.cResult o m := by
  induction x generalizing o m with
  | ret a => exact h
  | throw => exact h
  | panic => exact h
  | fault => exact h
  | read p k ih => exact ⟨h.1, h.2.imp fun b hb => ⟨hb.1, ih b hb.2⟩⟩
  | write p b k ih => exact ⟨h.1, h.2.1, ih h.2.2⟩
  | ctx p k ih => exact h.imp fun b hb => ⟨hb.1, ih b hb.2⟩
  | alloc msg k ih => exact ⟨h.1, h.2.1, fun p hp => ih p (h.2.2 p hp)⟩

/-- only the memory in the footprint matters -/
theorem safe_congr {Q : α → Own → Mem → Prop} (hQ : ∀ a o m m', (∀ p, R p ∨ W p → m p = m' p) → Q a o m → Q a o m')
    (hE : ∀ a o m m', (∀ p, R p ∨ W p → m p = m' p) → E a o m → E a o m')
    {x : CProg Ctx ε α} {o : Own} {m m' : Mem} (hm : ∀ p, R p ∨ W p → m p = m' p)
    (h : Safe R W ctxs E P Q x o m) : Safe R W ctxs E P Q x o m' := by
  induction x generalizing o m m' with
  | ret a => exact hQ _ _ _ _ hm h
  | throw => exact hE _ _ _ _ hm h
  | panic => exact h
  | fault => exact h
  | read p k ih => exact ⟨h.1, h.2.imp fun b hb => ⟨hm p h.1 ▸ hb.1, ih b hm hb.2⟩⟩
  | write p b k ih =>
    refine ⟨h.1, hm p (.inr h.1) ▸ h.2.1, ih (fun a ha => ?_) h.2.2⟩
    simp only [hm a ha]
  | ctx p k ih => exact h.imp fun b hb => ⟨hb.1, ih b hm hb.2⟩
  | alloc msg k ih => exact ⟨h.1, h.2.1, fun p hp => ih p hm (h.2.2 p hp)⟩

/-- the program runs to the end with this result, and leaves this memory -/
def Runs (R W : Nat → Prop) (x : CProg Ctx ε α) (m : Mem) (a : α) (m' : Mem) : Prop :=
  ∀ (ctxs : Nat → Option Ctx) (E : ε → Own → Mem → Prop) (P : Prop) (Q : α → Own → Mem → Prop) (o : Own),
    Q a o m' → Safe R W ctxs E P Q x o m

theorem runs_pure (a : α) (m : Mem) : Runs R W (pure a : CProg Ctx ε α) m a m := fun _ _ _ _ _ h => h

theorem runs_bind {x : CProg Ctx ε α} {f : α → CProg Ctx ε β} {m m' m'' : Mem} {a : α} {b : β} (h : Runs R W x m a m')
    (h' : Runs R W (f a) m' b m'') : Runs R W (x >>= f) m b m'' := fun _ _ _ _ _ hq =>
  safe_bind (h _ _ _ _ _ (h' _ _ _ _ _ hq))

theorem safe_runs {Q : β → Own → Mem → Prop} {x : CProg Ctx ε α} {f : α → CProg Ctx ε β} {o : Own} {m m' : Mem} {a : α}
    (h : Runs R W x m a m') (h' : Safe R W ctxs E P Q (f a) o m') : Safe R W ctxs E P Q (x >>= f) o m :=
  safe_bind (h _ _ _ _ _ h')

theorem runs_readByte {m : Mem} {p : Nat} {b : UInt8} (hr : R p ∨ W p) (h : m p = some b) :
    Runs R W (readByte p : CProg Ctx ε _) m b m := fun _ _ _ _ _ hq => ⟨hr, b, h, hq⟩

theorem runs_writeByte {m : Mem} {p : Nat} {b : UInt8} (hw : W p) (h : m p ≠ none) :
    Runs R W (writeByte p b : CProg Ctx ε _) m () (fun a => if a = p then some b else m a) := fun _ _ _ _ _ hq => ⟨hw, h, hq⟩

theorem runs_mapM {f : α → CProg Ctx ε β} {m : Mem} {l : List α} {bs : List β}
    (h : List.Forall₂ (fun a b => Runs R W (f a) m b m) l bs) : Runs R W (l.mapM f) m bs m := by
  induction h with
  | nil => exact runs_pure _ _
  | cons h1 _ ih =>
    rw [List.mapM_cons]
    exact runs_bind h1 (runs_bind ih (runs_pure _ _))

theorem runs_require {b : Prop} [Decidable b] (h : b) (m : Mem) : Runs R W (require b : CProg Ctx ε Unit) m () m := by
  unfold require
  rw [if_pos h]
  exact runs_pure _ _

theorem runs_assert {b : Prop} [Decidable b] (h : b) (m : Mem) : Runs R W (assert b : CProg Ctx ε Unit) m () m := by
  unfold assert
  rw [if_pos h]
  exact runs_pure _ _

theorem runs_readBytes {m : Mem} {p n : Nat} {bytes : List UInt8} (hn : bytes.length = n) (h : Holds m p bytes)
    (hr : ∀ a, Span p n a → R a ∨ W a) : Runs R W (readBytes p n : CProg Ctx ε _) m bytes m := by
  subst hn
  refine runs_mapM (forall₂_range fun i b hb => runs_readByte (hr _ ⟨by omega, ?_⟩) (h i b hb))
  have := (List.getElem?_eq_some_iff.1 hb).1
  omega

theorem runs_readU64 {m : Mem} {p v : Nat} (h : HoldsWord m p v) (hr : ∀ a, Span p 8 a → R a ∨ W a) :
    Runs R W (readU64 p : CProg Ctx ε Nat) m v m := by
  obtain ⟨b, h1, h2⟩ := h
  have hb : Holds m p (List.ofFn b) := by
    intro i x hx
    rw [List.getElem?_ofFn] at hx
    split_ifs at hx with hi
    cases hx
    exact h1 ⟨i, hi⟩
  unfold readU64
  refine runs_bind (runs_readBytes (by simp) hb hr) ?_
  rw [leToNat_ofFn, ← h2]
  exact runs_pure _ _

theorem runs_createSliceView {m : Mem} {p n : Nat} {bytes : List UInt8} (hn : bytes.length = n) (hp : p ≠ 0) (h : Holds m p bytes)
    (hr : ∀ a, Span p n a → R a ∨ W a) : Runs R W (createSliceView p n : CProg Ctx ε _) m bytes m := by
  unfold createSliceView
  split_ifs with h0
  · rw [h0] at hn
    rw [List.length_eq_zero_iff.1 hn]
    exact runs_pure _ _
  · exact runs_bind (runs_require hp m) (runs_readBytes hn h hr)

theorem runs_createSliceViewU64 {m : Mem} {p n : Nat} {vs : List Nat} (hn : vs.length = n) (h : HoldsWords m p vs)
    (hr : ∀ a, Span p (8 * vs.length) a → R a ∨ W a) : Runs R W (createSliceViewU64 p n : CProg Ctx ε _) m vs m := by
  unfold createSliceViewU64
  split_ifs with h0
  · rw [h0] at hn
    rw [List.length_eq_zero_iff.1 hn]
    exact runs_pure _ _
  · have hne : vs ≠ [] := by rintro rfl; exact h0 hn.symm
    refine runs_bind (runs_require (h.1 hne).1 m) (runs_bind (runs_require (h.1 hne).2 m) ?_)
    rw [← hn]
    refine runs_mapM (forall₂_range fun i v hv => runs_readU64 (h.2 i v hv) fun a ha => hr a ⟨?_, ?_⟩)
    · have := ha.1; omega
    · have := (List.getElem?_eq_some_iff.1 hv).1
      have := ha.2
      omega

theorem runs_createArrayRef {m : Mem} {p n : Nat} {bytes : List UInt8} (hn : bytes.length = n) (hp : p ≠ 0) (h : Holds m p bytes)
    (hr : ∀ a, Span p n a → R a ∨ W a) : Runs R W (createArrayRef n p : CProg Ctx ε _) m bytes m :=
  runs_bind (runs_createSliceView hn hp h hr) (runs_bind (runs_assert hn m) (runs_pure _ _))

theorem runs_ptrPtr {m : Mem} {p inner n : Nat} {ptrs : List Nat} {items : List (List UInt8)} (hn : items.length = n)
    (hi : ∀ x ∈ items, x.length = inner) (h : HoldsItemsAt m p ptrs items) (hr : ∀ a, ItemSpans p ptrs inner a → R a ∨ W a) :
    Runs R W (ptrPtrToVecSliceConst inner p n : CProg Ctx ε _) m items m := by
  obtain ⟨h1, h2⟩ := h
  unfold ptrPtrToVecSliceConst
  split_ifs with h0
  · rw [h0] at hn
    rw [List.length_eq_zero_iff.1 hn]
    exact runs_pure _ _
  · refine runs_bind (runs_createSliceViewU64 (h2.length_eq.trans hn) h1 fun a ha => hr a (.inl ha)) (runs_mapM ?_)
    replace hr : ∀ q ∈ ptrs, ∀ a, Span q inner a → R a ∨ W a := fun q hq a ha => hr a (.inr ⟨q, hq, ha⟩)
    clear h1 hn h0
    induction h2 with
    | nil => exact .nil
    | cons hq _ ih =>
      exact .cons (runs_createArrayRef (hi _ (by simp)) hq.1 hq.2 (hr _ (by simp)))
        (ih (fun x hx => hi x (by simp [hx])) fun q hq => hr q (by simp [hq]))

theorem runs_writeToSlice {m : Mem} {p : Nat} {data : List UInt8} (hp : p ≠ 0) (h : Mapped m p data.length)
    (hw : ∀ a, Span p data.length a → W a) : Runs R W (writeToSlice p data : CProg Ctx ε Unit) m () (overwrite m p data) := by
  have key : ∀ (data : List UInt8) (k : Nat) (m : Mem), Mapped m (p + k) data.length → (∀ a, Span (p + k) data.length a → W a) →
      Runs R W ((data.zipIdx k).forM (fun q => writeByte (p + q.2) q.1) : CProg Ctx ε Unit) m () (overwrite m (p + k) data) := by
    intro data
    induction data with
    | nil => intro k m _ _; rw [overwrite_nil]; exact runs_pure _ _
    | cons b data ih =>
      intro k m h hw
      rw [List.zipIdx_cons, list_forM_cons]
      obtain ⟨b0, hb0⟩ := h 0 (by simp)
      refine runs_bind (runs_writeByte (hw _ ⟨le_rfl, by simp⟩) (by rw [show m (p + k) = some b0 from hb0]; simp)) ?_
      have := ih (k + 1) (fun a => if a = p + k then some b else m a) ?_ ?_
      · rw [show p + (k + 1) = p + k + 1 by omega, overwrite_cons] at this
        exact this
      · intro i hi
        obtain ⟨b1, hb1⟩ := h (i + 1) (by simpa using hi)
        refine ⟨b1, ?_⟩
        simp only
        rw [if_neg (by omega), ← hb1]
        congr 1; omega
      · intro a ha
        have h1 := ha.1
        have h2 := ha.2
        exact hw a ⟨by omega, by simp only [List.length_cons]; omega⟩
  exact runs_bind (runs_require hp m) (key data 0 m h hw)

theorem runs_writeTo2dSlice {m : Mem} {p : Nat} {data : List (List UInt8)} {ptrs : List Nat}
    (hall : HoldsWords m p ptrs) (hlen : data.length = ptrs.length)
    (hm : ∀ r ∈ ptrs.zip data, r.1 ≠ 0 ∧ Mapped m r.1 r.2.length)
    (ha : ∀ r ∈ ptrs.zip data, Apart r.1 r.2.length p (8 * ptrs.length))
    (hr : ∀ a, Span p (8 * ptrs.length) a → R a ∨ W a) (hw : ∀ r ∈ ptrs.zip data, ∀ a, Span r.1 r.2.length a → W a) :
    Runs R W (writeTo2dSlice p data : CProg Ctx ε Unit) m () (overwriteAll m (ptrs.zip data)) := by
  have key : ∀ (data : List (List UInt8)) (all qs : List Nat) (k : Nat) (m : Mem), HoldsWords m p all → all.drop k = qs →
      data.length = qs.length → (∀ r ∈ qs.zip data, r.1 ≠ 0 ∧ Mapped m r.1 r.2.length) →
      (∀ r ∈ qs.zip data, Apart r.1 r.2.length p (8 * all.length)) → (∀ a, Span p (8 * all.length) a → R a ∨ W a) →
      (∀ r ∈ qs.zip data, ∀ a, Span r.1 r.2.length a → W a) →
      Runs R W ((data.zipIdx k).forM (fun q => do
        let outCell ← readU64 (p + 8 * q.2)
        writeToSlice outCell q.1) : CProg Ctx ε Unit) m () (overwriteAll m (qs.zip data)) := by
    intro data
    induction data with
    | nil => intro all qs k m _ _ _ _ _ _ _; simp only [List.zip_nil_right, overwriteAll]; exact runs_pure _ _
    | cons d data ih =>
      intro all qs k m hall hk hlen hm ha hr hw
      cases qs with
      | nil => simp at hlen
      | cons q qs =>
        have hq : all[k]? = some q := by
          have := congrArg (fun l => l[0]?) hk
          simpa using this
        have hkl := (List.getElem?_eq_some_iff.1 hq).1
        have hr' := hm (q, d) (by simp)
        rw [List.zipIdx_cons, list_forM_cons]
        refine runs_bind (runs_bind (runs_readU64 (holdsWord_of hall hq) fun a h => hr a ⟨?_, ?_⟩)
          (runs_writeToSlice hr'.1 hr'.2 (hw (q, d) (by simp)))) ?_
        · have := h.1; omega
        · have := h.2; omega
        · refine ih all qs (k + 1) _ (holdsWords_overwrite hall (ha (q, d) (by simp))) ?_ (by simpa using hlen) ?_ ?_ hr ?_
          · rw [← List.drop_drop, hk]; rfl
          · intro r h
            have := hm r (by simp [h])
            exact ⟨this.1, mapped_overwrite this.2⟩
          · intro r h
            exact ha r (by simp [h])
          · intro r h
            exact hw r (by simp [h])
  unfold writeTo2dSlice
  split_ifs with h0
  · rw [List.length_eq_zero_iff.1 h0]
    simp only [List.zip_nil_right, overwriteAll]
    exact runs_pure _ _
  · have hne : ptrs ≠ [] := by rintro rfl; exact h0 (by simpa using hlen)
    exact runs_bind (runs_require (hall.1 hne).1 m) (runs_bind (runs_require (hall.1 hne).2 m)
      (key data ptrs ptrs 0 m hall rfl hlen hm ha hr hw))

theorem safe_tryRust_err {Q : β → Own → Mem → Prop} {E : CResult → Own → Mem → Prop} {e : Error} {f : α → CProg Ctx CResult β} {m : Mem}
    (hp : P) (hE : ∀ p, p ≠ 0 → E ⟨.Err, p⟩ (some (p, e.debug)) m) :
    Safe R W ctxs E P Q (tryRust (.err e) >>= f) none m := by
  refine safe_bind (safe_bind ?_)
  refine safe_runs (runs_assert (Error.debug_no_zero e) m) ?_
  exact ⟨rfl, hp, fun p h => hE p h⟩

theorem safe_derefCtx {Q : β → Own → Mem → Prop} {p : Nat} {c : Ctx} {f : Ctx → CProg Ctx ε β} {o : Own} {m : Mem}
    (hc : ctxs p = some c) (h : Safe R W ctxs E P Q (f c) o m) : Safe R W ctxs E P Q (derefCtx p >>= f) o m :=
  ⟨c, hc, h⟩

end CProg
end Verif
