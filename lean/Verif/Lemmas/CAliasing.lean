import Verif.Model.CAliasing
import Verif.Lemmas.Aliasing
import Verif.Lemmas.CBinding

set_option linter.unusedSectionVars false

/-! The references of the C bindings: what the aliasing rules say about each helper function. -/
namespace Verif
open Spec (AliasModel RefKind Span Holds Mapped HoldsWord HoldsWords HoldsItemsAt Apart)
namespace AM

variable {B : AliasModel} {Ctx ε α β : Type}

theorem bind_apply (x : AM B Ctx ε α) (f : α → AM B Ctx ε β) (s : CState Ctx) (b : B.State) :
    (x >>= f) s b = match x s b with
      | .ok a s b => f a s b
      | .err e s b => .err e s b
      | .panic => .panic
      | .fault => .fault
      | .violation => .violation := rfl

theorem bind_ok {x : AM B Ctx ε α} {f : α → AM B Ctx ε β} {s s' : CState Ctx} {b b' : B.State} {a : α} (h : x s b = .ok a s' b') :
    (x >>= f) s b = f a s' b' := by rw [bind_apply, h]

instance : LawfulMonad (AM B Ctx ε) := LawfulMonad.mk'
  (id_map := by
    intro α x; funext s b
    show (x >>= pure) s b = x s b
    rw [bind_apply]
    cases x s b <;> rfl)
  (pure_bind := by intros; rfl)
  (bind_assoc := by
    intro α β γ x f g; funext s b
    simp only [bind_apply]
    cases x s b <;> rfl)

theorem lift_ok {x : CM Ctx ε α} {s s' : CState Ctx} {a : α} (h : x s = .ok a s') (b : B.State) : (lift x : AM B Ctx ε α) s b = .ok a s' b := by
  unfold lift; rw [h]

theorem forM_cons (f : α → AM B Ctx ε Unit) (a : α) (l : List α) : (a :: l).forM f = f a >>= fun _ => l.forM f := rfl

/-! ### The same functions -/

/-- the outcome without the state of the aliasing rules -/
def AOut.erase (f : α → β) : AOut B Ctx ε α → COut Ctx ε β
  | .ok a s _ => .ok (f a) s
  | .err e s _ => .err e s
  | .panic => .panic
  | .fault => .fault
  | .violation => .fault

/-- Unless there is a violation, `x` does what `y` does. -/
def Erases (f : α → β) (x : AM B Ctx ε α) (y : CM Ctx ε β) : Prop := ∀ s b, x s b = .violation ∨ AOut.erase f (x s b) = y s

variable {γ δ : Type}

theorem Erases.pure (f : α → β) (a : α) : Erases f (pure a : AM B Ctx ε α) (pure (f a)) := fun _ _ => .inr rfl

theorem Erases.bind {f : α → β} {g : γ → δ} {x : AM B Ctx ε α} {y : CM Ctx ε β} {k : α → AM B Ctx ε γ} {k' : β → CM Ctx ε δ}
    (h : Erases f x y) (hk : ∀ a, Erases g (k a) (k' (f a))) : Erases g (x >>= k) (y >>= k') := by
  intro s b
  rw [bind_apply, CM.bind_apply]
  rcases h s b with h | h
  · left; rw [h]
  · cases hx : x s b with
    | ok a s' b' => rw [hx] at h; rw [← h]; exact hk a s' b'
    | err e s' b' => rw [hx] at h; rw [← h]; exact .inr rfl
    | panic => rw [hx] at h; rw [← h]; exact .inr rfl
    | fault => rw [hx] at h; rw [← h]; exact .inr rfl
    | violation => exact .inl rfl

theorem Erases.lift (x : CM Ctx ε α) : Erases id (lift x : AM B Ctx ε α) x := by
  intro s b
  right
  unfold AM.lift
  cases x s <;> rfl

/-- events have no counterpart -/
theorem Erases.event {f : β → δ} {x : AM B Ctx ε α} {k : α → AM B Ctx ε β} {y : CM Ctx ε δ}
    (hx : ∀ s b, x s b = .violation ∨ ∃ a b', x s b = .ok a s b') (hk : ∀ a, Erases f (k a) y) : Erases f (x >>= k) y := by
  intro s b
  rw [bind_apply]
  rcases hx s b with h | ⟨a, b', h⟩
  · left; rw [h]
  · rw [h]; exact hk a s b'

/-- only the state of the aliasing rules changes -/
def Event (x : AM B Ctx ε α) : Prop := ∀ s b, x s b = .violation ∨ ∃ a b', x s b = .ok a s b'

theorem event_retag (k : RefKind) (p n t : Nat) : Event (retag k p n t : AM B Ctx ε Nat) := by
  intro s b
  unfold retag
  cases B.retag k p n t b with
  | none => exact .inl rfl
  | some r => exact .inr ⟨r.1, r.2, rfl⟩

theorem event_access (w : Bool) (p t : Nat) : Event (access w p t : AM B Ctx ε Unit) := by
  intro s b
  unfold access
  cases B.access w p t b with
  | none => exact .inl rfl
  | some r => exact .inr ⟨(), r, rfl⟩

theorem event_forM {f : α → AM B Ctx ε Unit} (hf : ∀ a, Event (f a)) (l : List α) : Event (l.forM f) := by
  induction l with
  | nil => exact fun s b => .inr ⟨(), b, rfl⟩
  | cons a l ih =>
    intro s b
    rw [forM_cons, bind_apply]
    rcases hf a s b with h | ⟨x, b', h⟩
    · left; rw [h]
    · rw [h]; exact ih s b'

theorem event_readAll (p n t : Nat) : Event (readAll p n t : AM B Ctx ε Unit) := event_forM (fun _ => event_access _ _ _) _

theorem event_use {β : Type} (r : SliceRef β) : Event (r.use : AM B Ctx ε Unit) := event_readAll _ _ _

theorem erases_createSliceView (p n : Nat) :
    Erases SliceRef.content (createSliceView p n : AM B Ctx ε _) (Verif.createSliceView p n) := by
  have := Erases.bind (g := SliceRef.content) (Erases.lift (B := B) (Verif.createSliceView p n : CM Ctx ε _)) (k' := Pure.pure)
    (k := fun content => if n = 0 then Pure.pure ⟨p, 0, 0, content⟩ else do
      let tag ← retag .shared p n 0
      Pure.pure ⟨p, n, tag, content⟩) (fun a => by
        split_ifs
        · exact .pure _ _
        · exact .event (event_retag _ _ _ _) fun _ => .pure _ _)
  rwa [bind_pure] at this

theorem erases_createSliceViewU64 (p n : Nat) :
    Erases SliceRef.content (createSliceViewU64 p n : AM B Ctx ε _) (Verif.createSliceViewU64 p n) := by
  have := Erases.bind (g := SliceRef.content) (Erases.lift (B := B) (Verif.createSliceViewU64 p n : CM Ctx ε _)) (k' := Pure.pure)
    (k := fun content => if n = 0 then Pure.pure ⟨p, 0, 0, content⟩ else do
      let tag ← retag .shared p (8 * n) 0
      Pure.pure ⟨p, 8 * n, tag, content⟩) (fun a => by
        split_ifs
        · exact .pure _ _
        · exact .event (event_retag _ _ _ _) fun _ => .pure _ _)
  rwa [bind_pure] at this

theorem erases_createArrayRef (n p : Nat) :
    Erases SliceRef.content (createArrayRef n p : AM B Ctx ε _) (Verif.createArrayRef n p) :=
  .bind (erases_createSliceView p n) fun _ => .bind (.lift _) fun _ => .pure _ _

theorem erases_mapM {f : α → β} {x : γ × Nat → AM B Ctx ε α} {y : γ → CM Ctx ε β} (h : ∀ q, Erases f (x q) (y q.1)) (l : List γ) (k : Nat) :
    Erases (List.map f) ((l.zipIdx k).mapM x) (l.mapM y) := by
  induction l generalizing k with
  | nil => exact .pure _ _
  | cons a l ih =>
    rw [List.zipIdx_cons, List.mapM_cons, List.mapM_cons]
    exact .bind (h _) fun _ => .bind (ih _) fun _ => .pure _ _

theorem erases_forM {x : γ → AM B Ctx ε Unit} {y : γ → CM Ctx ε Unit} (h : ∀ q, Erases id (x q) (y q)) (l : List γ) :
    Erases id (l.forM x) (l.forM y) := by
  induction l with
  | nil => exact .pure _ _
  | cons a l ih => exact .bind (h _) fun _ => ih

theorem erases_ptrPtr (m p n : Nat) :
    Erases (List.map SliceRef.content) (ptrPtrToVecSliceConst m p n : AM B Ctx ε _) (Verif.ptrPtrToVecSliceConst m p n) := by
  unfold ptrPtrToVecSliceConst Verif.ptrPtrToVecSliceConst
  split_ifs
  · exact .pure _ _
  · exact .bind (erases_createSliceViewU64 _ _) fun v => erases_mapM (fun q => .event (event_readAll _ _ _) fun _ => erases_createArrayRef _ _) _ _

theorem erases_writeToSlice (p t : Nat) (data : List UInt8) :
    Erases id (writeToSlice p t data : AM B Ctx ε _) (Verif.writeToSlice p data) := by
  refine .bind (.lift _) fun _ => .event (event_retag _ _ _ _) fun _ => erases_forM (fun q => ?_) _
  exact .event (event_access _ _ _) fun _ => .lift _

theorem erases_writeTo2dSlice (p : Nat) (data : List (List UInt8)) :
    Erases id (writeTo2dSlice p data : AM B Ctx ε _) (Verif.writeTo2dSlice p data) := by
  unfold writeTo2dSlice Verif.writeTo2dSlice
  split_ifs
  · exact .pure _ _
  · refine .bind (.lift _) fun _ => .bind (.lift _) fun _ => .event (event_retag _ _ _ _) fun _ => erases_forM (fun q => ?_) _
    exact .event (event_retag _ _ _ _) fun _ => .event (event_readAll _ _ _) fun _ => .bind (.lift _) fun _ =>
      .event (event_retag _ _ _ _) fun _ => erases_writeToSlice _ _ _

theorem erases_cResult {x : AM B Ctx CResult Unit} {y : CM Ctx CResult Unit} (h : Erases id x y) : Erases id (cResult x) (Verif.cResult y) := by
  intro s b
  unfold cResult Verif.cResult
  rcases h s b with h | h
  · left; rw [h]
  · rw [← h]
    cases x s b with
    | violation => exact .inl rfl
    | _ => exact .inr rfl

section
variable {K G1 G2 GT : Type} [Field K] [DecidableEq K] [AddCommGroup G1] [Module Fr G1] [DecidableEq G1]
  [Curve K G1] [PointCodec G1] [AddCommGroup G2] [Module Fr G2] [AddCommGroup GT] [DecidableEq GT]
  [Pairing G1 G2 GT]
variable (A : Allocator (DASContext K G1 G2)) (sha256 : List UInt8 → List UInt8)

theorem erases_commitment (ctx blob out : Nat) :
    Erases id (ethKzgBlobToKzgCommitment A ctx blob out : AM B _ _ _) (Verif.ethKzgBlobToKzgCommitment A ctx blob out) :=
  erases_cResult (.bind (.lift _) fun _ => .bind (.lift _) fun _ => .bind (erases_createArrayRef _ _) fun _ =>
    .event (event_use _) fun _ => .bind (.lift _) fun _ => .bind (.lift _) fun _ => erases_writeToSlice _ _ _)

theorem erases_compute (ctx blob oc op : Nat) :
    Erases id (ethKzgComputeCellsAndKzgProofs A ctx blob oc op : AM B _ _ _) (Verif.ethKzgComputeCellsAndKzgProofs A ctx blob oc op) :=
  erases_cResult (.bind (.lift _) fun _ => .bind (.lift _) fun _ => .bind (erases_createArrayRef _ _) fun _ =>
    .event (event_use _) fun _ => .bind (.lift _) fun _ => .bind (erases_writeTo2dSlice _ _) fun _ => erases_writeTo2dSlice _ _)

theorem erases_recover (ctx cl c il i oc op : Nat) :
    Erases id (ethKzgRecoverCellsAndProofs A ctx cl c il i oc op : AM B _ _ _) (Verif.ethKzgRecoverCellsAndProofs A ctx cl c il i oc op) :=
  erases_cResult (.bind (.lift _) fun _ => .bind (.lift _) fun _ => .bind (erases_ptrPtr _ _ _) fun _ =>
    .bind (erases_createSliceViewU64 _ _) fun _ => .event (event_use _) fun _ => .event (event_forM event_use _) fun _ =>
    .bind (.lift _) fun _ => .bind (erases_writeTo2dSlice _ _) fun _ => erases_writeTo2dSlice _ _)

theorem erases_verify (ctx ml m il i cl c pl p v : Nat) :
    Erases id (ethKzgVerifyCellKzgProofBatch A sha256 ctx ml m il i cl c pl p v : AM B _ _ _)
      (Verif.ethKzgVerifyCellKzgProofBatch A sha256 ctx ml m il i cl c pl p v) := by
  refine erases_cResult (.bind (.lift _) fun _ => .bind (.lift _) fun _ => .bind (erases_ptrPtr _ _ _) fun _ =>
    .bind (erases_createSliceViewU64 _ _) fun _ => .bind (erases_ptrPtr _ _ _) fun _ => .bind (erases_ptrPtr _ _ _) fun _ =>
    .bind (f := SliceRef.addr) ?_ fun _ => .event (event_use _) fun _ => .event (event_forM event_use _) fun _ =>
    .event (event_forM event_use _) fun _ => .event (event_forM event_use _) fun _ => .bind (.lift _) fun _ =>
    .event (event_access _ _ _) fun _ => .lift _)
  have h : (Verif.derefMut v : CM (DASContext K G1 G2) CResult Nat) = Verif.derefMut v >>= fun _ => Pure.pure v := by
    unfold Verif.derefMut
    simp
  rw [h]
  exact .bind (.lift _) fun _ => .event (event_retag _ _ _ _) fun _ => .pure _ _

end

/-! ### What the rules allow -/

variable (L : AliasLaws B)

/-- the foreign code may access everything, and the bytes may be read through the tags as `R` says -/
def Reads (R : Nat → Nat → Prop) (b : B.State) : Prop := B.FromC b ∧ ∀ u a, R u a → L.Readable b u a

/-- the bytes of a slice, with its tag -/
def SliceRef.bytes (r : SliceRef β) (u a : Nat) : Prop := u = r.tag ∧ Span r.addr r.size a

variable {L} {R : Nat → Nat → Prop} {b : B.State} {s : CState Ctx}

theorem retag_shared_ok (p n : Nat) (h : Reads L R b) :
    ∃ t b', (retag .shared p n 0 : AM B Ctx ε Nat) s b = .ok t s b' ∧ Reads L (fun u a => R u a ∨ u = t ∧ Span p n a) b' := by
  obtain ⟨t, b', h1, h2, h3, h4⟩ := L.shared p n h.1
  refine ⟨t, b', by unfold retag; rw [h1], h2, fun u a hu => ?_⟩
  rcases hu with hu | ⟨rfl, ha⟩
  · exact h4 u a (h.2 u a hu)
  · exact h3 a ha

theorem forM_read_ok (p t k n : Nat) (h : Reads L R b) (hr : ∀ i, k ≤ i → i < k + n → R t (p + i)) :
    ∃ b', ((List.range' k n).forM (fun i => access false (p + i) t) : AM B Ctx ε Unit) s b = .ok () s b' ∧ Reads L R b' := by
  induction n generalizing k b with
  | zero => exact ⟨b, rfl, h⟩
  | succ n ih =>
    obtain ⟨b1, h1, h2, h3, -⟩ := L.read h.1 (.inl (h.2 _ _ (hr k (Nat.le_refl _) (by omega))))
    obtain ⟨b', h4, h5⟩ := ih (b := b1) (k + 1) ⟨h2, fun u a hu => h3 u a (h.2 u a hu)⟩ fun i h h' => hr i (by omega) (by omega)
    refine ⟨b', ?_, h5⟩
    rw [List.range'_succ, forM_cons, bind_ok (a := ()) (s' := s) (b' := b1) (by unfold access; rw [h1])]
    exact h4

theorem readAll_ok (p n t : Nat) (h : Reads L R b) (hr : ∀ a, Span p n a → R t a) :
    ∃ b', (readAll p n t : AM B Ctx ε Unit) s b = .ok () s b' ∧ Reads L R b' := by
  unfold readAll
  rw [List.range_eq_range']
  exact forM_read_ok p t 0 n h fun i _ hi => hr _ ⟨by omega, by omega⟩

theorem use_ok {r : SliceRef β} (h : Reads L R b) (hr : ∀ u a, r.bytes u a → R u a) :
    ∃ b', (r.use : AM B Ctx ε Unit) s b = .ok () s b' ∧ Reads L R b' := readAll_ok _ _ _ h fun a ha => hr _ a ⟨rfl, ha⟩

theorem forM_use_ok {rs : List (SliceRef β)} (h : Reads L R b) (hr : ∀ r ∈ rs, ∀ u a, r.bytes u a → R u a) :
    ∃ b', (rs.forM SliceRef.use : AM B Ctx ε Unit) s b = .ok () s b' ∧ Reads L R b' := by
  induction rs generalizing b with
  | nil => exact ⟨b, rfl, h⟩
  | cons r rs ih =>
    obtain ⟨b1, h1, h2⟩ := use_ok (s := s) (ε := ε) (r := r) h (hr r (by simp))
    obtain ⟨b', h3, h4⟩ := ih h2 fun r' hr' => hr r' (by simp [hr'])
    exact ⟨b', by rw [forM_cons, bind_ok h1]; exact h3, h4⟩

theorem createSliceView_ok {p n : Nat} {bytes : List UInt8} (h : Reads L R b) (hn : bytes.length = n) (hp : p ≠ 0) (hh : Holds s.mem p bytes) :
    ∃ r b', (createSliceView p n : AM B Ctx ε _) s b = .ok r s b' ∧ r.content = bytes ∧ (∀ a, Span r.addr r.size a → Span p n a) ∧
      Reads L (fun u a => R u a ∨ r.bytes u a) b' := by
  unfold createSliceView
  rw [bind_ok (lift_ok (Verif.createSliceView_ok hn hp hh) b)]
  split_ifs with h0
  · refine ⟨_, b, rfl, rfl, fun a ha => ?_, h.1, fun u a hu => ?_⟩
    · unfold Span at ha; simp only at ha; omega
    · rcases hu with hu | ⟨-, ha⟩
      · exact h.2 u a hu
      · unfold Span at ha; simp only at ha; omega
  · obtain ⟨t, b', h1, h2⟩ := retag_shared_ok (s := s) (ε := ε) p n h
    exact ⟨⟨p, n, t, bytes⟩, b', by rw [bind_ok h1]; rfl, rfl, fun a ha => ha, h2⟩

theorem createSliceViewU64_ok {p n : Nat} {vs : List Nat} (h : Reads L R b) (hn : vs.length = n) (hh : HoldsWords s.mem p vs) :
    ∃ r b', (createSliceViewU64 p n : AM B Ctx ε _) s b = .ok r s b' ∧ r.content = vs ∧ r.addr = p ∧ r.size = 8 * n ∧
      Reads L (fun u a => R u a ∨ r.bytes u a) b' := by
  unfold createSliceViewU64
  rw [bind_ok (lift_ok (Verif.createSliceViewU64_ok hn hh) b)]
  split_ifs with h0
  · refine ⟨_, b, rfl, rfl, rfl, by simp [h0], h.1, fun u a hu => ?_⟩
    rcases hu with hu | ⟨-, ha⟩
    · exact h.2 u a hu
    · unfold Span at ha; simp only at ha; omega
  · obtain ⟨t, b', h1, h2⟩ := retag_shared_ok (s := s) (ε := ε) p (8 * n) h
    exact ⟨⟨p, 8 * n, t, vs⟩, b', by rw [bind_ok h1]; rfl, rfl, rfl, rfl, h2⟩

theorem createArrayRef_ok {p n : Nat} {bytes : List UInt8} (h : Reads L R b) (hn : bytes.length = n) (hp : p ≠ 0) (hh : Holds s.mem p bytes) :
    ∃ r b', (createArrayRef n p : AM B Ctx ε _) s b = .ok r s b' ∧ r.content = bytes ∧ (∀ a, Span r.addr r.size a → Span p n a) ∧
      Reads L (fun u a => R u a ∨ r.bytes u a) b' := by
  obtain ⟨r, b', h1, h2, h3⟩ := createSliceView_ok (ε := ε) h hn hp hh
  refine ⟨r, b', ?_, h2, h3⟩
  unfold createArrayRef
  rw [bind_ok h1, CM.assert_true (by rw [h2, hn])]
  rfl

theorem Reads.weaken {R' : Nat → Nat → Prop} (h : Reads L R b) (hr : ∀ u a, R' u a → R u a) : Reads L R' b :=
  ⟨h.1, fun u a hu => h.2 u a (hr u a hu)⟩

theorem mapM_items_ok {m p t : Nat} {ptrs : List Nat} {items : List (List UInt8)} (k : Nat) (h : Reads L R b)
    (hr : ∀ a, Span (p + 8 * k) (8 * ptrs.length) a → R t a) (hi : ∀ x ∈ items, x.length = m)
    (hh : List.Forall₂ (fun q item => q ≠ 0 ∧ Holds s.mem q item) ptrs items) :
    ∃ rs b', ((ptrs.zipIdx k).mapM (fun q => do
        readAll (p + 8 * q.2) 8 t
        createArrayRef m q.1) : AM B Ctx ε _) s b = .ok rs s b' ∧ rs.map SliceRef.content = items ∧
      (∀ r ∈ rs, ∀ a, Span r.addr r.size a → ∃ q ∈ ptrs, Span q m a) ∧
      Reads L (fun u a => R u a ∨ ∃ r ∈ rs, r.bytes u a) b' := by
  induction hh generalizing k b R with
  | nil => exact ⟨[], b, rfl, rfl, by simp, h.weaken fun u a hu => by simpa using hu⟩
  | @cons q item ptrs items hq _ ih =>
    obtain ⟨b1, h1, h2⟩ := readAll_ok (s := s) (ε := ε) (p + 8 * k) 8 t h fun a ha => hr a (by
      unfold Span at ha ⊢; simp only [List.length_cons]; omega)
    obtain ⟨r, b2, h3, h4, h5, h6⟩ := createArrayRef_ok (ε := ε) h2 (hi item (by simp)) hq.1 hq.2
    obtain ⟨rs, b3, h7, h8, h9, h10⟩ := ih (k + 1) h6 (fun a ha => .inl (hr a (by
      unfold Span at ha ⊢; simp only [List.length_cons]; omega))) fun x hx => hi x (by simp [hx])
    refine ⟨r :: rs, b3, ?_, by rw [List.map_cons, h4, h8], ?_, h10.weaken fun u a hu => ?_⟩
    · rw [List.zipIdx_cons, List.mapM_cons, bind_ok (a := r) (s' := s) (b' := b2) (by rw [bind_ok h1]; exact h3), bind_ok h7]
      rfl
    · intro r' hr' a ha
      rcases List.mem_cons.1 hr' with rfl | hr'
      · exact ⟨q, by simp, h5 a ha⟩
      · obtain ⟨q', hq', ha'⟩ := h9 r' hr' a ha
        exact ⟨q', by simp [hq'], ha'⟩
    · rcases hu with hu | ⟨r', hr', hu⟩
      · exact .inl (.inl hu)
      · rcases List.mem_cons.1 hr' with rfl | hr'
        · exact .inl (.inr hu)
        · exact .inr ⟨r', hr', hu⟩

theorem ptrPtr_ok {m p n : Nat} {ptrs : List Nat} {items : List (List UInt8)} (h : Reads L R b) (hn : items.length = n)
    (hi : ∀ x ∈ items, x.length = m) (hh : HoldsItemsAt s.mem p ptrs items) :
    ∃ rs b', (ptrPtrToVecSliceConst m p n : AM B Ctx ε _) s b = .ok rs s b' ∧ rs.map SliceRef.content = items ∧
      (∀ r ∈ rs, ∀ a, Span r.addr r.size a → ∃ q ∈ ptrs, Span q m a) ∧
      Reads L (fun u a => R u a ∨ ∃ r ∈ rs, r.bytes u a) b' := by
  unfold ptrPtrToVecSliceConst
  have hlen := hh.2.length_eq
  split_ifs with h0
  · rw [h0] at hn
    refine ⟨[], b, rfl, (List.length_eq_zero_iff.1 hn).symm, by simp, h.weaken fun u a hu => by simpa using hu⟩
  · obtain ⟨r, b1, h1, h2, h3, h4, h5⟩ := createSliceViewU64_ok (ε := ε) h (hlen.trans hn) hh.1
    rw [bind_ok h1, h2, h3]
    obtain ⟨rs, b2, h6, h7, h8, h9⟩ := mapM_items_ok (ε := ε) (m := m) (t := r.tag) (p := p) 0 h5 (fun a ha => .inr ⟨rfl, by
      rw [h3, h4, ← hn, ← hlen]; simpa using ha⟩) hi hh.2
    exact ⟨rs, b2, h6, h7, h8, h9.weaken fun u a hu => hu.imp .inl id⟩

/-! Writes -/

/-- the foreign code may access everything, and the bytes may be accessed through the tags as `O` says -/
def Owns (L : AliasLaws B) (O : Nat → Nat → Prop) (b : B.State) : Prop := B.FromC b ∧ ∀ u a, O u a → L.Own b u a

variable {O : Nat → Nat → Prop}

theorem Owns.weaken {O' : Nat → Nat → Prop} (h : Owns L O b) (hr : ∀ u a, O' u a → O u a) : Owns L O' b :=
  ⟨h.1, fun u a hu => h.2 u a (hr u a hu)⟩

theorem retag_unique_ok {p n t : Nat} (h : Owns L O b) (hn : 0 < n) (ht : ∀ a, Span p n a → t = 0 ∨ O t a) :
    ∃ t' b', (retag .unique p n t : AM B Ctx ε Nat) s b = .ok t' s b' ∧
      Owns L (fun u a => (¬ Span p n a ∧ O u a) ∨ u = t' ∧ Span p n a) b' := by
  obtain ⟨t', b', h1, h2, h3, h4⟩ := L.unique p n t h.1 hn fun a ha => by
    rcases ht a ha with rfl | ho
    · exact L.base a h.1
    · exact h.2 t a ho
  refine ⟨t', b', by unfold retag; rw [h1], h2, fun u a hu => ?_⟩
  rcases hu with ⟨ha, hu⟩ | ⟨rfl, ha⟩
  · exact (h4 u a).2 ha (h.2 u a hu)
  · exact h3 a ha

theorem forM_write_ok (p t : Nat) (data : List UInt8) (k : Nat) (h : Owns L O b) (hm : Mapped s.mem (p + k) data.length)
    (ht : ∀ a, Span (p + k) data.length a → O t a) (ho : ∀ u a, O u a → u = t ∨ ¬ Span (p + k) data.length a) :
    ∃ b', ((data.zipIdx k).forM (fun q => do
        access true (p + q.2) t
        lift (writeByte (p + q.2) q.1)) : AM B Ctx ε Unit) s b = .ok () { s with mem := overwrite s.mem (p + k) data } b' ∧ Owns L O b' := by
  induction data generalizing k s b with
  | nil => exact ⟨b, by rw [overwrite_nil]; rfl, h⟩
  | cons x data ih =>
    obtain ⟨x0, hx0⟩ := hm 0 (by simp)
    have hself : Span (p + k) (x :: data).length (p + k) := ⟨Nat.le_refl _, by simp⟩
    obtain ⟨b1, h1, h2, -, h3⟩ := L.write h.1 (h.2 t (p + k) (ht _ hself))
    have hw : (writeByte (p + k) x : CM Ctx ε Unit) s = .ok () { s with mem := fun a => if a = p + k then some x else s.mem a } := by
      unfold writeByte
      rw [show s.mem (p + k) = some x0 from hx0]
    have ho1 : Owns L O b1 := ⟨h2, fun u a hu => h3 u a ((ho u a hu).symm.imp (fun hn h => hn (h ▸ hself)) id) (h.2 u a hu)⟩
    have hsub : ∀ a, Span (p + (k + 1)) data.length a → Span (p + k) (x :: data).length a := fun a ha => by
      unfold Span at ha ⊢; simp only [List.length_cons]; omega
    obtain ⟨b2, h4, h5⟩ := ih (s := { s with mem := fun a => if a = p + k then some x else s.mem a }) (k + 1) ho1 (fun i hi => by
      obtain ⟨y, hy⟩ := hm (i + 1) (by simpa using hi)
      refine ⟨y, ?_⟩
      show (if p + (k + 1) + i = p + k then some x else s.mem (p + (k + 1) + i)) = some y
      rw [if_neg (by omega), ← hy]
      congr 1; omega) (fun a ha => ht a (hsub a ha)) fun u a hu => (ho u a hu).imp id fun hn ha => hn (hsub a ha)
    refine ⟨b2, ?_, h5⟩
    rw [List.zipIdx_cons, forM_cons, bind_ok (a := ()) (b' := b1) (s' := { s with mem := fun a => if a = p + k then some x else s.mem a })
      (by rw [bind_ok (a := ()) (s' := s) (b' := b1) (by unfold access; rw [h1])]; exact lift_ok hw b1), h4]
    simp only
    rw [show p + (k + 1) = p + k + 1 by omega, overwrite_cons]

theorem writeToSlice_ok {p t : Nat} {data : List UInt8} (h : Owns L O b) (hp : p ≠ 0) (hd : data ≠ []) (hm : Mapped s.mem p data.length)
    (ht : ∀ a, Span p data.length a → t = 0 ∨ O t a) :
    ∃ b', (writeToSlice p t data : AM B Ctx ε Unit) s b = .ok () { s with mem := overwrite s.mem p data } b' ∧
      Owns L (fun u a => ¬ Span p data.length a ∧ O u a) b' := by
  unfold writeToSlice
  rw [CM.require_true hp]
  obtain ⟨t', b1, h1, h2⟩ := retag_unique_ok (s := s) (ε := ε) h (List.length_pos_iff.2 hd) ht
  obtain ⟨b2, h3, h4⟩ := forM_write_ok (ε := ε) (s := s) p t' data 0 h2 hm (fun a ha => .inr ⟨rfl, ha⟩) (fun u a hu => by
    rcases hu with hu | hu
    · exact .inr hu.1
    · exact .inl hu.1)
  exact ⟨b2, (bind_ok (a := ()) (s' := s) (b' := b) rfl).trans ((bind_ok h1).trans h3), h4.weaken fun u a hu => .inl hu⟩

/-! Reads while there is a mutable reference to one byte -/

/-- the reference may still be written through: nothing was written through it, or no other reference to the byte is in use -/
def Keeps (L : AliasLaws B) (R : Nat → Nat → Prop) (t v : Nat) (b : B.State) : Prop :=
  Reads L R b ∧ (L.Pending b t v ∨ L.Own b t v ∧ ∀ u, ¬ R u v)

theorem Keeps.own {t v : Nat} (h : Keeps L R t v b) : L.Own b t v := h.2.elim (L.pendingOwn h.1.1) And.left

theorem forM_read_keep {t v : Nat} (p w k n : Nat) (h : Keeps L R t v b) (hr : ∀ i, k ≤ i → i < k + n → R w (p + i)) :
    ∃ b', ((List.range' k n).forM (fun i => access false (p + i) w) : AM B Ctx ε Unit) s b = .ok () s b' ∧ Keeps L R t v b' := by
  induction n generalizing k b with
  | zero => exact ⟨b, rfl, h⟩
  | succ n ih =>
    have hR := hr k (Nat.le_refl _) (by omega)
    obtain ⟨b1, h1, h2, h3, h3'⟩ := L.read h.1.1 (.inl (h.1.2 _ _ hR))
    obtain ⟨b', h4, h5⟩ := ih (b := b1) (k + 1) ⟨⟨h2, fun u a hu => h3 u a (h.1.2 u a hu)⟩,
      h.2.imp (L.pendingRead h1 t v) fun ⟨ho, hn⟩ => ⟨h3' t v (.inl fun he => hn _ (he ▸ hR)) ho, hn⟩⟩ fun i h h' => hr i (by omega) (by omega)
    refine ⟨b', ?_, h5⟩
    rw [List.range'_succ, forM_cons, bind_ok (a := ()) (s' := s) (b' := b1) (by unfold access; rw [h1])]
    exact h4

theorem use_keep {t v : Nat} {r : SliceRef β} (h : Keeps L R t v b) (hr : ∀ u a, r.bytes u a → R u a) :
    ∃ b', (r.use : AM B Ctx ε Unit) s b = .ok () s b' ∧ Keeps L R t v b' := by
  unfold SliceRef.use readAll
  rw [List.range_eq_range']
  exact forM_read_keep _ _ 0 _ h fun i _ hi => hr _ _ ⟨rfl, by omega, by omega⟩

theorem forM_use_keep {t v : Nat} {rs : List (SliceRef β)} (h : Keeps L R t v b) (hr : ∀ r ∈ rs, ∀ u a, r.bytes u a → R u a) :
    ∃ b', (rs.forM SliceRef.use : AM B Ctx ε Unit) s b = .ok () s b' ∧ Keeps L R t v b' := by
  induction rs generalizing b with
  | nil => exact ⟨b, rfl, h⟩
  | cons r rs ih =>
    obtain ⟨b1, h1, h2⟩ := use_keep (s := s) (ε := ε) (r := r) h (hr r (by simp))
    obtain ⟨b', h3, h4⟩ := ih h2 fun r' hr' => hr r' (by simp [hr'])
    exact ⟨b', by rw [forM_cons, bind_ok h1]; exact h3, h4⟩

end AM
end Verif
