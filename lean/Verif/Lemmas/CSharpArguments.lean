import Verif.Lemmas.Managed
import Verif.Spec.CSharpArguments

/-! Lemmas about the arguments of the C# methods. -/
namespace Verif
open Spec (Holds HoldsWords HoldsItems Extends OutOfMemory ArrayHolds HasNull ItemsSized unchanged replaced)

variable {Ctx ε α β : Type}

theorem raise_bind (x : CM Ctx CsException α) (f : α → CM Ctx CsException β) : raise (x >>= f) = raise x >>= fun a => raise (f a) := by
  funext s
  rw [CM.bind_apply]
  unfold raise
  simp only [CM.bind_apply]
  cases x s <;> rfl

theorem raise_pure (a : α) : raise (pure a : CM Ctx CsException α) = pure a := rfl

theorem raise_newArray (H : Heap Ctx) (bytes : List UInt8) : raise (newArray H bytes : CM Ctx CsException Nat) = newArray H bytes := by
  funext s
  unfold raise newArray
  cases H.place s bytes.length <;> rfl

theorem raise_collect (gc : Gc Ctx) (l : List Nat) : raise (collect gc l : CM Ctx CsException _) = collect gc l := rfl

theorem raise_callC (x : CM Ctx Empty α) : raise (callC x : CM Ctx CsException α) = callC x := by
  funext s
  unfold raise callC
  rcases x s with _ | ⟨e, _⟩ | _ | _
  · rfl
  · exact e.elim
  · rfl
  · rfl

theorem raise_mapM {γ : Type} (l : List γ) (f : γ → CM Ctx CsException α) : raise (l.mapM f) = l.mapM (fun x => raise (f x)) := by
  induction l with
  | nil => rfl
  | cons x l ih =>
    rw [List.mapM_cons, List.mapM_cons, raise_bind]
    congr 1
    funext a
    rw [raise_bind, ih]
    rfl

theorem raise_forM {γ : Type} (l : List γ) (f : γ → CM Ctx CsException Unit) : raise (l.forM f) = l.forM (fun x => raise (f x)) := by
  induction l with
  | nil => rfl
  | cons x l ih =>
    show raise (f x >>= fun _ => l.forM f) = _
    rw [raise_bind, ih]
    rfl

theorem raise_readByte (p : Nat) : raise (readByte p : CM Ctx CsException UInt8) = readByte p := by
  funext s
  unfold raise readByte
  cases s.mem p <;> rfl

theorem raise_readBytes (p n : Nat) : raise (readBytes p n : CM Ctx CsException _) = readBytes p n := by
  unfold readBytes
  rw [raise_mapM]
  congr 1
  funext i
  exact raise_readByte _

theorem raise_newBytes (H : Heap Ctx) (n : Nat) : raise (newBytes H n : CM Ctx CsException Nat) = newBytes H n := raise_newArray H _

theorem raise_newPointers (H : Heap Ctx) (l : List Nat) : raise (newPointers H l : CM Ctx CsException Nat) = newPointers H l :=
  raise_newArray H _

theorem raise_initializeJaggedArray (H : Heap Ctx) (m n : Nat) :
    raise (initializeJaggedArray H m n : CM Ctx CsException _) = initializeJaggedArray H m n := by
  unfold initializeJaggedArray
  rw [raise_mapM]
  congr 1
  funext i
  exact raise_newBytes _ _

theorem checkItems_unchanged (n : Nat) (name : String) (arrays : List CsArray) :
    (checkItems n name (unchanged arrays) : CM Ctx CsFailure _) = raise (checkLengths n name arrays) >>= fun _ => pure (arrays.map some) := by
  unfold checkItems unchanged checkLengths
  simp only [raise_forM, List.map_map]
  have e : (arrays.map fun a : CsArray => ((some a, some a) : CsRef × CsRef)).zipIdx = arrays.zipIdx.map fun q => ((some q.1, some q.1), q.2) := by
    rw [List.zipIdx_map]
    rfl
  rw [e]
  congr 1
  generalize arrays.zipIdx = z
  induction z with
  | nil => rfl
  | cons q z ih =>
    show (_ >>= fun _ => List.forM _ _) = (_ >>= fun _ => List.forM _ _)
    rw [ih]
    congr 1
    show (if _ then _ else _) = raise (if _ then _ else _)
    split_ifs <;> rfl

/-- The length check succeeds. -/
theorem checkItems_ok {n : Nat} (name : String) {l : List (CsRef × CsRef)} (h : ∀ q ∈ l, ∃ a, q.1 = some a ∧ a.length = n) (s : CState Ctx) :
    checkItems n name (some l) s = .ok (l.map Prod.snd) s := by
  have key : ∀ (l : List (CsRef × CsRef)) k, (∀ q ∈ l, ∃ a, q.1 = some a ∧ a.length = n) → ((l.zipIdx k).forM (m := CM Ctx CsFailure) (fun q => do
      let a ← q.1.1.deref
      if a.length ≠ n
        then CM.throw (.raised (.argument (ascii name ++ ascii " at index " ++ debugNat q.2 ++ ascii " has an invalid length")))
        else pure ())) s = .ok () s := by
    intro l
    induction l with
    | nil => intro k _; rfl
    | cons q l ih =>
      intro k hl
      rw [List.zipIdx_cons]
      obtain ⟨a, ha, hn⟩ := hl q (by simp)
      obtain ⟨q1, q2⟩ := q
      simp only at ha
      subst ha
      refine (CM.bind_ok (a := ()) (s' := s) ?_).trans (ih (k + 1) fun q hq => hl q (by simp [hq]))
      show (if a.length ≠ n then _ else _ : CM Ctx CsFailure Unit) s = _
      rw [if_neg (by simpa using hn)]
      rfl
  unfold checkItems
  exact CM.bind_ok (key l 0 h)

/-- The length check fails at the first item that is null or has another length. -/
theorem checkItems_err {n : Nat} (name : String) (pre post : List (CsRef × CsRef)) (q : CsRef × CsRef)
    (h : ∀ q ∈ pre, ∃ a, q.1 = some a ∧ a.length = n) (hq : ∀ a, q.1 = some a → a.length ≠ n) (s : CState Ctx) :
    checkItems n name (some (pre ++ q :: post)) s =
      .err (match q.1 with
        | none => .nullReference
        | some _ => .raised (.argument (ascii name ++ ascii " at index " ++ debugNat pre.length ++ ascii " has an invalid length"))) s := by
  have key : ∀ (pre : List (CsRef × CsRef)) k, (∀ q ∈ pre, ∃ a, q.1 = some a ∧ a.length = n) →
      (((pre ++ q :: post).zipIdx k).forM (m := CM Ctx CsFailure) (fun q => do
      let a ← q.1.1.deref
      if a.length ≠ n
        then CM.throw (.raised (.argument (ascii name ++ ascii " at index " ++ debugNat q.2 ++ ascii " has an invalid length")))
        else pure ())) s = .err (match q.1 with
        | none => .nullReference
        | some _ => .raised (.argument (ascii name ++ ascii " at index " ++ debugNat (k + pre.length) ++ ascii " has an invalid length"))) s := by
    intro pre
    induction pre with
    | nil =>
      intro k _
      rw [List.nil_append, List.zipIdx_cons]
      obtain ⟨q1, q2⟩ := q
      refine CM.bind_err ?_
      rcases q1 with _ | a
      · rfl
      · show (if a.length ≠ n then _ else _ : CM Ctx CsFailure Unit) s = _
        rw [if_pos (hq a rfl)]
        rfl
    | cons p pre ih =>
      intro k hl
      rw [List.cons_append, List.zipIdx_cons]
      obtain ⟨a, ha, hn⟩ := hl p (by simp)
      obtain ⟨p1, p2⟩ := p
      simp only at ha
      subst ha
      refine (CM.bind_ok (a := ()) (s' := s) ?_).trans ((ih (k + 1) fun q hq => hl q (by simp [hq])).trans ?_)
      · show (if a.length ≠ n then _ else _ : CM Ctx CsFailure Unit) s = _
        rw [if_neg (by simpa using hn)]
        rfl
      · rw [List.length_cons, show k + 1 + pre.length = k + (pre.length + 1) by omega]
  unfold checkItems
  refine CM.bind_err ((key pre 0 h).trans ?_)
  rw [Nat.zero_add]

theorem first_bad {γ : Type} (P : γ → Prop) (l : List γ) (h : ¬ ∀ q ∈ l, P q) : ∃ pre q post, l = pre ++ q :: post ∧ (∀ q ∈ pre, P q) ∧ ¬ P q := by
  classical
  induction l with
  | nil => exact absurd (by simp) h
  | cons x l ih =>
    by_cases hx : P x
    · obtain ⟨pre, q, post, e, h1, h2⟩ := ih fun hl => h fun q hq => by
        rcases List.mem_cons.1 hq with rfl | hq
        · exact hx
        · exact hl q hq
      refine ⟨x :: pre, q, post, by rw [e]; rfl, fun q hq => ?_, h2⟩
      rcases List.mem_cons.1 hq with rfl | hq
      · exact hx
      · exact h1 q hq
    · exact ⟨[], x, l, rfl, by simp, hx⟩

/-- The length check of an argument: it succeeds, or it raises an exception and changes nothing. -/
theorem checkItems_cases (n : Nat) (name : String) (items : CsItems) (s : CState Ctx) :
    ((∃ l, items = some l ∧ checkItems n name items s = .ok (l.map Prod.snd) s) ∧ ¬ HasNull items) ∨
    (∃ e, checkItems n name items s = .err e s ∧ (ItemsSized n items → HasNull items ∧ e = .nullReference)) := by
  classical
  rcases items with _ | l
  · exact .inr ⟨_, rfl, fun _ => ⟨.inl rfl, rfl⟩⟩
  · by_cases h : ∀ q ∈ l, ∃ a, q.1 = some a ∧ a.length = n
    · refine .inl ⟨⟨l, rfl, checkItems_ok name h s⟩, ?_⟩
      rintro (h' | ⟨l', h', q, hq, h0⟩)
      · cases h'
      · cases h'
        obtain ⟨a, ha, -⟩ := h q hq
        rw [h0] at ha
        cases ha
    · obtain ⟨pre, q, post, rfl, h1, h2⟩ := first_bad _ l h
      refine .inr ⟨_, checkItems_err name pre post q h1 (fun a ha hn => h2 ⟨a, ha, hn⟩) s, fun hs => ?_⟩
      rcases hq : q.1 with _ | a
      · exact ⟨.inr ⟨_, rfl, q, by simp, hq⟩, rfl⟩
      · exact absurd ⟨a, hq, hs _ rfl q (by simp) a hq⟩ h2

theorem checkItems_replaced {n : Nat} (name : String) {arrays later : List CsArray} (h : ∀ a ∈ arrays, a.length = n)
    (hl : arrays.length = later.length) (s : CState Ctx) :
    checkItems n name (replaced arrays later) s = .ok (later.map some) s := by
  unfold replaced
  rw [checkItems_ok name (n := n)]
  · rw [List.map_map]
    congr 1
    have : (Prod.snd ∘ fun q : CsArray × CsArray => ((some q.1 : CsRef), (some q.2 : CsRef))) = some ∘ Prod.snd := rfl
    rw [this, ← List.map_map, List.map_snd_zip (by omega)]
  · intro q hq
    obtain ⟨⟨a, b⟩, hab, rfl⟩ := List.mem_map.1 hq
    exact ⟨a, rfl, h a (List.of_mem_zip hab).1⟩

/-- Sequencing after an allocation, when only the allocation can fail. -/
theorem bind_fault {x : CM Ctx ε α} {f : α → CM Ctx ε β} {s : CState Ctx} (h : x s = .fault) : (x >>= f) s = .fault := by
  rw [CM.bind_apply, h]

theorem mapM_fault {γ : Type} {f : γ → CM Ctx ε β} {s : CState Ctx} {pre post : List γ} {x : γ} {bs : List β}
    (h : List.Forall₂ (fun a b => f a s = .ok b s) pre bs) (hx : f x s = .fault) : (pre ++ x :: post).mapM f s = .fault := by
  induction h with
  | nil =>
    rw [List.nil_append, List.mapM_cons]
    exact bind_fault hx
  | cons h1 _ ih =>
    rw [List.cons_append, List.mapM_cons, CM.bind_ok h1]
    exact bind_fault ih

/-- A null pointer among the pointers to items is undefined behaviour, if the items before it can be read. -/
theorem ptrPtr_null {s : CState Ctx} {p inner n : Nat} {pre post : List Nat} {items : List (List UInt8)} (h0 : inner ≠ 0)
    (hn : (pre ++ 0 :: post).length = n) (hi : ∀ x ∈ items, x.length = inner) (hw : HoldsWords s.mem p (pre ++ 0 :: post))
    (hf : List.Forall₂ (fun q b => q ≠ 0 ∧ Holds s.mem q b) pre items) :
    (ptrPtrToVecSliceConst inner p n : CM Ctx ε _) s = .fault := by
  unfold ptrPtrToVecSliceConst
  rw [if_neg (by simp at hn; omega), CM.bind_ok (createSliceViewU64_ok hn hw)]
  refine mapM_fault (bs := items) ?_ ?_
  · clear hw hn
    induction hf with
    | nil => exact .nil
    | cons hq _ ih => exact .cons (createArrayRef_ok (hi _ (by simp)) hq.1 hq.2) (ih fun x hx => hi x (by simp [hx]))
  · unfold createArrayRef createSliceView
    rw [if_neg h0]
    refine bind_fault (bind_fault ?_)
    simp [CM.require, CM.fault]

theorem callC_fault {x : CM Ctx Empty α} {s : CState Ctx} (h : x s = .fault) : (callC x : CM Ctx ε α) s = .fault := by
  unfold callC; rw [h]

section
variable {s t : CState Ctx} {pre : List CsArray} {contents : List (List UInt8)} {n : Nat}

theorem fixed_before (h : List.Forall₂ (fun a b => ArrayHolds s.mem a.addr a.length b) pre contents) (hn : n ≠ 0)
    (hs : Spec.Sized n contents) : (pre.map some).map CsRef.fixed = pre.map CsArray.addr := by
  rw [List.map_map]
  refine List.map_congr_left fun a ha => ?_
  obtain ⟨b, hb, hab⟩ := forall₂_mem_left h ha
  show (if a.length = 0 then 0 else a.addr) = a.addr
  rw [if_neg (by rw [hab.length, hs b hb]; exact hn)]

theorem fixed_bound (h : List.Forall₂ (fun a b => ArrayHolds s.mem a.addr a.length b) pre contents) (hs : Spec.Sized n contents)
    (hn : 0 < n) {post : List CsRef} (hpost : ∀ a, some a ∈ post → a.addr < 2 ^ 64) :
    ∀ v ∈ pre.map CsArray.addr ++ 0 :: post.map CsRef.fixed, v < 2 ^ 64 := by
  intro v hv
  rcases List.mem_append.1 hv with hv | hv
  · obtain ⟨a, ha, rfl⟩ := List.mem_map.1 hv
    obtain ⟨b, hb, hab⟩ := forall₂_mem_left h ha
    have := hab.bound
    have := hs b hb
    omega
  · rcases List.mem_cons.1 hv with rfl | hv
    · norm_num
    · obtain ⟨r, hr, rfl⟩ := List.mem_map.1 hv
      rcases r with _ | a
      · exact Nat.two_pow_pos 64
      · show (if a.length = 0 then 0 else a.addr) < 2 ^ 64
        split_ifs
        · norm_num
        · exact hpost a hr

theorem forall₂_addr (h : List.Forall₂ (fun a b => ArrayHolds s.mem a.addr a.length b) pre contents) (e : Extends s t) :
    List.Forall₂ (fun q b => q ≠ 0 ∧ Holds t.mem q b) (pre.map CsArray.addr) contents := by
  rw [List.forall₂_map_left_iff]
  exact h.imp fun a b hab => ⟨hab.ne, holds_mono e hab.holds⟩

end

theorem answers_raise {H : Heap Ctx} {A : Allocator Ctx} {s : CState Ctx} {sizes : List Nat} {r : Outcome Error α}
    {exc : Error → CsException} {call : CM Ctx CsException α} (h : Spec.Answers H A s sizes r exc call) :
    Spec.Answers H A s sizes r (fun e => .raised (exc e)) (raise call) := by
  rcases h with ⟨h1, h2⟩ | h
  · refine .inl ⟨h1, ?_⟩
    unfold raise
    rw [h2]
  · refine .inr ?_
    unfold Spec.Gets at h ⊢
    rcases r with a | e | _
    · obtain ⟨s', h1, h2⟩ := h
      exact ⟨s', by unfold raise; rw [h1], h2⟩
    · obtain ⟨s', h1, h2⟩ := h
      exact ⟨s', by unfold raise; rw [h1], h2⟩
    · simp only at h ⊢
      unfold raise
      rw [h]

end Verif
