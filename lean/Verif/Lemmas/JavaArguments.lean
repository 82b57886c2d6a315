import Verif.Lemmas.Jni
import Verif.Model.JavaArguments

set_option linter.unusedSectionVars false

/-! A native method that reads arrays while they change does what it does with the values that it has seen. -/
namespace Verif.Jni
open Spec HeapM

instance : LawfulMonad HeapM := LawfulMonad.mk'
  (id_map := fun x => by
    funext s
    show HeapM.bind x _ s = x s
    unfold HeapM.bind
    rcases x s with ⟨_ | _ | _, _⟩ <;> rfl)
  (pure_bind := fun _ _ => rfl)
  (bind_assoc := fun x f g => by
    funext s
    show HeapM.bind (HeapM.bind x f) g s = HeapM.bind x (fun a => HeapM.bind (f a) g) s
    unfold HeapM.bind
    rcases x s with ⟨_ | _ | _, _⟩ <;> rfl)

variable {α β γ δ : Type}

/-- whatever the moment, `m` does what `v` does for some value with `P` -/
def Sees (m : HeapM α) (P : β → Prop) (v : β → JniM α) : Prop :=
  ∀ c s, ∃ b, P b ∧ ∃ c', m (c, s) = ((v b s).1, (c', (v b s).2))

theorem sees_jni {P : β → Prop} (h : ∃ b, P b) (m : JniM α) : Sees (jni m) P (fun _ => m) := by
  intro c s
  obtain ⟨b, hb⟩ := h
  exact ⟨b, hb, c, rfl⟩

theorem sees_look {H : JHistory} {f : JHeap → γ} {k : γ → HeapM α} {P : β → Prop} {v : β → JniM α}
    (h : ∀ t, Sees (k (f (H t))) P v) : Sees (look H f >>= k) P v := by
  intro c s
  exact h c (c + 1) s

theorem heap_ok {m : HeapM γ} {k : γ → HeapM α} {x : Nat × JniState} {a : γ} {y : Nat × JniState} (h : m x = (.ok a, y)) :
    (m >>= k) x = k a y := by
  show HeapM.bind m k x = _
  unfold HeapM.bind
  rw [h]

theorem heap_err {m : HeapM γ} {k : γ → HeapM α} {x : Nat × JniState} {e : JError} {y : Nat × JniState} (h : m x = (.err e, y)) :
    (m >>= k) x = (.err e, y) := by
  show HeapM.bind m k x = _
  unfold HeapM.bind
  rw [h]

theorem heap_panic {m : HeapM γ} {k : γ → HeapM α} {x y : Nat × JniState} (h : m x = (.panic, y)) : (m >>= k) x = (.panic, y) := by
  show HeapM.bind m k x = _
  unfold HeapM.bind
  rw [h]

theorem jni_ok {m : JniM γ} {k : γ → JniM α} {x : JniState} {a : γ} {y : JniState} (h : m x = (.ok a, y)) :
    (m >>= k) x = k a y := by
  show JniM.bind m k x = _
  unfold JniM.bind
  rw [h]

theorem jni_err {m : JniM γ} {k : γ → JniM α} {x : JniState} {e : JError} {y : JniState} (h : m x = (.err e, y)) :
    (m >>= k) x = (.err e, y) := by
  show JniM.bind m k x = _
  unfold JniM.bind
  rw [h]

theorem jni_panic {m : JniM γ} {k : γ → JniM α} {x y : JniState} (h : m x = (.panic, y)) : (m >>= k) x = (.panic, y) := by
  show JniM.bind m k x = _
  unfold JniM.bind
  rw [h]

theorem sees_bind {m : HeapM γ} {k : γ → HeapM α} {P : β → Prop} {Q : δ → Prop} {v : β → JniM γ} {w : γ → δ → JniM α}
    (hQ : ∃ d, Q d) (hm : Sees m P v) (hk : ∀ a, Sees (k a) Q (w a)) :
    Sees (m >>= k) (fun p : β × δ => P p.1 ∧ Q p.2) (fun p => v p.1 >>= fun a => w a p.2) := by
  intro c s
  obtain ⟨b, hb, c', e⟩ := hm c s
  rcases h : v b s with ⟨a | x | _, s'⟩
  · rw [h] at e
    obtain ⟨d, hd, c'', e2⟩ := hk a c' s'
    refine ⟨(b, d), ⟨hb, hd⟩, c'', ?_⟩
    simp only [heap_ok e, jni_ok h]
    exact e2
  · obtain ⟨d, hd⟩ := hQ
    rw [h] at e
    refine ⟨(b, d), ⟨hb, hd⟩, c', ?_⟩
    simp only [heap_err e, jni_err h]
  · obtain ⟨d, hd⟩ := hQ
    rw [h] at e
    refine ⟨(b, d), ⟨hb, hd⟩, c', ?_⟩
    simp only [heap_panic e, jni_panic h]

/-- with another description of the values -/
theorem Sees.map {m : HeapM α} {P : β → Prop} {v : β → JniM α} {Q : γ → Prop} {w : γ → JniM α} (h : Sees m P v) (f : β → γ)
    (hf : ∀ b, P b → Q (f b) ∧ w (f b) = v b) : Sees m Q w := by
  intro c s
  obtain ⟨b, hb, c', e⟩ := h c s
  obtain ⟨h1, h2⟩ := hf b hb
  exact ⟨f b, h1, c', by rw [h2]; exact e⟩

theorem sees_jni_bind {m : JniM γ} {k : γ → HeapM α} {Q : δ → Prop} {w : γ → δ → JniM α}
    (hQ : ∃ d, Q d) (hk : ∀ a, Sees (k a) Q (w a)) : Sees (jni m >>= k) Q (fun d => m >>= fun a => w a d) :=
  (sees_bind hQ (sees_jni (β := Unit) (P := fun _ => True) ⟨(), trivial⟩ m) hk).map Prod.snd fun _ hp => ⟨hp.2, rfl⟩

theorem sees_bind_jni {m : HeapM γ} {k : γ → JniM α} {P : β → Prop} {v : β → JniM γ} (hm : Sees m P v) :
    Sees (m >>= fun a => jni (k a)) P (fun b => v b >>= k) :=
  (sees_bind (δ := Unit) (Q := fun _ => True) ⟨(), trivial⟩ hm fun a => sees_jni ⟨(), trivial⟩ (k a)).map Prod.fst
    fun _ hp => ⟨hp.1, rfl⟩

theorem sees_bind_pure {m : HeapM γ} {k : γ → α} {P : β → Prop} {v : β → JniM γ} (hm : Sees m P v) :
    Sees (m >>= fun a => pure (k a)) P (fun b => v b >>= fun a => pure (k a)) :=
  sees_bind_jni (k := fun a => pure (k a)) hm

theorem sees_mapM {is : List γ} {f : γ → HeapM α} {P : γ → β → Prop} {w : β → JniM α} (hP : ∀ i ∈ is, ∃ b, P i b)
    (hf : ∀ i ∈ is, Sees (f i) (P i) w) : Sees (is.mapM f) (List.Forall₂ P is) (fun xs => xs.mapM w) := by
  induction is with
  | nil =>
    refine (sees_jni (β := List β) (P := List.Forall₂ P []) ⟨[], .nil⟩ (pure [])).map id fun b hb => ?_
    cases hb
    exact ⟨.nil, rfl⟩
  | cons i is ih =>
    rw [List.mapM_cons]
    have hall : ∃ xs, List.Forall₂ P is xs := by
      have : ∀ js : List γ, (∀ j ∈ js, ∃ b, P j b) → ∃ xs, List.Forall₂ P js xs := by
        intro js
        induction js with
        | nil => exact fun _ => ⟨[], .nil⟩
        | cons j js ih =>
          intro h
          obtain ⟨b, hb⟩ := h j List.mem_cons_self
          obtain ⟨xs, hxs⟩ := ih fun a ha => h a (List.mem_cons_of_mem _ ha)
          exact ⟨b :: xs, .cons hb hxs⟩
      exact this is fun j hj => hP j (List.mem_cons_of_mem _ hj)
    have ih' := ih (fun j hj => hP j (List.mem_cons_of_mem _ hj)) fun j hj => hf j (List.mem_cons_of_mem _ hj)
    refine (sees_bind hall (hf i List.mem_cons_self) fun a => sees_bind_pure (k := fun as => a :: as) ih').map
      (fun p => p.1 :: p.2) ?_
    rintro ⟨b, xs⟩ ⟨hb, hxs⟩
    refine ⟨.cons hb hxs, ?_⟩
    show (b :: xs).mapM w = _
    rw [List.mapM_cons]

variable (vm : Jvm) {H : JHistory}

/-! ### the arrays -/

theorem bytesSeen_exists (r : Option Nat) : ∃ v, BytesSeen H r v := by
  cases r with
  | none => exact ⟨none, trivial⟩
  | some r => exact ⟨some ((H 0).bytes r), rfl, fun j _ => ⟨0, rfl⟩⟩

theorem halves_self (a : Int64) : halves a a = a := by
  unfold halves
  rw [Nat.div_add_mod', UInt64.ofNat_toNat]
  exact Int64.toInt64_toUInt64 a

theorem longsSeen_exists (r : Option Nat) : ∃ v, LongsSeen H r v := by
  cases r with
  | none => exact ⟨none, trivial⟩
  | some r =>
    refine ⟨some ((H 0).longs r), rfl, fun j hj => ⟨0, 0, _, _, List.getElem?_eq_getElem hj, List.getElem?_eq_getElem hj, ?_⟩⟩
    rw [halves_self]
    exact List.getElem?_eq_getElem hj

theorem itemsSeen_exists (r : Option Nat) : ∃ v, ItemsSeen H r v := by
  cases r with
  | none => exact ⟨none, trivial⟩
  | some r =>
    refine ⟨some (((H 0).objects r).map fun r => r.map (H 0).bytes), by simp, ?_⟩
    intro j x hx
    rw [List.getElem?_map, Option.map_eq_some_iff] at hx
    obtain ⟨r', h1, rfl⟩ := hx
    refine ⟨0, r', h1, ?_⟩
    cases r' with
    | none => trivial
    | some r' => exact ⟨rfl, fun j _ => ⟨0, rfl⟩⟩

/-- the reads of a region -/
theorem sees_region {ι : Type} (n : Nat) (f : Nat → HeapM ι) (P : Nat → ι → Prop) (hP : ∀ j < n, ∃ x, P j x)
    (hf : ∀ j < n, Sees (f j) (P j) (fun x => pure x)) :
    Sees ((List.range n).mapM f) (fun xs : List ι => xs.length = n ∧ ∀ j x, xs[j]? = some x → P j x) (fun xs => pure xs) := by
  refine (sees_mapM (P := P) (fun i hi => hP i (List.mem_range.1 hi)) fun i hi => hf i (List.mem_range.1 hi)).map id ?_
  intro xs hxs
  have hl : xs.length = n := by rw [← hxs.length_eq, List.length_range]
  refine ⟨⟨hl, ?_⟩, ?_⟩
  · intro j x hx
    obtain ⟨hj, rfl⟩ := List.getElem?_eq_some_iff.1 hx
    have := (List.forall₂_iff_get.1 hxs).2 j (by rw [List.length_range]; exact hl ▸ hj) hj
    simpa using this
  · show pure xs = xs.mapM fun x => pure x
    rw [List.mapM_pure, List.map_id']

theorem jni_pure (a : α) : jni (pure a) = pure a := rfl

theorem jni_nonNull (a : α) : jni (nonNull (some a)) = pure a := rfl

theorem nonNull_some (a : α) : nonNull (some a) = pure a := rfl

/-- one byte -/
theorem sees_byte (hH : FixedLengths H) (r j : Nat) (hj : j < ((H 0).bytes r).length) :
    Sees (look H (fun h => (h.bytes r)[0 + j]?) >>= fun x => jni (JniM.lift (expect x)))
      (fun x => ∃ t, ((H t).bytes r)[j]? = some x) (fun x => pure x) := by
  intro c s
  have hj' : j < ((H c).bytes r).length := by rw [hH.bytes]; exact hj
  refine ⟨((H c).bytes r)[j], ⟨c, List.getElem?_eq_getElem hj'⟩, c + 1, ?_⟩
  show (jni (JniM.lift (expect ((H c).bytes r)[0 + j]?))) (c + 1, s) = _
  rw [Nat.zero_add, List.getElem?_eq_getElem hj']
  rfl

/-- one number -/
theorem sees_long (hH : FixedLengths H) (r j : Nat) (hj : j < ((H 0).longs r).length) :
    Sees (look H (fun h => (h.longs r)[0 + j]?) >>= fun x => look H (fun h => (h.longs r)[0 + j]?) >>= fun y =>
        jni (JniM.lift (expect x)) >>= fun x => jni (JniM.lift (expect y)) >>= fun y => pure (halves x y))
      (fun x => ∃ t t' a b, ((H t).longs r)[j]? = some a ∧ ((H t').longs r)[j]? = some b ∧ x = halves a b) (fun x => pure x) := by
  intro c s
  have hj' : j < ((H c).longs r).length := by rw [hH.longs]; exact hj
  have hj'' : j < ((H (c + 1)).longs r).length := by rw [hH.longs]; exact hj
  refine ⟨_, ⟨c, c + 1, _, _, List.getElem?_eq_getElem hj', List.getElem?_eq_getElem hj'', rfl⟩, c + 2, ?_⟩
  have key : ∀ o o' : Option Int64, ∀ a b, o = some a → o' = some b → ∀ f : Int64 → Int64 → Int64,
      (jni (JniM.lift (expect o)) >>= fun x => jni (JniM.lift (expect o')) >>= fun y => pure (f x y) : HeapM Int64) (c + 2, s) =
        ((.ok (f a b)), (c + 2, s)) := by
    rintro _ _ a b rfl rfl f
    rfl
  refine (key _ _ _ _ ?_ ?_ halves).trans rfl
  · rw [Nat.zero_add]
    exact List.getElem?_eq_getElem hj'
  · rw [Nat.zero_add]
    exact List.getElem?_eq_getElem hj''

theorem sees_bytes (hH : FixedLengths H) (r : Nat) :
    Sees (convertByteArrayH vm H (some r)) (fun l : List Int8 => BytesSeen H (some r) (some l))
      (fun l => convertByteArrayJni vm (some l)) := by
  have e : convertByteArrayH vm H (some r) = (jni (jniCall vm .GetArrayLength true 0) >>= fun _ =>
      look H (fun h => (h.bytes r).length) >>= fun length => look H (fun h => (h.bytes r).length) >>= fun length' =>
      jni (jniCall vm .GetByteArrayRegion (decide (0 + length ≤ length')) 0) >>= fun _ =>
      (List.range length).mapM (fun j => look H (fun h => (h.bytes r)[0 + j]?) >>= fun x => jni (JniM.lift (expect x))) >>= fun v =>
      pure (v.map Int8.toUInt8)) := by
    simp only [convertByteArrayH, getArrayLengthH, getByteArrayRegionH, bind_assoc, jni_nonNull, pure_bind]
  have hne : ∃ xs : List Int8, xs.length = ((H 0).bytes r).length ∧
      ∀ (j : Nat) (x : Int8), xs[j]? = some x → ∃ t, ((H t).bytes r)[j]? = some x :=
    ⟨(H 0).bytes r, rfl, fun j x h => ⟨0, h⟩⟩
  rw [e]
  refine Sees.map (P := fun xs : List Int8 => xs.length = ((H 0).bytes r).length ∧
      ∀ (j : Nat) (x : Int8), xs[j]? = some x → ∃ t, ((H t).bytes r)[j]? = some x)
    (v := fun xs => jniCall vm .GetArrayLength true 0 >>= fun _ => jniCall vm .GetByteArrayRegion
      (decide (0 + ((H 0).bytes r).length ≤ ((H 0).bytes r).length)) 0 >>= fun _ => pure xs >>= fun v => pure (v.map Int8.toUInt8))
    (sees_jni_bind hne fun _ => sees_look fun t => sees_look fun t' => ?_) id ?_
  · rw [hH.bytes t r, hH.bytes t' r]
    refine sees_jni_bind hne fun _ => sees_bind_pure (k := fun v : List Int8 => v.map Int8.toUInt8) ?_
    exact sees_region _ _ (fun j x => ∃ t, ((H t).bytes r)[j]? = some x)
      (fun j hj => ⟨_, 0, List.getElem?_eq_getElem hj⟩) fun j hj => sees_byte hH r j hj
  · rintro xs ⟨hl, hx⟩
    refine ⟨⟨hl, fun j hj => ?_⟩, ?_⟩
    · obtain ⟨t, ht⟩ := hx j _ (List.getElem?_eq_getElem hj)
      exact ⟨t, (List.getElem?_eq_getElem hj).trans ht.symm⟩
    · show convertByteArrayJni vm (some xs) = _
      simp only [convertByteArrayJni, getArrayLength, getByteArrayRegion, nonNull_some, bind_assoc, pure_bind, hl, List.drop_zero,
        List.take_of_length_le hl.le]

theorem sees_convert (hH : FixedLengths H) (a : Option Nat) :
    Sees (convertByteArrayH vm H a) (BytesSeen H a) (convertByteArrayJni vm) := by
  cases a with
  | none =>
    refine (sees_jni (β := JByteArray) (P := BytesSeen H none) ⟨none, trivial⟩ (JniM.lift (.err .Jni))).map id ?_
    rintro (_ | l) hb
    · exact ⟨trivial, rfl⟩
    · exact absurd hb id
  | some r => exact (sees_bytes vm hH r).map some fun l hl => ⟨hl, rfl⟩

theorem sees_longs (hH : FixedLengths H) (a : Option Nat) :
    Sees (jlongarrayToVecU64H vm H a) (LongsSeen H a) (jlongarrayToVecU64Jni vm) := by
  cases a with
  | none =>
    refine (sees_jni (β := JLongArray) (P := LongsSeen H none) ⟨none, trivial⟩ (JniM.lift (.err .Jni))).map id ?_
    rintro (_ | l) hb
    · exact ⟨trivial, rfl⟩
    · exact absurd hb id
  | some r =>
    have e : jlongarrayToVecU64H vm H (some r) = (jni (jniCall vm .GetArrayLength true 0) >>= fun _ =>
        look H (fun h => (h.longs r).length) >>= fun length => look H (fun h => (h.longs r).length) >>= fun length' =>
        jni (jniCall vm .GetLongArrayRegion (decide (0 + length ≤ length')) 0) >>= fun _ =>
        (List.range length).mapM (fun j => look H (fun h => (h.longs r)[0 + j]?) >>= fun x =>
          look H (fun h => (h.longs r)[0 + j]?) >>= fun y => jni (JniM.lift (expect x)) >>= fun x =>
          jni (JniM.lift (expect y)) >>= fun y => pure (halves x y)) >>= fun v => pure (v.map (fun x => x.toUInt64.toNat))) := by
      simp only [jlongarrayToVecU64H, getArrayLengthH, getLongArrayRegionH, bind_assoc, jni_nonNull, pure_bind]
    have hne : ∃ xs : List Int64, xs.length = ((H 0).longs r).length ∧ ∀ (j : Nat) (x : Int64), xs[j]? = some x →
        ∃ t t' a b, ((H t).longs r)[j]? = some a ∧ ((H t').longs r)[j]? = some b ∧ x = halves a b :=
      ⟨(H 0).longs r, rfl, fun j x h => ⟨0, 0, x, x, h, h, (halves_self x).symm⟩⟩
    rw [e]
    refine Sees.map (P := fun xs : List Int64 => xs.length = ((H 0).longs r).length ∧ ∀ (j : Nat) (x : Int64), xs[j]? = some x →
        ∃ t t' a b, ((H t).longs r)[j]? = some a ∧ ((H t').longs r)[j]? = some b ∧ x = halves a b)
      (v := fun xs => jniCall vm .GetArrayLength true 0 >>= fun _ => jniCall vm .GetLongArrayRegion
        (decide (0 + ((H 0).longs r).length ≤ ((H 0).longs r).length)) 0 >>= fun _ => pure xs >>= fun v =>
        pure (v.map (fun x => x.toUInt64.toNat)))
      (sees_jni_bind hne fun _ => sees_look fun t => sees_look fun t' => ?_) some ?_
    · rw [hH.longs t r, hH.longs t' r]
      refine sees_jni_bind hne fun _ => sees_bind_pure (k := fun v : List Int64 => v.map (fun x => x.toUInt64.toNat)) ?_
      exact sees_region _ _ _ (fun j hj => ⟨_, 0, 0, _, _, List.getElem?_eq_getElem hj, List.getElem?_eq_getElem hj, rfl⟩)
        fun j hj => sees_long hH r j hj
    · rintro xs ⟨hl, hx⟩
      refine ⟨⟨hl, fun j hj => ?_⟩, ?_⟩
      · obtain ⟨t, t', a, b, ha, hb, e⟩ := hx j _ (List.getElem?_eq_getElem hj)
        exact ⟨t, t', a, b, ha, hb, (List.getElem?_eq_getElem hj).trans (congrArg some e)⟩
      · simp only [jlongarrayToVecU64Jni, getArrayLength, getLongArrayRegion, nonNull_some, bind_assoc, pure_bind, hl, List.drop_zero,
          List.take_of_length_le hl.le]

/-- what is done with one item of an array of arrays -/
def readItem (x : JByteArray) : JniM (List UInt8) := do
  jniCall vm .GetObjectArrayElement true (if x.isSome then 1 else 0)
  convertByteArrayJni vm x

theorem mapM_range {l : List γ} {f : Nat → JniM α} {w : γ → JniM α} (h : ∀ (i : Nat) (x : γ), l[i]? = some x → f i = w x) :
    (List.range l.length).mapM f = l.mapM w := by
  induction l using List.reverseRecOn with
  | nil => rfl
  | append_singleton l a ih =>
    rw [List.length_append, List.length_singleton, List.range_succ, List.mapM_append, List.mapM_append, ih]
    · simp only [List.mapM_cons, List.mapM_nil]
      rw [h l.length a (by simp)]
    · intro i x hx
      exact h i x (by rw [List.getElem?_append_left (List.getElem?_eq_some_iff.1 hx).1]; exact hx)

theorem read_items (l : List JByteArray) :
    jobjectArrayTo2dByteArrayJni vm (some l) = (jniCall vm .GetArrayLength true 0 >>= fun _ => l.mapM (readItem vm)) := by
  simp only [jobjectArrayTo2dByteArrayJni, getArrayLength, nonNull_some, bind_assoc, pure_bind]
  congr 1
  funext _
  refine mapM_range fun i x hx => ?_
  simp only [getObjectArrayElement, nonNull_some, pure_bind, hx, bind_assoc, readItem, convertByteArrayJni,
    getArrayLength]

theorem sees_item (hH : FixedLengths H) (r i : Nat) (hi : i < ((H 0).objects r).length) :
    Sees (getObjectArrayElementH vm H (some r) i >>= fun innerArray =>
        getArrayLengthH vm H (fun h r => (h.bytes r).length) innerArray >>= fun innerLen =>
        getByteArrayRegionH vm H innerArray 0 innerLen >>= fun buf => pure (buf.map Int8.toUInt8))
      (fun x => ∃ t r', ((H t).objects r)[i]? = some r' ∧ BytesSeen H r' x) (readItem vm) := by
  have e : (getObjectArrayElementH vm H (some r) i >>= fun innerArray =>
        getArrayLengthH vm H (fun h r => (h.bytes r).length) innerArray >>= fun innerLen =>
        getByteArrayRegionH vm H innerArray 0 innerLen >>= fun buf => pure (buf.map Int8.toUInt8)) =
      (look H (fun h => (h.objects r)[i]?) >>= fun o => (match o with
        | some x => jni (jniCall vm .GetObjectArrayElement true (if x.isSome then 1 else 0)) >>= fun _ => pure x
        | none => jni (jniCall vm .GetObjectArrayElement false 0) >>= fun _ => pure none) >>= fun innerArray =>
        convertByteArrayH vm H innerArray) := by
    simp only [getObjectArrayElementH, jni_nonNull, pure_bind, bind_assoc]
    rfl
  rw [e]
  refine sees_look fun t => ?_
  have hi' : i < ((H t).objects r).length := by rw [hH.objects]; exact hi
  rw [List.getElem?_eq_getElem hi']
  obtain ⟨x, hx⟩ : ∃ x, ((H t).objects r)[i] = x := ⟨_, rfl⟩
  rw [hx]
  simp only [bind_assoc, pure_bind]
  refine (sees_jni_bind (bytesSeen_exists x) fun _ => sees_convert vm hH x).map id fun v hv => ⟨⟨t, x, ?_, hv⟩, ?_⟩
  · rw [List.getElem?_eq_getElem hi', hx]
  · have : x.isSome = v.isSome := by
      cases x <;> cases v <;> first | rfl | exact absurd hv id
    show readItem vm v = _
    unfold readItem
    rw [this]

theorem sees_items (hH : FixedLengths H) (a : Option Nat) :
    Sees (jobjectArrayTo2dByteArrayH vm H a) (ItemsSeen H a) (jobjectArrayTo2dByteArrayJni vm) := by
  cases a with
  | none =>
    refine (sees_jni (β := JObjectArray) (P := ItemsSeen H none) ⟨none, trivial⟩ (JniM.lift (.err .Jni))).map id ?_
    rintro (_ | l) hb
    · exact ⟨trivial, rfl⟩
    · exact absurd hb id
  | some r =>
    have hP : ∀ i < ((H 0).objects r).length, ∃ x, ∃ t r', ((H t).objects r)[i]? = some r' ∧ BytesSeen H r' x := by
      intro i hi
      obtain ⟨x, hx⟩ := bytesSeen_exists (H := H) ((H 0).objects r)[i]
      exact ⟨x, 0, _, List.getElem?_eq_getElem hi, hx⟩
    have hne : ∃ l : List JByteArray, List.Forall₂ (fun i x => ∃ t r', ((H t).objects r)[i]? = some r' ∧ BytesSeen H r' x)
        (List.range ((H 0).objects r).length) l := by
      obtain ⟨v, hv⟩ := itemsSeen_exists (H := H) (some r)
      cases v with
      | none => exact absurd hv id
      | some l =>
        refine ⟨l, List.forall₂_iff_get.2 ⟨by rw [List.length_range, hv.1], fun i h1 h2 => ?_⟩⟩
        have := hv.2 i _ (List.getElem?_eq_getElem h2)
        simpa using this
    have e : jobjectArrayTo2dByteArrayH vm H (some r) = (jni (jniCall vm .GetArrayLength true 0) >>= fun _ =>
        look H (fun h => (h.objects r).length) >>= fun n => (List.range n).mapM (fun i =>
          getObjectArrayElementH vm H (some r) i >>= fun innerArray =>
          getArrayLengthH vm H (fun h r => (h.bytes r).length) innerArray >>= fun innerLen =>
          getByteArrayRegionH vm H innerArray 0 innerLen >>= fun buf => pure (buf.map Int8.toUInt8))) := by
      simp only [jobjectArrayTo2dByteArrayH, getArrayLengthH, jni_nonNull, pure_bind, bind_assoc]
    rw [e]
    refine (sees_jni_bind (w := fun _ l => l.mapM (readItem vm)) hne fun _ => sees_look fun t => ?_).map some ?_
    · rw [hH.objects t r]
      exact sees_mapM (fun i hi => hP i (List.mem_range.1 hi)) fun i hi => sees_item vm hH r i (List.mem_range.1 hi)
    · intro l hl
      have hlen : l.length = ((H 0).objects r).length := by rw [← hl.length_eq, List.length_range]
      refine ⟨⟨hlen, fun j x hx => ?_⟩, read_items vm l⟩
      obtain ⟨hj, rfl⟩ := List.getElem?_eq_some_iff.1 hx
      have := (List.forall₂_iff_get.1 hl).2 j (by rw [List.length_range]; exact hlen ▸ hj) hj
      simpa using this

end Verif.Jni
