import Verif.Lemmas.CBinding
import Verif.Model.CSharpBinding
import Verif.Model.GoBinding
import Verif.Spec.Bindings
import Verif.Spec.CApi
import Verif.Spec.Managed

/-! Lemmas on the memory of the calling program. -/
namespace Verif
open Spec (Holds Mapped HoldsWord HoldsWords HoldsItems Apart Wrote FailsWith Returns Extends OutOfMemory)

variable {Ctx ε α β : Type}

theorem Spec.Extends.refl (s : CState Ctx) : Extends s s := ⟨fun _ _ => rfl, rfl, rfl⟩

theorem Spec.Extends.trans {s s' s'' : CState Ctx} (h : Extends s s') (h' : Extends s' s'') : Extends s s'' :=
  ⟨fun a ha => by
    have h1 := h.mem a ha
    rw [h'.mem a (by rw [h1]; exact ha), h1], h'.ctxs.trans h.ctxs, h'.strings.trans h.strings⟩

theorem holds_mono {s s' : CState Ctx} (h : Extends s s') {p : Nat} {b : List UInt8} (hb : Holds s.mem p b) : Holds s'.mem p b := by
  intro i x hx
  have := hb i x hx
  rw [h.mem _ (by simp [this]), this]

theorem holdsWord_mono {s s' : CState Ctx} (h : Extends s s') {p v : Nat} (hb : HoldsWord s.mem p v) : HoldsWord s'.mem p v := by
  obtain ⟨b, hb, hv⟩ := hb
  refine ⟨b, fun i => ?_, hv⟩
  rw [h.mem _ (by simp [hb i]), hb i]

theorem holdsWords_mono {s s' : CState Ctx} (h : Extends s s') {p : Nat} {vs : List Nat} (hb : HoldsWords s.mem p vs) :
    HoldsWords s'.mem p vs := ⟨hb.1, fun i v hv => holdsWord_mono h (hb.2 i v hv)⟩

theorem holdsItems_mono {s s' : CState Ctx} (h : Extends s s') {p : Nat} {items : List (List UInt8)} (hb : HoldsItems s.mem p items) :
    HoldsItems s'.mem p items := by
  obtain ⟨ptrs, h1, h2⟩ := hb
  exact ⟨ptrs, holdsWords_mono h h1, h2.imp fun _ _ hq => ⟨hq.1, holds_mono h hq.2⟩⟩

theorem mapped_of_holds {mem : Spec.Memory} {p : Nat} {b : List UInt8} (h : Holds mem p b) : Mapped mem p b.length := by
  intro i hi
  exact ⟨_, h i _ (List.getElem?_eq_getElem hi)⟩

theorem mapped_mono {s s' : CState Ctx} (h : Extends s s') {p n : Nat} (hm : Mapped s.mem p n) : Mapped s'.mem p n := by
  intro i hi
  obtain ⟨b, hb⟩ := hm i hi
  exact ⟨b, by rw [h.mem _ (by simp [hb]), hb]⟩

/-- A region that was mapped does not overlap one that was not. -/
theorem apart_of_unmapped {mem : Spec.Memory} {p n q m : Nat} (hp : Mapped mem p n) (hq : ∀ i < m, mem (q + i) = none) :
    n = 0 ∨ m = 0 ∨ Apart p n q m := by
  by_contra hc
  simp only [not_or, Apart, not_le] at hc
  obtain ⟨hn, hm, h1, h2⟩ := hc
  rcases Nat.le_total p q with h | h
  · obtain ⟨b, hb⟩ := hp (q - p) (by omega)
    have := hq 0 (by omega)
    rw [Nat.add_zero] at this
    rw [show p + (q - p) = q by omega, this] at hb
    cases hb
  · obtain ⟨b, hb⟩ := hp 0 (by omega)
    have := hq (p - q) (by omega)
    rw [show q + (p - q) = p by omega] at this
    rw [Nat.add_zero, this] at hb
    cases hb

/-- what an allocation gives -/
structure Allocated (s s' : CState Ctx) (p : Nat) (bytes : List UInt8) : Prop where
  ext : Extends s s'
  ne : p ≠ 0
  aligned : p % 8 = 0
  bound : p + bytes.length ≤ 2 ^ 64
  holds : Holds s'.mem p bytes
  unmapped : ∀ i < bytes.length, s.mem (p + i) = none

theorem mapped_overwrite_self (mem : Spec.Memory) (p : Nat) (data : List UInt8) : Mapped (overwrite mem p data) p data.length :=
  mapped_of_holds (holds_overwrite_self mem p data)

/-- Sequencing after an allocation. -/
theorem newArray_bind (H : Heap Ctx) (A : Allocator Ctx) (bytes : List UInt8) {n : Nat} (hn : bytes.length = n) {s : CState Ctx}
    {ns : List Nat} {m : Option Nat} {f : Nat → CM Ctx ε β} {P : COut Ctx ε β → Prop}
    (hf : ∀ p s', Allocated s s' p bytes → H.place s n = some p → s' = { s with mem := overwrite s.mem p bytes } →
      (OutOfMemory H A s' ns m ∧ f p s' = .panic) ∨ P (f p s')) :
    (OutOfMemory H A s (n :: ns) m ∧ (newArray H bytes >>= f) s = .panic) ∨ P ((newArray H bytes >>= f) s) := by
  subst hn
  rcases hp : H.place s bytes.length with _ | p
  · left
    exact ⟨.array hp, CM.bind_panic (by simp [newArray, hp])⟩
  · obtain ⟨h1, h2, h3, h4⟩ := H.fresh s _ p hp
    have hb : (newArray H bytes >>= f) s = f p { s with mem := overwrite s.mem p bytes } := CM.bind_ok (by simp only [newArray, hp])
    rw [hb]
    rcases hf p { s with mem := overwrite s.mem p bytes } ⟨⟨fun a ha => by
        apply overwrite_outside
        by_contra hc
        apply ha
        have := h4 (a - p) (by omega)
        rwa [show p + (a - p) = a by omega] at this, rfl, rfl⟩, h1, h2, h3, holds_overwrite_self _ _ _, h4⟩ hp rfl with ⟨ho, hx⟩ | hx
    · exact .inl ⟨.later _ hp (fun a ha => overwrite_outside ha) (mapped_overwrite_self _ _ _) ho, hx⟩
    · exact .inr hx

theorem length_wordBytes (v : Nat) : (wordBytes v).length = 8 := by simp [wordBytes]

theorem holdsWord_wordBytes {mem : Spec.Memory} {p v : Nat} (hv : v < 2 ^ 64) (h : Holds mem p (wordBytes v)) : HoldsWord mem p v := by
  refine ⟨fun i => UInt8.ofNat (v / 256 ^ (i : Nat) % 256), fun i => ?_, ?_⟩
  · apply h
    simp [wordBytes]
  · have e : ∀ j, (UInt8.ofNat (v / 256 ^ j % 256)).toNat = v / 256 ^ j % 256 := by
      intro j
      rw [UInt8.toNat_ofNat']
      exact Nat.mod_eq_of_lt (Nat.mod_lt _ (by norm_num))
    simp only [e, Fin.sum_univ_succ, Fin.sum_univ_zero]
    simp only [Fin.val_zero, Fin.val_succ, pow_zero, Nat.div_one]
    norm_num at hv ⊢
    omega

theorem getElem?_flatMap_wordBytes (ptrs : List Nat) (i v : Nat) (h : ptrs[i]? = some v) (j : Nat) (hj : j < 8) :
    (ptrs.flatMap wordBytes)[8 * i + j]? = (wordBytes v)[j]? := by
  induction ptrs generalizing i with
  | nil => simp at h
  | cons p ptrs ih =>
    rw [List.flatMap_cons]
    cases i with
    | zero =>
      simp only [List.getElem?_cons_zero, Option.some.injEq] at h
      subst h
      rw [List.getElem?_append_left (by rw [length_wordBytes]; omega)]
      simp
    | succ i =>
      rw [List.getElem?_append_right (by rw [length_wordBytes]; omega), length_wordBytes,
        show 8 * (i + 1) + j - 8 = 8 * i + j by omega]
      exact ih i (by simpa using h)

theorem length_flatMap_wordBytes (ptrs : List Nat) : (ptrs.flatMap wordBytes).length = 8 * ptrs.length := by
  induction ptrs with
  | nil => rfl
  | cons p ptrs ih => rw [List.flatMap_cons, List.length_append, ih, length_wordBytes, List.length_cons]; ring

theorem holdsWords_of_allocated {s s' : CState Ctx} {p : Nat} {ptrs : List Nat} (h : Allocated s s' p (ptrs.flatMap wordBytes))
    (hp : ∀ v ∈ ptrs, v < 2 ^ 64) : HoldsWords s'.mem p ptrs := by
  refine ⟨fun _ => ⟨h.ne, h.aligned⟩, fun i v hv => holdsWord_wordBytes (hp v (List.mem_of_getElem? hv)) ?_⟩
  intro j b hb
  have hj : j < 8 := by
    have := (List.getElem?_eq_some_iff.1 hb).1
    rwa [length_wordBytes] at this
  rw [Nat.add_assoc]
  exact h.holds _ _ (by rw [getElem?_flatMap_wordBytes ptrs i v hv j hj, hb])

/-- what the allocation of a jagged array gives -/
structure AllocatedAll (s s' : CState Ctx) (ptrs : List Nat) (n : Nat) : Prop where
  ext : Extends s s'
  each : ∀ p ∈ ptrs, p ≠ 0 ∧ p + n ≤ 2 ^ 64 ∧ Holds s'.mem p (List.replicate n 0) ∧ ∀ i < n, s.mem (p + i) = none
  apart : ptrs.Pairwise (fun q q' => Apart q n q' n)

/-- Sequencing after the allocation of a jagged array; `I` is an invariant of the allocations. -/
theorem newAll_bind' (H : Heap Ctx) (A : Allocator Ctx) (n : Nat) (hn : 0 < n) {γ : Type} (l : List γ) {I : CState Ctx → Prop}
    (hI : ∀ s p, I s → H.place s n = some p → I { s with mem := overwrite s.mem p (List.replicate n 0) }) {s : CState Ctx} (h0 : I s)
    {ns : List Nat} {m : Option Nat} {f : List Nat → CM Ctx ε β} {P : COut Ctx ε β → Prop}
    (hf : ∀ ptrs s', ptrs.length = l.length → AllocatedAll s s' ptrs n → I s' →
      (OutOfMemory H A s' ns m ∧ f ptrs s' = .panic) ∨ P (f ptrs s')) :
    (OutOfMemory H A s (List.replicate l.length n ++ ns) m ∧ (l.mapM (fun _ => newBytes H n) >>= f) s = .panic) ∨
      P ((l.mapM (fun _ => newBytes H n) >>= f) s) := by
  induction l generalizing s f with
  | nil =>
    rw [List.mapM_nil, pure_bind]
    exact hf [] s rfl ⟨Extends.refl s, by simp, by simp⟩ h0
  | cons a l ih =>
    rw [List.mapM_cons, bind_assoc, List.length_cons, List.replicate_succ, List.cons_append]
    refine newArray_bind H A (List.replicate n 0) List.length_replicate (P := P) ?_
    intro p s₁ h1 hp he
    simp only [bind_assoc, pure_bind]
    refine ih (he ▸ hI s p h0 hp) ?_
    intro ptrs s₂ hlen h2 hI2
    refine hf (p :: ptrs) s₂ (by simp [hlen]) ⟨h1.ext.trans h2.ext, ?_, ?_⟩ hI2
    · intro q hq
      rcases List.mem_cons.1 hq with rfl | hq
      · refine ⟨h1.ne, by simpa using h1.bound, holds_mono h2.ext h1.holds, by simpa using h1.unmapped⟩
      · obtain ⟨e1, e2, e3, e4⟩ := h2.each q hq
        refine ⟨e1, e2, e3, fun i hi => ?_⟩
        by_contra hne
        rw [← h1.ext.mem _ hne, e4 i hi] at hne
        exact hne rfl
    · refine List.pairwise_cons.2 ⟨fun q hq => ?_, h2.apart⟩
      have hm := mapped_of_holds h1.holds
      rw [List.length_replicate] at hm
      rcases apart_of_unmapped hm (h2.each q hq).2.2.2 with h | h | h
      · omega
      · omega
      · exact h

theorem newAll_bind (H : Heap Ctx) (A : Allocator Ctx) (n : Nat) (hn : 0 < n) {γ : Type} (l : List γ) {s : CState Ctx} {ns : List Nat}
    {m : Option Nat} {f : List Nat → CM Ctx ε β} {P : COut Ctx ε β → Prop}
    (hf : ∀ ptrs s', ptrs.length = l.length → AllocatedAll s s' ptrs n →
      (OutOfMemory H A s' ns m ∧ f ptrs s' = .panic) ∨ P (f ptrs s')) :
    (OutOfMemory H A s (List.replicate l.length n ++ ns) m ∧ (l.mapM (fun _ => newBytes H n) >>= f) s = .panic) ∨
      P ((l.mapM (fun _ => newBytes H n) >>= f) s) :=
  newAll_bind' H A n hn l (I := fun _ => True) (fun _ _ _ _ => trivial) trivial fun ptrs s' h1 h2 _ => hf ptrs s' h1 h2

theorem readCStringAux_ok {s : CState Ctx} (text : List UInt8) (fuel p : Nat) (hf : text.length < fuel)
    (h : Spec.CString s.mem p text) : (readCStringAux fuel p : CM Ctx ε (List UInt8)) s = .ok text s := by
  induction text generalizing fuel p with
  | nil =>
    obtain ⟨fuel, rfl⟩ : ∃ k, fuel = k + 1 := ⟨fuel - 1, by omega⟩
    have h0 := h.2 0 0 rfl
    unfold readCStringAux
    refine (CM.bind_ok (readByte_ok h0)).trans ?_
    rw [if_pos rfl]
    rfl
  | cons b text ih =>
    obtain ⟨fuel, rfl⟩ : ∃ k, fuel = k + 1 := ⟨fuel - 1, by omega⟩
    have h0 := h.2 0 b rfl
    unfold readCStringAux
    refine (CM.bind_ok (readByte_ok h0)).trans ?_
    have hb : b ≠ 0 := by
      rintro rfl
      exact h.1 (by simp)
    rw [if_neg hb]
    refine (CM.bind_ok (ih fuel (p + 1) (by simpa using hf) ⟨fun hm => h.1 (by simp [hm]), fun i x hx => ?_⟩)).trans rfl
    rw [show p + 1 + i = p + (i + 1) by ring]
    exact h.2 (i + 1) x (by simpa using hx)

theorem readCString_ok {s : CState Ctx} {text : List UInt8} {p : Nat} (hp : p + (text.length + 1) ≤ 2 ^ 64)
    (h : Spec.CString s.mem p text) : (readCString p : CM Ctx ε (List UInt8)) s = .ok text s :=
  readCStringAux_ok text _ p (by omega) h

theorem callC_ok {x : CM Ctx Empty α} {s s' : CState Ctx} {a : α} (h : x s = .ok a s') : (callC x : CM Ctx ε α) s = .ok a s' := by
  unfold callC; rw [h]

theorem callC_panic {x : CM Ctx Empty α} {s : CState Ctx} (h : x s = .panic) : (callC x : CM Ctx ε α) s = .panic := by
  unfold callC; rw [h]

/-- a C call with `ThrowOnError`, for a call that fails -/
theorem throwOnError_err (H : Heap Ctx) (A : Allocator Ctx) {call : CM Ctx Empty CResult} {s : CState Ctx}
    {msg : List UInt8} (h : FailsWith A call s msg) (f : Unit → CM Ctx CsException β) :
    (OutOfMemory H A s [] (some (msg.length + 1)) ∧ (callC call >>= fun r => throwOnErrorCs r >>= f) s = .panic) ∨
    (callC call >>= fun r => throwOnErrorCs r >>= f) s =
      .err (.argument (ascii "an error occurred from the bindings: " ++ msg)) s := by
  rcases h with ⟨h1, h2⟩ | ⟨p, s', h1, -, hp, h64, hs, -, -, -, -, hfree⟩
  · left
    exact ⟨.message h1, CM.bind_panic (callC_panic h2)⟩
  · right
    refine (CM.bind_ok (callC_ok h1)).trans ?_
    refine CM.bind_err ?_
    unfold throwOnErrorCs
    simp only [ne_eq, hp, not_false_eq_true, if_true]
    refine (CM.bind_ok (readCString_ok h64 hs)).trans ?_
    exact (CM.bind_ok (callC_ok hfree)).trans rfl

/-- a C call with `ThrowOnError`, for a call that succeeds -/
theorem throwOnError_ok {call : CM Ctx Empty CResult} {s s' : CState Ctx} (h : call s = .ok ⟨.Ok, 0⟩ s')
    (f : Unit → CM Ctx CsException β) : (callC call >>= fun r => throwOnErrorCs r >>= f) s = f () s' :=
  (CM.bind_ok (callC_ok h)).trans rfl

theorem throwOnError_panic {call : CM Ctx Empty CResult} {s : CState Ctx} (h : call s = .panic)
    (f : Unit → CM Ctx CsException β) : (callC call >>= fun r => throwOnErrorCs r >>= f) s = .panic :=
  CM.bind_panic (callC_panic h)

/-- writing only memory that was allocated since `s₀` -/
theorem extends_of_wrote {s₀ s s' : CState Ctx} {regions : List (Nat × List UInt8)} (h₀ : Extends s₀ s)
    (hw : Wrote s.mem s'.mem regions) (hc : s'.ctxs = s.ctxs) (hs : s'.strings = s.strings)
    (hr : ∀ r ∈ regions, ∀ i < r.2.length, s₀.mem (r.1 + i) = none) : Extends s₀ s' := by
  refine ⟨fun a ha => ?_, hc.trans h₀.ctxs, hs.trans h₀.strings⟩
  rw [hw.2 a, h₀.mem a ha]
  intro r hrm
  by_contra hcon
  have := hr r hrm (a - r.1) (by omega)
  rw [show r.1 + (a - r.1) = a by omega] at this
  exact ha this

theorem unmapped_before {s s' : CState Ctx} (h : Extends s s') {a : Nat} (ha : s'.mem a = none) : s.mem a = none := by
  by_contra hne
  rw [← h.mem a hne] at hne
  exact hne ha

/-- the output buffers of a call that returns cells and proofs -/
theorem managed_outBuffers {s₀ s₁ s₁' s₂ s₃ s₄ s₅ : CState Ctx} {cp pp : List Nat} {oc op : Nat}
    (hcp : AllocatedAll s₀ s₁ cp 2048) (h12 : Extends s₁ s₁') (hpp : AllocatedAll s₁' s₂ pp 48) (h23 : Extends s₂ s₃)
    (hC : Allocated s₃ s₄ oc (cp.flatMap wordBytes)) (hP : Allocated s₄ s₅ op (pp.flatMap wordBytes)) (hcl : cp.length = 128)
    (hpl : pp.length = 128) : Spec.OutBuffers s₅.mem oc op cp pp := by
  have e25 : Extends s₂ s₅ := h23.trans (hC.ext.trans hP.ext)
  have e13 : Extends s₁ s₃ := h12.trans (hpp.ext.trans h23)
  have e15 : Extends s₁ s₅ := e13.trans (hC.ext.trans hP.ext)
  have mc : ∀ {t : CState Ctx}, Extends s₁ t → ∀ q ∈ cp, Mapped t.mem q 2048 := fun ht q hq => by
    have := mapped_of_holds (holds_mono ht (hcp.each q hq).2.2.1)
    rwa [List.length_replicate] at this
  have mp : ∀ {t : CState Ctx}, Extends s₂ t → ∀ q ∈ pp, Mapped t.mem q 48 := fun ht q hq => by
    have := mapped_of_holds (holds_mono ht (hpp.each q hq).2.2.1)
    rwa [List.length_replicate] at this
  have lC : (cp.flatMap wordBytes).length = 1024 := by rw [length_flatMap_wordBytes, hcl]
  have lP : (pp.flatMap wordBytes).length = 1024 := by rw [length_flatMap_wordBytes, hpl]
  have uC := hC.unmapped
  have uP := hP.unmapped
  rw [lC] at uC
  rw [lP] at uP
  have fin : ∀ {p n q m : Nat}, 0 < n → 0 < m → (n = 0 ∨ m = 0 ∨ Apart p n q m) → Apart p n q m := by
    rintro p n q m h1 h2 (h | h | h)
    · omega
    · omega
    · exact h
  exact {
    cells := holdsWords_mono hP.ext (holdsWords_of_allocated hC fun v hv => by have := (hcp.each v hv).2.1; omega)
    proofs := holdsWords_of_allocated hP fun v hv => by have := (hpp.each v hv).2.1; omega
    cellsLength := hcl
    proofsLength := hpl
    cellMapped := fun q hq => ⟨(hcp.each q hq).1, mc e15 q hq⟩
    proofMapped := fun q hq => ⟨(hpp.each q hq).1, mp e25 q hq⟩
    cellsApart := hcp.apart
    proofsApart := hpp.apart
    bothApart := fun q hq q' hq' => fin (by norm_num) (by norm_num) (apart_of_unmapped (mc h12 q hq) (hpp.each q' hq').2.2.2)
    arrayApart := fun q hq => ⟨fin (by norm_num) (by norm_num) (apart_of_unmapped (mc e13 q hq) uC),
      fin (by norm_num) (by norm_num) (apart_of_unmapped (mc (e13.trans hC.ext) q hq) uP)⟩
    arrayApart' := fun q hq => fin (by norm_num) (by norm_num) (apart_of_unmapped (mp (h23.trans hC.ext) q hq) uP) }

theorem outBuffers_mono {s s' : CState Ctx} (h : Extends s s') {oc op : Nat} {cp pp : List Nat} (ho : Spec.OutBuffers s.mem oc op cp pp) :
    Spec.OutBuffers s'.mem oc op cp pp :=
  { ho with
    cells := holdsWords_mono h ho.cells
    proofs := holdsWords_mono h ho.proofs
    cellMapped := fun q hq => ⟨(ho.cellMapped q hq).1, mapped_mono h (ho.cellMapped q hq).2⟩
    proofMapped := fun q hq => ⟨(ho.proofMapped q hq).1, mapped_mono h (ho.proofMapped q hq).2⟩ }

theorem readAll_ok {s : CState Ctx} {n : Nat} {ptrs : List Nat} {items : List (List UInt8)} (hl : ptrs.length = items.length)
    (hn : ∀ x ∈ items, x.length = n) (h : ∀ r ∈ ptrs.zip items, Holds s.mem r.1 r.2) :
    (ptrs.mapM (fun p => readBytes p n) : CM Ctx ε (List (List UInt8))) s = .ok items s := by
  apply CM.mapM_ok
  rw [List.forall₂_iff_zip]
  exact ⟨hl, fun {a b} hab => readBytes_ok' (hn b (List.of_mem_zip hab).2) (h _ hab)⟩

theorem forall₂_mem_left {γ δ : Type} {R : γ → δ → Prop} {l : List γ} {l' : List δ} (h : List.Forall₂ R l l') {a : γ} (ha : a ∈ l) :
    ∃ b ∈ l', R a b := by
  induction h with
  | nil => simp at ha
  | cons h1 _ ih =>
    rcases List.mem_cons.1 ha with rfl | ha
    · exact ⟨_, by simp, h1⟩
    · obtain ⟨b, hb, hr⟩ := ih ha
      exact ⟨b, by simp [hb], hr⟩

/-- managed arrays as C arrays of pointers -/
theorem holdsItems_of_arrays {s t t' : CState Ctx} {arrays : List CsArray} {contents : List (List UInt8)} {n q : Nat} (hn : 0 < n)
    (h : List.Forall₂ (fun a b => Spec.ArrayHolds s.mem a.addr a.length b) arrays contents) (hs : Spec.Sized n contents)
    (hst : Extends s t) (ha : Allocated t t' q ((arrays.map CsArray.fixed).flatMap wordBytes)) :
    HoldsItems t'.mem (CsArray.fixed ⟨q, arrays.length⟩) contents := by
  have e : arrays.map CsArray.fixed = arrays.map CsArray.addr := by
    apply List.map_congr_left
    intro a ham
    obtain ⟨b, hb, hab⟩ := forall₂_mem_left h ham
    have := hs b hb
    have := hab.length
    unfold CsArray.fixed
    rw [if_neg (by omega)]
  rw [e] at ha
  have hw : HoldsWords t'.mem q (arrays.map CsArray.addr) := holdsWords_of_allocated ha (by
    intro v hv
    obtain ⟨a, ham, rfl⟩ := List.mem_map.1 hv
    obtain ⟨b, hb, hab⟩ := forall₂_mem_left h ham
    have := hab.bound
    have := hs b hb
    omega)
  refine ⟨arrays.map CsArray.addr, ?_, ?_⟩
  · cases arrays with
    | nil => exact ⟨fun h => absurd rfl h, fun i v hv => by simp at hv⟩
    | cons a arrays => simpa [CsArray.fixed] using hw
  · rw [List.forall₂_map_left_iff]
    exact h.imp fun a b hab => ⟨hab.ne, holds_mono (hst.trans ha.ext) hab.holds⟩

theorem checkLengths_ok {s : CState Ctx} {n : Nat} (name : String) {arrays : List CsArray} (h : ∀ a ∈ arrays, a.length = n) :
    checkLengths n name arrays s = .ok () s := by
  unfold checkLengths
  generalize hz : arrays.zipIdx = z
  have hz' : ∀ q ∈ z, q.1.length = n := by
    rintro ⟨a, i⟩ hq
    rw [← hz] at hq
    exact h a (List.fst_mem_of_mem_zipIdx hq)
  clear hz
  induction z with
  | nil => rfl
  | cons q z ih =>
    refine (CM.bind_ok (a := ()) (s' := s) ?_).trans (ih fun q hq => hz' q (by simp [hq]))
    exact congrFun (if_neg (by simpa using hz' q (by simp))) s

theorem checkLengths_err {s : CState Ctx} {n : Nat} (name : String) (pre post : List CsArray) (a : CsArray)
    (h : ∀ a ∈ pre, a.length = n) (ha : a.length ≠ n) :
    checkLengths n name (pre ++ a :: post) s =
      .err (.argument (ascii name ++ ascii " at index " ++ debugNat pre.length ++ ascii " has an invalid length")) s := by
  unfold checkLengths
  have key : ∀ (pre : List CsArray) k, (∀ a ∈ pre, a.length = n) → ((pre ++ a :: post).zipIdx k).forM (m := CM Ctx CsException)
      (fun q => if q.1.length ≠ n
        then CM.throw (.argument (ascii name ++ ascii " at index " ++ debugNat q.2 ++ ascii " has an invalid length"))
        else pure ()) s =
      .err (.argument (ascii name ++ ascii " at index " ++ debugNat (k + pre.length) ++ ascii " has an invalid length")) s := by
    intro pre
    induction pre with
    | nil =>
      intro k _
      rw [List.nil_append, List.zipIdx_cons]
      refine CM.bind_err ?_
      exact congrFun (if_pos ha) s
    | cons b pre ih =>
      intro k hk
      rw [List.cons_append, List.zipIdx_cons]
      refine (CM.bind_ok (a := ()) (s' := s) ?_).trans ((ih (k + 1) fun c hc => hk c (by simp [hc])).trans ?_)
      · exact congrFun (if_neg (by simpa using hk b (by simp))) s
      · rw [List.length_cons, Nat.add_assoc, Nat.add_comm 1]
  simpa using key pre 0 h

end Verif
