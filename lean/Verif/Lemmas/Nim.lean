import Verif.Lemmas.Managed
import Verif.Model.NimBinding

/-! Lemmas on the Nim bindings. -/
namespace Verif
open Spec (Holds Mapped HoldsWord HoldsWords HoldsItems Apart FailsWith Extends OutOfMemory ItemsHold seqSizes)

variable {Ctx β : Type}

theorem length_items (n : Nat) (a : NimArray) : (a.items n).length = a.length := by simp [NimArray.items]

theorem mem_items {n : Nat} {a : NimArray} {p : Nat} : p ∈ a.items n ↔ ∃ i < a.length, p = a.addr + n * i := by
  simp only [NimArray.items, List.mem_map, List.mem_range]
  exact ⟨fun ⟨i, hi, h⟩ => ⟨i, hi, h.symm⟩, fun ⟨i, hi, h⟩ => ⟨i, hi, h.symm⟩⟩

/-- the pointers to the items of an array -/
structure PtrPtr (s s' : CState Ctx) (p n : Nat) (a : NimArray) : Prop where
  ext : Extends s s'
  full : a.length ≠ 0 → Allocated s s' p ((a.items n).flatMap wordBytes)

/-- Sequencing after `toPtrPtr`. -/
theorem toPtrPtr_bind (H : Heap Ctx) (A : Allocator Ctx) (n : Nat) (a : NimArray) {s : CState Ctx} {ns : List Nat} {m : Option Nat}
    {f : Nat → CM Ctx NimError β} {P : COut Ctx NimError β → Prop}
    (hf : ∀ p s', PtrPtr s s' p n a → (OutOfMemory H A s' ns m ∧ f p s' = .panic) ∨ P (f p s')) :
    (OutOfMemory H A s (seqSizes a.length ++ ns) m ∧ (toPtrPtr H n a >>= f) s = .panic) ∨ P ((toPtrPtr H n a >>= f) s) := by
  unfold toPtrPtr seqSizes
  by_cases h : a.length = 0
  · rw [if_pos h, if_pos h, pure_bind]
    exact hf 0 s ⟨Extends.refl s, fun h' => absurd h h'⟩
  · rw [if_neg h, if_neg h]
    refine newArray_bind H A ((a.items n).flatMap wordBytes) (by rw [length_flatMap_wordBytes, length_items]) (P := P) ?_
    intro p s' h1 _ _
    exact hf p s' ⟨h1.ext, fun _ => h1⟩

theorem getElem?_flatten_sized {n : Nat} {items : List (List UInt8)} (hs : ∀ b ∈ items, b.length = n) {i : Nat} {b : List UInt8}
    (h : items[i]? = some b) (j : Nat) (hj : j < n) : items.flatten[n * i + j]? = b[j]? := by
  induction items generalizing i with
  | nil => simp at h
  | cons x items ih =>
    have hx : x.length = n := hs x (by simp)
    rw [List.flatten_cons]
    cases i with
    | zero =>
      simp only [List.getElem?_cons_zero, Option.some.injEq] at h
      subst h
      rw [List.getElem?_append_left (by omega)]
      simp
    | succ i =>
      rw [List.getElem?_append_right (by rw [hx, Nat.mul_succ]; omega), hx, show n * (i + 1) + j - n = n * i + j by rw [Nat.mul_succ]; omega]
      exact ih (fun b hb => hs b (by simp [hb])) (by simpa using h)

theorem holds_item {mem : Spec.Memory} {addr length n : Nat} {items : List (List UInt8)} (h : ItemsHold mem addr length n items) {i : Nat}
    {b : List UInt8} (hb : items[i]? = some b) : Holds mem (addr + n * i) b := by
  intro j x hx
  have hj : j < n := by
    have := (List.getElem?_eq_some_iff.1 hx).1
    rwa [h.sized b (List.mem_of_getElem? hb)] at this
  rw [Nat.add_assoc]
  exact h.holds _ _ (by rw [getElem?_flatten_sized h.sized hb j hj, hx])

/-- arrays of items as C arrays of pointers -/
theorem holdsItems_of_ptrPtr {s t t' : CState Ctx} {a : NimArray} {items : List (List UInt8)} {n p : Nat} (hn : 0 < n)
    (h : ItemsHold s.mem a.addr a.length n items) (hst : Extends s t) (hp : PtrPtr t t' p n a) : HoldsItems t'.mem p items := by
  by_cases h0 : a.length = 0
  · have : items = [] := List.eq_nil_of_length_eq_zero (by rw [← h.length, h0])
    subst this
    exact ⟨[], ⟨fun h => absurd rfl h, fun i v hv => by simp at hv⟩, .nil⟩
  · have ha := hp.full h0
    refine ⟨a.items n, holdsWords_of_allocated ha ?_, ?_⟩
    · intro v hv
      obtain ⟨i, hi, rfl⟩ := mem_items.1 hv
      have := h.bound
      rw [h.length] at hi
      have : n * i < n * items.length := Nat.mul_lt_mul_of_pos_left hi hn
      omega
    · rw [List.forall₂_iff_get]
      refine ⟨by rw [length_items, h.length], fun i h1 h2 => ?_⟩
      have hne := h.ne
      simp only [List.get_eq_getElem, NimArray.items, List.getElem_map, List.getElem_range]
      exact ⟨by omega, holds_mono (hst.trans hp.ext) (holds_item h (List.getElem?_eq_getElem h2))⟩

theorem overwrite_append (mem : Spec.Memory) (p : Nat) (a b : List UInt8) :
    overwrite mem p (a ++ b) = overwrite (overwrite mem p a) (p + a.length) b := by
  funext x
  unfold overwrite
  rw [List.length_append]
  by_cases h1 : p + a.length ≤ x ∧ x < p + a.length + b.length
  · rw [if_pos (by omega), if_pos h1, List.getElem?_append_right (by omega), Nat.sub_sub]
  · rw [if_neg h1]
    by_cases h2 : p ≤ x ∧ x < p + a.length
    · rw [if_pos h2, if_pos (by omega), List.getElem?_append_left (by omega)]
    · rw [if_neg h2, if_neg (by omega)]

/-- a block of zero bytes as an array of items -/
theorem allocatedAll_items (s : CState Ctx) {p n k : Nat} (hp : p ≠ 0) (hb : p + n * k ≤ 2 ^ 64)
    (hu : ∀ i < n * k, s.mem (p + i) = none) :
    AllocatedAll s { s with mem := overwrite s.mem p (List.replicate (n * k) 0) } (NimArray.items n ⟨p, k⟩) n := by
  have key : ∀ i < k, n * i + n ≤ n * k := fun i hi => by
    have := Nat.mul_le_mul_left n (show i + 1 ≤ k from hi)
    rwa [Nat.mul_succ] at this
  refine ⟨⟨fun a ha => ?_, rfl, rfl⟩, ?_, ?_⟩
  · apply overwrite_outside
    by_contra hc
    rw [List.length_replicate] at hc
    apply ha
    have := hu (a - p) (by omega)
    rwa [show p + (a - p) = a by omega] at this
  · intro q hq
    obtain ⟨i, hi, rfl⟩ := mem_items.1 hq
    have := key i hi
    refine ⟨by show p + n * i ≠ 0; omega, by show p + n * i + n ≤ _; omega, fun j b hj => ?_, fun j hj => ?_⟩
    · have hjn : j < n := by simpa using (List.getElem?_eq_some_iff.1 hj).1
      refine (congrArg _ (Nat.add_assoc p (n * i) j)).trans (holds_overwrite_self s.mem p (List.replicate (n * k) 0) (n * i + j) b ?_)
      rw [List.getElem?_replicate, if_pos (by omega)]
      rw [List.getElem?_replicate, if_pos hjn] at hj
      exact hj
    · show s.mem (p + n * i + j) = none
      rw [Nat.add_assoc]
      exact hu _ (by omega)
  · unfold NimArray.items
    rw [List.pairwise_map]
    refine List.pairwise_lt_range.imp ?_
    intro i j hij
    left
    have := Nat.mul_le_mul_left n (show i + 1 ≤ j from hij)
    rw [Nat.mul_succ] at this
    show p + n * i + n ≤ p + n * j
    omega

/-- the variable that holds cells and proofs, as two jagged arrays -/
theorem allocated_cellsAndProofs {s s' : CState Ctx} {r : Nat}
    (h : Allocated s s' r (List.replicate (CELLS_PER_EXT_BLOB * BYTES_PER_CELL + CELLS_PER_EXT_BLOB * 48) 0))
    (he : s' = { s with mem := overwrite s.mem r (List.replicate (CELLS_PER_EXT_BLOB * BYTES_PER_CELL + CELLS_PER_EXT_BLOB * 48) 0) }) :
    ∃ s₁, AllocatedAll s s₁ (NimArray.items BYTES_PER_CELL ⟨r, CELLS_PER_EXT_BLOB⟩) 2048 ∧
      AllocatedAll s₁ s' (NimArray.items 48 ⟨r + CELLS_PER_EXT_BLOB * BYTES_PER_CELL, CELLS_PER_EXT_BLOB⟩) 48 := by
  have hb := h.bound
  have hu := h.unmapped
  rw [List.length_replicate] at hb hu
  have hb' : r + (262144 + 6144) ≤ 2 ^ 64 := hb
  have hu' : ∀ i < 262144 + 6144, s.mem (r + i) = none := hu
  have hne := h.ne
  refine ⟨_, allocatedAll_items s (p := r) (n := 2048) (k := 128) hne (by omega) (fun i hi => hu' i (by omega)), ?_⟩
  have := allocatedAll_items ({ s with mem := overwrite s.mem r (List.replicate (2048 * 128) 0) } : CState Ctx) (p := r + 262144) (n := 48) (k := 128)
    (by omega) (by omega) (fun i hi => by
      show overwrite s.mem r (List.replicate (2048 * 128) 0) (r + 262144 + i) = none
      rw [overwrite_outside (by rw [List.length_replicate]; omega), Nat.add_assoc]
      exact hu' _ (by omega))
  have e : s' = { s with mem := overwrite (overwrite s.mem r (List.replicate (2048 * 128) 0)) (r + 262144) (List.replicate (48 * 128) 0) } := by
    rw [he]
    congr 1
    have := overwrite_append s.mem r (List.replicate (2048 * 128) 0) (List.replicate (48 * 128) 0)
    rw [List.replicate_append_replicate, List.length_replicate] at this
    exact this
  rw [e]
  exact this

/-- a C call with `verify_result`, for a call that succeeds -/
theorem verifyResultNim_ok {dollar : CResult → List UInt8} {call : CM Ctx Empty CResult} {s s' : CState Ctx} (h : call s = .ok ⟨.Ok, 0⟩ s')
    (f : Unit → CM Ctx NimError β) : (callC call >>= fun r => verifyResultNim dollar r >>= f) s = f () s' :=
  (CM.bind_ok (callC_ok h)).trans rfl

theorem verifyResultNim_panic {dollar : CResult → List UInt8} {call : CM Ctx Empty CResult} {s : CState Ctx} (h : call s = .panic)
    (f : Unit → CM Ctx NimError β) : (callC call >>= fun r => verifyResultNim dollar r >>= f) s = .panic :=
  CM.bind_panic (callC_panic h)

/-- a C call with `verify_result`, for a call that fails -/
theorem verifyResultNim_err (H : Heap Ctx) (A : Allocator Ctx) {dollar : CResult → List UInt8} {call : CM Ctx Empty CResult} {s : CState Ctx}
    {msg : List UInt8} (h : FailsWith A call s msg) (f : Unit → CM Ctx NimError β) :
    (OutOfMemory H A s [] (some (msg.length + 1)) ∧ (callC call >>= fun r => verifyResultNim dollar r >>= f) s = .panic) ∨
    ∃ p, A.place s (msg.length + 1) = some p ∧
      (callC call >>= fun r => verifyResultNim dollar r >>= f) s = .err (dollar ⟨.Err, p⟩) s := by
  rcases h with ⟨h1, h2⟩ | ⟨p, s', h1, hpl, -, -, -, -, -, -, -, hfree⟩
  · left
    exact ⟨.message h1, CM.bind_panic (callC_panic h2)⟩
  · right
    refine ⟨p, hpl, (CM.bind_ok (callC_ok h1)).trans (CM.bind_err ?_)⟩
    exact (CM.bind_ok (callC_ok hfree)).trans rfl

end Verif
