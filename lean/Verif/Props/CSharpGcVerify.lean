import Verif.Props.CSharpGc
import Verif.Props.Verification

set_option linter.unusedSectionVars false

/-! C41 for `VerifyCellKZGProofBatch` of the C# wrapper: the arguments are not pinned during the native call. -/
namespace Verif
open Spec (Holds HoldsWords HoldsItems Mapped Extends OutOfMemory ArrayHolds Sized Verdict Apart)

namespace Spec
variable {Ctx : Type}

/-- the address `a` is in none of the arrays -/
def Outside (arrays : List CsArray) (a : Nat) : Prop := ∀ r ∈ arrays, a < r.addr ∨ r.addr + r.length ≤ a

/-- A collection in the state `t` that keeps the contents of the given arrays, at the addresses that it returns, and all other memory in
use. The old addresses of the arrays can hold anything afterwards. -/
structure MovesArrays (gc : Gc Ctx) (arrays : List CsArray) (t : CState Ctx) : Prop where
  length : (gc t (arrays.map CsArray.addr)).2.length = arrays.length
  contents : ∀ (i : Nat) r q, arrays[i]? = some r → (gc t (arrays.map CsArray.addr)).2[i]? = some q →
    ∀ j < r.length, (gc t (arrays.map CsArray.addr)).1.mem (q + j) = t.mem (r.addr + j)
  other : ∀ a, Outside arrays a → t.mem a ≠ none → (gc t (arrays.map CsArray.addr)).1.mem a = t.mem a
  ctxs : (gc t (arrays.map CsArray.addr)).1.ctxs = t.ctxs
  strings : (gc t (arrays.map CsArray.addr)).1.strings = t.strings

/-- after a collection in the state `t`, the old addresses of the arrays hold `old` -/
def LeavesBehind (gc : Gc Ctx) (arrays : List CsArray) (old : List (List UInt8)) (t : CState Ctx) : Prop :=
  List.Forall₂ (fun r b => ArrayHolds (gc t (arrays.map CsArray.addr)).1.mem r.addr r.length b) arrays old
end Spec

variable {Ctx : Type}

theorem holdsWords_congr {mem mem' : Spec.Memory} {p : Nat} {vs : List Nat} (h : HoldsWords mem p vs)
    (he : ∀ i < 8 * vs.length, mem' (p + i) = mem (p + i)) : HoldsWords mem' p vs := by
  refine ⟨h.1, fun i v hv => ?_⟩
  obtain ⟨b, hb, hs⟩ := h.2 i v hv
  have hi : i < vs.length := (List.getElem?_eq_some_iff.1 hv).1
  refine ⟨b, fun j => ?_, hs⟩
  rw [← hb j, Nat.add_assoc]
  exact he _ (by omega)

theorem mapped_of_holdsWords {mem : Spec.Memory} {p : Nat} {vs : List Nat} (h : HoldsWords mem p vs) : Mapped mem p (8 * vs.length) := by
  intro i hi
  obtain ⟨b, hb, -⟩ := h.2 (i / 8) vs[i / 8] (List.getElem?_eq_getElem (by omega))
  have := hb ⟨i % 8, by omega⟩
  refine ⟨b ⟨i % 8, by omega⟩, ?_⟩
  rw [← this, Nat.add_assoc]
  congr 2
  show i = 8 * (i / 8) + i % 8
  omega

theorem forall₂_append_split {α β : Type} {R : α → β → Prop} {a a' : List α} {b b' : List β} (hl : b.length = a.length)
    (h : List.Forall₂ R (a ++ a') (b ++ b')) : List.Forall₂ R a b ∧ List.Forall₂ R a' b' := by
  induction a generalizing b with
  | nil =>
    cases b with
    | nil => exact ⟨.nil, h⟩
    | cons y b => simp at hl
  | cons x a ih =>
    cases b with
    | nil => simp at hl
    | cons y b =>
      cases h with
      | cons hxy h =>
        obtain ⟨h1, h2⟩ := ih (by simpa using hl) h
        exact ⟨.cons hxy h1, h2⟩

theorem holds_append_split {mem : Spec.Memory} {p : Nat} {a b : List UInt8} (h : Holds mem p (a ++ b)) :
    Holds mem p a ∧ Holds mem (p + a.length) b := by
  refine ⟨fun i x hx => h i x ?_, fun i x hx => ?_⟩
  · rw [List.getElem?_append_left (List.getElem?_eq_some_iff.1 hx).1, hx]
  · rw [Nat.add_assoc]
    refine h _ x ?_
    rw [List.getElem?_append_right (by omega), Nat.add_sub_cancel_left, hx]

/-- memory that was allocated after `s` lies outside of arrays mapped in `s` -/
theorem outside_of_unmapped {s t : CState Ctx} {arrays : List CsArray} (hm : ∀ r ∈ arrays, Mapped s.mem r.addr r.length)
    (hst : Extends s t) {a : Nat} (h : t.mem a = none) : Spec.Outside arrays a := by
  intro r hr
  by_contra hc
  obtain ⟨b, hb⟩ := hm r hr (a - r.addr) (by omega)
  rw [show r.addr + (a - r.addr) = a by omega] at hb
  rw [hst.mem a (by rw [hb]; simp), hb] at h
  cases h

section
variable {K G1 G2 GT : Type} [Field K] [DecidableEq K] [AddCommGroup G1] [Module Fr G1] [DecidableEq G1]
  [Curve K G1] [PointCodec G1] [AddCommGroup G2] [Module Fr G2] [AddCommGroup GT] [DecidableEq GT]
  [Pairing G1 G2 GT] [LawfulPointCodec G1 48]

/-- `VerifyCellKZGProofBatch` does not give the verdict on the arguments of the caller, but on the bytes that the old addresses of the
arguments hold after the last collection before the native call. `I` is what is known of the states in which the collector can run. -/
theorem C41_csharp_verify_collected (H : Heap (DASContext K G1 G2)) (A : Allocator (DASContext K G1 G2)) (gc : Gc (DASContext K G1 G2))
    (s : CState (DASContext K G1 G2)) (I : CState (DASContext K G1 G2) → Prop) (hI : I s)
    (hstep : ∀ t p bytes, I t → H.place t bytes.length = some p → I { t with mem := overwrite t.mem p bytes })
    (sha256 : List UInt8 → List UInt8) (ctxp : Nat) (ctx : DASContext K G1 G2)
    (h0 : ctxp ≠ 0) (hctx : s.ctxs ctxp = some ctx)
    (cellIndices : CsArray) (inds : List Nat) (hil : inds.length = cellIndices.length)
    (commitments cells proofs : List CsArray)
    (hmap : ∀ r ∈ commitments ++ cells ++ proofs, Mapped s.mem r.addr r.length)
    (w1 : ∀ a ∈ cells, a.length = 2048) (w2 : ∀ a ∈ proofs, a.length = 48) (w3 : ∀ a ∈ commitments, a.length = 48)
    (commitmentBytes cellBytes proofBytes : List (List UInt8)) (lm : commitmentBytes.length = commitments.length)
    (lc : cellBytes.length = cells.length) (lp : proofBytes.length = proofs.length)
    (hi : ∀ t, Extends s t → I t → HoldsWords (gc t ((commitments ++ cells ++ proofs).map CsArray.addr)).1.mem cellIndices.fixed inds)
    (hgc : ∀ t, Extends s t → I t → Spec.MovesArrays gc (commitments ++ cells ++ proofs) t ∧
      Spec.LeavesBehind gc (commitments ++ cells ++ proofs) (commitmentBytes ++ cellBytes ++ proofBytes) t)
    (v : Bool) (hverdict : Verdict (ctx.verifyCellKzgProofBatch sha256 commitmentBytes inds cellBytes proofBytes) (.ok v)) :
    (OutOfMemory H A s [8 * commitments.length, 8 * cells.length, 8 * proofs.length, 1] none ∧
      csVerifyCellKZGProofBatch H A gc sha256 ctxp commitments cellIndices cells proofs s = .panic) ∨
    ∃ s', csVerifyCellKZGProofBatch H A gc sha256 ctxp commitments cellIndices cells proofs s = .ok v s' := by
  let P : COut (DASContext K G1 G2) CsException Bool → Prop := fun r => ∃ s', r = .ok v s'
  show _ ∨ P _
  unfold csVerifyCellKZGProofBatch
  rw [CM.bind_ok (checkLengths_ok (n := BYTES_PER_CELL) "cell" w1), CM.bind_ok (checkLengths_ok (n := BYTES_PER_COMMITMENT) "proof" w2),
    CM.bind_ok (checkLengths_ok (n := BYTES_PER_COMMITMENT) "commitments" w3)]
  have hlen : ∀ l : List CsArray, ((l.map CsArray.fixed).flatMap wordBytes).length = 8 * l.length := by
    intro l; rw [length_flatMap_wordBytes, List.length_map]
  refine newArray_bind (P := P) H A ((commitments.map CsArray.fixed).flatMap wordBytes) (hlen _) ?_
  intro cm s₁ h1 hp1 he1
  have i1 : I s₁ := he1 ▸ hstep _ _ _ hI (by rw [hlen]; exact hp1)
  refine newArray_bind (P := P) H A ((cells.map CsArray.fixed).flatMap wordBytes) (hlen _) ?_
  intro cl s₂ h2 hp2 he2
  have i2 : I s₂ := he2 ▸ hstep _ _ _ i1 (by rw [hlen]; exact hp2)
  refine newArray_bind (P := P) H A ((proofs.map CsArray.fixed).flatMap wordBytes) (hlen _) ?_
  intro pf s₃ h3 hp3 he3
  have i3 : I s₃ := he3 ▸ hstep _ _ _ i2 (by rw [hlen]; exact hp3)
  refine newArray_bind (P := P) H A (List.replicate 1 0) List.length_replicate ?_
  intro vf s₄ h4 hp4 he4
  have i4 : I s₄ := he4 ▸ hstep _ _ _ i3 (by rw [List.length_replicate]; exact hp4)
  right
  have e2 : Extends s s₂ := h1.ext.trans h2.ext
  have e3 : Extends s s₃ := e2.trans h3.ext
  have e4 : Extends s s₄ := e3.trans h4.ext
  obtain ⟨hmv, hold⟩ := hgc s₄ e4 i4
  have hcol : (collect gc ((commitments ++ cells ++ proofs).map CsArray.addr) : CM (DASContext K G1 G2) CsException (List Nat)) s₄ =
    .ok (gc s₄ ((commitments ++ cells ++ proofs).map CsArray.addr)).2 (gc s₄ ((commitments ++ cells ++ proofs).map CsArray.addr)).1 := rfl
  rw [CM.bind_ok hcol]
  unfold Spec.LeavesBehind at hold
  have hother := hmv.other
  have hcx := hmv.ctxs
  have hidx := hi s₄ e4 i4
  generalize (gc s₄ ((commitments ++ cells ++ proofs).map CsArray.addr)).1 = t at *
  -- the arrays of pointers are not touched by the collector
  have items : ∀ (arrays : List CsArray) (contents : List (List UInt8)) (n q : Nat) (u u' : CState (DASContext K G1 G2)), 0 < n →
      (∀ a ∈ arrays, a.length = n) → (List.Forall₂ (fun r b => ArrayHolds t.mem r.addr r.length b) arrays contents) →
      Extends s u → Allocated u u' q ((arrays.map CsArray.fixed).flatMap wordBytes) → Extends u' s₄ →
      HoldsItems t.mem (CsArray.fixed ⟨q, arrays.length⟩) contents := by
    intro arrays contents n q u u' hn hsz hf hu ha hu'
    have e : arrays.map CsArray.fixed = arrays.map CsArray.addr := by
      apply List.map_congr_left
      intro a ham
      have := hsz a ham
      unfold CsArray.fixed
      rw [if_neg (by omega)]
    have hl := hlen arrays
    rw [e] at ha hl
    have hw : HoldsWords u'.mem q (arrays.map CsArray.addr) := holdsWords_of_allocated ha (by
      intro v hv
      obtain ⟨a, ham, rfl⟩ := List.mem_map.1 hv
      obtain ⟨b, hb, hab⟩ := forall₂_mem_left hf ham
      have := hab.bound
      have := hab.length
      have := hsz a ham
      omega)
    have hw' : HoldsWords t.mem q (arrays.map CsArray.addr) := by
      refine holdsWords_congr (holdsWords_mono hu' hw) fun i hi => ?_
      rw [List.length_map] at hi
      refine hother _ (outside_of_unmapped hmap hu (ha.unmapped i (by omega))) ?_
      obtain ⟨b, hb⟩ := mapped_mono hu' (mapped_of_holdsWords hw) i (by rw [List.length_map]; exact hi)
      rw [hb]; simp
    refine ⟨arrays.map CsArray.addr, ?_, ?_⟩
    · cases arrays with
      | nil => exact ⟨fun h => absurd rfl h, fun i v hv => by simp at hv⟩
      | cons a arrays => simpa [CsArray.fixed] using hw'
    · rw [List.forall₂_map_left_iff]
      exact hf.imp fun a b hab => ⟨hab.ne, hab.holds⟩
  obtain ⟨hmc, hp⟩ := forall₂_append_split (by rw [List.length_append, List.length_append, lm, lc]) hold
  obtain ⟨hm, hc⟩ := forall₂_append_split lm hmc
  have sized : ∀ {n : Nat} {arrays : List CsArray} {contents : List (List UInt8)},
      List.Forall₂ (fun r b => ArrayHolds t.mem r.addr r.length b) arrays contents → (∀ a ∈ arrays, a.length = n) →
      Sized n contents := by
    intro n arrays contents hf h b hb
    obtain ⟨a, ha, hab⟩ := forall₂_mem_left hf.flip hb
    rw [← hab.length, h a ha]
  have hvf : Mapped t.mem vf 1 := by
    intro i hi
    obtain ⟨b, hb⟩ := mapped_of_holds h4.holds i (by rw [List.length_replicate]; exact hi)
    refine ⟨b, ?_⟩
    rw [← hb]
    exact hother _ (outside_of_unmapped hmap e3 (h4.unmapped i (by rw [List.length_replicate]; exact hi))) (by rw [hb]; simp)
  obtain ⟨t1, t2, -, -⟩ := C32_verify_cell_kzg_proof_batch A t sha256 ctxp commitments.length
    (CsArray.fixed ⟨cm, commitments.length⟩) cellIndices.length cellIndices.fixed cells.length (CsArray.fixed ⟨cl, cells.length⟩)
    proofs.length (CsArray.fixed ⟨pf, proofs.length⟩) vf ctx h0 (by rw [hcx, e4.ctxs, hctx])
    commitmentBytes lm (sized hm w3)
    (items _ _ 48 _ _ _ (by norm_num) w3 hm (Extends.refl s) h1 ((h2.ext.trans h3.ext).trans h4.ext))
    inds hil hidx
    cellBytes lc (sized hc w1) (items _ _ 2048 _ _ _ (by norm_num) w1 hc h1.ext h2 (h3.ext.trans h4.ext))
    proofBytes lp (sized hp w2) (items _ _ 48 _ _ _ (by norm_num) w2 hp e2 h3 h4.ext) h4.ne hvf
  have good : ∀ (b : UInt8) call, (decide (b ≠ 0)) = v → Spec.Returns call t [(vf, [b])] →
      P ((callC call >>= fun r => throwOnErrorCs r >>= fun _ => do
        let b ← readByte vf
        pure (decide (b ≠ 0))) t) := by
    rintro b call hv ⟨s', hs', hw, hc, hst⟩
    rw [throwOnError_ok hs']
    refine ⟨s', ?_⟩
    rw [CM.bind_ok (readByte_ok (p := vf) (b := b) (hw.1 (vf, [b]) (by simp) 0 b rfl)), hv]
    rfl
  generalize hlib : ctx.verifyCellKzgProofBatch sha256 commitmentBytes inds cellBytes proofBytes = lib at hverdict
  cases hverdict with
  | valid => exact good 1 _ rfl (t1 hlib)
  | invalid e => exact good 0 _ rfl (t2 e hlib)

/-- C41 for `VerifyCellKZGProofBatch`, the part that holds: if the collector moves none of the arguments, the caller gets the verdict on
them. -/
theorem C41_csharp_verify_partial (H : Heap (DASContext K G1 G2)) (A : Allocator (DASContext K G1 G2)) (gc : Gc (DASContext K G1 G2))
    (hgc : ∀ s l, Extends s (gc s l).1 ∧ (gc s l).2 = l) (s : CState (DASContext K G1 G2))
    (sha256 : List UInt8 → List UInt8) (ctxp : Nat) (ctx : DASContext K G1 G2)
    (h0 : ctxp ≠ 0) (hctx : s.ctxs ctxp = some ctx)
    (cellIndices : CsArray) (inds : List Nat) (hil : inds.length = cellIndices.length) (hi : HoldsWords s.mem cellIndices.fixed inds)
    (commitments cells proofs : List CsArray) (commitmentBytes cellBytes proofBytes : List (List UInt8))
    (hm : List.Forall₂ (fun a b => ArrayHolds s.mem a.addr a.length b) commitments commitmentBytes)
    (hc : List.Forall₂ (fun a b => ArrayHolds s.mem a.addr a.length b) cells cellBytes)
    (hp : List.Forall₂ (fun a b => ArrayHolds s.mem a.addr a.length b) proofs proofBytes)
    (w1 : ∀ a ∈ cells, a.length = 2048) (w2 : ∀ a ∈ proofs, a.length = 48) (w3 : ∀ a ∈ commitments, a.length = 48)
    (v : Bool) (hverdict : Verdict (ctx.verifyCellKzgProofBatch sha256 commitmentBytes inds cellBytes proofBytes) (.ok v)) :
    (OutOfMemory H A s [8 * commitments.length, 8 * cells.length, 8 * proofs.length, 1] none ∧
      csVerifyCellKZGProofBatch H A gc sha256 ctxp commitments cellIndices cells proofs s = .panic) ∨
    ∃ s', csVerifyCellKZGProofBatch H A gc sha256 ctxp commitments cellIndices cells proofs s = .ok v s' := by
  have hall := List.rel_append (List.rel_append hm hc) hp
  have hmap : ∀ r ∈ commitments ++ cells ++ proofs, Mapped s.mem r.addr r.length := by
    intro r hr
    obtain ⟨b, -, hb⟩ := forall₂_mem_left hall hr
    rw [hb.length]
    exact mapped_of_holds hb.holds
  refine C41_csharp_verify_collected H A gc s (fun _ => True) trivial (fun _ _ _ _ _ => trivial) sha256 ctxp ctx h0 hctx cellIndices inds hil
    commitments cells proofs hmap w1 w2 w3 _ _ _ hm.length_eq.symm hc.length_eq.symm hp.length_eq.symm
    (fun t ht _ => holdsWords_mono (ht.trans (hgc t _).1) hi) (fun t ht _ => ?_) v hverdict
  obtain ⟨hext, hsame⟩ := hgc t ((commitments ++ cells ++ proofs).map CsArray.addr)
  refine ⟨⟨by rw [hsame, List.length_map], ?_, fun a _ ha => hext.mem a ha, hext.ctxs, hext.strings⟩, ?_⟩
  · intro i r q hr hq j hj
    rw [hsame, List.getElem?_map, hr] at hq
    cases hq
    obtain ⟨b, hb⟩ := mapped_mono ht (hmap r (List.mem_of_getElem? hr)) j hj
    exact hext.mem _ (by rw [hb]; simp)
  · exact hall.imp fun a b hab => ⟨hab.length, hab.ne, hab.bound, holds_mono (ht.trans hext) hab.holds⟩

end

open Classical in
/-- a collector that moves the arrays to the addresses from 2^62 on, if these are free, and then uses the memory from `p` on for the
bytes `other` -/
noncomputable def moveUpOver (p : Nat) (other : List UInt8) : Gc Ctx := fun s l =>
  if UpperFree s then ({ (moveUp s l).1 with mem := overwrite (moveUp s l).1.mem p other }, (moveUp s l).2) else (s, l)

theorem moveUpOver_moves {arrays : List CsArray} {p : Nat} {other : List UInt8} {t : CState Ctx}
    (hn : ∀ r ∈ arrays, r.length ≤ 2048)
    (hp : p + other.length ≤ 2 ^ 62) (hin : ∃ r ∈ arrays, p = r.addr ∧ other.length = r.length) :
    Spec.MovesArrays (moveUpOver p other) arrays t := by
  have hk := moveUp_keeps (Ctx := Ctx)
  by_cases h : UpperFree t
  · have e : moveUpOver p other t (arrays.map CsArray.addr) =
        ({ (moveUp t (arrays.map CsArray.addr)).1 with mem := overwrite (moveUp t (arrays.map CsArray.addr)).1.mem p other },
          (moveUp t (arrays.map CsArray.addr)).2) := by
      unfold moveUpOver; rw [if_pos h]
    constructor
    · rw [e]
      show (moveUp t (arrays.map CsArray.addr)).2.length = _
      rw [hk.length, List.length_map]
    · intro i r q hr hq j hj
      rw [e] at hq ⊢
      replace hq : (moveUp t (arrays.map CsArray.addr)).2[i]? = some q := hq
      have hr' : (arrays.map CsArray.addr)[i]? = some r.addr := by rw [List.getElem?_map, hr]; rfl
      have hrm := List.mem_of_getElem? hr
      rw [moveUp_addrs h, List.getElem?_map] at hq
      obtain ⟨k, hk', rfl⟩ := Option.map_eq_some_iff.1 hq
      obtain ⟨hil, rfl⟩ := List.getElem?_eq_some_iff.1 hk'
      rw [List.getElem_range]
      show overwrite _ p other _ = _
      rw [overwrite_outside (Or.inr (by omega)), moveUp_mem h _ hr' (by have := hn r hrm; omega)]
    · intro a ha hm
      rw [e]
      show overwrite _ p other a = _
      obtain ⟨r, hr, h1, h2⟩ := hin
      rw [overwrite_outside (by have := ha r hr; omega)]
      exact (hk.ext t _).mem a hm
    · rw [e]; exact (hk.ext t _).ctxs
    · rw [e]; exact (hk.ext t _).strings
  · have e : moveUpOver p other t (arrays.map CsArray.addr) = (t, arrays.map CsArray.addr) := by
      unfold moveUpOver; rw [if_neg h]
    constructor
    · rw [e, List.length_map]
    · intro i r q hr hq j hj
      rw [e, List.getElem?_map, hr] at hq
      cases hq
      rw [e]
    · intro a _ _
      rw [e]
    · rw [e]
    · rw [e]

open Toy in
/-- C41 is false for `VerifyCellKZGProofBatch` too: there are a process, a collector that moves arrays with their contents, and arguments
such that the library rejects the batch of the caller and the wrapper returns true. -/
theorem C41_csharp_verify_refuted (sha256 : List UInt8 → List UInt8) : ∃ (H : Heap (DASContext Fr Fr Fr)) (A : Allocator (DASContext Fr Fr Fr))
    (gc : Gc (DASContext Fr Fr Fr)) (s s' : CState (DASContext Fr Fr Fr)) (ctxp : Nat) (ctx : DASContext Fr Fr Fr)
    (commitment cellIndex cell proof : CsArray) (k : Nat) (commitmentBytes cellBytes proofBytes : List UInt8),
      (∀ t, Extends s t → Spec.MovesArrays gc ([commitment] ++ [cell] ++ [proof]) t) ∧ s.ctxs ctxp = some ctx ∧
      ArrayHolds s.mem commitment.addr 48 commitmentBytes ∧ commitment.length = 48 ∧
      HoldsWords s.mem cellIndex.addr [k] ∧ cellIndex.length = 1 ∧
      ArrayHolds s.mem cell.addr 2048 cellBytes ∧ cell.length = 2048 ∧
      ArrayHolds s.mem proof.addr 48 proofBytes ∧ proof.length = 48 ∧
      ctx.verifyCellKzgProofBatch sha256 [commitmentBytes] [k] [cellBytes] [proofBytes] = .err (.Verifier (.FK20 .InvalidProof)) ∧
      csVerifyCellKZGProofBatch H A gc sha256 ctxp [commitment] cellIndex [cell] [proof] s = .ok true s' := by
  obtain ⟨ctx, hctx⟩ := context 7
  have hl : ∀ x : Fr, (toCompressed x).length = 48 := fun x => LawfulPointCodec.length_toCompressed (size := 48) x
  have hd : fromCompressed (toCompressed (0 : Fr)) = some (0 : Fr) :=
    LawfulPointCodec.fromCompressed_toCompressed (size := 48) (0 : Fr)
  have h64 : ∀ x : Fr, (Polynomial.C x).degree < 64 := fun x => lt_of_le_of_lt Polynomial.degree_C_le (by norm_num)
  -- the batch of the caller is rejected, the other one is accepted
  have hbad : ctx.verifyCellKzgProofBatch sha256 [toCompressed (0 : Fr)] [5] [cellOf (Polynomial.C 9) 5] [toCompressed (0 : Fr)] =
      .err (.Verifier (.FK20 .InvalidProof)) := by
    have hds : Spec.Decodes [toCompressed (0 : Fr)] [5] [cellOf (Polynomial.C 9) 5] [toCompressed (0 : Fr)]
        [(⟨0, 5, Polynomial.C 9, 0⟩ : Spec.Opening Fr)] :=
      ⟨.cons hd .nil, .cons ⟨rfl, by norm_num⟩ .nil, .cons ⟨h64 9, (isCell_iff _ 5 _).2 rfl⟩ .nil, .cons hd .nil⟩
    refine (C06_batch (setup 7) .no 7 1 1 (powersOfTau 7) nondegenerate ctx hctx sha256 _ _ _ _ (by simpa using hl 0) (by simpa using hl 0)
      _ hds).2 ?_
    rw [Ne, C06_single (setup 7) .no 7 1 1 (powersOfTau 7) nondegenerate ctx hctx sha256 _ 5 _ _ (hl _) (hl _) 0 0 (Polynomial.C 9) hd
      (by norm_num) (h64 9) ((isCell_iff _ 5 _).2 rfl) hd, Polynomial.eval_C]
    simp only [mul_zero, zero_sub, smul_eq_mul, mul_one]
    decide +kernel
  have hgood : ctx.verifyCellKzgProofBatch sha256 [toCompressed (0 : Fr)] [5] [cellOf (Polynomial.C 0) 5] [toCompressed (0 : Fr)] = .ok () := by
    rw [C06_single (setup 7) .no 7 1 1 (powersOfTau 7) nondegenerate ctx hctx sha256 _ 5 _ _ (hl _) (hl _) 0 0 (Polynomial.C 0) hd
      (by norm_num) (h64 0) ((isCell_iff _ 5 _).2 rfl) hd, Polynomial.eval_C]
    simp
  have lc : ∀ x : Fr, (cellOf (Polynomial.C x) 5).length = 2048 := fun x => cellOf_length _ _
  have l0 := hl 0
  have lb := lc 9
  have lg := lc 0
  generalize cellOf (Polynomial.C 9) 5 = bad at hbad lb
  generalize cellOf (Polynomial.C 0) 5 = good at hgood lg
  generalize toCompressed (0 : Fr) = z at hbad hgood l0
  -- commitment, cell, proof and index of the caller, one after the other
  set s := ToyHeap.start ctx (z ++ (bad ++ (z ++ wordBytes 5))) with hs
  have hst := ToyHeap.start_holds ctx (z ++ (bad ++ (z ++ wordBytes 5)))
  rw [← hs] at hst
  obtain ⟨a1, r1⟩ := holds_append_split hst
  obtain ⟨a2, r2⟩ := holds_append_split r1
  obtain ⟨a3, a4⟩ := holds_append_split r2
  rw [l0] at a2 a3 a4
  rw [lb] at a3 a4
  norm_num at a2 a3 a4
  have hlen : (z ++ (bad ++ (z ++ wordBytes 5))).length = 2152 := by
    simp only [List.length_append, l0, lb, length_wordBytes]
  have htop := ToyHeap.start_top ctx (z ++ (bad ++ (z ++ wordBytes 5)))
  rw [← hs, hlen] at htop
  have hu : UpperFree s := fun a ha => (htop a (by omega)).1
  have hw : HoldsWords s.mem 6240 [5] := by
    refine ⟨fun _ => ⟨by norm_num, by norm_num⟩, fun i v hv => ?_⟩
    obtain ⟨hi, rfl⟩ := List.getElem?_eq_some_iff.1 hv
    obtain rfl : i = 0 := by simpa using hi
    exact holdsWord_wordBytes (by norm_num) a4
  have hm1 : Mapped s.mem 4096 48 := l0 ▸ mapped_of_holds a1
  have hm2 : Mapped s.mem 4144 2048 := lb ▸ mapped_of_holds a2
  have hm3 : Mapped s.mem 6192 48 := l0 ▸ mapped_of_holds a3
  have hmoves : ∀ t, Spec.MovesArrays (moveUpOver 4144 good) ([⟨4096, 48⟩] ++ [⟨4144, 2048⟩] ++ [⟨6192, 48⟩]) (t : CState (DASContext Fr Fr Fr)) :=
    fun t => moveUpOver_moves (by simp) (by omega) ⟨⟨4144, 2048⟩, by simp, rfl, lg⟩
  have hidx : ∀ t, Extends s t → HoldsWords (moveUpOver 4144 good t
      (List.map CsArray.addr ([⟨4096, 48⟩] ++ [⟨4144, 2048⟩] ++ [⟨6192, 48⟩]))).1.mem 6240 [5] := by
    intro t ht
    refine holdsWords_congr (holdsWords_mono ht hw) fun i hi => ?_
    obtain ⟨b, hb⟩ := mapped_mono ht (mapped_of_holdsWords hw) i hi
    refine (hmoves t).other _ (fun r hr => ?_) (by rw [hb]; simp)
    simp only [List.cons_append, List.nil_append, List.mem_cons, List.not_mem_nil, or_false] at hr
    right
    rcases hr with rfl | rfl | rfl <;> show _ ≤ _ <;> simp only [] <;> omega
  have hleaves : ∀ t : CState (DASContext Fr Fr Fr), Extends s t → UpperFree t →
      Spec.LeavesBehind (moveUpOver 4144 good) ([⟨4096, 48⟩] ++ [⟨4144, 2048⟩] ++ [⟨6192, 48⟩]) ([z] ++ [good] ++ [z]) t := by
    intro t ht hut
    unfold Spec.LeavesBehind moveUpOver
    rw [if_pos hut]
    have hx : Extends s (moveUp t (List.map CsArray.addr ([⟨4096, 48⟩] ++ [⟨4144, 2048⟩] ++ [⟨6192, 48⟩]))).1 := ht.trans (moveUp_keeps.ext t _)
    generalize (moveUp t (List.map CsArray.addr ([⟨4096, 48⟩] ++ [⟨4144, 2048⟩] ++ [⟨6192, 48⟩]))).1 = u at hx
    refine .cons ⟨l0.symm, by norm_num, by rw [l0]; norm_num, ?_⟩ (.cons ⟨lg.symm, by norm_num, by rw [lg]; norm_num, ?_⟩
      (.cons ⟨l0.symm, by norm_num, by rw [l0]; norm_num, ?_⟩ .nil))
    · exact holds_overwrite (holds_mono hx a1) (by rw [l0, lg]; left; norm_num)
    · exact holds_overwrite_self _ _ _
    · exact holds_overwrite (holds_mono hx a3) (by rw [l0, lg]; right; norm_num)
  rcases C41_csharp_verify_collected (ToyHeap.heap _) (ToyHeap.allocator _) (moveUpOver 4144 good) s UpperFree hu
    (fun t p bytes h hp => upperFree_overwrite h hp) sha256 16 ctx (by decide) (by simp [hs, ToyHeap.start]) ⟨6240, 1⟩ [5] rfl
    [⟨4096, 48⟩] [⟨4144, 2048⟩] [⟨6192, 48⟩] (by simpa using ⟨hm1, hm2, hm3⟩) (by simp) (by simp) (by simp)
    [z] [good] [z] rfl rfl rfl (fun t ht _ => hidx t ht) (fun t ht hut => ⟨hmoves t, hleaves t ht hut⟩) true (by rw [hgood]; exact .valid) with ⟨ho, -⟩ | ⟨s', hs'⟩
  · refine absurd ho (ToyHeap.not_outOfMemory htop ?_)
    simp
  · exact ⟨_, _, moveUpOver 4144 good, s, s', 16, ctx, ⟨4096, 48⟩, ⟨6240, 1⟩, ⟨4144, 2048⟩, ⟨6192, 48⟩, 5, z, bad, z,
      fun t _ => hmoves t, by simp [hs, ToyHeap.start], ⟨l0.symm, by norm_num, by rw [l0]; norm_num, a1⟩, rfl, hw, rfl,
      ⟨lb.symm, by norm_num, by rw [lb]; norm_num, a2⟩, rfl, ⟨l0.symm, by norm_num, by rw [l0]; norm_num, a3⟩, rfl, hbad, hs'⟩

end Verif
