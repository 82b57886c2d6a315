import Verif.Lemmas.CAliasing
import Verif.Spec.CAliasing
import Verif.Props.CThreads

set_option linter.unusedSectionVars false

/-! C69: the C bindings and Rust's aliasing rules. -/
namespace Verif
open Spec (AliasModel RefKind Span Holds Mapped HoldsWord HoldsWords HoldsItemsAt Apart OutBuffers Respects CCall ValidCall
  stackedBorrows treeBorrows cellsEffect commitmentEffect verifyEffect)

namespace AM
variable {B : AliasModel} {L : AliasLaws B} {Ctx ε α β : Type} {R O : Nat → Nat → Prop} {b : B.State} {s : CState Ctx}

theorem forM_read_own (p t k n : Nat) (h : Owns L O b) (hr : ∀ i, k ≤ i → i < k + n → O t (p + i))
    (ho : ∀ u i, k ≤ i → i < k + n → O u (p + i) → u = t) :
    ∃ b', ((List.range' k n).forM (fun i => access false (p + i) t) : AM B Ctx ε Unit) s b = .ok () s b' ∧ Owns L O b' := by
  induction n generalizing k b with
  | zero => exact ⟨b, rfl, h⟩
  | succ n ih =>
    obtain ⟨b1, h1, h2, -, h3⟩ := L.read h.1 (.inr (h.2 _ _ (hr k (Nat.le_refl _) (by omega))))
    obtain ⟨b', h4, h5⟩ := ih (b := b1) (k + 1) ⟨h2, fun u a hu => h3 u a (by
      by_cases ha : a = p + k
      · exact .inr (ho u k (Nat.le_refl _) (by omega) (ha ▸ hu))
      · exact .inl ha) (h.2 u a hu)⟩ (fun i h h' => hr i (by omega) (by omega)) fun u i h h' => ho u i (by omega) (by omega)
    refine ⟨b', ?_, h5⟩
    rw [List.range'_succ, forM_cons, bind_ok (a := ()) (s' := s) (b' := b1) (by unfold access; rw [h1])]
    exact h4

theorem readAll_own (p n t : Nat) (h : Owns L O b) (hr : ∀ a, Span p n a → O t a) (ho : ∀ u a, Span p n a → O u a → u = t) :
    ∃ b', (readAll p n t : AM B Ctx ε Unit) s b = .ok () s b' ∧ Owns L O b' := by
  unfold readAll
  rw [List.range_eq_range']
  exact forM_read_own p t 0 n h (fun i _ hi => hr _ ⟨by omega, by omega⟩) fun u i _ hi hu => ho u _ ⟨by omega, by omega⟩ hu

/-- the steps of the loop of `write_to_2d_slice` before the conversion to a raw pointer -/
theorem element_ok {p outer k n q : Nat} (hn : 0 < n) (h : Owns L (fun u a => u = outer ∧ Span (p + 8 * k) (8 * n) a) b)
    (hq : HoldsWord s.mem (p + 8 * k) q) {f : Nat → AM B Ctx ε β} :
    ∃ b', (do
      let outCell ← retag .unique (p + 8 * k) 8 outer
      readAll (p + 8 * k) 8 outCell
      let target ← lift (readU64 (p + 8 * k))
      f target : AM B Ctx ε β) s b = f q s b' ∧ Owns L (fun u a => u = outer ∧ Span (p + 8 * (k + 1)) (8 * (n - 1)) a) b' := by
  obtain ⟨t, b1, h1, h2⟩ := retag_unique_ok (s := s) (ε := ε) (p := p + 8 * k) (n := 8) (t := outer) h (by omega) fun a ha =>
    .inr ⟨rfl, by unfold Span at ha ⊢; omega⟩
  obtain ⟨b2, h3, h4⟩ := readAll_own (s := s) (ε := ε) (p + 8 * k) 8 t h2 (fun a ha => .inr ⟨rfl, ha⟩) fun u a ha hu => by
    rcases hu with hu | hu
    · exact absurd ha hu.1
    · exact hu.1
  refine ⟨b2, ?_, h4.weaken fun u a hu => .inl ⟨?_, hu.1, ?_⟩⟩
  · rw [bind_ok h1, bind_ok h3, bind_ok (lift_ok (readU64_ok hq) b2)]
  · have := hu.2; unfold Span at this ⊢; omega
  · have := hu.2; unfold Span at this ⊢; omega

theorem forM_write2d_ok (hraw : ∀ (p : Nat) (b : B.State), B.FromC b → B.retag .raw p 1 0 b = some (0, b)) (p outer : Nat) (all : List Nat)
    (data : List (List UInt8)) (ptrs : List Nat) (k : Nat) (hall : HoldsWords s.mem p all) (hk : all.drop k = ptrs)
    (hlen : data.length = ptrs.length) (hd : ∀ d ∈ data, d ≠ [])
    (hm : ∀ r ∈ ptrs.zip data, r.1 ≠ 0 ∧ Mapped s.mem r.1 r.2.length)
    (ha : ∀ r ∈ ptrs.zip data, Apart r.1 r.2.length p (8 * all.length))
    (h : Owns L (fun u a => u = outer ∧ Span (p + 8 * k) (8 * data.length) a) b) :
    ∃ b', ((data.zipIdx k).forM (fun q => do
      let outCell ← retag .unique (p + 8 * q.2) 8 outer
      readAll (p + 8 * q.2) 8 outCell
      let target ← lift (readU64 (p + 8 * q.2))
      let raw ← retag .raw target 1 0
      writeToSlice target raw q.1) : AM B Ctx ε Unit) s b = .ok () { s with mem := overwriteAll s.mem (ptrs.zip data) } b' ∧
      B.FromC b' := by
  induction data generalizing k s ptrs b with
  | nil => exact ⟨b, by simp [overwriteAll]; rfl, h.1⟩
  | cons d data ih =>
    cases ptrs with
    | nil => simp at hlen
    | cons q ptrs =>
      have hq : all[k]? = some q := by
        have := congrArg (fun l => l[0]?) hk
        simpa using this
      have hkl : k + (data.length + 1) = all.length := by
        have := congrArg List.length hk
        simp only [List.length_drop, List.length_cons] at this hlen
        omega
      have hr := hm (q, d) (by simp)
      obtain ⟨b1, h1, h2⟩ := element_ok (s := s) (ε := ε) (f := fun target => do
        let raw ← retag .raw target 1 0
        writeToSlice target raw d) (Nat.succ_pos data.length) h (hall.2 k q hq)
      obtain ⟨b2, h3, h4⟩ := writeToSlice_ok (ε := ε) (t := 0) h2 hr.1 (hd d (by simp)) hr.2 fun _ _ => .inl rfl
      obtain ⟨b3, h5, h6⟩ := ih (s := { s with mem := overwrite s.mem q d }) (b := b2) ptrs (k + 1)
        (holdsWords_overwrite hall (ha (q, d) (by simp))) (by rw [← List.drop_drop, hk]; rfl) (by simpa using hlen)
        (fun x hx => hd x (by simp [hx])) (fun r hr' => by
          have := hm r (by simp [hr'])
          exact ⟨this.1, mapped_overwrite this.2⟩) (fun r hr' => ha r (by simp [hr'])) (h4.weaken fun u a hu => ⟨fun hs => by
          have hu := hu.2
          have hap := ha (q, d) (by simp)
          unfold Span at hs hu
          unfold Apart at hap
          simp only at hap
          omega, hu.1, by simpa using hu.2⟩)
      refine ⟨b3, ?_, h6⟩
      rw [List.zipIdx_cons, forM_cons, bind_ok (a := ()) (s' := { s with mem := overwrite s.mem q d }) (b' := b2), h5]
      · rfl
      · refine h1.trans ?_
        rw [bind_ok (a := 0) (s' := s) (b' := b1) (by unfold retag; rw [hraw _ _ h2.1])]
        exact h3

theorem writeTo2dSlice_ok (L : AliasLaws B) (hraw : ∀ (p : Nat) (b : B.State), B.FromC b → B.retag .raw p 1 0 b = some (0, b)) {p : Nat}
    {data : List (List UInt8)} {ptrs : List Nat} (h : B.FromC b) (hall : HoldsWords s.mem p ptrs) (hlen : data.length = ptrs.length)
    (hd : ∀ d ∈ data, d ≠ []) (hm : ∀ r ∈ ptrs.zip data, r.1 ≠ 0 ∧ Mapped s.mem r.1 r.2.length)
    (ha : ∀ r ∈ ptrs.zip data, Apart r.1 r.2.length p (8 * ptrs.length)) :
    ∃ b', (writeTo2dSlice p data : AM B Ctx ε Unit) s b = .ok () { s with mem := overwriteAll s.mem (ptrs.zip data) } b' ∧ B.FromC b' := by
  unfold writeTo2dSlice
  split_ifs with h0
  · rw [List.length_eq_zero_iff.1 h0]
    exact ⟨b, by simp [overwriteAll]; rfl, h⟩
  · have hne : ptrs ≠ [] := by rintro rfl; exact h0 (by simpa using hlen)
    rw [CM.require_true (hall.1 hne).1, CM.require_true (hall.1 hne).2]
    obtain ⟨t, b1, h1, h2⟩ := retag_unique_ok (L := L) (s := s) (ε := ε) (p := p) (n := 8 * data.length) (t := 0) (O := fun _ _ => False)
      ⟨h, fun _ _ => False.elim⟩ (by omega) fun _ _ => .inl rfl
    obtain ⟨b2, h3, h4⟩ := forM_write2d_ok (ε := ε) hraw p t ptrs data ptrs 0 hall rfl hlen hd hm ha (h2.weaken fun u a hu => .inr ⟨hu.1, by
      simpa using hu.2⟩)
    refine ⟨b2, ?_, h4⟩
    exact (bind_ok (a := ()) (s' := s) (b' := b) rfl).trans ((bind_ok (a := ()) (s' := s) (b' := b) rfl).trans ((bind_ok h1).trans h3))

/-- Stacked Borrows: a raw pointer made from a reference to one byte is good for this byte only. -/
theorem stacked_raw {st : stackedBorrows.State} (h : stackedBorrows.FromC st) (p : Nat) :
    ∃ st', stackedBorrows.retag .raw p 1 0 st = some (st.next, st') ∧ st'.stacks (p + 1) = st.stacks (p + 1) := by
  obtain ⟨items, h1, -⟩ := Stacked.Good.split_base (h.2 p) true
  obtain ⟨s', h2, -, h3⟩ := Stacked.eachByte_ok (Spec.StackedBorrows.reborrow .raw st.next 0) p 1 st.stacks fun a ha => by
    obtain rfl : a = p := by unfold Span at ha; omega
    exact ⟨_, by unfold Spec.StackedBorrows.reborrow Spec.StackedBorrows.insertRaw; rw [h1]; rfl⟩
  exact ⟨⟨s', st.next + 1⟩, by show Option.bind _ _ = _; rw [h2]; rfl, h3 (p + 1) (by unfold Span; omega)⟩

theorem stacked_writeTo2dSlice {s : CState Ctx} {st : stackedBorrows.State} (h : stackedBorrows.FromC st) {p q : Nat} {ptrs : List Nat}
    {d : List UInt8} {data : List (List UInt8)} (hall : HoldsWords s.mem p (q :: ptrs)) (hq : q ≠ 0) (hd : 1 < d.length) :
    (writeTo2dSlice p (d :: data) : AM stackedBorrows Ctx ε Unit) s st = .violation := by
  unfold writeTo2dSlice
  rw [if_neg (by simp), CM.require_true (hall.1 (by simp)).1, CM.require_true (hall.1 (by simp)).2]
  obtain ⟨t, b1, h1, h2⟩ := retag_unique_ok (L := Stacked.laws) (s := s) (ε := ε) (p := p) (n := 8 * (d :: data).length) (t := 0)
    (O := fun _ _ => False) ⟨h, fun _ _ => False.elim⟩ (by simp) fun _ _ => .inl rfl
  obtain ⟨b2, h3, h4⟩ := element_ok (L := Stacked.laws) (s := s) (ε := ε) (p := p) (outer := t) (k := 0) (n := (d :: data).length)
    (f := fun target => do
      let raw ← retag .raw target 1 0
      writeToSlice target raw d) (by simp) (h2.weaken fun u a hu => .inr ⟨hu.1, by simpa using hu.2⟩) (hall.2 0 q rfl)
  obtain ⟨b3, h5, h6⟩ := stacked_raw h4.1 q
  have h7 : (writeToSlice q b2.next d : AM stackedBorrows Ctx ε Unit) s b3 = .violation := by
    unfold writeToSlice
    rw [CM.require_true hq]
    refine (bind_ok (a := ()) (s' := s) (b' := b3) rfl).trans ?_
    rw [bind_apply]
    have : stackedBorrows.retag .unique q d.length b2.next b3 = none := by
      show Option.bind _ _ = _
      rw [Stacked.eachByte_none _ _ _ _ (a := q + 1) (by unfold Span; omega)]
      · rfl
      · unfold Spec.StackedBorrows.reborrow Spec.StackedBorrows.write
        rw [h6, Stacked.split_none]
        · rfl
        · obtain ⟨items, hi, ht⟩ := h4.1.2 (q + 1)
          rw [hi]
          intro i him
          rcases List.mem_append.1 him with him | him
          · have := (ht i him).2; omega
          · have := h4.1.1
            rw [List.mem_singleton.1 him]
            show 0 ≠ _
            omega
    unfold retag
    rw [this]
  refine (bind_ok (a := ()) (s' := s) (b' := st) rfl).trans ((bind_ok (a := ()) (s' := s) (b' := st) rfl).trans ((bind_ok h1).trans ?_))
  rw [List.zipIdx_cons, forM_cons, bind_apply]
  have h8 := h3.trans ((bind_ok (a := b2.next) (s' := s) (b' := b3) (by unfold retag; rw [h5])).trans h7)
  rw [h8]

section
variable {K G1 G2 GT : Type} [Field K] [DecidableEq K] [AddCommGroup G1] [Module Fr G1] [DecidableEq G1]
  [Curve K G1] [PointCodec G1] [AddCommGroup G2] [Module Fr G2] [AddCommGroup GT] [DecidableEq GT]
  [Pairing G1 G2 GT]
variable (A : Allocator (DASContext K G1 G2)) (sha256 : List UInt8 → List UInt8) {s : CState (DASContext K G1 G2)}

theorem assert_ok {s : CState Ctx} {P : Prop} [Decidable P] (h : P) (b : B.State) : (lift (CM.assert P) : AM B Ctx ε Unit) s b = .ok () s b := by
  rw [CM.assert_true h]; rfl

theorem derefCtx_ok {s : CState Ctx} {p : Nat} {c : Ctx} (h : s.ctxs p = some c) (b : B.State) :
    (lift (derefCtx p) : AM B Ctx ε Ctx) s b = .ok c s b := lift_ok (by unfold derefCtx; rw [h]) b

theorem respects_err {x : AM B Ctx CResult Unit} {s : CState Ctx} (h : x s b = .panic ∨ ∃ r s', x s b = .err r s' b) (hb : B.FromC b) :
    Respects B (cResult x s b) := by
  unfold cResult
  rcases h with h | ⟨r, s', h⟩ <;> rw [h]
  · exact .inl rfl
  · exact .inr ⟨_, _, _, rfl, hb⟩

theorem respects_ok {x : AM B Ctx CResult Unit} {s s' : CState Ctx} {b' : B.State} (h : x s b = .ok () s' b') (hb : B.FromC b') :
    Respects B (cResult x s b) := by
  unfold cResult
  rw [h]
  exact .inr ⟨_, _, _, rfl, hb⟩

/-- an error of the library -/
theorem tryRust_err' (A : Allocator Ctx) (e : Error) (s : CState Ctx) :
    (tryRust A (.err e) : CM Ctx CResult α) s = .panic ∨ ∃ r s', (tryRust A (.err e) : CM Ctx CResult α) s = .err r s' := by
  rcases withError_ok (ε := CResult) A s e.debug (Error.debug_no_zero e) with ⟨-, h⟩ | ⟨p, s', h, -⟩
  · left
    show (CResult.withError A e.debug >>= fun r => CM.throw r : CM Ctx CResult α) s = _
    rw [CM.bind_apply, h]
  · right
    refine ⟨⟨.Err, p⟩, s', ?_⟩
    show (CResult.withError A e.debug >>= fun r => CM.throw r : CM Ctx CResult α) s = _
    rw [CM.bind_apply, h]
    rfl

theorem tryRust_err (A : Allocator Ctx) (e : Error) (s : CState Ctx) (b : B.State) (f : α → AM B Ctx CResult β) :
    (lift (tryRust A (.err e)) >>= f) s b = .panic ∨ ∃ r s', (lift (tryRust A (.err e)) >>= f) s b = .err r s' b := by
  rw [bind_apply]
  unfold lift
  rcases tryRust_err' (α := α) A e s with h | ⟨r, s', h⟩
  · left; rw [h]
  · right; exact ⟨r, s', by rw [h]⟩

theorem tryRust_panic (A : Allocator Ctx) (s : CState Ctx) (b : B.State) (f : α → AM B Ctx CResult β) :
    (lift (tryRust A .panic) >>= f) s b = .panic := rfl

theorem tryRust_ok (A : Allocator Ctx) (a : α) (s : CState Ctx) (b : B.State) (f : α → AM B Ctx CResult β) :
    (lift (tryRust A (.ok a)) >>= f) s b = f a s b := rfl

theorem reads_nil (L : AliasLaws B) (h : B.FromC b) : Reads L (fun _ _ => False) b := ⟨h, fun _ _ => False.elim⟩

/-- the inputs of `eth_kzg_blob_to_kzg_commitment` -/
theorem commitment_start (L : AliasLaws B) (hb : B.FromC b) {ctxp blobp : Nat} {ctx : DASContext K G1 G2} {blob : List UInt8} (h0 : ctxp ≠ 0)
    (hctx : s.ctxs ctxp = some ctx) (hl : blob.length = 131072) (hb0 : blobp ≠ 0) (hblob : Holds s.mem blobp blob) (out : Nat) :
    ∃ b', blobToKzgCommitment A ctxp blobp out s b = (do
      let commitment ← lift (tryRust A (ctx.blobToKzgCommitment blob))
      lift (CM.assert (commitment.length = BYTES_PER_COMMITMENT))
      writeToSlice out 0 commitment : AM B _ _ _) s b' ∧ B.FromC b' := by
  unfold blobToKzgCommitment
  rw [bind_ok (assert_ok h0 b), bind_ok (derefCtx_ok hctx b)]
  obtain ⟨r, b1, h1, h2, -, h3⟩ := createArrayRef_ok (ε := CResult) (reads_nil L hb) hl hb0 hblob
  obtain ⟨b2, h4, h5⟩ := use_ok (s := s) (ε := CResult) (r := r) h3 fun u a h => .inr h
  exact ⟨b2, by rw [show BYTES_PER_BLOB = 131072 from rfl, bind_ok h1, bind_ok h4, h2], h5.1⟩

/-- the inputs of `eth_kzg_compute_cells_and_kzg_proofs` -/
theorem compute_start (L : AliasLaws B) (hb : B.FromC b) {ctxp blobp : Nat} {ctx : DASContext K G1 G2} {blob : List UInt8} (h0 : ctxp ≠ 0)
    (hctx : s.ctxs ctxp = some ctx) (hl : blob.length = 131072) (hb0 : blobp ≠ 0) (hblob : Holds s.mem blobp blob) (oc op : Nat) :
    ∃ b', computeCellsAndKzgProofs A ctxp blobp oc op s b = (do
      let (cells, proofs) ← lift (tryRust A (ctx.computeCellsAndKzgProofs blob))
      writeTo2dSlice oc cells
      writeTo2dSlice op proofs : AM B _ _ _) s b' ∧ B.FromC b' := by
  unfold computeCellsAndKzgProofs
  rw [bind_ok (assert_ok h0 b), bind_ok (derefCtx_ok hctx b)]
  obtain ⟨r, b1, h1, h2, -, h3⟩ := createArrayRef_ok (ε := CResult) (reads_nil L hb) hl hb0 hblob
  obtain ⟨b2, h4, h5⟩ := use_ok (s := s) (ε := CResult) (r := r) h3 fun u a h => .inr h
  exact ⟨b2, by rw [show BYTES_PER_BLOB = 131072 from rfl, bind_ok h1, bind_ok h4, h2], h5.1⟩

/-- the inputs of `eth_kzg_recover_cells_and_proofs` -/
theorem recover_start (L : AliasLaws B) (hb : B.FromC b) {ctxp cl cellsp il indsp : Nat} {ctx : DASContext K G1 G2} {ptrs inds : List Nat}
    {cells : List (List UInt8)} (h0 : ctxp ≠ 0) (hctx : s.ctxs ctxp = some ctx) (hcl : cells.length = cl) (hcs : ∀ c ∈ cells, c.length = 2048)
    (hc : HoldsItemsAt s.mem cellsp ptrs cells) (hil : inds.length = il) (hi : HoldsWords s.mem indsp inds) (oc op : Nat) :
    ∃ b', recoverCellsAndProofs A ctxp cl cellsp il indsp oc op s b = (do
      let (cells, proofs) ← lift (tryRust A (ctx.recoverCellsAndKzgProofs inds cells))
      writeTo2dSlice oc cells
      writeTo2dSlice op proofs : AM B _ _ _) s b' ∧ B.FromC b' := by
  unfold recoverCellsAndProofs
  rw [bind_ok (assert_ok h0 b), bind_ok (derefCtx_ok hctx b)]
  obtain ⟨rs, b1, h1, h2, -, h3⟩ := ptrPtr_ok (ε := CResult) (reads_nil L hb) hcl hcs hc
  obtain ⟨r, b2, h4, h5, -, -, h6⟩ := createSliceViewU64_ok (ε := CResult) h3 hil hi
  obtain ⟨b3, h7, h8⟩ := use_ok (s := s) (ε := CResult) (r := r) h6 fun u a h => .inr h
  obtain ⟨b4, h9, h10⟩ := forM_use_ok (s := s) (ε := CResult) (rs := rs) h8 fun r hr u a h => .inl (.inr ⟨r, hr, h⟩)
  exact ⟨b4, by rw [show BYTES_PER_CELL = 2048 from rfl, bind_ok h1, bind_ok h4, bind_ok h7, bind_ok h9, h2, h5], h10.1⟩

/-- writing a commitment -/
theorem commitment_respects [LawfulPointCodec G1 48] (L : AliasLaws B) (hb : B.FromC b) {out : Nat} {ctx : DASContext K G1 G2} {blob : List UInt8} (ho0 : out ≠ 0)
    (ho : Mapped s.mem out 48) : Respects B (cResult (do
      let commitment ← lift (tryRust A (ctx.blobToKzgCommitment blob))
      lift (CM.assert (commitment.length = BYTES_PER_COMMITMENT))
      writeToSlice out 0 commitment : AM B _ _ _) s b) := by
  cases hc : ctx.blobToKzgCommitment blob with
  | ok c =>
    have hcl := blobToKzgCommitment_size hc
    obtain ⟨b', h1, h2⟩ := writeToSlice_ok (L := L) (O := fun _ _ => False) (ε := CResult) (t := 0) ⟨hb, fun _ _ => False.elim⟩ ho0
      (by rintro rfl; simp at hcl) (hcl ▸ ho) (fun _ _ => .inl rfl)
    refine respects_ok (s' := ⟨overwrite s.mem out c, s.ctxs, s.strings⟩) ?_ h2.1
    rw [tryRust_ok, bind_ok (assert_ok hcl b)]
    exact h1
  | err e => exact respects_err (tryRust_err A e s b _) hb
  | panic => exact respects_err (.inl (tryRust_panic A s b _)) hb

/-- writing cells and proofs, if a raw pointer made from a reference keeps its rights -/
theorem cells_respects (L : AliasLaws B) (hraw : ∀ (p : Nat) (b : B.State), B.FromC b → B.retag .raw p 1 0 b = some (0, b))
    (hb : B.FromC b) {oc op : Nat} {cp pp : List Nat} (hout : OutBuffers s.mem oc op cp pp)
    {x : Outcome Error (List (List UInt8) × List (List UInt8))}
    (hx : ∀ cells proofs, x = .ok (cells, proofs) →
      cells.length = 128 ∧ (∀ c ∈ cells, c.length = 2048) ∧ proofs.length = 128 ∧ ∀ p ∈ proofs, p.length = 48) :
    Respects B (cResult (do
      let (cells, proofs) ← lift (tryRust A x)
      writeTo2dSlice oc cells
      writeTo2dSlice op proofs : AM B _ _ _) s b) := by
  rcases x with ⟨cells, proofs⟩ | e | _
  · obtain ⟨h1, h2, h3, h4⟩ := hx cells proofs rfl
    have hc : ∀ r ∈ cp.zip cells, r.1 ∈ cp ∧ r.2.length = 2048 := fun r hr => ⟨(List.of_mem_zip hr).1, h2 _ (List.of_mem_zip hr).2⟩
    have hp : ∀ r ∈ pp.zip proofs, r.1 ∈ pp ∧ r.2.length = 48 := fun r hr => ⟨(List.of_mem_zip hr).1, h4 _ (List.of_mem_zip hr).2⟩
    obtain ⟨b1, h5, h6⟩ := writeTo2dSlice_ok (ε := CResult) L hraw hb hout.cells (by rw [h1, hout.cellsLength])
      (fun d hd h => by have := h2 d hd; rw [h] at this; simp at this)
      (fun r hr => by rw [(hc r hr).2]; exact hout.cellMapped _ (hc r hr).1)
      (fun r hr => by rw [(hc r hr).2, hout.cellsLength]; exact (hout.arrayApart _ (hc r hr).1).1)
    obtain ⟨b2, h7, h8⟩ := writeTo2dSlice_ok (ε := CResult) (s := { s with mem := overwriteAll s.mem (cp.zip cells) }) L hraw h6
      (ptrs := pp) (data := proofs) (p := op)
      (holdsWords_overwriteAll _ hout.proofs fun r hr => by rw [(hc r hr).2, hout.proofsLength]; exact (hout.arrayApart _ (hc r hr).1).2)
      (by rw [h3, hout.proofsLength])
      (fun d hd h => by have := h4 d hd; rw [h] at this; simp at this)
      (fun r hr => by
        rw [(hp r hr).2]
        exact ⟨(hout.proofMapped _ (hp r hr).1).1, mapped_overwriteAll _ (hout.proofMapped _ (hp r hr).1).2⟩)
      (fun r hr => by rw [(hp r hr).2, hout.proofsLength]; exact hout.arrayApart' _ (hp r hr).1)
    refine respects_ok (s' := ⟨overwriteAll (overwriteAll s.mem (cp.zip cells)) (pp.zip proofs), s.ctxs, s.strings⟩) ?_ h8
    rw [tryRust_ok]
    exact (bind_ok h5).trans h7
  · exact respects_err (tryRust_err A e s b _) hb
  · exact respects_err (.inl (tryRust_panic A s b _)) hb

/-- Stacked Borrows: writing cells and proofs -/
theorem stacked_cells {b : stackedBorrows.State} (hb : stackedBorrows.FromC b) {oc op : Nat} {cp pp : List Nat}
    (hout : OutBuffers s.mem oc op cp pp) {cells proofs : List (List UInt8)} (h1 : cells.length = 128) (h2 : ∀ c ∈ cells, c.length = 2048) :
    cResult (do
      let (cells, proofs) ← lift (tryRust A (.ok (cells, proofs)))
      writeTo2dSlice oc cells
      writeTo2dSlice op proofs : AM stackedBorrows _ _ _) s b = .violation := by
  have hv : (writeTo2dSlice oc cells : AM stackedBorrows _ CResult _) s b = .violation := by
    cases cells with
    | nil => simp at h1
    | cons d cells =>
      cases cp with
      | nil => have := hout.cellsLength; simp at this
      | cons q cp => exact stacked_writeTo2dSlice hb hout.cells (hout.cellMapped q (by simp)).1 (by rw [h2 d (by simp)]; decide)
  unfold cResult
  rw [tryRust_ok]
  simp only
  rw [bind_apply, hv]

theorem vresult (A : Allocator (DASContext K G1 G2)) (x : Outcome Error Unit) (s : CState (DASContext K G1 G2)) (b : B.State)
    (f : Bool → AM B (DASContext K G1 G2) CResult β) :
    (∃ v, (lift (verificationResultToBoolCResult A x) >>= f) s b = f v s b) ∨
      (lift (verificationResultToBoolCResult A x) >>= f) s b = .panic ∨
      ∃ r s', (lift (verificationResultToBoolCResult A x) >>= f) s b = .err r s' b := by
  rcases x with _ | e | _
  · exact .inl ⟨true, rfl⟩
  · unfold verificationResultToBoolCResult
    by_cases h : e.invalidProof
    · left
      refine ⟨false, ?_⟩
      simp only [h, if_true]
      rfl
    · right
      simp only [h]
      exact tryRust_err A e s b f
  · exact .inr (.inl rfl)

/-- the verification: `verified` may lie in the inputs only if a new mutable reference does not end shared ones -/
theorem verify_respects (L : AliasLaws B) (hb : B.FromC b) {ctxp ml commitmentsp il indsp cl cellsp pl proofsp v : Nat}
    {ctx : DASContext K G1 G2} {mptrs cptrs pptrs inds : List Nat} {commitments cells proofs : List (List UInt8)} (h0 : ctxp ≠ 0)
    (hctx : s.ctxs ctxp = some ctx) (hml : commitments.length = ml) (hms : ∀ c ∈ commitments, c.length = 48)
    (hm : HoldsItemsAt s.mem commitmentsp mptrs commitments) (hil : inds.length = il) (hi : HoldsWords s.mem indsp inds)
    (hcl : cells.length = cl) (hcs : ∀ c ∈ cells, c.length = 2048) (hc : HoldsItemsAt s.mem cellsp cptrs cells)
    (hpl : proofs.length = pl) (hps : ∀ c ∈ proofs, c.length = 48) (hp : HoldsItemsAt s.mem proofsp pptrs proofs)
    (hv0 : v ≠ 0) (hv : Mapped s.mem v 1)
    (hap : L.tolerant = true ∨ (¬ Span indsp (8 * inds.length) v ∧ (∀ q ∈ mptrs, ¬ Span q 48 v) ∧ (∀ q ∈ cptrs, ¬ Span q 2048 v) ∧
      ∀ q ∈ pptrs, ¬ Span q 48 v)) :
    Respects B (ethKzgVerifyCellKzgProofBatch A sha256 ctxp ml commitmentsp il indsp cl cellsp pl proofsp v s b) := by
  obtain ⟨ms, b1, h1, h2, h3, h4⟩ := ptrPtr_ok (ε := CResult) (reads_nil L hb) hml hms hm
  obtain ⟨r, b2, h5, h6, h7, h8, h9⟩ := createSliceViewU64_ok (ε := CResult) h4 hil hi
  obtain ⟨cs, b3, h10, h11, h12, h13⟩ := ptrPtr_ok (ε := CResult) h9 hcl hcs hc
  obtain ⟨ps, b4, h14, h15, h16, h17⟩ := ptrPtr_ok (ε := CResult) h13 hpl hps hp
  obtain ⟨x, hx⟩ := hv 0 (by omega)
  have hd : (Verif.derefMut v : CM (DASContext K G1 G2) CResult Nat) s = .ok v s := by
    unfold Verif.derefMut
    rw [CM.require_true hv0, pure_bind, CM.bind_ok (readByte_ok (show s.mem v = some x from hx))]
    rfl
  obtain ⟨t, b5, h18, h19, h20, h21⟩ := L.unique v 1 0 h17.1 (by omega) fun a _ => L.base a h17.1
  have hder : (derefMut v : AM B (DASContext K G1 G2) CResult _) s b4 = .ok ⟨v, 1, t, ()⟩ s b5 := by
    unfold derefMut
    rw [bind_ok (lift_ok hd b4), bind_ok (a := t) (s' := s) (b' := b5) (by unfold retag; rw [h18])]
    rfl
  -- the references to the inputs are still good
  have hR : ∀ {rd : Nat → Nat → Prop}, (∀ u a, rd u a → L.Readable b4 u a) → (L.tolerant = true ∨ ∀ u, ¬ rd u v) →
      ∀ u a, rd u a → L.Readable b5 u a := by
    intro rd hrd hno u a hu
    refine (h21 u a).1 ?_ (hrd u a hu)
    rcases hno with hno | hno
    · exact .inr hno
    · refine .inl fun ha => hno u ?_
      obtain rfl : a = v := by unfold Span at ha; omega
      exact hu
  let rd : Nat → Nat → Prop := fun u a => r.bytes u a ∨ (∃ r ∈ ms, r.bytes u a) ∨ (∃ r ∈ cs, r.bytes u a) ∨ ∃ r ∈ ps, r.bytes u a
  have h22 : ∀ u a, rd u a → L.Readable b4 u a := fun u a hu => h17.2 u a (by
    rcases hu with hu | hu | hu | hu
    · exact .inl (.inl (.inr hu))
    · exact .inl (.inl (.inl (.inr hu)))
    · exact .inl (.inr hu)
    · exact .inr hu)
  have h23 : L.tolerant = true ∨ ∀ u, ¬ rd u v := hap.imp id fun ⟨n1, n2, n3, n4⟩ u hu => by
    rcases hu with hu | ⟨r, hr, hu⟩ | ⟨r, hr, hu⟩ | ⟨r, hr, hu⟩
    · have := hu.2
      rw [h7, h8, ← hil] at this
      exact n1 this
    · obtain ⟨q, hq, h⟩ := h3 r hr v hu.2; exact n2 q hq h
    · obtain ⟨q, hq, h⟩ := h12 r hr v hu.2; exact n3 q hq h
    · obtain ⟨q, hq, h⟩ := h16 r hr v hu.2; exact n4 q hq h
  have h24 : Reads L rd b5 := ⟨h19, hR h22 h23⟩
  -- and stay so while they are read, and so does the new one
  have h25 : Keeps L rd t v b5 := ⟨h24, by
    rcases h23 with h | h
    · exact .inl (L.pendingNew h h17.1 h18 v)
    · exact .inr ⟨h20 v ⟨Nat.le_refl _, by omega⟩, h⟩⟩
  obtain ⟨b6, h26, h27⟩ := use_keep (s := s) (ε := CResult) (r := r) h25 fun u a h => .inl h
  obtain ⟨b7, h28, h29⟩ := forM_use_keep (s := s) (ε := CResult) (rs := ms) h27 fun r hr u a h => .inr (.inl ⟨r, hr, h⟩)
  obtain ⟨b8, h30, h31⟩ := forM_use_keep (s := s) (ε := CResult) (rs := cs) h29 fun r hr u a h => .inr (.inr (.inl ⟨r, hr, h⟩))
  obtain ⟨b9, h32, h33⟩ := forM_use_keep (s := s) (ε := CResult) (rs := ps) h31 fun r hr u a h => .inr (.inr (.inr ⟨r, hr, h⟩))
  have hall : verifyCellKzgProofBatch A sha256 ctxp ml commitmentsp il indsp cl cellsp pl proofsp v s b =
      (lift (verificationResultToBoolCResult A (ctx.verifyCellKzgProofBatch sha256 commitments inds cells proofs)) >>= fun ok => do
        access true v t
        lift (writeByte v (if ok then 1 else 0)) : AM B _ _ _) s b9 := by
    unfold verifyCellKzgProofBatch
    rw [bind_ok (assert_ok h0 b), bind_ok (derefCtx_ok hctx b), show BYTES_PER_COMMITMENT = 48 from rfl, show BYTES_PER_CELL = 2048 from rfl,
      bind_ok h1, bind_ok h5, bind_ok h10, bind_ok h14, bind_ok hder, bind_ok h26, bind_ok h28, bind_ok h30, bind_ok h32, h2, h6, h11, h15]
  have hres : ∀ ok : Bool, ∃ s' b', (do
      access true v t
      lift (writeByte v (if ok then 1 else 0)) : AM B (DASContext K G1 G2) CResult Unit) s b9 = .ok () s' b' ∧ B.FromC b' := by
    intro ok
    obtain ⟨b10, h34, h35, -⟩ := L.write h33.1.1 h33.own
    have hw : (writeByte v (if ok then 1 else 0) : CM (DASContext K G1 G2) CResult Unit) s = .ok () { s with mem := fun a => if a = v then some (if ok then 1 else 0) else s.mem a } := by
      unfold writeByte
      rw [show s.mem v = some x from hx]
    exact ⟨_, b10, (bind_ok (a := ()) (s' := s) (b' := b10) (by unfold access; rw [h34])).trans (lift_ok hw b10), h35⟩
  unfold ethKzgVerifyCellKzgProofBatch
  rcases vresult A (ctx.verifyCellKzgProofBatch sha256 commitments inds cells proofs) s b9 (fun ok => (do
        access true v t
        lift (writeByte v (if ok then 1 else 0)) : AM B _ _ _)) with ⟨ok, h⟩ | h | ⟨r, s', h⟩
  · obtain ⟨s', b', h', hb'⟩ := hres ok
    exact respects_ok (hall.trans (h.trans h')) hb'
  · unfold cResult; rw [hall, h]; exact .inl rfl
  · unfold cResult; rw [hall, h]; exact .inr ⟨_, _, _, rfl, h33.1.1⟩

/-- Stacked Borrows: reads through a reference that has ended at one of the bytes -/
theorem forM_read_violation {s : CState Ctx} {b : stackedBorrows.State} (p w k n : Nat) {i : Nat} (hk : k ≤ i) (hi : i < k + n)
    (h : ∀ j ∈ b.stacks (p + i), j.tag ≠ w) :
    ((List.range' k n).forM (fun i => access false (p + i) w) : AM stackedBorrows Ctx ε Unit) s b = .violation := by
  induction n generalizing k b with
  | zero => omega
  | succ n ih =>
    rw [List.range'_succ, forM_cons]
    cases ha : stackedBorrows.access false (p + k) w b with
    | none => rw [bind_apply]; unfold access; rw [ha]
    | some b1 =>
      by_cases hki : i = k
      · subst hki
        rw [Stacked.access_none h] at ha
        cases ha
      · rw [bind_ok (a := ()) (s' := s) (b' := b1) (by unfold access; rw [ha])]
        exact ih (b := b1) (k + 1) (by omega) (by omega) (by rw [Stacked.access_other ha (by omega)]; exact h)

/-- Stacked Borrows: the mutable reference to `verified` ends the shared reference to the cell indices -/
theorem stacked_verify_indices {b : stackedBorrows.State} (hb : stackedBorrows.FromC b)
    {ctxp ml commitmentsp il indsp cl cellsp pl proofsp v : Nat}
    {ctx : DASContext K G1 G2} {mptrs cptrs pptrs inds : List Nat} {commitments cells proofs : List (List UInt8)} (h0 : ctxp ≠ 0)
    (hctx : s.ctxs ctxp = some ctx) (hml : commitments.length = ml) (hms : ∀ c ∈ commitments, c.length = 48)
    (hm : HoldsItemsAt s.mem commitmentsp mptrs commitments) (hil : inds.length = il) (hi : HoldsWords s.mem indsp inds)
    (hcl : cells.length = cl) (hcs : ∀ c ∈ cells, c.length = 2048) (hc : HoldsItemsAt s.mem cellsp cptrs cells)
    (hpl : proofs.length = pl) (hps : ∀ c ∈ proofs, c.length = 48) (hp : HoldsItemsAt s.mem proofsp pptrs proofs)
    (hv0 : v ≠ 0) (hv : Mapped s.mem v 1) (hin : Span indsp (8 * inds.length) v) :
    ethKzgVerifyCellKzgProofBatch A sha256 ctxp ml commitmentsp il indsp cl cellsp pl proofsp v s b = .violation := by
  obtain ⟨ms, b1, h1, -, -, h4⟩ := ptrPtr_ok (ε := CResult) (reads_nil Stacked.laws hb) hml hms hm
  obtain ⟨r, b2, h5, h6, h7, h8, h9⟩ := createSliceViewU64_ok (ε := CResult) h4 hil hi
  obtain ⟨cs, b3, h10, -, -, h13⟩ := ptrPtr_ok (ε := CResult) h9 hcl hcs hc
  obtain ⟨ps, b4, h14, -, -, h17⟩ := ptrPtr_ok (ε := CResult) h13 hpl hps hp
  obtain ⟨x, hx⟩ := hv 0 (by omega)
  have hd : (Verif.derefMut v : CM (DASContext K G1 G2) CResult Nat) s = .ok v s := by
    unfold Verif.derefMut
    rw [CM.require_true hv0, pure_bind, CM.bind_ok (readByte_ok (show s.mem v = some x from hx))]
    rfl
  obtain ⟨t, b5, h18, h19, h20, h21⟩ := Stacked.laws.unique v 1 0 h17.1 (by omega) fun a _ => Stacked.laws.base a h17.1
  have hder : (derefMut v : AM stackedBorrows (DASContext K G1 G2) CResult _) s b4 = .ok ⟨v, 1, t, ()⟩ s b5 := by
    unfold derefMut
    rw [bind_ok (lift_ok hd b4), bind_ok (a := t) (s' := s) (b' := b5) (by unfold retag; rw [h18])]
    rfl
  have hin' : Span r.addr r.size v := by rw [h7, h8, ← hil]; exact hin
  have hend := Stacked.unique_ends h17.1 h18 (a := v) (u := r.tag) ⟨Nat.le_refl _, by omega⟩
    (h17.2 _ _ (.inl (.inl (.inr ⟨rfl, hin'⟩))))
  have huse : (r.use : AM stackedBorrows (DASContext K G1 G2) CResult Unit) s b5 = .violation := by
    obtain ⟨hl, hr⟩ := hin'
    unfold SliceRef.use readAll
    rw [List.range_eq_range']
    refine forM_read_violation r.addr r.tag 0 r.size (i := v - r.addr) (by omega) (by omega) ?_
    rw [show r.addr + (v - r.addr) = v by omega]
    exact hend
  unfold ethKzgVerifyCellKzgProofBatch verifyCellKzgProofBatch cResult
  rw [bind_ok (assert_ok h0 b), bind_ok (derefCtx_ok hctx b), show BYTES_PER_COMMITMENT = 48 from rfl, show BYTES_PER_CELL = 2048 from rfl,
    bind_ok h1, bind_ok h5, bind_ok h10, bind_ok h14, bind_ok hder, bind_apply, huse]

end
end AM

section
variable {K G1 G2 GT : Type} [Field K] [DecidableEq K] [AddCommGroup G1] [Module Fr G1] [DecidableEq G1]
  [Curve K G1] [PointCodec G1] [AddCommGroup G2] [Module Fr G2] [AddCommGroup GT] [DecidableEq GT]
  [Pairing G1 G2 GT]

/-- The model with references is the model of the C functions with more ways to go wrong: a call either violates the aliasing rules or does
exactly what the model without references says. -/
theorem C69_same_functions (B : AliasModel) (A : Allocator (DASContext K G1 G2)) (sha256 : List UInt8 → List UInt8) (c : CCall)
    (s : CState (DASContext K G1 G2)) (b : B.State) :
    c.withRefs B A sha256 s b = .violation ∨ Spec.AOut.forget (c.withRefs B A sha256 s b) = some (c.withoutRefs A sha256 s) := by
  have key : ∀ {x : AM B (DASContext K G1 G2) Empty CResult} {y : CM (DASContext K G1 G2) Empty CResult}, AM.Erases id x y →
      x s b = .violation ∨ Spec.AOut.forget (x s b) = some (y s) := by
    intro x y h
    rcases h s b with h | h
    · exact .inl h
    · cases hx : x s b with
      | violation => exact .inl rfl
      | _ =>
        rw [hx] at h
        exact .inr (congrArg some h)
  cases c with
  | commitment ctx blob out => exact key (AM.erases_commitment A ctx blob out)
  | compute ctx blob oc op => exact key (AM.erases_compute A ctx blob oc op)
  | recover ctx cl c il i oc op => exact key (AM.erases_recover A ctx cl c il i oc op)
  | verify ctx ml m il i cl c pl p v => exact key (AM.erases_verify A sha256 ctx ml m il i cl c pl p v)

variable [LawfulPointCodec G1 48]

/-- Under Tree Borrows every valid call of the C functions respects the aliasing rules, even when outputs overlap inputs, and afterwards the
foreign code may still access all memory. -/
theorem C69_tree_borrows (A : Allocator (DASContext K G1 G2)) (sha256 : List UInt8 → List UInt8) {s : CState (DASContext K G1 G2)}
    {b : treeBorrows.State} (hb : treeBorrows.FromC b) {c : CCall} {R W : Nat → Prop} {e : Spec.Effect} (h : ValidCall sha256 s c R W e) :
    Respects treeBorrows (c.withRefs treeBorrows A sha256 s b) := by
  have hraw : ∀ (p : Nat) (b : treeBorrows.State), treeBorrows.FromC b → treeBorrows.retag .raw p 1 0 b = some (0, b) :=
    fun p b hb => if_pos hb.1
  cases h with
  | commitment h0 hctx hl hb0 hblob ho0 ho =>
    obtain ⟨b', h1, h2⟩ := AM.commitment_start A Tree.laws hb h0 hctx hl hb0 hblob _
    unfold CCall.withRefs AM.ethKzgBlobToKzgCommitment AM.cResult
    simp only
    rw [h1]
    exact AM.commitment_respects A Tree.laws h2 ho0 ho
  | compute h0 hctx hl hb0 hblob hout =>
    obtain ⟨b', h1, h2⟩ := AM.compute_start A Tree.laws hb h0 hctx hl hb0 hblob _ _
    unfold CCall.withRefs AM.ethKzgComputeCellsAndKzgProofs AM.cResult
    simp only
    rw [h1]
    exact AM.cells_respects A Tree.laws hraw h2 hout fun _ _ h => computeCellsAndKzgProofs_sizes h
  | recover h0 hctx hcl hcs hc hil hi hout =>
    obtain ⟨b', h1, h2⟩ := AM.recover_start A Tree.laws hb h0 hctx hcl hcs hc hil hi _ _
    unfold CCall.withRefs AM.ethKzgRecoverCellsAndProofs AM.cResult
    simp only
    rw [h1]
    exact AM.cells_respects A Tree.laws hraw h2 hout fun _ _ h => recoverCellsAndKzgProofs_sizes h
  | verify h0 hctx hml hms hm hil hi hcl hcs hc hpl hps hp hv0 hv =>
    exact AM.verify_respects A sha256 Tree.laws hb h0 hctx hml hms hm hil hi hcl hcs hc hpl hps hp hv0 hv (.inl rfl)

/-- Under Stacked Borrows too a valid call respects the aliasing rules if it writes no cells and proofs and does not write into its own
inputs, and a call of `eth_kzg_blob_to_kzg_commitment` does so even if the output overlaps the blob. -/
theorem C69_stacked_borrows (A : Allocator (DASContext K G1 G2)) (sha256 : List UInt8 → List UInt8) {s : CState (DASContext K G1 G2)}
    {b : stackedBorrows.State} (hb : stackedBorrows.FromC b) {c : CCall} {R W : Nat → Prop} {e : Spec.Effect} (h : ValidCall sha256 s c R W e)
    (hc : match c with
      | .commitment .. => True
      | .compute .. => ∀ regions, e ≠ .ok regions
      | .recover .. => ∀ regions, e ≠ .ok regions
      | .verify .. => ∀ a, W a → ¬ R a) :
    Respects stackedBorrows (c.withRefs stackedBorrows A sha256 s b) := by
  have hcells : ∀ {b : stackedBorrows.State} (_ : stackedBorrows.FromC b) {oc op : Nat} {cp pp : List Nat}
      {x : Outcome Error (List (List UInt8) × List (List UInt8))} (_ : ∀ regions, cellsEffect cp pp x ≠ .ok regions),
      Respects stackedBorrows (AM.cResult (do
        let (cells, proofs) ← AM.lift (tryRust A x)
        AM.writeTo2dSlice oc cells
        AM.writeTo2dSlice op proofs : AM stackedBorrows (DASContext K G1 G2) CResult Unit) s b) := by
    intro b hb oc op cp pp x hx
    rcases x with ⟨cells, proofs⟩ | e | _
    · exact absurd rfl (hx (cp.zip cells ++ pp.zip proofs))
    · exact AM.respects_err (AM.tryRust_err A e s b _) hb
    · exact AM.respects_err (.inl (AM.tryRust_panic A s b _)) hb
  cases h with
  | commitment h0 hctx hl hb0 hblob ho0 ho =>
    obtain ⟨b', h1, h2⟩ := AM.commitment_start A Stacked.laws hb h0 hctx hl hb0 hblob _
    unfold CCall.withRefs AM.ethKzgBlobToKzgCommitment AM.cResult
    simp only
    rw [h1]
    exact AM.commitment_respects A Stacked.laws h2 ho0 ho
  | compute h0 hctx hl hb0 hblob hout =>
    obtain ⟨b', h1, h2⟩ := AM.compute_start A Stacked.laws hb h0 hctx hl hb0 hblob _ _
    unfold CCall.withRefs AM.ethKzgComputeCellsAndKzgProofs AM.cResult
    simp only
    rw [h1]
    exact hcells h2 hc
  | recover h0 hctx hcl hcs hcs' hil hi hout =>
    obtain ⟨b', h1, h2⟩ := AM.recover_start A Stacked.laws hb h0 hctx hcl hcs hcs' hil hi _ _
    unfold CCall.withRefs AM.ethKzgRecoverCellsAndProofs AM.cResult
    simp only
    rw [h1]
    exact hcells h2 hc
  | verify h0 hctx hml hms hm hil hi hcl hcs hc' hpl hps hp hv0 hv =>
    have := hc _ ⟨Nat.le_refl _, Nat.lt_succ_self _⟩
    simp only [Spec.ItemSpans, not_or, not_exists, not_and] at this
    obtain ⟨⟨-, n1⟩, n2, ⟨-, n3⟩, -, n4⟩ := this
    exact AM.verify_respects A sha256 Stacked.laws hb h0 hctx hml hms hm hil hi hcl hcs hc' hpl hps hp hv0 hv (.inr ⟨n2, n1, n3, n4⟩)

/-- Under Stacked Borrows a call that computes or recovers cells and proofs violates the aliasing rules whenever it succeeds: the raw
pointer through which a cell is written was made from a reference to its first byte. -/
theorem C69_stacked_borrows_violated (A : Allocator (DASContext K G1 G2)) (sha256 : List UInt8 → List UInt8) {s : CState (DASContext K G1 G2)}
    {b : stackedBorrows.State} (hb : stackedBorrows.FromC b) {c : CCall} {R W : Nat → Prop} {regions : List (Nat × List UInt8)}
    (h : ValidCall sha256 s c R W (.ok regions))
    (hc : (∃ ctx blob oc op, c = .compute ctx blob oc op) ∨ ∃ ctx cl cells il inds oc op, c = .recover ctx cl cells il inds oc op) :
    c.withRefs stackedBorrows A sha256 s b = .violation := by
  have hcells : ∀ {b : stackedBorrows.State} (_ : stackedBorrows.FromC b) {oc op : Nat} {cp pp : List Nat}
      (_ : OutBuffers s.mem oc op cp pp) {x : Outcome Error (List (List UInt8) × List (List UInt8))} (_ : cellsEffect cp pp x = .ok regions)
      (_ : ∀ cells proofs, x = .ok (cells, proofs) →
        cells.length = 128 ∧ (∀ c ∈ cells, c.length = 2048) ∧ proofs.length = 128 ∧ ∀ p ∈ proofs, p.length = 48),
      AM.cResult (do
        let (cells, proofs) ← AM.lift (tryRust A x)
        AM.writeTo2dSlice oc cells
        AM.writeTo2dSlice op proofs : AM stackedBorrows (DASContext K G1 G2) CResult Unit) s b = .violation := by
    intro b hb oc op cp pp hout x hx hs
    rcases x with ⟨cells, proofs⟩ | e | _
    · obtain ⟨h1, h2, -⟩ := hs cells proofs rfl
      exact AM.stacked_cells A hb hout h1 h2
    · cases hx
    · cases hx
  generalize he : (Outcome.ok regions : Spec.Effect) = e at h
  cases h with
  | compute h0 hctx hl hb0 hblob hout =>
    obtain ⟨b', h1, h2⟩ := AM.compute_start A Stacked.laws hb h0 hctx hl hb0 hblob _ _
    unfold CCall.withRefs AM.ethKzgComputeCellsAndKzgProofs AM.cResult
    simp only
    rw [h1]
    exact hcells h2 hout he.symm fun _ _ h => computeCellsAndKzgProofs_sizes h
  | recover h0 hctx hcl hcs hcs' hil hi hout =>
    obtain ⟨b', h1, h2⟩ := AM.recover_start A Stacked.laws hb h0 hctx hcl hcs hcs' hil hi _ _
    unfold CCall.withRefs AM.ethKzgRecoverCellsAndProofs AM.cResult
    simp only
    rw [h1]
    exact hcells h2 hout he.symm fun _ _ h => recoverCellsAndKzgProofs_sizes h
  | _ => exfalso; rcases hc with ⟨_, _, _, _, h⟩ | ⟨_, _, _, _, _, _, _, h⟩ <;> cases h

/-- Under Stacked Borrows a verification whose result is placed inside the array of cell indices violates the aliasing rules: the mutable
reference to the result is created before the indices are read. -/
theorem C69_stacked_verified_in_indices (A : Allocator (DASContext K G1 G2)) (sha256 : List UInt8 → List UInt8)
    {s : CState (DASContext K G1 G2)} {b : stackedBorrows.State} (hb : stackedBorrows.FromC b) {ctx ml m il i cl c pl p v : Nat}
    {R W : Nat → Prop} {e : Spec.Effect} (h : ValidCall sha256 s (.verify ctx ml m il i cl c pl p v) R W e) (hv : Span i (8 * il) v) :
    (CCall.verify ctx ml m il i cl c pl p v).withRefs stackedBorrows A sha256 s b = .violation := by
  cases h with
  | verify h0 hctx hml hms hm hil hi hcl hcs hc' hpl hps hp hv0 hm' =>
    exact AM.stacked_verify_indices A sha256 hb h0 hctx hml hms hm hil hi hcl hcs hc' hpl hps hp hv0 hm' (hil ▸ hv)

end

/-! Concrete calls, in the process of `Props.CApi`. -/

namespace CExample
open Toy

/-- the state of the process -/
def proc (ctx : DASContext Fr Fr Fr) : CState (DASContext Fr Fr Fr) := ⟨mem, fun a => if a = 16 then some ctx else none, fun _ => none⟩

theorem proc_ctx (ctx : DASContext Fr Fr Fr) : (proc ctx).ctxs 16 = some ctx := by simp [proc]

/-- a call in the process, with references, when there are no references yet -/
def run (B : AliasModel) (sha256 : List UInt8 → List UInt8) (ctx : DASContext Fr Fr Fr) (c : CCall) :
    AOut B (DASContext Fr Fr Fr) Empty CResult :=
  c.withRefs B (allocator (DASContext Fr Fr Fr)) sha256 (proc ctx) B.init

section
variable (sha256 : List UInt8 → List UInt8) (ctx : DASContext Fr Fr Fr) {c : CCall} {R W : Nat → Prop}

theorem run_tree {e : Spec.Effect} (h : ValidCall sha256 (proc ctx) c R W e) : Respects treeBorrows (run treeBorrows sha256 ctx c) :=
  C69_tree_borrows _ sha256 Tree.laws.init h

theorem run_stacked_ok {regions : List (Nat × List UInt8)} (h : ValidCall sha256 (proc ctx) c R W (.ok regions))
    (hc : (∃ ctx blob oc op, c = .compute ctx blob oc op) ∨ ∃ ctx cl cells il inds oc op, c = .recover ctx cl cells il inds oc op) :
    run stackedBorrows sha256 ctx c = .violation :=
  C69_stacked_borrows_violated _ sha256 Stacked.laws.init h hc
end

theorem cellsEffect_ok (cp pp : List Nat) (cells proofs : List (List UInt8)) :
    cellsEffect cp pp (.ok (cells, proofs)) = .ok (cp.zip cells ++ pp.zip proofs) := rfl

theorem beValue_zeros (n : Nat) : Spec.beValue (List.replicate n 0) = 0 := by
  unfold Spec.beValue
  refine Finset.sum_eq_zero fun i hi => ?_
  rw [List.getD_replicate 0 (by simpa using hi)]
  simp

theorem zero_blob : ∃ blob, blob.length = 131072 ∧ Holds mem 8388608 blob ∧
    ∀ i < 4096, Spec.beValue (Spec.block 32 i blob) < frOrder := by
  refine ⟨List.replicate 131072 0, List.length_replicate, ?_, fun i hi => ?_⟩
  · intro i b hb
    rw [List.getElem?_replicate] at hb
    split_ifs at hb
    cases hb
    show mem (8388608 + i) = some 0
    unfold mem
    rw [if_neg (by omega), if_neg (by omega)]
  · unfold Spec.block
    rw [List.drop_replicate, List.take_replicate, beValue_zeros]
    unfold frOrder
    norm_num

/-- a valid call that computes cells and proofs: it succeeds, respects Tree Borrows and violates Stacked Borrows -/
example (sha256 : List UInt8 → List UInt8) : ∃ (ctx : DASContext Fr Fr Fr) (R W : Nat → Prop) (regions : List (Nat × List UInt8)),
    ValidCall sha256 (proc ctx) (.compute 16 8388608 1024 2048) R W (.ok regions) ∧
    Respects treeBorrows (run treeBorrows sha256 ctx (.compute 16 8388608 1024 2048)) ∧
    run stackedBorrows sha256 ctx (.compute 16 8388608 1024 2048) = .violation := by
  obtain ⟨ctx, hctx⟩ := context 7
  obtain ⟨blob, hl, hh, hc⟩ := zero_blob
  obtain ⟨cells, proofs, h⟩ := C02_accepts (setup 7) (length_g1 7) ctx hctx blob hl hc
  have hv := ValidCall.compute (sha256 := sha256) (s := proc ctx) (ctxp := 16) (by decide) (proc_ctx ctx) hl (by decide) hh outBuffers
  rw [h, cellsEffect_ok] at hv
  exact ⟨ctx, _, _, _, hv, run_tree sha256 ctx hv, run_stacked_ok sha256 ctx hv (.inl ⟨_, _, _, _, rfl⟩)⟩

/-- a commitment written over the start of the blob respects both -/
example (sha256 : List UInt8 → List UInt8) (ctx : DASContext Fr Fr Fr) :
    Respects treeBorrows (run treeBorrows sha256 ctx (.commitment 16 8388608 8388600)) ∧
    Respects stackedBorrows (run stackedBorrows sha256 ctx (.commitment 16 8388608 8388600)) := by
  obtain ⟨blob, hl, hh, -⟩ := zero_blob
  have hv := ValidCall.commitment (sha256 := sha256) (s := proc ctx) (ctxp := 16) (by decide) (proc_ctx ctx) hl (by decide) hh
    (show 8388600 ≠ 0 by decide) (mapped _ _)
  exact ⟨run_tree sha256 ctx hv, C69_stacked_borrows _ sha256 Stacked.laws.init hv trivial⟩

/-- a verification with one cell index, whose result is placed in the byte 3 of this index, and the same with the result elsewhere -/
example (sha256 : List UInt8 → List UInt8) (ctx : DASContext Fr Fr Fr) :
    Respects treeBorrows (run treeBorrows sha256 ctx (.verify 16 0 0 1 30000 0 0 0 0 30003)) ∧
    run stackedBorrows sha256 ctx (.verify 16 0 0 1 30000 0 0 0 0 30003) = .violation ∧
    Respects stackedBorrows (run stackedBorrows sha256 ctx (.verify 16 0 0 1 30000 0 0 0 0 30008)) := by
  have hw : HoldsWords mem 30000 [0] := by
    refine ⟨fun _ => ⟨by decide, by decide⟩, fun i v hv => ?_⟩
    rcases i with _ | i
    · cases hv
      refine ⟨fun _ => 0, fun i => ?_, by simp⟩
      have := i.isLt
      unfold mem
      rw [if_neg (by omega), if_neg (by omega)]
    · simp at hv
  have hv := fun (v : Nat) (hv : v ≠ 0) =>
    ValidCall.verify (sha256 := sha256) (s := proc ctx) (ctxp := 16) (ctx := ctx) (commitments := []) (inds := [0]) (cells := [])
      (proofs := []) (verified := v) (cellIndicesp := 30000) (commitmentsp := 0) (cellsp := 0) (proofsp := 0)
      (commitmentsLength := 0) (cellIndicesLength := 1) (cellsLength := 0) (proofsLength := 0)
      (mptrs := []) (cptrs := []) (pptrs := []) (by decide) (proc_ctx ctx) rfl (by simp) ⟨⟨by simp, by simp⟩, .nil⟩ rfl hw rfl (by simp)
      ⟨⟨by simp, by simp⟩, .nil⟩ rfl (by simp) ⟨⟨by simp, by simp⟩, .nil⟩ hv (mapped _ _)
  refine ⟨run_tree sha256 ctx (hv 30003 (by decide)),
    C69_stacked_verified_in_indices _ sha256 Stacked.laws.init (hv 30003 (by decide)) ⟨by decide, by decide⟩,
    C69_stacked_borrows _ sha256 Stacked.laws.init (hv 30008 (by decide)) fun a ha => ?_⟩
  unfold Span at ha
  simp only [Spec.ItemSpans, Span, List.length_nil, List.length_singleton, List.not_mem_nil, false_and, exists_const, or_false]
  omega

end CExample
end Verif
