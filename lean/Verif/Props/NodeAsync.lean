import Verif.Lemmas.NodeAsync
import Verif.Props.ProverCells
import Verif.Props.Toy

set_option linter.unusedSectionVars false

/-! C58: the asynchronous methods of the Node bindings. -/
namespace Verif
open Polynomial

section
variable {K G1 G2 GT : Type} [Field K] [DecidableEq K] [AddCommGroup G1] [Module Fr G1] [DecidableEq G1]
  [Curve K G1] [PointCodec G1] [AddCommGroup G2] [Module Fr G2] [AddCommGroup GT] [DecidableEq GT]
  [Pairing G1 G2 GT]
variable (sha256 : List UInt8 → List UInt8) (ctx : DASContext K G1 G2)

/-- C58: an asynchronous method is called, with any other calls running and started later, any order of the steps of the workers and
any writes of JavaScript to other buffers. A result of the call is the result of the synchronous method for the bytes at the time of
the call; the result is there after as many steps of the worker as the arguments have bytes; and then it does not change, whatever
happens. -/
theorem C58_async_result (w : JsWorld) (c : AsyncCall) (es more : List JsEvent)
    (hq : ∀ e ∈ es, ¬ Spec.WritesTo (Spec.buffers c) e) :
    (∀ r, (w.run sha256 ctx (.call c :: es)).tasks[w.tasks.length]? = some (.done r) →
      Spec.Synchronous sha256 ctx w.heap c r ∧
      (w.run sha256 ctx (.call c :: es ++ more)).tasks[w.tasks.length]? = some (.done r)) ∧
    (Spec.totalLength c ≤ es.countP (Spec.IsWork w.tasks.length) →
      ∃ r, (w.run sha256 ctx (.call c :: es)).tasks[w.tasks.length]? = some (.done r)) := by
  obtain ⟨p', h1, h2, h3⟩ := run_unshared sha256 ctx (B := Spec.buffers c) (h := w.heap) (i := w.tasks.length) es hq
    (w.step sha256 ctx (.call c)) (c.program sha256 ctx) (fun b _ => rfl) (by
      show (w.tasks ++ [_])[w.tasks.length]? = _
      simp) (program_within sha256 ctx c)
  change (w.run sha256 ctx (.call c :: es)).tasks[w.tasks.length]? = some p' at h1
  constructor
  · intro r hr
    refine ⟨?_, ?_⟩
    · rw [h1] at hr
      cases hr
      have := program_eval sha256 ctx w.heap c
      rwa [← h2] at this
    · rw [run_append]
      exact run_done sha256 ctx more _ hr
  · intro hc
    have := program_steps sha256 ctx w.heap c
    rw [h1]
    cases p' with
    | done r => exact ⟨r, rfl⟩
    | read b o l next =>
      simp only [Reading.steps] at h3
      omega

/-- 32 zero bytes, and the field element one -/
def zero32 : List UInt8 := List.replicate 32 0
def one32 : List UInt8 := List.replicate 31 0 ++ [1]

/-- a blob given by its first two field elements -/
def blobTwo (a b : List UInt8) : List UInt8 := a ++ (b ++ List.replicate 131008 0)

theorem blobTwo_inj {a b a' b' : List UInt8} (ha : a.length = a'.length) (hb : b.length = b'.length)
    (h : blobTwo a b = blobTwo a' b') : a = a' ∧ b = b' := by
  obtain ⟨h1, h2⟩ := List.append_inj h ha
  exact ⟨h1, (List.append_inj h2 hb).1⟩

theorem length_zero32 : zero32.length = 32 := by simp [zero32]
theorem length_one32 : one32.length = 32 := by simp [one32]

theorem length_blobTwo {a b : List UInt8} (ha : a.length = 32) (hb : b.length = 32) : (blobTwo a b).length = 131072 := by
  simp only [blobTwo, List.length_append, List.length_replicate, ha, hb]

theorem beToNat_small {b : List UInt8} (h : ∀ x ∈ b, x.toNat ≤ 1) : 255 * beToNat b + 1 ≤ 256 ^ b.length := by
  induction b using List.reverseRecOn with
  | nil => simp [beToNat]
  | append_singleton b x ih =>
    have h1 := ih (fun y hy => h y (by simp [hy]))
    have h2 := h x (by simp)
    rw [beToNat_append_singleton, List.length_append, List.length_singleton, pow_succ]
    omega

theorem blobTwo_poly {a b : List UInt8} (ha : a.length = 32) (hb : b.length = 32) (ha1 : ∀ x ∈ a, x.toNat ≤ 1)
    (hb1 : ∀ x ∈ b, x.toNat ≤ 1) (ctx : DASContext K G1 G2) : ∃ f, Spec.IsBlobPoly (blobTwo a b) f := by
  by_contra hne
  obtain ⟨i, hi, hbad, -⟩ := bad_blob (ctx := ctx) (length_blobTwo ha hb) hne
  have hs : ∀ x ∈ Spec.block 32 i (blobTwo a b), x.toNat ≤ 1 := by
    intro x hx
    have hx := List.mem_of_mem_drop (List.mem_of_mem_take hx)
    rcases List.mem_append.1 hx with hx | hx
    · exact ha1 x hx
    · rcases List.mem_append.1 hx with hx | hx
      · exact hb1 x hx
      · rw [List.eq_of_mem_replicate hx]; simp
  have hl : (Spec.block 32 i (blobTwo a b)).length = 32 := by
    unfold Spec.block
    rw [List.length_take, List.length_drop, length_blobTwo ha hb]
    omega
  have h1 := beToNat_small hs
  rw [hl, beToNat_eq] at h1
  have h2 : 256 ^ 32 ≤ 255 * frOrder := by decide +kernel
  generalize (256 : Nat) ^ 32 = N at *
  omega

theorem run_cons (w : JsWorld) (e : JsEvent) (es : List JsEvent) :
    w.run sha256 ctx (e :: es) = (w.step sha256 ctx e).run sha256 ctx es := rfl

theorem step_write_heap (w : JsWorld) (b o : Nat) (x : List UInt8) :
    (w.step sha256 ctx (.write b o x)).heap = w.heap.write b o x := rfl

theorem step_write (w : JsWorld) (b o : Nat) (x : List UInt8) :
    w.step sha256 ctx (.write b o x) = ⟨w.heap.write b o x, w.tasks⟩ := rfl

theorem run_nil (w : JsWorld) : w.run sha256 ctx [] = w := rfl

theorem run_work_heap (i n : Nat) (w : JsWorld) : (w.run sha256 ctx (List.replicate n (.work i))).heap = w.heap := by
  induction n generalizing w with
  | zero => rfl
  | succ n ih =>
    rw [List.replicate_succ]
    show ((w.step sha256 ctx (.work i)).run sha256 ctx (List.replicate n (.work i))).heap = _
    rw [ih]
    simp only [JsWorld.step]
    split <;> rfl

/-- memory before and after the two writes, and the call -/
def tornHeap (a b : List UInt8) : JsHeap := fun _ => blobTwo a b
def tornCall : AsyncCall := .computeCells ⟨0, 0, 131072⟩
/-- the worker reads the first field element, JavaScript overwrites the first and then the second one, the worker goes on -/
def tornEvents : List JsEvent :=
  .work 0 :: .write 0 0 one32 :: .write 0 32 one32 :: List.replicate 4095 (.work 0)

theorem write_first (h : JsHeap) (h0 : h 0 = blobTwo zero32 zero32) : h.write 0 0 one32 0 = blobTwo one32 zero32 := by
  unfold JsHeap.write
  rw [h0, if_pos (by rw [length_one32, length_blobTwo length_zero32 length_zero32]; omega), Function.update_self, length_one32]
  unfold blobTwo
  rw [List.take_zero, List.nil_append, List.drop_left' (by rw [length_zero32])]

theorem write_second (h : JsHeap) (h0 : h 0 = blobTwo one32 zero32) : h.write 0 32 one32 0 = blobTwo one32 one32 := by
  unfold JsHeap.write
  rw [h0, if_pos (by rw [length_one32, length_blobTwo length_one32 length_zero32]; omega), Function.update_self, length_one32]
  unfold blobTwo
  rw [List.take_left' length_one32, ← List.append_assoc one32 zero32, List.drop_left' (by simp [length_one32, length_zero32]),
    List.append_assoc]

/-- the contents of the buffer at every moment of the run -/
theorem torn_moments (k : Nat) : let w : JsWorld := ⟨tornHeap zero32 zero32, []⟩
    (w.run sha256 ctx (.call tornCall :: tornEvents.take k)).heap 0 ∈
      [blobTwo zero32 zero32, blobTwo one32 zero32, blobTwo one32 one32] := by
  intro w
  have e0 : ∀ x : JsWorld, (x.step sha256 ctx (.work 0)).heap = x.heap := by
    intro x; simp only [JsWorld.step]; split <;> rfl
  have e1 : ((w.step sha256 ctx (.call tornCall)).step sha256 ctx (.work 0)).heap 0 = blobTwo zero32 zero32 := by rw [e0]; rfl
  have e2 := write_first _ e1
  have e3 := write_second _ e2
  match k with
  | 0 => exact List.mem_cons_self
  | 1 =>
    simp only [tornEvents, List.take_succ_cons, List.take_zero, run_cons, run_nil]
    rw [e1]; exact List.mem_cons_self
  | 2 =>
    simp only [tornEvents, List.take_succ_cons, List.take_zero, run_cons, run_nil]
    rw [step_write_heap, e2]; simp
  | k + 3 =>
    have : tornEvents.take (k + 3) = .work 0 :: .write 0 0 one32 :: .write 0 32 one32 :: List.replicate (min k 4095) (.work 0) := by
      simp only [tornEvents, List.take_succ_cons, List.take_replicate]
    rw [this]
    simp only [run_cons]
    rw [run_work_heap]
    rw [step_write_heap, step_write_heap, e3]; simp

/-- what the worker has read in the end -/
theorem torn_result : let w : JsWorld := ⟨tornHeap zero32 zero32, []⟩
    (w.run sha256 ctx (.call tornCall :: tornEvents)).tasks[0]? =
      some (.done (.cells <$> computeCellsN ctx (blobTwo zero32 one32))) := by
  intro w
  let next : List UInt8 → Reading (Outcome NodeError NodeValue) := fun x =>
    ((readPieces 32 0 32 131040 4095).bind (fun y => .done (x ++ y))).bind
      (fun blob => .done (.cells <$> computeCellsN ctx blob))
  have hprog : tornCall.program sha256 ctx = .read 0 0 32 next := by
    show (readPieces 32 0 0 131072 ((131072 + 32 - 1) / 32)).bind _ = _
    rw [show (131072 + 32 - 1) / 32 = 4095 + 1 by norm_num]
    rfl
  let w1 : JsWorld := ⟨tornHeap zero32 zero32, [next zero32]⟩
  have hs1 : (w.step sha256 ctx (.call tornCall)).step sha256 ctx (.work 0) = w1 := by
    show (JsWorld.step sha256 ctx ⟨tornHeap zero32 zero32, [tornCall.program sha256 ctx]⟩ (.work 0)) = w1
    rw [hprog]
    show (⟨tornHeap zero32 zero32, [next (((blobTwo zero32 zero32).drop 0).take 32)]⟩ : JsWorld) = _
    rw [List.drop_zero, show (blobTwo zero32 zero32).take 32 = zero32 from List.take_left' length_zero32]
  obtain ⟨h2, hh2, hw2⟩ : ∃ h2 : JsHeap, h2 0 = blobTwo one32 one32 ∧
      (w1.step sha256 ctx (.write 0 0 one32)).step sha256 ctx (.write 0 32 one32) = ⟨h2, [next zero32]⟩ :=
    ⟨(w1.heap.write 0 0 one32).write 0 32 one32, write_second _ (write_first _ rfl), by rw [step_write, step_write]⟩
  unfold tornEvents
  rw [run_cons, run_cons, hs1, run_cons, run_cons]
  obtain ⟨p', q1, q2, q3⟩ := run_unshared sha256 ctx (B := [0]) (h := h2) (i := 0) (List.replicate 4095 (.work 0))
    (by intro e he; rw [List.eq_of_mem_replicate he]; exact fun h => h) ⟨h2, [next zero32]⟩ (next zero32) (fun _ _ => rfl)
    List.getElem?_cons_zero
    (Reading.within_bind (Reading.within_bind (readPieces_within 32 0 4095 _ _) (fun _ => trivial)) (fun _ => trivial))
  rw [hw2, q1]
  have hst : (next zero32).steps h2 = 4095 := by
    show (Reading.bind (Reading.bind _ _) _).steps h2 = _
    rw [Reading.steps_bind, Reading.steps_bind, readPieces_steps]
    rfl
  have hcount : (List.replicate 4095 (JsEvent.work 0)).countP (Spec.IsWork 0) = 4095 := by
    rw [List.countP_replicate, if_pos (by simp [Spec.IsWork])]
  rw [hst, hcount] at q3
  have hev : (next zero32).eval h2 = .cells <$> computeCellsN ctx (blobTwo zero32 one32) := by
    show (Reading.bind (Reading.bind _ _) _).eval h2 = _
    rw [Reading.eval_bind, Reading.eval_bind, readPieces_eval h2 32 0 4095 _ _ (by norm_num), hh2]
    show NodeValue.cells <$> computeCellsN ctx (zero32 ++ ((blobTwo one32 one32).drop 32).take 131040) = _
    rw [show (blobTwo one32 one32).drop 32 = one32 ++ List.replicate 131008 0 from List.drop_left' length_one32,
      List.take_of_length_le (by simp only [List.length_append, List.length_replicate, length_one32]; omega)]
    rfl
  cases p' with
  | done r => rw [← hev, ← q2]; rfl
  | read b o l nx => simp only [Reading.steps] at q3; omega

/-- C58 needs its condition: in every context without precomputation there is a run in which JavaScript overwrites two field elements
of a blob during `asyncComputeCells`, and the promise is resolved with cells that the synchronous method would not have returned at any
moment, before, during or after the call. They are the cells of a blob that never was in memory. -/
theorem C58_async_torn (setup : SetupPoints G1 G2) (h1 : setup.g1Monomial.length = 4096)
    (hctx : (DASContext.new setup .no : Outcome Error (DASContext K G1 G2)) = .ok ctx) :
    ∃ (w : JsWorld) (c : AsyncCall) (es : List JsEvent) (cells : List (List UInt8)),
      (w.run sha256 ctx (.call c :: es)).tasks[w.tasks.length]? = some (.done (.ok (.cells cells))) ∧
      ∀ k, ¬ Spec.Synchronous sha256 ctx (w.run sha256 ctx (.call c :: es.take k)).heap c (.ok (.cells cells)) := by
  have hz : ∀ x ∈ zero32, x.toNat ≤ 1 := by
    intro x hx; rw [List.eq_of_mem_replicate hx]; simp
  have ho : ∀ x ∈ one32, x.toNat ≤ 1 := by
    intro x hx
    rcases List.mem_append.1 hx with hx | hx
    · rw [List.eq_of_mem_replicate hx]; simp
    · rw [List.mem_singleton.1 hx]; simp
  obtain ⟨f, hf⟩ := blobTwo_poly length_zero32 length_one32 hz ho ctx
  obtain ⟨M, hp, hM, -, -⟩ := context_fields setup .no h1 ctx hctx
  have hok : ctx.computeCellsAndKzgProofs (blobTwo zero32 one32) = .ok (cellsOf f, proofsOf setup.g1Monomial f) := by
    rw [cells_of_blob hp hf, prove_exact _ h1 M (msmExact_no _ 6 6 M hM) f hf.1]
  have hN : ∀ {b : List UInt8}, b.length = 131072 → ∀ {c}, computeCellsN ctx b = .ok c →
      ∃ p, ctx.computeCellsAndKzgProofs b = .ok (c, p) := by
    intro b hb c h
    unfold computeCellsN computeCellsAndKzgProofsN sliceToArrayRefN at h
    rw [if_pos (show b.length = BYTES_PER_BLOB from hb), Outcome.ok_bind] at h
    cases hc : ctx.computeCellsAndKzgProofs b with
    | ok r => rw [hc] at h; cases h; exact ⟨r.2, rfl⟩
    | err e => rw [hc] at h; cases h
    | panic => rw [hc] at h; cases h
  have hlen := length_blobTwo length_zero32 length_one32
  have hcells : computeCellsN ctx (blobTwo zero32 one32) = .ok (cellsOf f) := by
    unfold computeCellsN computeCellsAndKzgProofsN sliceToArrayRefN
    rw [if_pos (show (blobTwo zero32 one32).length = BYTES_PER_BLOB from hlen), Outcome.ok_bind, hok]
    rfl
  refine ⟨⟨tornHeap zero32 zero32, []⟩, tornCall, tornEvents, cellsOf f, ?_, ?_⟩
  · have := torn_result sha256 ctx
    rw [hcells] at this
    exact this
  · intro k hk
    have hm := torn_moments sha256 ctx k
    dsimp only at hm
    generalize (JsWorld.run sha256 ctx ⟨tornHeap zero32 zero32, []⟩ (.call tornCall :: tornEvents.take k)).heap = h at hm hk
    have h01 : zero32 ≠ one32 := by decide
    have hblob : ((cellsOf f).take 64).flatten = blobTwo zero32 one32 :=
      C01_first_cells_are_the_blob setup .no h1 ctx hctx _ hlen _ _ hok
    generalize hr : (Outcome.ok (NodeValue.cells (cellsOf f)) : Outcome NodeError NodeValue) = r at hk
    unfold tornCall at hk
    cases hk with
    | cells =>
      have hv : h.view ⟨0, 0, 131072⟩ = ((h 0).drop 0).take 131072 := rfl
      have hl0 : (h 0).length = 131072 := by
        simp only [List.mem_cons, List.not_mem_nil, or_false] at hm
        rcases hm with hm | hm | hm <;> rw [hm] <;>
          exact length_blobTwo (by decide) (by decide)
      rw [hv, List.drop_zero, List.take_of_length_le (by rw [hl0])] at hr
      cases hc : computeCellsN ctx (h 0) with
      | ok cs =>
        rw [hc] at hr
        cases hr
        obtain ⟨p, hp'⟩ := hN hl0 hc
        have := C01_first_cells_are_the_blob setup .no h1 ctx hctx _ hl0 _ _ hp'
        rw [this] at hblob
        rw [hblob] at hm
        simp only [List.mem_cons, List.not_mem_nil, or_false] at hm
        rcases hm with hm | hm | hm
        · exact h01 (blobTwo_inj rfl (by simp [length_zero32, length_one32]) hm).2.symm
        · exact h01 (blobTwo_inj (by simp [length_zero32, length_one32]) (by simp [length_zero32, length_one32]) hm).1
        · exact h01 (blobTwo_inj (by simp [length_zero32, length_one32]) rfl hm).1
      | err e => rw [hc] at hr; cases hr
      | panic => rw [hc] at hr; cases hr

end

/-! ### The hypotheses can be met -/
section
open Toy

/-- C58: two calls run at the same time, each worker makes its steps, JavaScript writes to a third buffer in between; both promises
are resolved with the results of the synchronous methods. -/
example (sha256 : List UInt8 → List UInt8) (ctx : DASContext Fr Fr Fr) (heap : JsHeap) :
    let w : JsWorld := ⟨heap, []⟩
    let c : AsyncCall := .blobToKzgCommitment ⟨0, 0, 131072⟩
    let c' : AsyncCall := .computeCells ⟨1, 32, 131072⟩
    let es : List JsEvent := .call c' :: .write 2 0 [7] ::
      (List.replicate 131072 (.work 0) ++ List.replicate 131072 (.work 1))
    ∃ r, (w.run sha256 ctx (.call c :: es)).tasks[0]? = some (.done r) ∧ Spec.Synchronous sha256 ctx heap c r := by
  intro w c c' es
  have hes : ∀ e ∈ es, ¬ Spec.WritesTo (Spec.buffers c) e := by
    intro e he
    simp only [es, List.mem_cons, List.mem_append] at he
    rcases he with rfl | rfl | he | he
    · exact fun h => h
    · simp [Spec.WritesTo, Spec.buffers, c]
    · rw [List.eq_of_mem_replicate he]; exact fun h => h
    · rw [List.eq_of_mem_replicate he]; exact fun h => h
  obtain ⟨h1, h2⟩ := C58_async_result sha256 ctx w c es [] hes
  obtain ⟨r, hr⟩ := h2 (by
    show 131072 ≤ _
    simp only [es, List.countP_cons, List.countP_append, List.countP_replicate]
    rw [if_pos (show Spec.IsWork w.tasks.length (.work 0) = true from rfl)]
    omega)
  exact ⟨r, hr, (h1 r hr).1⟩

/-- C58: there is a context for the torn run. -/
example (sha256 : List UInt8 → List UInt8) : ∃ ctx : DASContext Fr Fr Fr,
    ∃ (w : JsWorld) (c : AsyncCall) (es : List JsEvent) (cells : List (List UInt8)),
      (w.run sha256 ctx (.call c :: es)).tasks[w.tasks.length]? = some (.done (.ok (.cells cells))) ∧
      ∀ k, ¬ Spec.Synchronous sha256 ctx (w.run sha256 ctx (.call c :: es.take k)).heap c (.ok (.cells cells)) := by
  obtain ⟨ctx, hctx⟩ := context 7
  exact ⟨ctx, C58_async_torn sha256 ctx (setup 7) (length_g1 7) hctx⟩

end
end Verif
