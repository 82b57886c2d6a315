import Verif.Lemmas.CProcess
import Verif.Props.CThreads
import Verif.Props.Binding

set_option linter.unusedSectionVars false

/-! C79: a C program with several threads that keeps the rules of the API. -/
namespace Verif
open Spec (Holds Mapped Span ItemSpans ValidCall Request CCall Finished Race Compatible Running CProcess InMessage Act Executes CString
  commitmentEffect verifyEffect)
open CProcess (Ghost GInv Inv owned owned_append owned_none)

section
variable {K G1 G2 GT : Type} [Field K] [DecidableEq K] [AddCommGroup G1] [Module Fr G1] [DecidableEq G1]
  [Curve K G1] [PointCodec G1] [AddCommGroup G2] [Module Fr G2] [AddCommGroup GT] [DecidableEq GT]
  [Pairing G1 G2 GT] [LawfulPointCodec G1 48]
variable {setup : SetupPoints G1 G2} {sha256 : List UInt8 → List UInt8} {mem : Spec.Memory}

/-- only the context of the call matters -/
theorem validCall_restrict {s : CState (DASContext K G1 G2)} {c : CCall} {R W : Nat → Prop} {e : Spec.Effect}
    (h : ValidCall sha256 s c R W e) : ∃ ctx, s.ctxs c.ctx = some ctx ∧
      ValidCall sha256 { s with ctxs := fun a => if a = c.ctx then some ctx else none } c R W e := by
  cases h with
  | commitment h0 hctx hl hb0 hb ho0 ho => exact ⟨_, hctx, .commitment h0 (if_pos rfl) hl hb0 hb ho0 ho⟩
  | compute h0 hctx hl hb0 hb ho => exact ⟨_, hctx, .compute h0 (if_pos rfl) hl hb0 hb ho⟩
  | recover h0 hctx a b c d e f => exact ⟨_, hctx, .recover h0 (if_pos rfl) a b c d e f⟩
  | verify h0 hctx a b c d e f g h i j k l m => exact ⟨_, hctx, .verify h0 (if_pos rfl) a b c d e f g h i j k l m⟩

/-- the invariant holds in every state that is reached, and undefined behaviour is not reached -/
theorem executes_inv {r : Option (CProcess K G1 G2)} (h : Executes setup sha256 mem r) : ∃ w, r = some w ∧ ∃ gs, Inv setup w gs := by
  induction h with
  | start => exact ⟨_, rfl, [], Inv.start setup mem⟩
  | @act w r hw hact ih =>
    obtain ⟨w', hw', gs, hinv⟩ := ih
    cases hw'
    -- the position of a call in the list
    have split : ∀ {before after : List (Running K G1 G2)} {c : Running K G1 G2}, w.running = before ++ c :: after →
        ∃ pre g post, gs = pre ++ g :: post ∧ pre.map Ghost.c = before ∧ g.c = c ∧ post.map Ghost.c = after := by
      intro before after c hr
      rw [hinv.running] at hr
      obtain ⟨pre, rest, rfl, h1, h2⟩ := List.map_eq_append_iff.1 hr
      obtain ⟨g, post, rfl, h3, h4⟩ := List.map_eq_cons_iff.1 h2
      exact ⟨pre, g, post, rfl, h1, h3, h4⟩
    have ghost : ∀ {c : Running K G1 G2}, c ∈ w.running → ∃ g ∈ gs, g.c = c := by
      intro c hc
      rw [hinv.running] at hc
      exact List.mem_map.1 hc
    cases hact with
    | @begin r hv hcomp hout =>
      obtain ⟨ctx, hctx, hv'⟩ := validCall_restrict hv
      refine ⟨_, rfl, gs ++ [⟨⟨r, r.call.prog sha256⟩, none, ctx⟩], ?_, ?_, ?_, hinv.strings, hinv.messages, ?_, ?_, hinv.ctxNodup,
        hinv.ctxLive, hinv.ctxNew⟩
      · simp [hinv.running]
      · intro g hg
        rcases List.mem_append.1 hg with hg | hg
        · exact hinv.calls g hg
        · rw [List.mem_singleton] at hg
          subst hg
          exact ⟨validCall_safe hv', validCall_local hv, validCall_mapped hv, hout, hctx, by simp, by simp⟩
      · rw [List.map_append, List.pairwise_append]
        refine ⟨hinv.compatible, by simp, ?_⟩
        intro a ha b hb
        obtain ⟨g, hg, rfl⟩ := List.mem_map.1 ha
        simp only [List.map_cons, List.map_nil, List.mem_singleton] at hb
        subst hb
        exact hcomp g.c (by rw [hinv.running]; exact List.mem_map_of_mem hg)
      · rw [owned_append, owned_none rfl]
        simpa [owned] using hinv.nodup
      · rw [owned_append, owned_none rfl]
        simpa [owned] using hinv.live
    | @step s' x' before after c hr hst =>
      obtain ⟨pre, g, post, rfl, rfl, rfl, rfl⟩ := split hr
      obtain ⟨g', hg', h'⟩ := hinv.step hst
      refine ⟨_, rfl, pre ++ g' :: post, ?_⟩
      simpa [hg'] using h'
    | @returns res before after c hr hres =>
      obtain ⟨pre, g, post, rfl, rfl, rfl, rfl⟩ := split hr
      refine ⟨_, rfl, pre ++ post, ?_⟩
      have := hinv.returns hres
      simpa using this
    | fault hc hf =>
      obtain ⟨g, hg, rfl⟩ := ghost hc
      have := (hinv.calls g hg).safe
      rw [hf] at this
      exact this.elim
    | contextGone hc hn =>
      obtain ⟨g, hg, rfl⟩ := ghost hc
      rw [(hinv.calls g hg).context] at hn
      cases hn
    | memoryGone hc ha hn =>
      obtain ⟨g, hg, rfl⟩ := ghost hc
      exact absurd hn ((hinv.calls g hg).mapped _ ha)
    | newContext hn => exact ⟨_, rfl, gs, hinv.newContext hn⟩
    | freeContext hp hu hf =>
      obtain ⟨s'', h1, h2⟩ := hinv.freeContext hp hu
      rw [hf] at h1
      cases h1
      exact ⟨_, rfl, gs, h2⟩
    | badFreeContext hp hu hf =>
      obtain ⟨s'', h1, h2⟩ := hinv.freeContext hp hu
      rw [hf] at h1
      cases h1
    | freeMessage hp hf =>
      obtain ⟨s'', h1, h2⟩ := hinv.freeMessage hp
      rw [hf] at h1
      cases h1
      exact ⟨_, rfl, gs, h2⟩
    | badFreeMessage hp hf =>
      obtain ⟨s'', h1, h2⟩ := hinv.freeMessage hp
      rw [hf] at h1
      cases h1
    | @write a b ha hu hi =>
      refine ⟨_, rfl, gs, hinv.setMem (fun g hg x hx => if_neg ?_) (fun x hx => if_neg ?_)⟩
      · rintro rfl
        have := hu g.c (by rw [hinv.running]; exact List.mem_map_of_mem hg)
        exact hx.elim this.1 this.2
      · rintro rfl
        exact hi hx
    | @map a b ha =>
      refine ⟨_, rfl, gs, hinv.setMem (fun g hg x hx => if_neg ?_) (fun x hx => if_neg ?_)⟩
      · rintro rfl
        exact (hinv.calls g hg).mapped _ hx ha
      · rintro rfl
        obtain ⟨p, n, hp, hs⟩ := hx
        exact hinv.strings.mapped p n _ hp hs ha
    | @unmap a hu hi =>
      refine ⟨_, rfl, gs, hinv.setMem (fun g hg x hx => if_neg ?_) (fun x hx => if_neg ?_)⟩
      · rintro rfl
        have := hu g.c (by rw [hinv.running]; exact List.mem_map_of_mem hg)
        exact hx.elim this.1 this.2
      · rintro rfl
        exact hi hx

/-- C79: a program that keeps the rules never runs into undefined behaviour, whatever its threads do and in whatever order. -/
theorem C79_no_undefined : ¬ Executes setup sha256 mem (none : Option (CProcess K G1 G2)) := by
  intro h
  obtain ⟨w, hw, -⟩ := executes_inv h
  cases hw

/-- C79: each call ends as its effect says. The effect is what the library computes from the inputs at the start of the call. -/
theorem C79_finished {w : CProcess K G1 G2} (h : Executes setup sha256 mem (some w)) {c : Running K G1 G2} (hc : c ∈ w.running)
    (hend : c.rest = .panic ∨ ∃ res, c.rest = .ret res) : Finished w.s c.rest c.request.effect := by
  obtain ⟨_, hw, gs, hinv⟩ := executes_inv h
  cases hw
  rw [hinv.running] at hc
  obtain ⟨g, hg, rfl⟩ := List.mem_map.1 hc
  have hg := hinv.calls g hg
  have hs := hg.safe
  rcases hend with hr | ⟨res, hr⟩
  · rw [hr] at hs ⊢
    have hne : ∀ regions, g.c.request.effect ≠ .ok regions := hs
    cases he : g.c.request.effect with
    | ok regions => exact absurd he (hne regions)
    | err e => exact .inl rfl
    | panic => rfl
  · rw [hr] at hs ⊢
    have hp : CPool.Post g.c.request.effect res g.o w.s.mem := hs
    cases he : g.c.request.effect with
    | ok regions =>
      rw [he] at hp
      exact ⟨by rw [hp.1], hp.2⟩
    | err e =>
      rw [he] at hp
      obtain ⟨p, h0, ho, rfl⟩ := hp
      obtain ⟨-, h1, h2⟩ := hg.own p _ ho
      exact .inr ⟨p, rfl, h0, ⟨Error.debug_no_zero e, h2⟩, h1⟩
    | panic =>
      rw [he] at hp
      exact hp.elim

/-- C79: the live contexts are those that the program holds, each made by the library, at different addresses. -/
theorem C79_contexts {w : CProcess K G1 G2} (h : Executes setup sha256 mem (some w)) :
    w.contexts.Nodup ∧ (∀ p, w.s.ctxs p ≠ none ↔ p ∈ w.contexts) ∧
    ∀ p ∈ w.contexts, p ≠ 0 ∧ ∃ (up : Bool) (ctx : DASContext K G1 G2), w.s.ctxs p = some ctx ∧
      (DASContext.new setup (if up then .yes RECOMMENDED_PRECOMP_WIDTH else .no) : Outcome Empty (DASContext K G1 G2)) = .ok ctx := by
  obtain ⟨_, hw, gs, hinv⟩ := executes_inv h
  cases hw
  exact ⟨hinv.ctxNodup, hinv.ctxLive, hinv.ctxNew⟩

/-- C79: the messages that the program holds are texts of errors, intact, at different addresses that do not overlap. When no call is in
progress there are no others: nothing is leaked. -/
theorem C79_messages {w : CProcess K G1 G2} (h : Executes setup sha256 mem (some w)) :
    w.messages.Nodup ∧
    (∀ p ∈ w.messages, p ≠ 0 ∧ ∃ e : Error, CString w.s.mem p e.debug ∧ w.s.strings p = some (e.debug.length + 1)) ∧
    (∀ p ∈ w.messages, ∀ q ∈ w.messages, p ≠ q → ∀ n m a, w.s.strings p = some n → w.s.strings q = some m → ¬ (Span p n a ∧ Span q m a)) ∧
    (w.running = [] → ∀ p, w.s.strings p ≠ none ↔ p ∈ w.messages) := by
  obtain ⟨_, hw, gs, hinv⟩ := executes_inv h
  cases hw
  refine ⟨(List.nodup_append.1 hinv.nodup).2.1, ?_, ?_, ?_⟩
  · intro p hp
    obtain ⟨h0, e, h1, h2⟩ := hinv.messages p hp
    exact ⟨h0, e, ⟨Error.debug_no_zero e, h2⟩, h1⟩
  · rintro p - q - hpq n m a hn hm ⟨h1, h2⟩
    exact hpq (hinv.strings.apart p q n m a hn hm h1 h2)
  · intro hr p
    have hgs : gs = [] := by
      have := hinv.running
      rw [hr] at this
      exact List.map_eq_nil_iff.1 this.symm
    subst hgs
    have h1 := hinv.live p
    have h2 := @Inv.string _ _ _ _ _ _ _ _ _ _ _ _ _ _ _ hinv p
    simp only [owned, List.filterMap_nil, List.nil_append] at h1 h2
    exact ⟨h1, h2⟩

/-- C79: two calls in progress never access the same byte at the same time, unless both read it. -/
theorem C79_no_race {w : CProcess K G1 G2} (h : Executes setup sha256 mem (some w)) : ¬ Race ⟨w.s, w.running.map (·.rest)⟩ := by
  obtain ⟨_, hw, gs, hinv⟩ := executes_inv h
  cases hw
  rintro ⟨i, j, p, b, k, hij, hi, hj⟩
  have hget : ∀ (i : Nat) x, (w.running.map (·.rest))[i]? = some x → ∃ g, gs[i]? = some g ∧ g.c.rest = x := by
    intro i x hx
    rw [hinv.running, List.map_map, List.getElem?_map, Option.map_eq_some_iff] at hx
    exact hx
  have hcomp : ∀ (i j : Nat) g g', gs[i]? = some g → gs[j]? = some g' → i ≠ j → Compatible g.c.request g'.c.request := by
    have hlt : ∀ (i j : Nat) g g', gs[i]? = some g → gs[j]? = some g' → i < j → Compatible g.c.request g'.c.request := by
      intro i j g g' hi hj hij
      have := List.pairwise_iff_getElem.1 (List.pairwise_map.1 hinv.compatible) i j (List.getElem?_eq_some_iff.1 hi).1
        (List.getElem?_eq_some_iff.1 hj).1 hij
      rwa [(List.getElem?_eq_some_iff.1 hi).2, (List.getElem?_eq_some_iff.1 hj).2] at this
    intro i j g g' hi hj hij
    rcases Nat.lt_or_gt_of_ne hij with h1 | h1
    · exact hlt i j g g' hi hj h1
    · exact CProcess.compatible_symm (hlt j i g' g hj hi h1)
  obtain ⟨g, hg, hgr⟩ := hget i _ hi
  have h1 := (hinv.calls g (List.mem_of_getElem? hg)).safe
  rw [hgr] at h1
  have hw := h1.1
  rcases hj with ⟨k', hj⟩ | ⟨b', k', hj⟩
  · obtain ⟨g', hg', hgr'⟩ := hget j _ hj
    have h2 := (hinv.calls g' (List.mem_of_getElem? hg')).safe
    rw [hgr'] at h2
    have := (hcomp i j g g' hg hg' hij p).1 hw
    exact h2.1.elim this.1 this.2
  · obtain ⟨g', hg', hgr'⟩ := hget j _ hj
    have h2 := (hinv.calls g' (List.mem_of_getElem? hg')).safe
    rw [hgr'] at h2
    exact ((hcomp i j g g' hg hg' hij p).1 hw).2 h2.1

/-- C79: a step of a call leaves every mapped byte outside its outputs as it is, and all contexts. -/
theorem C79_frame {w : CProcess K G1 G2} (h : Executes setup sha256 mem (some w)) {c : Running K G1 G2} (hc : c ∈ w.running)
    {s' : CState (DASContext K G1 G2)} {x' : CProg (DASContext K G1 G2) Empty CResult} (hst : CProg.Step w.s c.rest s' x') :
    (∀ a, w.s.mem a ≠ none → ¬ c.request.writes a → s'.mem a = w.s.mem a) ∧ s'.ctxs = w.s.ctxs := by
  obtain ⟨_, hw, gs, hinv⟩ := executes_inv h
  cases hw
  rw [hinv.running] at hc
  obtain ⟨g, hg, rfl⟩ := List.mem_map.1 hc
  have hs := (hinv.calls g hg).safe
  obtain ⟨s, running, contexts, messages⟩ := w
  obtain ⟨⟨r, x⟩, o, ctx⟩ := g
  simp only at hst hs ⊢
  cases hst with
  | write hb =>
    refine ⟨fun a _ hw => if_neg ?_, rfl⟩
    rintro rfl
    exact hw hs.1
  | @alloc msg p k h0 h64 hstr hfree =>
    refine ⟨fun a ha _ => overwrite_outside ?_, rfl⟩
    by_contra hcon
    simp only [List.length_append, List.length_singleton] at hcon
    apply ha
    have := hfree (a - p) (by omega)
    rwa [show p + (a - p) = a by omega] at this
  | _ => exact ⟨fun _ _ _ => rfl, rfl⟩

/-- C79: every call in progress can be brought to its end while the others wait. -/
theorem C79_progress {w : CProcess K G1 G2} (h : Executes setup sha256 mem (some w)) {before after : List (Running K G1 G2)}
    {c : Running K G1 G2} (hr : w.running = before ++ c :: after) :
    ∃ s' x', (x' = .panic ∨ ∃ res, x' = .ret res) ∧
      Executes setup sha256 mem (some { w with s := s', running := before ++ { c with rest := x' } :: after }) := by
  obtain ⟨r, x⟩ := c
  induction x generalizing w with
  | ret res => exact ⟨w.s, _, .inr ⟨res, rfl⟩, by rw [← hr]; exact h⟩
  | throw e => exact e.elim
  | panic => exact ⟨w.s, _, .inl rfl, by rw [← hr]; exact h⟩
  | fault => exact absurd (h.act (.fault (c := ⟨r, .fault⟩) (by rw [hr]; simp) rfl)) C79_no_undefined
  | read p k ih =>
    cases hb : w.s.mem p with
    | none =>
      have h' := h.act (.step hr (.badRead hb))
      exact absurd (h'.act (.fault (c := ⟨r, .fault⟩) (by simp) rfl)) C79_no_undefined
    | some b =>
      have h' := h.act (.step hr (.read hb))
      obtain ⟨s₂, x₂, h₁, h₂⟩ := ih b h' rfl
      exact ⟨s₂, x₂, h₁, h₂⟩
  | write p b k ih =>
    by_cases hb : w.s.mem p = none
    · have h' := h.act (.step hr (.badWrite hb))
      exact absurd (h'.act (.fault (c := ⟨r, .fault⟩) (by simp) rfl)) C79_no_undefined
    · have h' := h.act (.step hr (.write hb))
      obtain ⟨s₂, x₂, h₁, h₂⟩ := ih h' rfl
      exact ⟨s₂, x₂, h₁, h₂⟩
  | ctx p k ih =>
    cases hb : w.s.ctxs p with
    | none =>
      have h' := h.act (.step hr (.badCtx hb))
      exact absurd (h'.act (.fault (c := ⟨r, .fault⟩) (by simp) rfl)) C79_no_undefined
    | some b =>
      have h' := h.act (.step hr (.ctx hb))
      obtain ⟨s₂, x₂, h₁, h₂⟩ := ih b h' rfl
      exact ⟨s₂, x₂, h₁, h₂⟩
  | alloc msg k ih =>
    by_cases hp : ∃ p, p ≠ 0 ∧ p + (msg.length + 1) ≤ 2 ^ 64 ∧ w.s.strings p = none ∧ ∀ i < msg.length + 1, w.s.mem (p + i) = none
    · obtain ⟨p, h0, h1, h2, h3⟩ := hp
      have h' := h.act (.step hr (.alloc h0 h1 h2 h3))
      obtain ⟨s₂, x₂, h₁, h₂⟩ := ih p h' rfl
      exact ⟨s₂, x₂, h₁, h₂⟩
    · exact ⟨w.s, _, .inl rfl, h.act (.step hr .noMemory)⟩

/-- C79: the rules are needed. Freeing the context of a call in progress leads to undefined behaviour; so does unmapping a byte that such a
call was given; so does freeing a context that the program does not hold, and, when no call is in progress, a message that it does not hold. -/
theorem C79_rules_needed {w : CProcess K G1 G2} (h : Executes setup sha256 mem (some w)) :
    (∀ c ∈ w.running, ∃ s', ethKzgDasContextFree c.request.call.ctx w.s = .ok () s' ∧
      Act setup sha256 { w with s := s', contexts := w.contexts.erase c.request.call.ctx } none) ∧
    (∀ c ∈ w.running, ∀ a, c.request.reads a ∨ c.request.writes a →
      Act setup sha256 { w with s := { w.s with mem := fun x => if x = a then none else w.s.mem x } } none) ∧
    (∀ p ∉ w.contexts, p ≠ 0 → ethKzgDasContextFree p w.s = .fault) ∧
    (w.running = [] → ∀ p ∉ w.messages, p ≠ 0 → ethKzgFreeErrorMessage p w.s = .fault) := by
  obtain ⟨hnd, hlive, hnew⟩ := C79_contexts h
  refine ⟨?_, ?_, ?_, ?_⟩
  · intro c hc
    obtain ⟨_, hw, gs, hinv⟩ := executes_inv h
    cases hw
    have hc' := hc
    rw [hinv.running] at hc'
    obtain ⟨g, hg, rfl⟩ := List.mem_map.1 hc'
    have hctx := (hinv.calls g hg).context
    have h0 := (hnew _ ((hlive _).1 (by rw [hctx]; simp))).1
    refine ⟨_, by unfold ethKzgDasContextFree; rw [if_neg h0, hctx], .contextGone hc ?_⟩
    simp
  · intro c hc a ha
    exact .memoryGone hc ha (by simp)
  · intro p hp h0
    unfold ethKzgDasContextFree
    rw [if_neg h0]
    have : w.s.ctxs p = none := by
      by_contra hn
      exact hp ((hlive p).1 hn)
    rw [this]
  · intro hr p hp h0
    unfold ethKzgFreeErrorMessage
    rw [if_neg h0]
    have : w.s.strings p = none := by
      by_contra hn
      exact hp (((C79_messages h).2.2.2 hr p).1 hn)
    rw [this]

/-- C79: a program that has freed what it holds has left nothing behind. -/
theorem C79_nothing_left {w : CProcess K G1 G2} (h : Executes setup sha256 mem (some w)) (hr : w.running = []) (hc : w.contexts = [])
    (hm : w.messages = []) : (∀ p, w.s.ctxs p = none) ∧ ∀ p, w.s.strings p = none := by
  constructor
  · intro p
    by_contra hn
    have := ((C79_contexts h).2.1 p).1 hn
    rw [hc] at this
    cases this
  · intro p
    by_contra hn
    have := ((C79_messages h).2.2.2 hr p).1 hn
    rw [hm] at this
    cases this

/-- C79: while the others wait, a call does what the function of the C API does. -/
theorem C79_sequential {w : CProcess K G1 G2} (h : Executes setup sha256 mem (some w)) {before after : List (Running K G1 G2)}
    {c : Running K G1 G2} (hr : w.running = before ++ c :: after) (A : Allocator (DASContext K G1 G2)) {res : CResult}
    {s' : CState (DASContext K G1 G2)} (hrun : c.rest.run A w.s = .ok res s') :
    Executes setup sha256 mem (some { w with s := s', running := before ++ { c with rest := .ret res } :: after }) := by
  obtain ⟨r, x⟩ := c
  simp only at hrun ⊢
  induction x generalizing w with
  | ret a =>
    cases hrun
    rw [← hr]
    exact h
  | throw e => exact e.elim
  | panic => cases hrun
  | fault => cases hrun
  | read p k ih =>
    cases hb : w.s.mem p with
    | none => simp [CProg.run, CM.bind_apply, readByte, hb] at hrun
    | some b =>
      have h' := h.act (.step hr (.read hb))
      have := ih b h' rfl (by simpa [CProg.run, CM.bind_apply, readByte, hb] using hrun)
      exact this
  | write p b k ih =>
    cases hb : w.s.mem p with
    | none => simp [CProg.run, CM.bind_apply, writeByte, hb] at hrun
    | some b' =>
      have h' := h.act (.step hr (.write (b := b) (by rw [hb]; simp)))
      have := ih h' rfl (by simpa [CProg.run, CM.bind_apply, writeByte, hb] using hrun)
      exact this
  | ctx p k ih =>
    cases hb : w.s.ctxs p with
    | none => simp [CProg.run, CM.bind_apply, derefCtx, hb] at hrun
    | some b =>
      have h' := h.act (.step hr (.ctx hb))
      have := ih b h' rfl (by simpa [CProg.run, CM.bind_apply, derefCtx, hb] using hrun)
      exact this
  | alloc msg k ih =>
    cases hp : A.place w.s (msg.length + 1) with
    | none => simp [CProg.run, CM.bind_apply, allocString, hp] at hrun
    | some p =>
      obtain ⟨h0, h1, h2, h3⟩ := A.fresh _ _ _ hp
      have h' := h.act (.step hr (.alloc h0 h1 h2 h3))
      have := ih p h' rfl (by simpa [CProg.run, CM.bind_apply, allocString, hp] using hrun)
      exact this

end

/-! A program that has created a context, started two calls, and taken the error message of one of them while the other is in progress. -/
namespace CProcessExample
open Toy

def mem : Spec.Memory := fun a => if a < 2 ^ 20 then some 0 else none

open Classical in
noncomputable def allocator (Ctx : Type) : Allocator Ctx where
  place s n := if n ≤ 2 ^ 60 ∧ s.strings (2 ^ 60) = none ∧ ∀ i < n, s.mem (2 ^ 60 + i) = none then some (2 ^ 60) else none
  fresh s n p h := by
    split_ifs at h with h1
    cases h
    exact ⟨by norm_num, by omega, h1.2.1, h1.2.2⟩
  placeCtx s := if s.ctxs 16 = none then some 16 else none
  freshCtx s p h := by
    split_ifs at h with h1
    cases h
    exact ⟨by norm_num, by norm_num, h1⟩

/-- a verification of nothing -/
def good : Request := ⟨.verify 16 0 0 0 0 0 0 0 0 64, fun a => ItemSpans 0 [] 48 a ∨ Span 0 (8 * ([] : List Nat).length) a ∨
  ItemSpans 0 [] 2048 a ∨ ItemSpans 0 [] 48 a, Span 64 1, .ok [(64, [1])]⟩

/-- a verification with one index and nothing else -/
def bad : Request := ⟨.verify 16 0 0 1 4096 0 0 0 0 80, fun a => ItemSpans 0 [] 48 a ∨ Span 4096 (8 * [0].length) a ∨
  ItemSpans 0 [] 2048 a ∨ ItemSpans 0 [] 48 a, Span 80 1, .err (.Verifier (.BatchVerificationInputsMustHaveSameLength 0 1 0 0))⟩

theorem words : Spec.HoldsWords mem 4096 [0] := by
  refine ⟨fun _ => by decide, fun i v hv => ?_⟩
  obtain ⟨hi, rfl⟩ := List.getElem?_eq_some_iff.1 hv
  simp only [List.length_singleton, Nat.lt_one_iff] at hi
  subst hi
  refine ⟨fun _ => 0, fun i => ?_, by simp⟩
  unfold mem
  rw [if_pos (by omega)]

theorem nil_span (n a : Nat) : ¬ ItemSpans 0 [] n a := by
  rintro (⟨-, h⟩ | ⟨q, hq, -⟩)
  · simp at h
  · cases hq

theorem newContext (setup : SetupPoints Fr Fr) {ctx : DASContext Fr Fr Fr} (h : (DASContext.new setup .no : Outcome Empty _) = .ok ctx) :
    ethKzgDasContextNew (allocator _) setup false ⟨mem, fun _ => none, fun _ => none⟩ =
      .ok 16 ⟨mem, fun a => if a = 16 then some ctx else none, fun _ => none⟩ := by
  unfold ethKzgDasContextNew
  rw [if_neg (by decide), h]
  simp [allocator]

example : ∃ w : CProcess Fr Fr Fr, Executes (setup 7) id mem (some w) ∧ w.contexts = [16] ∧ w.messages = [2 ^ 60] ∧
    w.running = [⟨good, good.call.prog id⟩] ∧ w.s.mem 64 = some 0 := by
  obtain ⟨ctx, hctx⟩ := context_exists (K := Fr) (G1 := Fr) (G2 := Fr) (ε := Empty) (setup 7) (length_g1 7) (by rw [length_g2])
    (by rw [length_g2]; norm_num)
  -- a context
  have h1 := (Executes.start (setup := setup 7) (sha256 := id) (mem := mem) (K := Fr)).act (.newContext (A := allocator _) (up := false) (p := 16)
    (s' := ⟨mem, fun a => if a = 16 then some ctx else none, fun _ => none⟩) (newContext _ hctx))
  -- two calls
  have hv1 : ValidCall id (⟨mem, fun a => if a = 16 then some ctx else none, fun _ => none⟩ : CState (DASContext Fr Fr Fr)) good.call good.reads
      good.writes good.effect := by
    have := ValidCall.verify (sha256 := id) (s := (⟨mem, fun a => if a = 16 then some ctx else none, fun _ => none⟩ : CState (DASContext Fr Fr Fr)))
      (ctxp := 16) (commitmentsLength := 0) (commitmentsp := 0) (cellIndicesLength := 0)
      (cellIndicesp := 0) (cellsLength := 0) (cellsp := 0) (proofsLength := 0) (proofsp := 0) (verified := 64) (ctx := ctx)
      (mptrs := []) (commitments := []) (inds := []) (cptrs := []) (cells := []) (pptrs := []) (proofs := [])
      (by decide) (by simp) rfl (by simp) ⟨⟨by simp, by simp⟩, .nil⟩ rfl ⟨by simp, by simp⟩ rfl (by simp) ⟨⟨by simp, by simp⟩, .nil⟩
      rfl (by simp) ⟨⟨by simp, by simp⟩, .nil⟩ (by decide) (fun i hi => ⟨0, by simp only [mem]; rw [if_pos (by omega)]⟩)
    rw [C13_empty ctx id] at this
    exact this
  have hbad : ctx.verifyCellKzgProofBatch id [] [0] [] [] = .err (.Verifier (.BatchVerificationInputsMustHaveSameLength 0 1 0 0)) := by
    rfl
  have hmap : Mapped mem 80 1 := fun i hi => ⟨0, by simp only [mem]; rw [if_pos (by omega)]⟩
  have hv2 : ValidCall id (⟨mem, fun a => if a = 16 then some ctx else none, fun _ => none⟩ : CState (DASContext Fr Fr Fr)) bad.call bad.reads
      bad.writes bad.effect := by
    have := ValidCall.verify (sha256 := id) (s := (⟨mem, fun a => if a = 16 then some ctx else none, fun _ => none⟩ : CState (DASContext Fr Fr Fr)))
      (ctxp := 16) (commitmentsLength := 0) (commitmentsp := 0) (cellIndicesLength := 1)
      (cellIndicesp := 4096) (cellsLength := 0) (cellsp := 0) (proofsLength := 0) (proofsp := 0) (verified := 80) (ctx := ctx)
      (mptrs := []) (commitments := []) (inds := [0]) (cptrs := []) (cells := []) (pptrs := []) (proofs := [])
      (by decide) (by simp) rfl (by simp) ⟨⟨by simp, by simp⟩, .nil⟩ rfl words rfl (by simp) ⟨⟨by simp, by simp⟩, .nil⟩
      rfl (by simp) ⟨⟨by simp, by simp⟩, .nil⟩ (by decide) hmap
    rw [hbad] at this
    exact this
  have h2 := h1.act (.begin (r := good) hv1 (by simp) (by rintro a - ⟨p, n, hp, -⟩; cases hp))
  have h3 := h2.act (.begin (r := bad) hv2 (by
      intro c hc
      simp only [List.nil_append, List.mem_singleton] at hc
      subst hc
      intro a
      simp only [good, bad, nil_span, Span, List.length_nil, List.length_singleton, false_or, or_false]
      omega) (by rintro a - ⟨p, n, hp, -⟩; cases hp))
  -- the second ends with an error
  have hf := (C32_verify_cell_kzg_proof_batch (allocator _) (⟨mem, fun a => if a = 16 then some ctx else none, fun _ => none⟩ :
    CState (DASContext Fr Fr Fr)) id 16 0 0 1 4096 0 0 0 0 80 ctx (by decide) (by simp) [] rfl (by simp) ⟨[], ⟨by simp, by simp⟩, .nil⟩ [0] rfl words
    [] rfl (by simp) ⟨[], ⟨by simp, by simp⟩, .nil⟩ [] rfl (by simp) ⟨[], ⟨by simp, by simp⟩, .nil⟩ (by decide) hmap).2.2.1 _ hbad (by simp)
  have hplace : ∀ n ≤ 2 ^ 60, (allocator _).place (⟨mem, fun a => if a = 16 then some ctx else none, fun _ => none⟩ :
      CState (DASContext Fr Fr Fr)) n = some (2 ^ 60) := by
    intro n hn
    refine if_pos ⟨hn, rfl, fun i _ => ?_⟩
    change mem _ = none
    unfold mem
    rw [if_neg (by omega)]
  rcases hf with ⟨hf, -⟩ | ⟨p, s', hrun, hp, -, -, -, -, hkeep, -⟩
  · rw [hplace _ ?_] at hf
    · cases hf
    · decide +kernel
  · rw [hplace _ ?_] at hp
    rotate_left
    · decide +kernel
    cases hp
    have h4 := C79_sequential (before := [⟨good, good.call.prog id⟩]) (after := []) (c := ⟨bad, bad.call.prog id⟩) h3 rfl (allocator _)
      (res := ⟨.Err, 2 ^ 60⟩) (s' := s') (by
        rw [← hrun, ← (C68_same_functions (allocator _) id 16 0 0 1 4096 0 0 0 0 80).2.2.2]
        rfl)
    have h5 := h4.act (.returns (before := [⟨good, good.call.prog id⟩]) (after := []) (c := ⟨bad, .ret ⟨.Err, 2 ^ 60⟩⟩) (res := ⟨.Err, 2 ^ 60⟩) rfl rfl)
    refine ⟨_, h5, rfl, ?_, rfl, ?_⟩
    · simp
    · have hm : mem 64 = some 0 := by
        unfold mem
        rw [if_pos (by omega)]
      have := hkeep 64 (by simp [hm])
      simp only [hm] at this
      exact this

end CProcessExample
end Verif
