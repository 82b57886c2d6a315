import Verif.Lemmas.CPool
import Verif.Spec.CProcess
import Mathlib.Data.List.Nodup

set_option linter.unusedSectionVars false

/-! The invariant of a C program with several threads. -/
namespace Verif
open Spec (Holds Mapped Span Request Effect Compatible Running CProcess InMessage)

namespace CProcess
open CProg (Safe Own Mem)
open CPool (Post SafeFor Local SafeFor.congr)

variable {K G1 G2 : Type} [Field K] [DecidableEq K] [AddCommGroup G1] [Module Fr G1] [DecidableEq G1]
  [Curve K G1] [PointCodec G1] [AddCommGroup G2] [Module Fr G2]

/-- a call in progress with the message that it has allocated and the context that it got -/
structure Ghost (K G1 G2 : Type) where
  c : Running K G1 G2
  o : Own
  ctx : DASContext K G1 G2

/-- the context of the call alone -/
def Ghost.ctxs (g : Ghost K G1 G2) : Nat → Option (DASContext K G1 G2) := fun a => if a = g.c.request.call.ctx then some g.ctx else none

/-- the addresses given to the call -/
def Ghost.foot (g : Ghost K G1 G2) (a : Nat) : Prop := g.c.request.reads a ∨ g.c.request.writes a

structure GInv (s : CState (DASContext K G1 G2)) (g : Ghost K G1 G2) : Prop where
  safe : SafeFor g.ctxs g.c.request g.c.rest g.o s.mem
  loc : Local g.c.request
  mapped : ∀ a, g.foot a → s.mem a ≠ none
  outside : ∀ a, g.foot a → ¬ InMessage s a
  context : s.ctxs g.c.request.call.ctx = some g.ctx
  own : ∀ p msg, g.o = some (p, msg) → p ≠ 0 ∧ s.strings p = some (msg.length + 1) ∧ Holds s.mem p (msg ++ [0])
  fails : g.o ≠ none → ∀ regions, g.c.request.effect ≠ .ok regions

/-- changes that the call does not see -/
theorem GInv.change {s s' : CState (DASContext K G1 G2)} {g : Ghost K G1 G2} (h : GInv s g)
    (hm : ∀ a, g.foot a → s'.mem a = s.mem a)
    (hs : ∀ p msg, g.o = some (p, msg) → s'.strings p = s.strings p ∧ ∀ a, Span p (msg.length + 1) a → s'.mem a = s.mem a)
    (hi : ∀ a, g.foot a → InMessage s' a → InMessage s a)
    (hc : s'.ctxs g.c.request.call.ctx = s.ctxs g.c.request.call.ctx) : GInv s' g where
  safe := h.safe.congr h.loc fun a ha => (hm a ha).symm
  loc := h.loc
  mapped a ha := hm a ha ▸ h.mapped a ha
  outside a ha := fun hin => h.outside a ha (hi a ha hin)
  context := hc.trans h.context
  own p msg ho := by
    obtain ⟨h0, h1, h2⟩ := h.own p msg ho
    obtain ⟨h3, h4⟩ := hs p msg ho
    refine ⟨h0, h3.trans h1, fun i b hb => ?_⟩
    rw [h4 _ ⟨by omega, ?_⟩, h2 i b hb]
    have := (List.getElem?_eq_some_iff.1 hb).1
    simp only [List.length_append, List.length_singleton] at this
    omega
  fails := h.fails

/-- the messages that the calls in progress have allocated -/
def owned (gs : List (Ghost K G1 G2)) : List Nat := gs.filterMap fun g => g.o.map Prod.fst

theorem mem_owned {gs : List (Ghost K G1 G2)} {p : Nat} : p ∈ owned gs ↔ ∃ g ∈ gs, ∃ msg, g.o = some (p, msg) := by
  simp only [owned, List.mem_filterMap, Option.map_eq_some_iff, Prod.exists, exists_and_right, exists_eq_right]

theorem owned_append (gs gs' : List (Ghost K G1 G2)) : owned (gs ++ gs') = owned gs ++ owned gs' := List.filterMap_append ..
theorem owned_none {g : Ghost K G1 G2} (h : g.o = none) (gs : List (Ghost K G1 G2)) : owned (g :: gs) = owned gs := by
  simp [owned, h]
theorem owned_some {g : Ghost K G1 G2} {p msg} (h : g.o = some (p, msg)) (gs : List (Ghost K G1 G2)) : owned (g :: gs) = p :: owned gs := by
  simp [owned, h]

/-- the strings are mapped and apart -/
structure SInv {Ctx : Type} (s : CState Ctx) : Prop where
  mapped : ∀ p n a, s.strings p = some n → Span p n a → s.mem a ≠ none
  apart : ∀ p q n m a, s.strings p = some n → s.strings q = some m → Span p n a → Span q m a → p = q

/-- the message that the program has got -/
def MInv {Ctx : Type} (s : CState Ctx) (p : Nat) : Prop :=
  p ≠ 0 ∧ ∃ e : Error, s.strings p = some (e.debug.length + 1) ∧ Holds s.mem p (e.debug ++ [0])

/-- the invariant -/
structure Inv (setup : SetupPoints G1 G2) (w : CProcess K G1 G2) (gs : List (Ghost K G1 G2)) : Prop where
  running : w.running = gs.map Ghost.c
  calls : ∀ g ∈ gs, GInv w.s g
  compatible : (gs.map fun g => g.c.request).Pairwise Compatible
  strings : SInv w.s
  messages : ∀ p ∈ w.messages, MInv w.s p
  nodup : (owned gs ++ w.messages).Nodup
  live : ∀ p, w.s.strings p ≠ none → p ∈ owned gs ++ w.messages
  ctxNodup : w.contexts.Nodup
  ctxLive : ∀ p, w.s.ctxs p ≠ none ↔ p ∈ w.contexts
  ctxNew : ∀ p ∈ w.contexts, p ≠ 0 ∧ ∃ (up : Bool) (ctx : DASContext K G1 G2), w.s.ctxs p = some ctx ∧
    (DASContext.new setup (if up then .yes RECOMMENDED_PRECOMP_WIDTH else .no) : Outcome Empty (DASContext K G1 G2)) = .ok ctx

theorem Inv.start (setup : SetupPoints G1 G2) (mem : Mem) : Inv setup (⟨⟨mem, fun _ => none, fun _ => none⟩, [], [], []⟩ : CProcess K G1 G2) [] where
  running := rfl
  calls := by simp
  compatible := .nil
  strings := ⟨by simp, by simp⟩
  messages := by simp
  nodup := by simp [owned]
  live := by simp
  ctxNodup := .nil
  ctxLive := by simp
  ctxNew := by simp

theorem compatible_symm {r r' : Request} (h : Compatible r r') : Compatible r' r := fun a => (h a).symm

/-- the other calls are compatible with the one in the middle -/
theorem others {pre post : List (Ghost K G1 G2)} {g g' : Ghost K G1 G2}
    (h : ((pre ++ g :: post).map fun g => g.c.request).Pairwise Compatible) (hg : g' ∈ pre ∨ g' ∈ post) :
    Compatible g.c.request g'.c.request := by
  rw [List.pairwise_map, List.pairwise_append, List.pairwise_cons] at h
  rcases hg with hg | hg
  · exact compatible_symm (h.2.2 g' hg g (by simp))
  · exact h.2.1.1 g' hg

/-- a message of the invariant is a live string -/
theorem Inv.string {setup : SetupPoints G1 G2} {w : CProcess K G1 G2} {gs : List (Ghost K G1 G2)} (h : Inv setup w gs) {p : Nat}
    (hp : p ∈ owned gs ++ w.messages) : w.s.strings p ≠ none := by
  rcases List.mem_append.1 hp with hp | hp
  · obtain ⟨g, hg, msg, ho⟩ := mem_owned.1 hp
    rw [((h.calls g hg).own p msg ho).2.1]
    simp
  · obtain ⟨-, e, he, -⟩ := h.messages p hp
    rw [he]
    simp

theorem span_holds {p : Nat} {msg : List UInt8} {mem : Mem} (h : Holds mem p (msg ++ [0])) {mem' : Mem}
    (hm : ∀ a, Span p (msg.length + 1) a → mem' a = mem a) : Holds mem' p (msg ++ [0]) := by
  intro i b hb
  rw [hm _ ⟨by omega, ?_⟩, h i b hb]
  have := (List.getElem?_eq_some_iff.1 hb).1
  simp only [List.length_append, List.length_singleton] at this
  omega

theorem inMessage_congr {Ctx : Type} {s s' : CState Ctx} (h : s'.strings = s.strings) {a : Nat} : InMessage s' a ↔ InMessage s a := by
  unfold InMessage
  rw [h]

theorem SInv.setMem {Ctx : Type} {s s' : CState Ctx} (h : SInv s) (hs : s'.strings = s.strings)
    (hm : ∀ a, InMessage s a → s'.mem a = s.mem a) : SInv s' where
  mapped p n a hp ha := by
    rw [hs] at hp
    rw [hm a ⟨p, n, hp, ha⟩]
    exact h.mapped p n a hp ha
  apart := by rw [hs]; exact h.apart

theorem MInv.setMem {Ctx : Type} {s s' : CState Ctx} {p : Nat} (h : MInv s p) (hs : s'.strings = s.strings)
    (hm : ∀ a, InMessage s a → s'.mem a = s.mem a) : MInv s' p := by
  obtain ⟨h0, e, h1, h2⟩ := h
  exact ⟨h0, e, hs ▸ h1, span_holds h2 fun a ha => hm a ⟨p, _, h1, ha⟩⟩

variable {setup : SetupPoints G1 G2}

/-- a step of one call that leaves the messages and the contexts alone -/
theorem Inv.middle {w : CProcess K G1 G2} {pre post : List (Ghost K G1 G2)} {g g' : Ghost K G1 G2} (h : Inv setup w (pre ++ g :: post))
    {s' : CState (DASContext K G1 G2)} (hg' : GInv s' g') (hreq : g'.c.request = g.c.request) (ho : g'.o = g.o)
    (hothers : ∀ g'', g'' ∈ pre ∨ g'' ∈ post → GInv s' g'') (hs : s'.strings = w.s.strings)
    (hm : ∀ a, InMessage w.s a → s'.mem a = w.s.mem a) (hc : s'.ctxs = w.s.ctxs) :
    Inv setup { w with s := s', running := (pre ++ g' :: post).map Ghost.c } (pre ++ g' :: post) := by
  have hown : owned (pre ++ g' :: post) = owned (pre ++ g :: post) := by simp only [owned, List.filterMap_append, List.filterMap_cons, ho]
  refine ⟨rfl, ?_, ?_, h.strings.setMem hs hm, fun p hp => (h.messages p hp).setMem hs hm, ?_, ?_, h.ctxNodup, ?_, ?_⟩
  · intro g'' hg
    simp only [List.mem_append, List.mem_cons] at hg
    rcases hg with hg | rfl | hg
    · exact hothers g'' (.inl hg)
    · exact hg'
    · exact hothers g'' (.inr hg)
  · have := h.compatible
    simpa [hreq] using this
  · rw [hown]
    exact h.nodup
  · rw [hown]
    simp only [hs]
    exact h.live
  · simp only [hc]
    exact h.ctxLive
  · simp only [hc]
    exact h.ctxNew

/-- the program changes its own memory -/
theorem Inv.setMem {w : CProcess K G1 G2} {gs : List (Ghost K G1 G2)} (h : Inv setup w gs) {mem' : Mem}
    (hf : ∀ g ∈ gs, ∀ a, g.foot a → mem' a = w.s.mem a) (hm : ∀ a, InMessage w.s a → mem' a = w.s.mem a) :
    Inv setup { w with s := { w.s with mem := mem' } } gs where
  running := h.running
  calls g hg := (h.calls g hg).change (hf g hg)
    (fun p msg ho => ⟨rfl, fun a ha => hm a ⟨p, _, ((h.calls g hg).own p msg ho).2.1, ha⟩⟩) (fun _ _ hi => hi) rfl
  compatible := h.compatible
  strings := h.strings.setMem rfl hm
  messages p hp := (h.messages p hp).setMem rfl hm
  nodup := h.nodup
  live := h.live
  ctxNodup := h.ctxNodup
  ctxLive := h.ctxLive
  ctxNew := h.ctxNew

/-- a step of a call keeps the invariant -/
theorem Inv.step {w : CProcess K G1 G2} {pre post : List (Ghost K G1 G2)} {g : Ghost K G1 G2} (h : Inv setup w (pre ++ g :: post))
    {s' : CState (DASContext K G1 G2)} {x' : CProg (DASContext K G1 G2) Empty CResult} (hst : CProg.Step w.s g.c.rest s' x') :
    ∃ g', g'.c = { g.c with rest := x' } ∧
      Inv setup { w with s := s', running := (pre ++ g' :: post).map Ghost.c } (pre ++ g' :: post) := by
  have hg := h.calls g (by simp)
  have hsafe := hg.safe
  have hoth : ∀ g'', g'' ∈ pre ∨ g'' ∈ post → GInv w.s g'' := fun g'' hg'' => h.calls g'' (by
    simp only [List.mem_append, List.mem_cons]; tauto)
  obtain ⟨s, running, contexts, messages⟩ := w
  obtain ⟨⟨r, x⟩, o, ctx⟩ := g
  simp only at hst hsafe
  -- the state is unchanged
  have same : SafeFor (Ghost.ctxs ⟨⟨r, x⟩, o, ctx⟩) r x' o s.mem → s' = s → ∃ g' : Ghost K G1 G2, g'.c = { (⟨r, x⟩ : Running K G1 G2) with rest := x' } ∧
      Inv setup ⟨s', (pre ++ g' :: post).map Ghost.c, contexts, messages⟩ (pre ++ g' :: post) := by
    rintro hx rfl
    exact ⟨⟨⟨r, x'⟩, o, ctx⟩, rfl, h.middle (g' := ⟨⟨r, x'⟩, o, ctx⟩) ⟨hx, hg.loc, hg.mapped, hg.outside, hg.context, hg.own, hg.fails⟩
      rfl rfl hoth rfl (fun _ _ => rfl) rfl⟩
  cases hst with
  | read hb =>
    obtain ⟨-, b, hb', hk⟩ := hsafe
    rw [hb] at hb'
    cases hb'
    exact same hk rfl
  | badRead hb =>
    obtain ⟨-, b, hb', hk⟩ := hsafe
    rw [hb] at hb'
    cases hb'
  | @write p b k hb =>
    obtain ⟨hw, -, hk⟩ := hsafe
    have hne : ∀ a, a ≠ p → (fun a => if a = p then some b else s.mem a) a = s.mem a := fun a ha => if_neg ha
    have hmsg : ∀ a, InMessage s a → (fun a => if a = p then some b else s.mem a) a = s.mem a := by
      intro a ha
      apply hne
      rintro rfl
      exact hg.outside a (.inr hw) ha
    refine ⟨⟨⟨r, x'⟩, o, ctx⟩, rfl, h.middle (g' := ⟨⟨r, x'⟩, o, ctx⟩) ⟨hk, hg.loc, ?_, hg.outside, hg.context, ?_, hg.fails⟩ rfl rfl ?_ rfl hmsg rfl⟩
    · intro a ha
      simp only
      split_ifs
      · simp
      · exact hg.mapped a ha
    · intro q msg ho
      obtain ⟨h0, h1, h2⟩ := hg.own q msg ho
      exact ⟨h0, h1, span_holds h2 fun a ha => hmsg a ⟨q, _, h1, ha⟩⟩
    · intro g'' hg''
      refine (hoth g'' hg'').change ?_ ?_ (fun _ _ hi => hi) rfl
      · intro a ha
        apply hne
        rintro rfl
        have := (others h.compatible hg'' a).1 hw
        rcases ha with ha | ha
        · exact this.1 ha
        · exact this.2 ha
      · intro q msg ho
        exact ⟨rfl, fun a ha => hmsg a ⟨q, _, ((hoth g'' hg'').own q msg ho).2.1, ha⟩⟩
  | badWrite hb =>
    obtain ⟨-, hb', -⟩ := hsafe
    exact absurd hb hb'
  | @ctx p c k hb =>
    obtain ⟨c', hb', hk⟩ := hsafe
    simp only [Ghost.ctxs] at hb'
    split_ifs at hb' with hp
    subst hp
    cases hb'
    have := hg.context
    simp only at this
    rw [this] at hb
    cases hb
    exact same hk rfl
  | @badCtx p k hb =>
    obtain ⟨c', hb', hk⟩ := hsafe
    simp only [Ghost.ctxs] at hb'
    split_ifs at hb' with hp
    subst hp
    have := hg.context
    simp only at this
    rw [this] at hb
    cases hb
  | @alloc msg p k h0 h64 hstr hfree =>
    obtain ⟨ho, hfail, hk⟩ := hsafe
    subst ho
    have hspan : ∀ a, Span p (msg.length + 1) a → s.mem a = none := by
      intro a ha
      have := hfree (a - p) (by have := ha.1; have := ha.2; omega)
      rwa [show p + (a - p) = a by have := ha.1; omega] at this
    have hout : ∀ a, s.mem a ≠ none → overwrite s.mem p (msg ++ [0]) a = s.mem a := by
      intro a ha
      apply overwrite_outside
      by_contra hcon
      simp only [List.length_append, List.length_singleton] at hcon
      exact ha (hspan a ⟨by omega, by omega⟩)
    have hold : ∀ q n, s.strings q = some n → (if q = p then some (msg.length + 1) else s.strings q) = s.strings q := by
      intro q n hq
      rw [if_neg]
      rintro rfl
      rw [hstr] at hq
      cases hq
    have hin : ∀ a, s.mem a ≠ none → InMessage (⟨overwrite s.mem p (msg ++ [0]), s.ctxs, fun a => if a = p then some (msg.length + 1) else s.strings a⟩ :
        CState (DASContext K G1 G2)) a → InMessage s a := by
      rintro a ha ⟨q, n, hq, hs⟩
      simp only at hq
      split_ifs at hq with hqp
      · cases hq
        subst hqp
        exact absurd (hspan a hs) ha
      · exact ⟨q, n, hq, hs⟩
    have hchange : ∀ g'' : Ghost K G1 G2, GInv s g'' → GInv (⟨overwrite s.mem p (msg ++ [0]), s.ctxs, fun a => if a = p then some (msg.length + 1) else s.strings a⟩ :
        CState (DASContext K G1 G2)) g'' := by
      intro g'' h''
      refine h''.change (fun a ha => hout a (h''.mapped a ha)) ?_ (fun a ha => hin a (h''.mapped a ha)) rfl
      intro q m hq
      exact ⟨hold q _ (h''.own q m hq).2.1, fun a ha => hout a (h.strings.mapped q _ a (h''.own q m hq).2.1 ha)⟩
    have hg2 := hchange _ hg
    have hpm : p ∉ owned (pre ++ post) ++ messages := by
      intro hp
      refine h.string (p := p) ?_ hstr
      rw [owned_append, owned_none rfl, ← owned_append]
      exact hp
    refine ⟨⟨⟨r, k p⟩, some (p, msg), ctx⟩, rfl, rfl, ?_, ?_, ?_, ?_, ?_, ?_, h.ctxNodup, h.ctxLive, h.ctxNew⟩
    · intro g'' hg''
      simp only [List.mem_append, List.mem_cons] at hg''
      rcases hg'' with hg'' | rfl | hg''
      · exact hchange _ (hoth g'' (.inl hg''))
      · refine ⟨?_, hg.loc, hg2.mapped, hg2.outside, hg2.context, ?_, fun _ => hfail⟩
        · exact SafeFor.congr hg.loc (fun a ha => (hout a (hg.mapped a ha)).symm) (hk p h0)
        · intro q m hq
          cases hq
          exact ⟨h0, by simp, holds_overwrite_self _ _ _⟩
      · exact hchange _ (hoth g'' (.inr hg''))
    · have := h.compatible
      simpa using this
    · constructor
      · intro q n a hq ha
        simp only at hq ⊢
        split_ifs at hq with hqp
        · cases hq
          subst hqp
          unfold overwrite
          rw [if_pos (by simpa [Span] using ha), List.getElem?_eq_getElem (by have := ha.1; have := ha.2; simp; omega)]
          simp
        · rw [hout a (h.strings.mapped q n a hq ha)]
          exact h.strings.mapped q n a hq ha
      · intro q q' n m a hq hq' ha ha'
        simp only at hq hq'
        split_ifs at hq hq' with h1 h2 h2
        · exact h1.trans h2.symm
        · cases hq
          subst h1
          exact absurd (hspan a ha) (h.strings.mapped q' m a hq' ha')
        · cases hq'
          subst h2
          exact absurd (hspan a ha') (h.strings.mapped q n a hq ha)
        · exact h.strings.apart q q' n m a hq hq' ha ha'
    · intro q hq
      obtain ⟨h1, e, h2, h3⟩ := h.messages q hq
      refine ⟨h1, e, (hold q _ h2).trans h2, span_holds h3 fun a ha => hout a (h.strings.mapped q _ a h2 ha)⟩
    · have := h.nodup
      rw [owned_append, owned_none rfl] at this
      rw [owned_append, owned_some rfl, List.append_assoc, List.cons_append, List.nodup_middle, List.nodup_cons]
      simp only [owned_append, List.append_assoc] at this hpm ⊢
      exact ⟨hpm, this⟩
    · intro q hq
      simp only at hq
      rw [owned_append, owned_some rfl]
      split_ifs at hq with hqp
      · subst hqp; simp
      · have := h.live q hq
        rw [owned_append, owned_none rfl] at this
        simp only [List.mem_append, List.mem_cons] at this ⊢
        tauto
  | noMemory =>
    obtain ⟨-, hp, -⟩ := hsafe
    exact same hp rfl

/-- what a call that returns leaves -/
theorem Inv.returns {w : CProcess K G1 G2} {pre post : List (Ghost K G1 G2)} {g : Ghost K G1 G2} (h : Inv setup w (pre ++ g :: post))
    {res : CResult} (hr : g.c.rest = .ret res) :
    Inv setup { w with running := (pre ++ post).map Ghost.c, messages := if res.errorMsg = 0 then w.messages else res.errorMsg :: w.messages }
      (pre ++ post) := by
  have hg := h.calls g (by simp)
  have hpost : Post g.c.request.effect res g.o w.s.mem := by
    have := hg.safe
    rw [hr] at this
    exact this
  have hcalls : ∀ g' ∈ pre ++ post, GInv w.s g' := fun g' hg' => h.calls g' (by
    simp only [List.mem_append, List.mem_cons] at hg' ⊢; tauto)
  have hcomp : ((pre ++ post).map fun g => g.c.request).Pairwise Compatible := by
    refine h.compatible.sublist ?_
    exact (List.Sublist.append (List.Sublist.refl _) (List.sublist_cons_self _ _)).map _
  cases he : g.c.request.effect with
  | ok regions =>
    have ho : g.o = none := by
      by_contra hn
      exact hg.fails hn regions he
    rw [he] at hpost
    have heq : owned (pre ++ g :: post) = owned (pre ++ post) := by rw [owned_append, owned_none ho, ← owned_append]
    refine ⟨rfl, hcalls, hcomp, h.strings, ?_, ?_, ?_, h.ctxNodup, h.ctxLive, h.ctxNew⟩
    · simp only [hpost.1, if_true]
      exact h.messages
    · simp only [hpost.1, if_true, ← heq]
      exact h.nodup
    · simp only [hpost.1, if_true, ← heq]
      exact h.live
  | err e =>
    rw [he] at hpost
    obtain ⟨p, h0, ho, rfl⟩ := hpost
    obtain ⟨-, h1, h2⟩ := hg.own p _ ho
    have hperm : List.Perm (owned (pre ++ g :: post) ++ w.messages) (owned (pre ++ post) ++ p :: w.messages) := by
      rw [owned_append, owned_some ho, owned_append, List.append_assoc, List.cons_append]
      refine List.perm_middle.trans ?_
      rw [← List.append_assoc]
      exact List.perm_middle.symm
    simp only [if_neg h0]
    refine ⟨rfl, hcalls, hcomp, h.strings, ?_, hperm.nodup_iff.1 h.nodup, fun q hq => hperm.mem_iff.1 (h.live q hq), h.ctxNodup, h.ctxLive,
      h.ctxNew⟩
    intro q hq
    rcases List.mem_cons.1 hq with rfl | hq
    · exact ⟨h0, e, h1, h2⟩
    · exact h.messages q hq
  | panic =>
    rw [he] at hpost
    exact hpost.elim

/-- the program frees a message -/
theorem Inv.freeMessage {w : CProcess K G1 G2} {gs : List (Ghost K G1 G2)} (h : Inv setup w gs) {p : Nat} (hp : p ∈ w.messages) :
    ∃ s', ethKzgFreeErrorMessage p w.s = .ok () s' ∧ Inv setup { w with s := s', messages := w.messages.erase p } gs := by
  obtain ⟨h0, e, h1, h2⟩ := h.messages p hp
  refine ⟨_, by unfold ethKzgFreeErrorMessage; rw [if_neg h0, h1], ?_⟩
  have hnd := (List.nodup_append.1 h.nodup)
  have hold : ∀ q, q ≠ p → (if q = p then none else w.s.strings q) = w.s.strings q := fun q hq => if_neg hq
  have hmem : ∀ q n a, q ≠ p → w.s.strings q = some n → Span q n a →
      (if p ≤ a ∧ a < p + (e.debug.length + 1) then none else w.s.mem a) = w.s.mem a := by
    intro q n a hq hs ha
    rw [if_neg]
    intro hcon
    exact hq (h.strings.apart q p n _ a hs h1 ha hcon)
  have hown : ∀ g ∈ gs, ∀ q msg, g.o = some (q, msg) → q ≠ p := by
    rintro g hg q msg ho rfl
    exact hnd.2.2 q (mem_owned.2 ⟨g, hg, msg, ho⟩) q hp rfl
  refine ⟨h.running, ?_, h.compatible, ?_, ?_, ?_, ?_, h.ctxNodup, h.ctxLive, h.ctxNew⟩
  · intro g hg
    refine (h.calls g hg).change ?_ ?_ ?_ rfl
    · intro a ha
      simp only
      rw [if_neg]
      intro hcon
      exact (h.calls g hg).outside a ha ⟨p, _, h1, hcon⟩
    · intro q msg ho
      exact ⟨hold q (hown g hg q msg ho), fun a ha => hmem q _ a (hown g hg q msg ho) ((h.calls g hg).own q msg ho).2.1 ha⟩
    · rintro a ha ⟨q, n, hq, hs⟩
      simp only at hq
      split_ifs at hq
      exact ⟨q, n, hq, hs⟩
  · constructor
    · intro q n a hq ha
      simp only at hq ⊢
      split_ifs at hq with hqp
      rw [hmem q n a hqp hq ha]
      exact h.strings.mapped q n a hq ha
    · intro q q' n m a hq hq' ha ha'
      simp only at hq hq'
      split_ifs at hq hq'
      exact h.strings.apart q q' n m a hq hq' ha ha'
  · intro q hq
    have hq' := (List.Nodup.mem_erase_iff hnd.2.1).1 hq
    obtain ⟨k0, e', k1, k2⟩ := h.messages q hq'.2
    exact ⟨k0, e', (hold q hq'.1).trans k1, span_holds k2 fun a ha => hmem q _ a hq'.1 k1 ha⟩
  · refine h.nodup.sublist ?_
    exact List.Sublist.append (List.Sublist.refl _) List.erase_sublist
  · intro q hq
    simp only at hq
    split_ifs at hq with hqp
    · exact absurd rfl hq
    · have := h.live q hq
      rw [List.mem_append] at this ⊢
      exact this.imp_right fun hm => (List.Nodup.mem_erase_iff hnd.2.1).2 ⟨hqp, hm⟩

/-- the program frees a context that no call uses -/
theorem Inv.freeContext {w : CProcess K G1 G2} {gs : List (Ghost K G1 G2)} (h : Inv setup w gs) {p : Nat} (hp : p ∈ w.contexts)
    (hu : ∀ c ∈ w.running, c.request.call.ctx ≠ p) :
    ∃ s', ethKzgDasContextFree p w.s = .ok () s' ∧ Inv setup { w with s := s', contexts := w.contexts.erase p } gs := by
  obtain ⟨h0, up, ctx, h1, -⟩ := h.ctxNew p hp
  refine ⟨_, by unfold ethKzgDasContextFree; rw [if_neg h0, h1], ?_⟩
  refine ⟨h.running, ?_, h.compatible, ⟨h.strings.mapped, h.strings.apart⟩, h.messages, h.nodup, h.live, h.ctxNodup.erase _, ?_, ?_⟩
  · intro g hg
    refine (h.calls g hg).change (fun _ _ => rfl) (fun _ _ _ => ⟨rfl, fun _ _ => rfl⟩) (fun _ _ hi => hi) ?_
    simp only
    rw [if_neg]
    exact hu g.c (by rw [h.running]; exact List.mem_map_of_mem hg)
  · intro q
    simp only
    rw [h.ctxNodup.mem_erase_iff, ← h.ctxLive]
    split_ifs with hq
    · simp [hq]
    · simp [hq]
  · intro q hq
    have hq' := h.ctxNodup.mem_erase_iff.1 hq
    simp only [if_neg hq'.1]
    exact h.ctxNew q hq'.2

/-- the program creates a context -/
theorem Inv.newContext {w : CProcess K G1 G2} {gs : List (Ghost K G1 G2)} (h : Inv setup w gs) {A : Allocator (DASContext K G1 G2)}
    {up : Bool} {p : Nat} {s' : CState (DASContext K G1 G2)} (hn : ethKzgDasContextNew A setup up w.s = .ok p s') :
    Inv setup { w with s := s', contexts := p :: w.contexts } gs := by
  unfold ethKzgDasContextNew at hn
  split at hn
  · rename_i ctx hctx
    split at hn
    · rename_i q hq
      cases hn
      obtain ⟨h0, -, hfree⟩ := A.freshCtx _ _ hq
      have hnot : p ∉ w.contexts := fun hp => (h.ctxLive p).2 hp hfree
      refine ⟨h.running, ?_, h.compatible, ⟨h.strings.mapped, h.strings.apart⟩, h.messages, h.nodup, h.live, List.nodup_cons.2 ⟨hnot, h.ctxNodup⟩,
        ?_, ?_⟩
      · intro g hg
        refine (h.calls g hg).change (fun _ _ => rfl) (fun _ _ _ => ⟨rfl, fun _ _ => rfl⟩) (fun _ _ hi => hi) ?_
        simp only
        rw [if_neg]
        rintro he
        rw [← he, (h.calls g hg).context] at hfree
        cases hfree
      · intro q
        simp only [List.mem_cons]
        rw [← h.ctxLive]
        split_ifs with hqp
        · simp [hqp]
        · simp [hqp]
      · intro q hq'
        simp only
        rcases List.mem_cons.1 hq' with hqp | hq2
        · subst hqp
          exact ⟨h0, up, ctx, by simp, hctx⟩
        · obtain ⟨k0, up', ctx', k1, k2⟩ := h.ctxNew q hq2
          refine ⟨k0, up', ctx', ?_, k2⟩
          rw [if_neg, k1]
          rintro rfl
          exact hnot hq2
    · cases hn
  · cases hn

end CProcess
end Verif
