import Verif.Spec.CThreads

/-! A C program with several threads that keeps the rules of the API (C79): it creates and frees contexts, starts calls while others are in
progress, takes their results, frees error messages, and uses its own memory in between. -/
namespace Verif.Spec

/-- the context of a call -/
def CCall.ctx : CCall → Nat
  | .commitment ctx _ _ => ctx
  | .compute ctx _ _ _ => ctx
  | .recover ctx _ _ _ _ _ _ => ctx
  | .verify ctx _ _ _ _ _ _ _ _ _ => ctx

/-- neither call writes where the other reads or writes -/
def Compatible (r r' : Request) : Prop :=
  ∀ a, (r.writes a → ¬ r'.reads a ∧ ¬ r'.writes a) ∧ (r'.writes a → ¬ r.reads a ∧ ¬ r.writes a)

section
variable {K G1 G2 GT : Type} [Field K] [DecidableEq K] [AddCommGroup G1] [Module Fr G1] [DecidableEq G1]
  [Curve K G1] [PointCodec G1] [AddCommGroup G2] [Module Fr G2] [AddCommGroup GT] [DecidableEq GT]
  [Pairing G1 G2 GT]

/-- a call in progress, with what is left of it -/
structure Running (K G1 G2 : Type) where
  request : Request
  rest : CProg (DASContext K G1 G2) Empty CResult

/-- The process: its state, the calls in progress, and the contexts and messages that the program got and has not freed. -/
structure CProcess (K G1 G2 : Type) where
  s : CState (DASContext K G1 G2)
  running : List (Running K G1 G2)
  contexts : List Nat
  messages : List Nat

/-- no call in progress was given this address -/
def CProcess.Unused (w : CProcess K G1 G2) (a : Nat) : Prop := ∀ c ∈ w.running, ¬ c.request.reads a ∧ ¬ c.request.writes a

/-- the address belongs to an error message -/
def InMessage {Ctx : Type} (s : CState Ctx) (a : Nat) : Prop := ∃ p n, s.strings p = some n ∧ Span p n a

variable (setup : SetupPoints G1 G2) (sha256 : List UInt8 → List UInt8)

/-- What can happen next; `none` is undefined behaviour. The rules that the program keeps are the conditions of `begin`, `freeContext`,
`freeMessage`, `write` and `unmap`. -/
inductive Act : CProcess K G1 G2 → Option (CProcess K G1 G2) → Prop
  /-- a thread starts a call with valid arguments, outside the messages, compatible with the calls in progress -/
  | begin {w r} : ValidCall sha256 w.s r.call r.reads r.writes r.effect → (∀ c ∈ w.running, Compatible c.request r) →
      (∀ a, r.reads a ∨ r.writes a → ¬ InMessage w.s a) →
      Act w (some { w with running := w.running ++ [⟨r, r.call.prog sha256⟩] })
  /-- a call makes one step -/
  | step {w s' x'} {before after : List (Running K G1 G2)} {c : Running K G1 G2} : w.running = before ++ c :: after →
      CProg.Step w.s c.rest s' x' → Act w (some { w with s := s', running := before ++ { c with rest := x' } :: after })
  /-- a call returns; the program keeps the message, if there is one -/
  | returns {w res} {before after : List (Running K G1 G2)} {c : Running K G1 G2} : w.running = before ++ c :: after → c.rest = .ret res →
      Act w (some { w with
        running := before ++ after
        messages := if res.errorMsg = 0 then w.messages else res.errorMsg :: w.messages })
  | fault {w} {c : Running K G1 G2} : c ∈ w.running → c.rest = .fault → Act w none
  /-- a call may use its context and its memory until it has returned -/
  | contextGone {w} {c : Running K G1 G2} : c ∈ w.running → w.s.ctxs c.request.call.ctx = none → Act w none
  | memoryGone {w a} {c : Running K G1 G2} : c ∈ w.running → c.request.reads a ∨ c.request.writes a → w.s.mem a = none → Act w none
  /-- the program creates a context, wherever the allocator places it -/
  | newContext {w up p s'} {A : Allocator (DASContext K G1 G2)} : ethKzgDasContextNew A setup up w.s = .ok p s' →
      Act w (some { w with s := s', contexts := p :: w.contexts })
  /-- the program frees a context that no call in progress uses -/
  | freeContext {w p s'} : p ∈ w.contexts → (∀ c ∈ w.running, c.request.call.ctx ≠ p) → ethKzgDasContextFree p w.s = .ok () s' →
      Act w (some { w with s := s', contexts := w.contexts.erase p })
  | badFreeContext {w p} : p ∈ w.contexts → (∀ c ∈ w.running, c.request.call.ctx ≠ p) → ethKzgDasContextFree p w.s = .fault → Act w none
  | freeMessage {w p s'} : p ∈ w.messages → ethKzgFreeErrorMessage p w.s = .ok () s' →
      Act w (some { w with s := s', messages := w.messages.erase p })
  | badFreeMessage {w p} : p ∈ w.messages → ethKzgFreeErrorMessage p w.s = .fault → Act w none
  /-- the program writes to its memory, gets memory, gives memory back -/
  | write {w a b} : w.s.mem a ≠ none → w.Unused a → ¬ InMessage w.s a →
      Act w (some { w with s := { w.s with mem := fun x => if x = a then some b else w.s.mem x } })
  | map {w a b} : w.s.mem a = none → Act w (some { w with s := { w.s with mem := fun x => if x = a then some b else w.s.mem x } })
  | unmap {w a} : w.Unused a → ¬ InMessage w.s a →
      Act w (some { w with s := { w.s with mem := fun x => if x = a then none else w.s.mem x } })

/-- what can be reached from the start of the program -/
inductive Executes (mem : Memory) : Option (CProcess K G1 G2) → Prop
  | start : Executes mem (some ⟨⟨mem, fun _ => none, fun _ => none⟩, [], [], []⟩)
  | act {w r} : Executes mem (some w) → Act setup sha256 w r → Executes mem r

end
end Verif.Spec
