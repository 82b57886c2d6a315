import Verif.Props.EmbeddedSecret
import Verif.Props.Groupings

set_option linter.unusedSectionVars false

/-!
C61, C83, C84 and C86 for contexts made from the embedded setup, on BLS12-381: nothing is assumed about the curve or about the
evaluation points, only that the points of the file are the powers of some `τ` and that the pairing is bilinear and not trivial on
the generators.
-/
namespace Verif
open Polynomial Finset

section
open Bls Embedded
variable {GT : Type} [AddCommGroup GT] [DecidableEq GT] [Pairing Bls.G1 Bls.G2 GT] [LawfulPairing Bls.G1 Bls.G2 GT]

theorem embedded_nondegenerate (hnd : (pair generator generator2 : GT) ≠ 0) : ∀ a : Bls.G1, pair a generator2 = (0 : GT) → a = 0 :=
  fun a ha => ((C74_nondegenerate hnd a generator2).1 ha).resolve_right generator2_ne

open Classical in
/-- C61 with the embedded setup: soundness against attackers who choose after hashing. -/
theorem C61_embedded_soundness (hnd : (pair generator generator2 : GT) ≠ 0) (points : SetupPoints Bls.G1 Bls.G2) (τ : Fr)
    (h : Secret points τ) (lagrange : List (List UInt8)) (up : UsePrecomp)
    (ctx : DASContext Fp Bls.G1 Bls.G2) (hctx : (DASContext.ofTrustedSetup (Embedded.setup lagrange) up : Outcome Error (DASContext Fp Bls.G1 Bls.G2)) = .ok ctx)
    (n : Nat) (hn : n < 2 ^ 64) (D : Finset (List UInt8)) (hD : ∀ x : List UInt8, x.length ≤ 48 + 2160 * n → x ∈ D)
    (rest : List UInt8 → Spec.Digest) (A : Spec.Attacker (List Spec.Batch)) (q m : Nat) (hA : A.AtMost q) :
    (univ.filter (fun ω : Spec.Table D =>
      ∃ b ∈ (A.run (ω.hash rest)).take m, b.IsFalse τ generator n ∧ Accepts ctx (ω.hash rest) b)).card * 2 ^ 256 ≤
      (q + m) * (3 * (n - 1)) * Fintype.card (Spec.Table D) := by
  rw [context_eq lagrange points h.file] at hctx
  exact C61_soundness points up τ generator generator2 h.powers (embedded_nondegenerate hnd) ctx hctx n hn D hD rest A q m hA

open Classical in
/-- C61 with the embedded setup: binding. -/
theorem C61_embedded_binding (hnd : (pair generator generator2 : GT) ≠ 0) (points : SetupPoints Bls.G1 Bls.G2) (τ : Fr)
    (h : Secret points τ) (lagrange : List (List UInt8)) (up : UsePrecomp)
    (ctx : DASContext Fp Bls.G1 Bls.G2) (hctx : (DASContext.ofTrustedSetup (Embedded.setup lagrange) up : Outcome Error (DASContext Fp Bls.G1 Bls.G2)) = .ok ctx)
    (n : Nat) (hn : n < 2 ^ 64) (D : Finset (List UInt8)) (hD : ∀ x : List UInt8, x.length ≤ 48 + 2160 * n → x ∈ D)
    (rest : List UInt8 → Spec.Digest) (A : Spec.Attacker (List Spec.Batch)) (q : Nat) (hA : A.AtMost q) :
    (univ.filter (fun ω : Spec.Table D => ∃ b b', A.run (ω.hash rest) = [b, b'] ∧ b.Sized n ∧ b'.Sized n ∧ b.Contradicts b' ∧
      Accepts ctx (ω.hash rest) b ∧ Accepts ctx (ω.hash rest) b')).card * 2 ^ 256 ≤
    (univ.filter (fun ω : Spec.Table D => ∃ b b', A.run (ω.hash rest) = [b, b'] ∧
      Spec.SolvesSdh (GT := GT) points.g1Monomial points.g2Monomial τ generator generator2 b b')).card * 2 ^ 256 +
      (q + 2) * (3 * (n - 1)) * Fintype.card (Spec.Table D) := by
  rw [context_eq lagrange points h.file] at hctx
  exact C61_binding points up τ generator generator2 h.powers (embedded_nondegenerate hnd) (fun i _ => (C80_secret points τ h).2.2 i) ctx hctx n hn D hD rest A q hA

open Classical in
/-- C61 with the embedded setup: availability. -/
theorem C61_embedded_availability (hnd : (pair generator generator2 : GT) ≠ 0) (points : SetupPoints Bls.G1 Bls.G2) (τ : Fr)
    (h : Secret points τ) (lagrange : List (List UInt8)) (up : UsePrecomp)
    (verifier ctx : DASContext Fp Bls.G1 Bls.G2) (hver : (DASContext.ofTrustedSetup (Embedded.setup lagrange) up : Outcome Error (DASContext Fp Bls.G1 Bls.G2)) = .ok verifier)
    (hctx : (DASContext.ofTrustedSetup (Embedded.setup lagrange) .no : Outcome Error (DASContext Fp Bls.G1 Bls.G2)) = .ok ctx)
    (n : Nat) (hn : n < 2 ^ 64) (D : Finset (List UInt8)) (hD : ∀ x : List UInt8, x.length ≤ 48 + 2160 * n → x ∈ D)
    (rest : List UInt8 → Spec.Digest) (A : Spec.Attacker (List Spec.Batch)) (q : Nat) (hA : A.AtMost q) :
    (univ.filter (fun ω : Spec.Table D => ∃ b cm, A.run (ω.hash rest) = [b] ∧ b.Sized n ∧ b.Half cm ∧
      Accepts verifier (ω.hash rest) b ∧ ¬ Available ctx cm b.inds b.cells)).card * 2 ^ 256 ≤
    (univ.filter (fun ω : Spec.Table D => ∃ b cm, A.run (ω.hash rest) = [b] ∧ b.Half cm ∧
      Spec.BreaksSetup (GT := GT) points.g1Monomial points.g2Monomial τ generator generator2 b cm)).card * 2 ^ 256 +
      (q + 1) * (3 * (n - 1)) * Fintype.card (Spec.Table D) := by
  rw [context_eq lagrange points h.file] at hver hctx
  exact C61_availability points up τ generator generator2 h.powers (embedded_nondegenerate hnd) (fun i _ => (C80_secret points τ h).2.2 i) verifier ctx hver hctx n hn D hD rest A q hA

open Classical in
/-- C83 with the embedded setup: many clients. -/
theorem C83_embedded_clients (hnd : (pair generator generator2 : GT) ≠ 0) (points : SetupPoints Bls.G1 Bls.G2) (τ : Fr)
    (h : Secret points τ) (lagrange : List (List UInt8)) (up : UsePrecomp)
    (verifier ctx : DASContext Fp Bls.G1 Bls.G2) (hver : (DASContext.ofTrustedSetup (Embedded.setup lagrange) up : Outcome Error (DASContext Fp Bls.G1 Bls.G2)) = .ok verifier)
    (hctx : (DASContext.ofTrustedSetup (Embedded.setup lagrange) .no : Outcome Error (DASContext Fp Bls.G1 Bls.G2)) = .ok ctx)
    (k n m : Nat) (hk : k ≤ 128) (D : Finset (List UInt8)) (hD : ∀ x : List UInt8, x.length ≤ 48 + 2160 * k → x ∈ D)
    (rest : List UInt8 → Spec.Digest)
    (A : (Fin n → Spec.ColumnRequest k) → Spec.Attacker (List UInt8 × (Fin n → Option (Spec.Reply k)))) (q : Nat)
    (hA : ∀ r, (A r).AtMost q) :
    (univ.filter (fun p : Spec.Table D × (Fin n → Spec.ColumnRequest k) =>
      let hash := p.1.hash rest
      let out := (A p.2).run hash
      let checked := fun i => Checked verifier hash out.1 (p.2 i) (out.2 i)
      m ≤ (univ.filter (fun i => ∃ b, checked i b)).card ∧
      ∃ b : Spec.Batch, b.Collects out.1 (fun c => ∃ i, checked i c) ∧ ¬ Available ctx out.1 b.inds b.cells ∧
        ¬ Spec.BreaksSetup (GT := GT) points.g1Monomial points.g2Monomial τ generator generator2 b out.1)).card * 2 ^ 256 ≤
    n.choose m * ((128 : Nat).choose 63 * ((63 : Nat).descFactorial k ^ m * (128 : Nat).descFactorial k ^ (n - m))) *
        Fintype.card (Spec.Table D) * 2 ^ 256 +
      (q + n) * (3 * (k - 1)) * Fintype.card (Spec.Table D) * Fintype.card (Fin n → Spec.ColumnRequest k) := by
  rw [context_eq lagrange points h.file] at hver hctx
  exact C83_clients points up τ generator generator2 h.powers (embedded_nondegenerate hnd) (fun i _ => (C80_secret points τ h).2.2 i) verifier ctx hver hctx k n m hk D hD rest A q hA

open Classical in
/-- C83 with the embedded setup: one client, columns published before its request. -/
theorem C83_embedded_published (hnd : (pair generator generator2 : GT) ≠ 0) (points : SetupPoints Bls.G1 Bls.G2) (τ : Fr)
    (h : Secret points τ) (lagrange : List (List UInt8)) (up : UsePrecomp)
    (verifier ctx : DASContext Fp Bls.G1 Bls.G2) (hver : (DASContext.ofTrustedSetup (Embedded.setup lagrange) up : Outcome Error (DASContext Fp Bls.G1 Bls.G2)) = .ok verifier)
    (hctx : (DASContext.ofTrustedSetup (Embedded.setup lagrange) .no : Outcome Error (DASContext Fp Bls.G1 Bls.G2)) = .ok ctx)
    (k : Nat) (hk : k ≤ 128) (D : Finset (List UInt8)) (hD : ∀ x : List UInt8, x.length ≤ 48 + 2160 * k → x ∈ D)
    (rest : List UInt8 → Spec.Digest)
    (A : Spec.Attacker (List UInt8 × (Fin 128 → Option (List UInt8 × List UInt8)))) (q : Nat) (hA : A.AtMost q) :
    (univ.filter (fun p : Spec.Table D × Spec.ColumnRequest k =>
      let hash := p.1.hash rest
      let out := A.run hash
      (∃ b, Checked verifier hash out.1 p.2 (Spec.published out.2 p.2) b) ∧
      ∃ b : Spec.Batch, b.Collects out.1 (fun c => ∃ j, Checked verifier hash out.1 (.one j) (Spec.published out.2 (.one j)) c) ∧
        ¬ Available ctx out.1 b.inds b.cells ∧
        ¬ Spec.BreaksSetup (GT := GT) points.g1Monomial points.g2Monomial τ generator generator2 b out.1)).card * 2 ^ 256 ≤
      (63 : Nat).descFactorial k * Fintype.card (Spec.Table D) * 2 ^ 256 +
      (q + 1) * (3 * (k - 1)) * Fintype.card (Spec.Table D) * Fintype.card (Spec.ColumnRequest k) ∧
    (63 : Nat).descFactorial k * 2 ^ k ≤ Fintype.card (Spec.ColumnRequest k) := by
  rw [context_eq lagrange points h.file] at hver hctx
  exact C83_published points up τ generator generator2 h.powers (embedded_nondegenerate hnd) (fun i _ => (C80_secret points τ h).2.2 i) verifier ctx hver hctx k hk D hD rest A q hA

open Classical in
/-- C84 with the embedded setup: several blobs. -/
theorem C84_embedded_columns (hnd : (pair generator generator2 : GT) ≠ 0) (points : SetupPoints Bls.G1 Bls.G2) (τ : Fr)
    (h : Secret points τ) (lagrange : List (List UInt8)) (up : UsePrecomp)
    (verifier ctx : DASContext Fp Bls.G1 Bls.G2) (hver : (DASContext.ofTrustedSetup (Embedded.setup lagrange) up : Outcome Error (DASContext Fp Bls.G1 Bls.G2)) = .ok verifier)
    (hctx : (DASContext.ofTrustedSetup (Embedded.setup lagrange) .no : Outcome Error (DASContext Fp Bls.G1 Bls.G2)) = .ok ctx)
    (k n c m : Nat) (hk : 0 < k) (hn : n < 2 ^ 64) (D : Finset (List UInt8))
    (hD : ∀ x : List UInt8, x.length ≤ 48 + 2160 * n → x ∈ D) (rest : List UInt8 → Spec.Digest)
    (A : (Fin c → Spec.ColumnRequest k) → Spec.Attacker ((Fin n → List UInt8) × (Fin c → Option (Spec.Columns k n)))) (q : Nat)
    (hA : ∀ r, (A r).AtMost q) :
    (univ.filter (fun p : Spec.Table D × (Fin c → Spec.ColumnRequest k) =>
      let hash := p.1.hash rest
      let out := (A p.2).run hash
      let accepts := fun i x => out.2 i = some x ∧ CheckedColumns verifier hash out.1 (p.2 i) x
      m ≤ (univ.filter (fun i => ∃ x, accepts i x)).card ∧
      ∃ (t : Fin n) (b : Spec.Batch),
        b.Collects (out.1 t) (fun s => ∃ i x, accepts i x ∧ s = (p.2 i).batch (out.1 t) (x.row t)) ∧
        ¬ Available ctx (out.1 t) b.inds b.cells ∧
        ¬ Spec.BreaksSetup (GT := GT) points.g1Monomial points.g2Monomial τ generator generator2 b (out.1 t))).card * 2 ^ 256 ≤
    c.choose m * ((128 : Nat).choose 63 * ((63 : Nat).descFactorial k ^ m * (128 : Nat).descFactorial k ^ (c - m))) *
        Fintype.card (Spec.Table D) * 2 ^ 256 +
      (q + c * k) * (3 * (n - 1)) * Fintype.card (Spec.Table D) * Fintype.card (Fin c → Spec.ColumnRequest k) := by
  rw [context_eq lagrange points h.file] at hver hctx
  exact C84_columns points up τ generator generator2 h.powers (embedded_nondegenerate hnd) (fun i _ => (C80_secret points τ h).2.2 i) verifier ctx hver hctx k n c m hk hn D hD rest A q hA

open Classical in
/-- C84 with the embedded setup: nodes that recover agree. -/
theorem C84_embedded_nodes (hnd : (pair generator generator2 : GT) ≠ 0) (points : SetupPoints Bls.G1 Bls.G2) (τ : Fr)
    (h : Secret points τ) (lagrange : List (List UInt8)) (up : UsePrecomp)
    (verifier ctx : DASContext Fp Bls.G1 Bls.G2) (hver : (DASContext.ofTrustedSetup (Embedded.setup lagrange) up : Outcome Error (DASContext Fp Bls.G1 Bls.G2)) = .ok verifier)
    (hctx : (DASContext.ofTrustedSetup (Embedded.setup lagrange) .no : Outcome Error (DASContext Fp Bls.G1 Bls.G2)) = .ok ctx)
    (c : Nat) (D : Finset (List UInt8)) (hD : ∀ x : List UInt8, x.length ≤ 48 + 2160 * 128 → x ∈ D)
    (rest : List UInt8 → Spec.Digest) (A : Spec.Attacker (List UInt8 × (Fin c → Spec.Batch))) (q : Nat) (hA : A.AtMost q) :
    (univ.filter (fun ω : Spec.Table D =>
      let hash := ω.hash rest
      let cm := (A.run hash).1
      let bs := (A.run hash).2
      ∃ i i', (bs i).Sized 128 ∧ (bs i).Half cm ∧ Accepts verifier hash (bs i) ∧
        (bs i').Sized 128 ∧ (bs i').Half cm ∧ Accepts verifier hash (bs i') ∧
        (¬ ∃ all, ctx.recoverCellsAndKzgProofs (bs i).inds (bs i).cells = .ok all ∧
          ctx.recoverCellsAndKzgProofs (bs i').inds (bs i').cells = .ok all) ∧
        ¬ Spec.BreaksSetup (GT := GT) points.g1Monomial points.g2Monomial τ generator generator2 (bs i) cm ∧
        ¬ Spec.BreaksSetup (GT := GT) points.g1Monomial points.g2Monomial τ generator generator2 (bs i') cm ∧
        ¬ ∃ blob blob', ctx.blobToKzgCommitment blob = .ok cm ∧ ctx.blobToKzgCommitment blob' = .ok cm ∧
          Spec.RevealsSecret τ blob blob')).card * 2 ^ 256 ≤
      (q + c) * (3 * 127) * Fintype.card (Spec.Table D) := by
  rw [context_eq lagrange points h.file] at hver hctx
  exact C84_nodes points up τ generator generator2 h.powers generator_ne (embedded_nondegenerate hnd) (fun i _ => (C80_secret points τ h).2.2 i) verifier ctx hver hctx c D hD rest A q hA

/-- C86 with the embedded setup: true claims are accepted in every grouping. -/
theorem C86_embedded_true (hnd : (pair generator generator2 : GT) ≠ 0) (points : SetupPoints Bls.G1 Bls.G2) (τ : Fr)
    (h : Secret points τ) (lagrange : List (List UInt8)) (up : UsePrecomp)
    (ctx : DASContext Fp Bls.G1 Bls.G2) (hctx : (DASContext.ofTrustedSetup (Embedded.setup lagrange) up : Outcome Error (DASContext Fp Bls.G1 Bls.G2)) = .ok ctx)
    (sha256 : List UInt8 → List UInt8) (l : List Spec.CellClaim) (hs : ∀ c ∈ l, c.Sized) (ht : ∀ c ∈ l, c.IsTrue τ generator) :
    verdict ctx sha256 l = .ok () := by
  rw [context_eq lagrange points h.file] at hctx
  exact C86_true points up τ generator generator2 h.powers (embedded_nondegenerate hnd) ctx hctx sha256 l hs ht

/-- C86 with the embedded setup: single claims. -/
theorem C86_embedded_single (hnd : (pair generator generator2 : GT) ≠ 0) (points : SetupPoints Bls.G1 Bls.G2) (τ : Fr)
    (h : Secret points τ) (lagrange : List (List UInt8)) (up : UsePrecomp)
    (ctx : DASContext Fp Bls.G1 Bls.G2) (hctx : (DASContext.ofTrustedSetup (Embedded.setup lagrange) up : Outcome Error (DASContext Fp Bls.G1 Bls.G2)) = .ok ctx)
    (sha256 : List UInt8 → List UInt8) (c : Spec.CellClaim) (hs : c.Sized) :
    verdict ctx sha256 [c] = .ok () ↔ c.IsTrue τ generator := by
  rw [context_eq lagrange points h.file] at hctx
  exact C86_single points up τ generator generator2 h.powers (embedded_nondegenerate hnd) ctx hctx sha256 c hs

/-- C86 with the embedded setup: a refused batch contains a claim that is refused by itself, with the same error. -/
theorem C86_embedded_culprit (hnd : (pair generator generator2 : GT) ≠ 0) (points : SetupPoints Bls.G1 Bls.G2) (τ : Fr)
    (h : Secret points τ) (lagrange : List (List UInt8)) (up : UsePrecomp)
    (ctx : DASContext Fp Bls.G1 Bls.G2) (hctx : (DASContext.ofTrustedSetup (Embedded.setup lagrange) up : Outcome Error (DASContext Fp Bls.G1 Bls.G2)) = .ok ctx)
    (sha256 : List UInt8 → List UInt8) (l : List Spec.CellClaim) (hs : ∀ c ∈ l, c.Sized) (e : Error)
    (he : verdict ctx sha256 l = .err e) : ∃ c ∈ l, ∀ sha256', verdict ctx sha256' [c] = .err e := by
  rw [context_eq lagrange points h.file] at hctx
  exact C86_culprit points up τ generator generator2 h.powers (embedded_nondegenerate hnd) ctx hctx sha256 l hs e he

open Classical in
/-- C86 with the embedded setup: batches are accepted exactly if all their claims are true, for almost all hash functions. -/
theorem C86_embedded_exact (hnd : (pair generator generator2 : GT) ≠ 0) (points : SetupPoints Bls.G1 Bls.G2) (τ : Fr)
    (h : Secret points τ) (lagrange : List (List UInt8)) (up : UsePrecomp)
    (ctx : DASContext Fp Bls.G1 Bls.G2) (hctx : (DASContext.ofTrustedSetup (Embedded.setup lagrange) up : Outcome Error (DASContext Fp Bls.G1 Bls.G2)) = .ok ctx)
    (n : Nat) (hn : n < 2 ^ 64) (D : Finset (List UInt8)) (hD : ∀ x : List UInt8, x.length ≤ 48 + 2160 * n → x ∈ D)
    (rest : List UInt8 → Spec.Digest) (A : Spec.Attacker (List (List Spec.CellClaim))) (q m : Nat) (hA : A.AtMost q) :
    (univ.filter (fun ω : Spec.Table D => ∃ l ∈ (A.run (ω.hash rest)).take m, l.length ≤ n ∧ (∀ c ∈ l, c.Sized) ∧
      ¬ (Accepts ctx (ω.hash rest) (Spec.batchOf l) ↔ ∀ c ∈ l, c.IsTrue τ generator))).card * 2 ^ 256 ≤
      (q + m) * (3 * (n - 1)) * Fintype.card (Spec.Table D) := by
  rw [context_eq lagrange points h.file] at hctx
  exact C86_exact points up τ generator generator2 h.powers (embedded_nondegenerate hnd) ctx hctx n hn D hD rest A q m hA

open Classical in
/-- C86 with the embedded setup: nodes that group the same claims differently agree. -/
theorem C86_embedded_nodes (hnd : (pair generator generator2 : GT) ≠ 0) (points : SetupPoints Bls.G1 Bls.G2) (τ : Fr)
    (h : Secret points τ) (lagrange : List (List UInt8)) (up : UsePrecomp)
    (ctx : DASContext Fp Bls.G1 Bls.G2) (hctx : (DASContext.ofTrustedSetup (Embedded.setup lagrange) up : Outcome Error (DASContext Fp Bls.G1 Bls.G2)) = .ok ctx)
    (n : Nat) (hn : n < 2 ^ 64) (D : Finset (List UInt8)) (hD : ∀ x : List UInt8, x.length ≤ 48 + 2160 * n → x ∈ D)
    (rest : List UInt8 → Spec.Digest) (A : Spec.Attacker (List (List (List Spec.CellClaim)))) (q m : Nat) (hA : A.AtMost q) :
    (univ.filter (fun ω : Spec.Table D => (A.run (ω.hash rest)).flatten.length ≤ m ∧
      (∀ l ∈ (A.run (ω.hash rest)).flatten, l.length ≤ n ∧ ∀ c ∈ l, c.Sized) ∧
      ∃ g ∈ A.run (ω.hash rest), ∃ g' ∈ A.run (ω.hash rest), Spec.SameClaims g g' ∧
        (∀ l ∈ g, Accepts ctx (ω.hash rest) (Spec.batchOf l)) ∧
        ¬ ∀ l ∈ g', Accepts ctx (ω.hash rest) (Spec.batchOf l))).card * 2 ^ 256 ≤
      (q + m) * (3 * (n - 1)) * Fintype.card (Spec.Table D) := by
  rw [context_eq lagrange points h.file] at hctx
  exact C86_nodes points up τ generator generator2 h.powers (embedded_nondegenerate hnd) ctx hctx n hn D hD rest A q m hA

end

end Verif
