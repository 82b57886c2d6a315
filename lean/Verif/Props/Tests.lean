import Verif.Lemmas.Tests
import Verif.Lemmas.Bindings
import Verif.Lemmas.CBinding
import Verif.Props.Consensus
import Verif.Props.Exchange
import Verif.Props.Toy

/-!
C85: what a passed conformance suite says about a library, and what it does not say. The libraries are arbitrary functions; the vectors
are arbitrary files whose byte strings are written in hexadecimal.
-/
namespace Verif.Tests
open Verif.Spec

section
variable {ε : Type}

/-- C85: a suite passes if and only if there is a file and every file passes. -/
theorem C85_suite {V : Type} (run : V → Bool) (files : List V) :
    suite run files = true ↔ files ≠ [] ∧ ∀ v ∈ files, run v = true := by
  simp [suite]

/-! ### Rust -/

/-- C85: the Rust test of commitments passes exactly if the library agrees with the vector; the library is not called for blobs of another
size, where the vector must expect an error. -/
theorem C85_rust_commitment (lib : List UInt8 → Outcome ε (List UInt8)) (v : BlobVector) (blob : List UInt8) (expected : Option (List UInt8))
    (hb : HexString v.blob blob) (he : ExpectsBytes v.output expected) :
    rustCommit lib v = true ↔
      (blob.length ≠ 131072 ∧ expected = none) ∨ (blob.length = 131072 ∧ Conforms (lib blob) expected) := by
  unfold rustCommit Conforms
  rw [bytesFromHex_of hb, rustBytes_of he]
  simp only [tryIntoArray]
  by_cases hl : blob.length = 131072
  · rw [if_pos hl]
    dsimp only
    have hne : ¬ (131072 : Nat) ≠ 131072 := fun h => h rfl
    simp only [hl, hne, false_and, false_or, true_and]
    rcases lib blob with c | e | _ <;> cases expected <;> simp
    exact eq_comm
  · rw [if_neg hl]
    cases expected <;> simp [hl]

theorem rustCompare_iff (run : Outcome ε (List (List UInt8) × List (List UInt8)))
    (expected : Option (List (List UInt8) × List (List UInt8))) :
    rustCompare run expected = true ↔
      (∃ e, run = .err e ∧ expected = none) ∨ ∃ got exp, run = .ok got ∧ expected = some exp ∧ BeginsWith got exp := by
  unfold rustCompare
  rcases run with ⟨cells, proofs⟩ | e | _
  · cases expected with
    | none => simp
    | some exp =>
      obtain ⟨ec, ep⟩ := exp
      simp only [List.all_eq_true, List.mem_range, reduceCtorEq, false_and, exists_false, false_or, Outcome.ok.injEq, Option.some.injEq]
      constructor
      · intro h
        refine ⟨_, _, rfl, rfl, ?_⟩
        have hk : ∀ k, k < ep.length → ∃ x y, ep[k]? = some x ∧ ec[k]? = some y ∧ proofs[k]? = some x ∧ cells[k]? = some y := by
          intro k hk
          have := h k hk
          rcases h1 : ep[k]? with _ | x <;> rcases h2 : ec[k]? with _ | y <;> rcases h3 : proofs[k]? with _ | z <;>
            rcases h4 : cells[k]? with _ | w <;> rw [h1, h2, h3, h4] at this <;> simp at this
          obtain ⟨rfl, rfl⟩ := this
          exact ⟨_, _, rfl, rfl, rfl, rfl⟩
        have hlc : ep.length ≤ ec.length := by
          by_contra hc
          obtain ⟨x, y, -, h2, -⟩ := hk ec.length (by omega)
          simp at h2
        have hlp : ep.length ≤ proofs.length := by
          by_contra hc
          obtain ⟨x, y, -, -, h2, -⟩ := hk proofs.length (by omega)
          simp at h2
        have hlg : ep.length ≤ cells.length := by
          by_contra hc
          obtain ⟨x, y, -, -, -, h2⟩ := hk cells.length (by omega)
          simp at h2
        refine ⟨?_, hlc, ?_⟩
        · rw [List.prefix_iff_eq_take]
          apply List.ext_getElem? 
          intro i
          by_cases hi : i < ep.length
          · obtain ⟨x, y, h1, -, h2, -⟩ := hk i hi
            rw [List.getElem?_take_of_lt hi, h1, h2]
          · simp only [not_lt] at hi
            rw [List.getElem?_eq_none hi, List.getElem?_eq_none (by simp; omega)]
        · rw [List.prefix_iff_eq_take]
          apply List.ext_getElem?
          intro i
          by_cases hi : i < ep.length
          · obtain ⟨x, y, -, h1, -, h2⟩ := hk i hi
            rw [List.getElem?_take_of_lt hi, h1, List.getElem?_take_of_lt (by simp; omega), h2]
          · simp only [not_lt] at hi
            rw [List.getElem?_eq_none (by simp; omega), List.getElem?_eq_none (by simp; omega)]
      · rintro ⟨got, exp, rfl, rfl, h1, h2, h3⟩ k hk
        simp only at h1 h2 h3 hk
        have e1 : proofs[k]? = some ep[k] := by
          rw [List.IsPrefix.getElem h1 hk, List.getElem?_eq_getElem]
        have hk' : k < (ec.take ep.length).length := by simp; omega
        have e2 : cells[k]? = some ec[k] := by
          have hx := List.IsPrefix.getElem h3 hk'
          rw [List.getElem_take] at hx
          rw [hx, List.getElem?_eq_getElem]
        rw [e1, e2, List.getElem?_eq_getElem hk, List.getElem?_eq_getElem (by omega : k < ec.length)]
        simp
  · cases expected <;> simp
  · simp

/-- For outputs of full size the comparison is exact. -/
theorem rustCompare_full (run : Outcome ε (List (List UInt8) × List (List UInt8)))
    (expected : Option (List (List UInt8) × List (List UInt8))) (hfull : FullOutput expected)
    (hrun : ∀ cells proofs, run = .ok (cells, proofs) → cells.length = 128 ∧ proofs.length = 128) :
    rustCompare run expected = true ↔ Conforms run expected := by
  rw [rustCompare_iff, Conforms]
  constructor
  · rintro (h | ⟨⟨gc, gp⟩, ⟨ec, ep⟩, hr, he, h1, h2, h3⟩)
    · exact .inr h
    · obtain ⟨l1, l2⟩ := hfull ec ep he
      obtain ⟨l3, l4⟩ := hrun gc gp hr
      simp only at h1 h2 h3
      have e1 := List.IsPrefix.eq_of_length h1 (by omega)
      rw [List.take_of_length_le (by omega)] at h3
      have e2 := List.IsPrefix.eq_of_length h3 (by omega)
      subst e1; subst e2
      exact .inl ⟨_, hr, he⟩
  · rintro (⟨a, hr, he⟩ | h)
    · obtain ⟨l1, l2⟩ := hfull a.1 a.2 he
      exact .inr ⟨a, a, hr, he, List.prefix_refl _, by omega, by rw [List.take_of_length_le (by omega)]⟩
    · exact .inl h

/-- C85: the Rust test of cells and proofs. It passes exactly if the expected error occurs or the results begin with what is expected. -/
theorem C85_rust_compute_prefix (lib : List UInt8 → Outcome ε (List (List UInt8) × List (List UInt8))) (v : CellsVector) (blob : List UInt8)
    (expected : Option (List (List UInt8) × List (List UInt8)))
    (hb : HexString v.blob blob) (he : ExpectsLists v.output expected) :
    rustCompute lib v = true ↔
      (blob.length ≠ 131072 ∧ expected = none) ∨
      (blob.length = 131072 ∧ ((∃ e, lib blob = .err e ∧ expected = none) ∨
        ∃ got exp, lib blob = .ok got ∧ expected = some exp ∧ BeginsWith got exp)) := by
  unfold rustCompute
  rw [bytesFromHex_of hb, rustLists_of he]
  simp only [tryIntoArray]
  by_cases hl : blob.length = 131072
  · rw [if_pos hl]
    simp only [hl, ne_eq, not_true_eq_false, false_and, false_or, true_and]
    exact rustCompare_iff _ _
  · rw [if_neg hl]
    cases expected <;> simp [hl]

/-- C85: with 128 expected cells and 128 expected proofs, and a library that returns as many (its types say so), the test is exact. -/
theorem C85_rust_compute (lib : List UInt8 → Outcome ε (List (List UInt8) × List (List UInt8)))
    (hlib : ∀ b cells proofs, lib b = .ok (cells, proofs) → cells.length = 128 ∧ proofs.length = 128) (v : CellsVector)
    (blob : List UInt8) (expected : Option (List (List UInt8) × List (List UInt8)))
    (hb : HexString v.blob blob) (he : ExpectsLists v.output expected) (hfull : FullOutput expected) :
    rustCompute lib v = true ↔
      (blob.length ≠ 131072 ∧ expected = none) ∨ (blob.length = 131072 ∧ Conforms (lib blob) expected) := by
  rw [C85_rust_compute_prefix lib v blob expected hb he, ← rustCompare_iff, rustCompare_full _ _ hfull (hlib blob)]

/-- C85: the Rust test of recovery, in general. -/
theorem C85_rust_recover_prefix (lib : List Nat → List (List UInt8) → Outcome ε (List (List UInt8) × List (List UInt8))) (v : RecoverVector)
    (cells : List (List UInt8)) (expected : Option (List (List UInt8) × List (List UInt8)))
    (hc : HexStrings v.cells cells) (he : ExpectsLists v.output expected) :
    rustRecover lib v = true ↔
      (¬ Sized 2048 cells ∧ expected = none) ∨
      (Sized 2048 cells ∧ ((∃ e, lib v.indices cells = .err e ∧ expected = none) ∨
        ∃ got exp, lib v.indices cells = .ok got ∧ expected = some exp ∧ BeginsWith got exp)) := by
  unfold rustRecover
  rw [mapM_of bytesFromHex_of hc, rustLists_of he]
  by_cases hl : Sized 2048 cells
  · simp only [tryIntoArrays_some hl, hl, not_true_eq_false, false_and, false_or, true_and]
    exact rustCompare_iff _ _
  · simp only [tryIntoArrays_none hl]
    cases expected <;> simp [hl]

/-- C85: the Rust test of recovery, for full outputs. -/
theorem C85_rust_recover (lib : List Nat → List (List UInt8) → Outcome ε (List (List UInt8) × List (List UInt8)))
    (hlib : ∀ i b cells proofs, lib i b = .ok (cells, proofs) → cells.length = 128 ∧ proofs.length = 128) (v : RecoverVector)
    (cells : List (List UInt8)) (expected : Option (List (List UInt8) × List (List UInt8)))
    (hc : HexStrings v.cells cells) (he : ExpectsLists v.output expected) (hfull : FullOutput expected) :
    rustRecover lib v = true ↔
      (¬ Sized 2048 cells ∧ expected = none) ∨ (Sized 2048 cells ∧ Conforms (lib v.indices cells) expected) := by
  rw [C85_rust_recover_prefix lib v cells expected hc he, ← rustCompare_iff, rustCompare_full _ _ hfull (hlib v.indices cells)]

/-- C85: the Rust test of verification. -/
theorem C85_rust_verify (invalid : ε → Bool)
    (lib : List (List UInt8) → List Nat → List (List UInt8) → List (List UInt8) → Outcome ε Unit) (v : VerifyVector)
    (commitments cells proofs : List (List UInt8)) (hcm : HexStrings v.commitments commitments) (hcl : HexStrings v.cells cells)
    (hpf : HexStrings v.proofs proofs) :
    rustVerify invalid lib v = true ↔
      (¬ (Sized 48 commitments ∧ Sized 2048 cells ∧ Sized 48 proofs) ∧ v.output = none) ∨
      ((Sized 48 commitments ∧ Sized 2048 cells ∧ Sized 48 proofs) ∧ TestVerdict invalid (lib commitments v.indices cells proofs) v.output) := by
  unfold rustVerify
  rw [mapM_of bytesFromHex_of hcm, mapM_of bytesFromHex_of hcl, mapM_of bytesFromHex_of hpf]
  by_cases h2 : Sized 2048 cells
  · simp only [tryIntoArrays_some h2]
    by_cases h1 : Sized 48 commitments
    · simp only [tryIntoArrays_some h1]
      by_cases h3 : Sized 48 proofs
      · simp only [tryIntoArrays_some h3, h1, h2, h3, and_self, not_true_eq_false, false_and, false_or, true_and]
        obtain ⟨vcm, vi, vcl, vpf, vo⟩ := v
        dsimp only
        rcases lib commitments vi cells proofs with _ | e | _
        · simp only [beq_iff_eq]
          constructor
          · rintro h; rw [h]; exact .valid
          · intro h; cases h; rfl
        · by_cases hi : invalid e = true
          · simp only [hi, if_true, beq_iff_eq]
            constructor
            · rintro h; rw [h]; exact .invalid hi
            · intro h
              cases h with
              | invalid _ => rfl
              | refused h => simp [hi] at h
          · simp only [hi]
            constructor
            · intro h
              rw [Option.isNone_iff_eq_none.1 h]
              exact .refused (by simpa using hi)
            · intro h
              cases h with
              | invalid h => exact absurd h hi
              | refused h => rfl
        · simp only [Bool.false_eq_true, false_iff]
          intro h; cases h
      · simp [tryIntoArrays_none h3, h1, h2, h3]
    · simp [tryIntoArrays_none h1, h1]
  · simp [tryIntoArrays_none h2, h2]

/-! ### Java -/

/-- C85: the Java test of commitments is exact: the library returns the expected commitment or throws an `IllegalArgumentException`. -/
theorem C85_java_commitment (lib : List UInt8 → JavaEnd (List UInt8)) (v : BlobVector) (blob : List UInt8) (expected : Option (List UInt8))
    (hb : HexString v.blob blob) (he : ExpectsBytes v.output expected) :
    javaCommit lib v = true ↔ lib blob = javaExpected expected := by
  unfold javaCommit
  rw [javaHex_of hb, javaBytes_of he]
  simp only [bind, JavaEnd.bind]
  rcases lib blob with c | _ | _ <;> cases expected <;> simp [javaAssert, javaTry, javaExpected]
  split_ifs with h <;> simp [h]
  exact fun h' => h h'.symm

theorem java_cells (lib : JavaEnd (List (List UInt8) × List (List UInt8))) (output : Option (List (List Str)))
    (expected : Option (List (List UInt8) × List (List UInt8))) (he : ExpectsLists output expected) :
    javaTry (lib.bind (javaCompare (javaLists output))) (javaLists output) = true ↔ lib = javaExpected expected := by
  rw [javaLists_of he]
  rcases lib with ⟨c, p⟩ | _ | _
  · rcases expected with _ | ⟨ec, ep⟩
    · simp [JavaEnd.bind, bind, javaCompare, javaTry, javaExpected]
    · by_cases h1 : ec = c <;> by_cases h2 : ep = p <;>
        simp [JavaEnd.bind, bind, javaCompare, javaTry, javaExpected, javaAssert, h1, h2, eq_comm (a := c), eq_comm (a := p)]
  · cases expected <;> simp [JavaEnd.bind, javaTry, javaExpected]
  · cases expected <;> simp [JavaEnd.bind, javaTry, javaExpected]

/-- C85: the Java test of cells and proofs is exact. -/
theorem C85_java_compute (lib : List UInt8 → JavaEnd (List (List UInt8) × List (List UInt8))) (v : CellsVector) (blob : List UInt8)
    (expected : Option (List (List UInt8) × List (List UInt8))) (hb : HexString v.blob blob) (he : ExpectsLists v.output expected) :
    javaCompute lib v = true ↔ lib blob = javaExpected expected := by
  unfold javaCompute
  rw [javaHex_of hb]
  exact java_cells _ _ _ he

/-- C85: the Java test of recovery is exact. -/
theorem C85_java_recover (lib : List Nat → List (List UInt8) → JavaEnd (List (List UInt8) × List (List UInt8))) (v : RecoverVector)
    (cells : List (List UInt8)) (expected : Option (List (List UInt8) × List (List UInt8)))
    (hc : HexStrings v.cells cells) (he : ExpectsLists v.output expected) :
    javaRecover lib v = true ↔ lib v.indices cells = javaExpected expected := by
  unfold javaRecover
  rw [javaHexes_of hc]
  exact java_cells _ _ _ he

/-- C85: the Java test of verification is exact. -/
theorem C85_java_verify (lib : List (List UInt8) → List Nat → List (List UInt8) → List (List UInt8) → JavaEnd Bool) (v : VerifyVector)
    (commitments cells proofs : List (List UInt8)) (hcm : HexStrings v.commitments commitments) (hcl : HexStrings v.cells cells)
    (hpf : HexStrings v.proofs proofs) :
    javaVerify lib v = true ↔ lib commitments v.indices cells proofs = javaExpected v.output := by
  unfold javaVerify
  rw [javaHexes_of hcm, javaHexes_of hcl, javaHexes_of hpf]
  simp only [bind, JavaEnd.bind]
  rcases lib commitments v.indices cells proofs with b | _ | _ <;> rcases v.output with _ | _ | _ <;>
    (try cases b) <;> simp [javaAssert, javaTry, javaExpected]

/-! ### C# -/

/-- C85: the C# test of commitments. If the framework counts assertions that fail inside `try`, it is exact; otherwise a vector that
expects an error says nothing. -/
theorem C85_csharp_commitment (counts : Bool) (lib : List UInt8 → Option (List UInt8)) (v : BlobVector) (blob : List UInt8)
    (expected : Option (List UInt8)) (hb : HexString v.blob blob) (he : ExpectsBytes v.output expected) :
    csCommit counts lib v = true ↔ lib blob = expected ∨ (expected = none ∧ counts = false) := by
  obtain ⟨vb, vo⟩ := v
  unfold csCommit
  dsimp only at he hb ⊢
  rw [csHex_of hb]
  dsimp only
  cases he with
  | null => rcases lib blob with _ | c <;> cases counts <;> simp [csTry]
  | hex h =>
    rcases lib blob with _ | c
    · simp [csTry]
    · simp only [csHex_of h]
      split_ifs with hc
      · simpa [csTry] using hc
      · simpa [csTry] using hc

theorem cs_cells (counts : Bool) (lib : Option (List (List UInt8) × List (List UInt8))) (output : Option (List (List Str)))
    (expected : Option (List (List UInt8) × List (List UInt8))) (he : ExpectsLists output expected) :
    csTry counts (match lib with
      | none => .threw
      | some got => csCompare output got) output.isNone = true ↔ lib = expected ∨ (expected = none ∧ counts = false) := by
  cases he with
  | null => rcases lib with _ | c <;> cases counts <;> simp [csTry, csCompare]
  | lists h1 h2 =>
    rename_i a b cells proofs
    rcases lib with _ | ⟨c, p⟩
    · simp [csTry]
    · by_cases e1 : c = cells <;> by_cases e2 : p = proofs <;>
        simp [csTry, csCompare, mapM_of csHex_of h1, mapM_of csHex_of h2, e1, e2]

/-- C85: the C# test of cells and proofs. -/
theorem C85_csharp_compute (counts : Bool) (lib : List UInt8 → Option (List (List UInt8) × List (List UInt8))) (v : CellsVector)
    (blob : List UInt8) (expected : Option (List (List UInt8) × List (List UInt8))) (hb : HexString v.blob blob)
    (he : ExpectsLists v.output expected) :
    csCompute counts lib v = true ↔ lib blob = expected ∨ (expected = none ∧ counts = false) := by
  unfold csCompute
  rw [csHex_of hb]
  dsimp only
  exact cs_cells counts _ _ _ he

/-- C85: the C# test of recovery. -/
theorem C85_csharp_recover (counts : Bool) (lib : List Nat → List (List UInt8) → Option (List (List UInt8) × List (List UInt8)))
    (v : RecoverVector) (cells : List (List UInt8)) (expected : Option (List (List UInt8) × List (List UInt8)))
    (hc : HexStrings v.cells cells) (he : ExpectsLists v.output expected) :
    csRecover counts lib v = true ↔ lib v.indices cells = expected ∨ (expected = none ∧ counts = false) := by
  unfold csRecover
  rw [mapM_of csHex_of hc]
  exact cs_cells counts _ _ _ he

/-- C85: the C# test of verification. -/
theorem C85_csharp_verify (counts : Bool) (lib : List (List UInt8) → List Nat → List (List UInt8) → List (List UInt8) → Option Bool)
    (v : VerifyVector) (commitments cells proofs : List (List UInt8)) (hcm : HexStrings v.commitments commitments)
    (hcl : HexStrings v.cells cells) (hpf : HexStrings v.proofs proofs) :
    csVerify counts lib v = true ↔
      lib commitments v.indices cells proofs = v.output ∨ (v.output = none ∧ counts = false) := by
  unfold csVerify
  rw [mapM_of csHex_of hcm, mapM_of csHex_of hcl, mapM_of csHex_of hpf]
  dsimp only
  rcases lib commitments v.indices cells proofs with _ | b <;> rcases v.output with _ | o <;> (try cases b) <;> (try cases o) <;>
    cases counts <;> simp [csTry]

/-! ### Node -/

/-- C85: the Node test of commitments is exact. -/
theorem C85_node_commitment (lib : List UInt8 → Option (List UInt8)) (v : BlobVector) (blob : List UInt8)
    (expected : Option (List UInt8)) (hb : HexString v.blob blob) (he : ExpectsBytes v.output expected) :
    nodeCommit lib v = true ↔ lib blob = expected := by
  obtain ⟨vb, vo⟩ := v
  unfold nodeCommit
  dsimp only at he hb ⊢
  rw [nodeHex_of hb]
  cases he with
  | null => rcases lib blob with _ | c <;> simp
  | hex h => rcases lib blob with _ | c <;> simp [nodeHex_of h]

theorem node_cells (lib : Option (List (List UInt8) × List (List UInt8))) (output : Option (List (List Str)))
    (expected : Option (List (List UInt8) × List (List UInt8))) (he : ExpectsLists output expected) :
    (match lib with
      | none => output.isNone
      | some got => nodeCompare output got) = true ↔ lib = expected := by
  cases he with
  | null => rcases lib with _ | c <;> simp [nodeCompare]
  | lists h1 h2 =>
    rcases lib with _ | ⟨c, p⟩
    · simp
    · simp [nodeCompare, map_nodeHex h1, map_nodeHex h2]

/-- C85: the Node test of cells and proofs is exact. -/
theorem C85_node_compute (lib : List UInt8 → Option (List (List UInt8) × List (List UInt8))) (v : CellsVector)
    (blob : List UInt8) (expected : Option (List (List UInt8) × List (List UInt8))) (hb : HexString v.blob blob)
    (he : ExpectsLists v.output expected) : nodeCompute lib v = true ↔ lib blob = expected := by
  unfold nodeCompute
  rw [nodeHex_of hb]
  exact node_cells _ _ _ he

/-- C85: the Node test of recovery is exact. -/
theorem C85_node_recover (lib : List Nat → List (List UInt8) → Option (List (List UInt8) × List (List UInt8)))
    (v : RecoverVector) (cells : List (List UInt8)) (expected : Option (List (List UInt8) × List (List UInt8)))
    (hc : HexStrings v.cells cells) (he : ExpectsLists v.output expected) :
    nodeRecover lib v = true ↔ lib v.indices cells = expected := by
  unfold nodeRecover
  rw [map_nodeHex hc]
  exact node_cells _ _ _ he

/-- C85: the Node test of verification is exact. -/
theorem C85_node_verify (lib : List (List UInt8) → List Nat → List (List UInt8) → List (List UInt8) → Option Bool)
    (v : VerifyVector) (commitments cells proofs : List (List UInt8)) (hcm : HexStrings v.commitments commitments)
    (hcl : HexStrings v.cells cells) (hpf : HexStrings v.proofs proofs) :
    nodeVerify lib v = true ↔ lib commitments v.indices cells proofs = v.output := by
  unfold nodeVerify
  rw [map_nodeHex hcm, map_nodeHex hcl, map_nodeHex hpf]
  rcases lib commitments v.indices cells proofs with _ | b <;> rcases v.output with _ | o <;> simp

/-! ### Nim -/

theorem nimHex_null : nimHex 48 nullText = none := by decide

/-- C85: the Nim test of commitments. A vector that expects an error passes also if the library returns a commitment: reading `null` as a
commitment raises the exception that the test takes for a refused input. -/
theorem C85_nim_commitment (lib : List UInt8 → Outcome ε (List UInt8)) (hlib : ∀ b c, lib b = .ok c → c.length = 48) (v : BlobVector)
    (blob : List UInt8) (expected : Option (List UInt8)) (hb : HexString v.blob blob) (he : ExpectsBytes v.output expected) :
    nimCommit lib v = true ↔
      (blob.length ≠ 131072 ∧ expected = none) ∨
      (blob.length = 131072 ∧ (Conforms (lib blob) expected ∨ (expected = none ∧ ∃ c, lib blob = .ok c))) := by
  obtain ⟨vb, vo⟩ := v
  unfold nimCommit Conforms
  dsimp only at he hb ⊢
  rw [nimHex_of _ hb]
  have hnull : ∀ {s b : List UInt8}, HexString s b → s ≠ nullText := by
    intro s b h he
    have := h.2.1
    rw [he] at this
    simp [nullText] at this
  by_cases hl : blob.length = 131072
  · simp only [tryIntoArray, hl, if_true]
    cases he with
    | null => rcases lib blob with c | e | _ <;> simp [bytesContent, nimHex_null, nimTest]
    | hex h =>
      rename_i s b
      rcases hr : lib blob with c | e | _
      · have hc := hlib blob c hr
        simp only [bytesContent, nimHex_of 48 h, tryIntoArray]
        by_cases hb48 : b.length = 48
        · simp [hb48, nimTest]
        · have : b ≠ c := fun h => hb48 (h ▸ hc)
          simp [hb48, nimTest, hnull h, this]
      · simp [bytesContent, nimTest, hnull h]
      · simp [nimTest]
  · simp only [tryIntoArray, hl, if_false]
    cases he with
    | null => simp [nimTest, bytesContent, hl]
    | hex h => simp [nimTest, bytesContent, hnull h]

theorem nim_cells (run : Outcome ε (List (List UInt8) × List (List UInt8)))
    (hrun : ∀ cells proofs, run = .ok (cells, proofs) → Sized 2048 cells ∧ Sized 48 proofs) (output : Option (List (List Str)))
    (expected : Option (List (List UInt8) × List (List UInt8))) (he : ExpectsLists output expected) :
    nimTest (nimCells run output) (listsContent output) = true ↔ Conforms run expected := by
  unfold Conforms
  cases he with
  | null => rcases run with c | e | _ <;> simp [nimCells, nimCompare, nimTest, listsContent]
  | lists h1 h2 =>
    rename_i a b cells proofs
    rcases run with ⟨c, p⟩ | e | _
    · obtain ⟨s1, s2⟩ := hrun c p rfl
      simp only [nimCells, nimCompare, List.getElem?_cons_zero, List.getElem?_cons_succ, mapM_nimHex _ h1, mapM_nimHex _ h2]
      by_cases t1 : Sized 2048 cells
      · rw [tryIntoArrays_some t1]
        by_cases t2 : Sized 48 proofs
        · rw [tryIntoArrays_some t2]
          simp [nimTest]
        · rw [tryIntoArrays_none t2]
          have : proofs ≠ p := fun h => t2 (h ▸ s2)
          simp [nimTest, listsContent, this]
      · rw [tryIntoArrays_none t1]
        have : cells ≠ c := fun h => t1 (h ▸ s1)
        simp [nimTest, listsContent, this]
    · simp [nimCells, listsContent, nimTest]
    · simp [nimCells, nimTest]

/-- C85: the Nim test of cells and proofs is exact. -/
theorem C85_nim_compute (lib : List UInt8 → Outcome ε (List (List UInt8) × List (List UInt8)))
    (hlib : ∀ b cells proofs, lib b = .ok (cells, proofs) → Sized 2048 cells ∧ Sized 48 proofs) (v : CellsVector)
    (blob : List UInt8) (expected : Option (List (List UInt8) × List (List UInt8))) (hb : HexString v.blob blob)
    (he : ExpectsLists v.output expected) :
    nimCompute lib v = true ↔
      (blob.length ≠ 131072 ∧ expected = none) ∨ (blob.length = 131072 ∧ Conforms (lib blob) expected) := by
  obtain ⟨vb, vo⟩ := v
  unfold nimCompute
  dsimp only at he hb ⊢
  rw [nimHex_of _ hb]
  by_cases hl : blob.length = 131072
  · simp only [tryIntoArray, hl, if_true, nim_cells _ (hlib blob) _ _ he]
    simp
  · simp only [tryIntoArray, hl, if_false]
    cases he <;> simp [nimTest, listsContent, hl]

/-- C85: the Nim test of recovery is exact for indices that fit. -/
theorem C85_nim_recover (lib : List Nat → List (List UInt8) → Outcome ε (List (List UInt8) × List (List UInt8)))
    (hlib : ∀ i b cells proofs, lib i b = .ok (cells, proofs) → Sized 2048 cells ∧ Sized 48 proofs) (v : RecoverVector)
    (hi : ∀ i ∈ v.indices, i < 2 ^ 63) (cells : List (List UInt8)) (expected : Option (List (List UInt8) × List (List UInt8)))
    (hc : HexStrings v.cells cells) (he : ExpectsLists v.output expected) :
    nimRecover lib v = true ↔
      (¬ Sized 2048 cells ∧ expected = none) ∨ (Sized 2048 cells ∧ Conforms (lib v.indices cells) expected) := by
  obtain ⟨vi, vc, vo⟩ := v
  unfold nimRecover
  dsimp only at he hc hi ⊢
  have hints : nimInts vi = some vi := by
    unfold nimInts
    rw [if_pos (by simpa using hi)]
  rw [mapM_nimHex _ hc, hints]
  by_cases hl : Sized 2048 cells
  · rw [tryIntoArrays_some hl]
    simp only [nim_cells _ (hlib vi cells) _ _ he, hl]
    simp
  · rw [tryIntoArrays_none hl]
    cases he <;> simp [nimTest, listsContent, hl]

/-- C85: the Nim test of verification is exact for indices that fit. -/
theorem C85_nim_verify (lib : List (List UInt8) → List Nat → List (List UInt8) → List (List UInt8) → Outcome ε Bool)
    (v : VerifyVector) (hi : ∀ i ∈ v.indices, i < 2 ^ 63) (commitments cells proofs : List (List UInt8))
    (hcm : HexStrings v.commitments commitments) (hcl : HexStrings v.cells cells) (hpf : HexStrings v.proofs proofs) :
    nimVerify lib v = true ↔
      (¬ (Sized 48 commitments ∧ Sized 2048 cells ∧ Sized 48 proofs) ∧ v.output = none) ∨
      ((Sized 48 commitments ∧ Sized 2048 cells ∧ Sized 48 proofs) ∧ Conforms (lib commitments v.indices cells proofs) v.output) := by
  unfold nimVerify Conforms
  have hints : nimInts v.indices = some v.indices := by
    unfold nimInts
    rw [if_pos (by simpa using hi)]
  have hcontent : (boolContent v.output == nullText) = v.output.isNone := by
    rcases v.output with _ | _ | _ <;> decide
  rw [mapM_nimHex _ hcm, mapM_nimHex _ hcl, mapM_nimHex _ hpf, hints]
  have hve : (boolContent v.output == nullText) = true ↔ v.output = none := by rw [hcontent]; simp
  by_cases h1 : Sized 48 commitments
  · by_cases h2 : Sized 2048 cells
    · by_cases h3 : Sized 48 proofs
      · rw [tryIntoArrays_some h1, tryIntoArrays_some h2, tryIntoArrays_some h3]
        dsimp only
        rcases lib commitments v.indices cells proofs with b | e | _
        · rcases v.output with _ | _ | _ <;> cases b <;> simp [h1, h2, h3, nimTest, boolContent, nullText, trueText, falseText]
        · simp only [nimTest, hve]; simp [h1, h2, h3]
        · simp [h1, h2, h3, nimTest]
      · rw [tryIntoArrays_some h1, tryIntoArrays_some h2, tryIntoArrays_none h3]
        simp only [nimTest, h1, h2, h3]
        simpa using hve
    · rw [tryIntoArrays_some h1, tryIntoArrays_none h2]
      simp only [nimTest, h1, h2]
      simpa using hve
  · rw [tryIntoArrays_none h1]
    simp only [nimTest, h1]
    simpa using hve

/-! ### Go -/

/-- C85: the Go test passes for every library that does not panic on one blob, whatever it returns. -/
theorem C85_go (lib : List UInt8 → Outcome ε (List UInt8)) : goTest lib = true ↔ lib ([0, 1] ++ List.replicate 131070 0) ≠ .panic := by
  unfold goTest
  rcases lib ([0, 1] ++ List.replicate 131070 0) with c | e | _ <;> simp

end

section
variable {K G1 G2 GT : Type} [Field K] [DecidableEq K] [AddCommGroup G1] [Module Fr G1] [DecidableEq G1]
  [Curve K G1] [PointCodec G1] [AddCommGroup G2] [Module Fr G2] [AddCommGroup GT] [DecidableEq GT]
  [Pairing G1 G2 GT]

/-! ### The library itself -/

theorem conforms_unique {E α : Type} {library : Outcome E α} {spec : Option α} (h : Conforms library spec) (expected : Option α) :
    Conforms library expected ↔ expected = spec := by
  constructor
  · rintro h'
    rcases h with ⟨a, h1, rfl⟩ | ⟨e, h1, rfl⟩ <;> rcases h' with ⟨b, h2, rfl⟩ | ⟨e, h2, rfl⟩ <;> rw [h1] at h2 <;> cases h2
    all_goals rfl
  · rintro rfl; exact h

/-- C85: the library passes a vector of the Rust suite for commitments exactly if the vector is right: its output is that of the consensus
specification. -/
theorem C85_library_commitment (setup : SetupPoints G1 G2) (up : UsePrecomp) (τ : Fr) (P : G1) (H : G2)
    (hpt : Spec.PowersOfTau setup.g1Monomial setup.g2Monomial τ P H) (g1Lagrange : List G1)
    (hlag : Consensus.LagrangeSetup g1Lagrange τ P)
    (ctx : DASContext K G1 G2) (hctx : (DASContext.new setup up : Outcome Error (DASContext K G1 G2)) = .ok ctx)
    (v : BlobVector) (blob : List UInt8) (expected : Option (List UInt8))
    (hb : HexString v.blob blob) (he : ExpectsBytes v.output expected) :
    rustCommit ctx.blobToKzgCommitment v = true ↔ expected = Consensus.blobToKzgCommitment g1Lagrange blob := by
  rw [C85_rust_commitment _ v blob expected hb he]
  by_cases hl : blob.length = 131072
  · rw [conforms_unique (C48_commitment setup up τ P H hpt g1Lagrange hlag ctx hctx blob hl)]
    simp only [hl, ne_eq, not_true_eq_false, false_and, false_or, true_and]
  · have : Consensus.blobToKzgCommitment g1Lagrange blob = none := by
      unfold Consensus.blobToKzgCommitment
      rw [if_neg hl]
    rw [this]
    simp only [hl, ne_eq, not_false_eq_true, true_and, false_and, or_false]

/-- C85: the library passes a vector with full output of the Rust suite for cells and proofs exactly if the vector is right. -/
theorem C85_library_compute [LawfulPointCodec G1 48] (setup : SetupPoints G1 G2) (h1 : setup.g1Monomial.length = 4096)
    (ctx : DASContext K G1 G2) (hctx : (DASContext.new setup .no : Outcome Error (DASContext K G1 G2)) = .ok ctx)
    (v : CellsVector) (blob : List UInt8) (expected : Option (List (List UInt8) × List (List UInt8)))
    (hb : HexString v.blob blob) (he : ExpectsLists v.output expected) (hfull : FullOutput expected) :
    rustCompute ctx.computeCellsAndKzgProofs v = true ↔
      expected = Consensus.computeCellsAndKzgProofs setup.g1Monomial blob := by
  rw [C85_rust_compute _ (fun _ _ _ h => ⟨(computeCellsAndKzgProofs_sizes h).1, (computeCellsAndKzgProofs_sizes h).2.2.1⟩) v blob
    expected hb he hfull]
  by_cases hl : blob.length = 131072
  · rw [conforms_unique (C49_cells_and_proofs setup h1 ctx hctx blob hl)]
    simp only [hl, ne_eq, not_true_eq_false, false_and, false_or, true_and]
  · have : Consensus.computeCellsAndKzgProofs setup.g1Monomial blob = none := by
      unfold Consensus.computeCellsAndKzgProofs
      rw [if_neg hl]
    rw [this]
    simp only [hl, ne_eq, not_false_eq_true, true_and, false_and, or_false]

/-- C85: the library passes a vector with full output of the Rust suite for recovery exactly if the vector is right: cells of a wrong size
need an error, otherwise the output is that of the consensus specification, provided that the cells are no more than 64 or consistent
(C51: for others the specification does not say that there is an error, but the library reports one). -/
theorem C85_library_recover [LawfulPointCodec G1 48] (setup : SetupPoints G1 G2) (h1 : setup.g1Monomial.length = 4096)
    (ctx : DASContext K G1 G2) (hctx : (DASContext.new setup .no : Outcome Error (DASContext K G1 G2)) = .ok ctx)
    (v : RecoverVector) (cells : List (List UInt8)) (expected : Option (List (List UInt8) × List (List UInt8)))
    (hc : HexStrings v.cells cells) (he : ExpectsLists v.output expected) (hfull : FullOutput expected)
    (hor : ¬ Spec.RecoveryWellFormed v.indices cells ∨ ∃ f, Spec.Consistent v.indices cells f) :
    rustRecover ctx.recoverCellsAndKzgProofs v = true ↔
      (¬ Sized 2048 cells ∧ expected = none) ∨
      (Sized 2048 cells ∧ expected = Consensus.recoverCellsAndKzgProofs setup.g1Monomial v.indices cells) := by
  rw [C85_rust_recover _ (fun _ _ _ _ h => ⟨(recoverCellsAndKzgProofs_sizes h).1, (recoverCellsAndKzgProofs_sizes h).2.2.1⟩) v
    cells expected hc he hfull]
  by_cases hl : Sized 2048 cells
  · rw [conforms_unique (C51_recover setup h1 ctx hctx v.indices cells hl hor)]
  · simp only [hl, false_and]

/-- C85: the library passes a vector of the Rust suite for verification exactly if the vector is right, for every hash function. -/
theorem C85_library_verify [LawfulPointCodec G1 48] [LawfulPairing G1 G2 GT] (setup : SetupPoints G1 G2) (up : UsePrecomp)
    (h1 : setup.g1Monomial.length = 4096)
    (ctx : DASContext K G1 G2) (hctx : (DASContext.new setup up : Outcome Error (DASContext K G1 G2)) = .ok ctx)
    (sha256 : List UInt8 → List UInt8) (v : VerifyVector) (commitments cells proofs : List (List UInt8))
    (hcm : HexStrings v.commitments commitments) (hcl : HexStrings v.cells cells) (hpf : HexStrings v.proofs proofs) :
    rustVerify Error.invalidProof (ctx.verifyCellKzgProofBatch sha256) v = true ↔
      (¬ (Sized 48 commitments ∧ Sized 2048 cells ∧ Sized 48 proofs) ∧ v.output = none) ∨
      ((Sized 48 commitments ∧ Sized 2048 cells ∧ Sized 48 proofs) ∧
        v.output = Consensus.verifyCellKzgProofBatch (GT := GT) sha256 setup.g1Monomial setup.g2Monomial commitments v.indices cells
          proofs) := by
  rw [C85_rust_verify _ _ v commitments cells proofs hcm hcl hpf]
  by_cases hs : Sized 48 commitments ∧ Sized 2048 cells ∧ Sized 48 proofs
  · simp only [hs, and_self, not_true_eq_false, false_and, false_or, true_and]
    rcases C50_verify (GT := GT) setup up h1 ctx hctx sha256 commitments v.indices cells proofs hs.1 hs.2.1 hs.2.2 with
      ⟨hr, hspec⟩ | ⟨hr, hspec⟩ | ⟨e, hr, hne, hspec⟩
    · rw [hr, hspec]
      generalize v.output = o
      exact ⟨fun h => by cases h; rfl, fun h => h ▸ .valid⟩
    · rw [hr, hspec]
      generalize v.output = o
      refine ⟨fun h => ?_, fun h => h ▸ .invalid rfl⟩
      cases h with
      | invalid _ => rfl
      | refused h => exact absurd h (by decide)
    · rw [hr, hspec]
      have hi : e.invalidProof = false := not_invalidProof (fun e' => by cases e'; exact hne)
      generalize v.output = o
      refine ⟨fun h => ?_, fun h => h ▸ .refused hi⟩
      cases h with
      | invalid h => rw [hi] at h; cases h
      | refused _ => rfl
  · simp only [hs, false_and]

end

/-! ### The library in the other languages -/

section
variable {K G1 G2 GT : Type} [Field K] [DecidableEq K] [AddCommGroup G1] [Module Fr G1] [DecidableEq G1]
  [Curve K G1] [PointCodec G1] [AddCommGroup G2] [Module Fr G2] [AddCommGroup GT] [DecidableEq GT]
  [Pairing G1 G2 GT] [LawfulPointCodec G1 48]

theorem conforms_of_reports {E α : Type} {x : Outcome E α} {r : Option α} (h : Reports x r) : Conforms x r := by
  cases h with
  | value v => exact .inl ⟨v, rfl, rfl⟩
  | error e => exact .inr ⟨e, rfl, rfl⟩

/-- the result of a call in Nim -/
def nimResult {α : Type} : Option α → Outcome Unit α
  | some a => .ok a
  | none => .err ()

theorem conforms_nimResult {α : Type} (r e : Option α) : Conforms (nimResult r) e ↔ r = e := by
  cases r <;> cases e <;> simp [Conforms, nimResult, eq_comm]

/-- C85: the commitment function in Java, C#, Node and Nim and the suites of these languages. `lib` is what a caller gets in one of the
languages (C72: from the wrapper down to the C function and the Rust library). The library passes exactly the right vectors; the Nim
suite accepts moreover every vector that expects an error. -/
theorem C85_languages_commitment (setup : SetupPoints G1 G2) (up : UsePrecomp) (τ : Fr) (P : G1) (H : G2)
    (hpt : Spec.PowersOfTau setup.g1Monomial setup.g2Monomial τ P H) (g1Lagrange : List G1)
    (hlag : Consensus.LagrangeSetup g1Lagrange τ P)
    (ctx : DASContext K G1 G2) (hctx : (DASContext.new setup up : Outcome Error (DASContext K G1 G2)) = .ok ctx)
    (lib : List UInt8 → Option (List UInt8)) (v : BlobVector) (blob : List UInt8) (hlib : CommitEnds ctx blob (lib blob))
    (expected : Option (List UInt8)) (hb : HexString v.blob blob) (he : ExpectsBytes v.output expected) :
    let right := expected = Consensus.blobToKzgCommitment g1Lagrange blob
    (javaCommit (fun b => javaExpected (lib b)) v = true ↔ right) ∧ (nodeCommit lib v = true ↔ right) ∧
    (csCommit true lib v = true ↔ right) ∧
    ((∀ b c, lib b = some c → c.length = 48) → (nimCommit (fun b => nimResult (lib b)) v = true ↔ right ∨ expected = none)) := by
  intro right
  have hr : lib blob = Consensus.blobToKzgCommitment g1Lagrange blob := by
    rcases C72_commit hlib with ⟨hl, h⟩ | ⟨hl, h⟩
    · exact (conforms_unique (C48_commitment setup up τ P H hpt g1Lagrange hlag ctx hctx blob hl) _).1 (conforms_of_reports h)
    · rw [h, Consensus.blobToKzgCommitment, if_neg hl]
  have hright : lib blob = expected ↔ right := by rw [hr]; exact eq_comm
  refine ⟨?_, ?_, ?_, fun hsz => ?_⟩
  · rw [C85_java_commitment _ v blob expected hb he, ← hright]
    cases lib blob <;> cases expected <;> simp [javaExpected]
  · rw [C85_node_commitment _ v blob expected hb he, hright]
  · rw [C85_csharp_commitment _ _ v blob expected hb he, hright]
    simp
  · rw [C85_nim_commitment _ (fun b c h => hsz b c (by
      cases hb : lib b with
      | none => rw [hb] at h; cases h
      | some a => rw [hb] at h; cases h; rfl)) v blob expected hb he, conforms_nimResult, hright]
    by_cases hl : blob.length = 131072
    · simp only [hl, ne_eq, not_true_eq_false, false_and, false_or, true_and]
      constructor
      · rintro (h | ⟨h, -⟩)
        · exact .inl h
        · exact .inr h
      · rintro (h | h)
        · exact .inl h
        · cases hb : lib blob with
          | none => exact .inl (hright.1 (hb.trans h.symm))
          | some c => exact .inr ⟨h, c, rfl⟩
    · have hn : Consensus.blobToKzgCommitment g1Lagrange blob = none := by rw [Consensus.blobToKzgCommitment, if_neg hl]
      simp only [hl, ne_eq, not_false_eq_true, true_and, false_and, or_false, right, hn, or_self]

/-- C85: cells and proofs in Java, C#, Node and Nim. -/
theorem C85_languages_compute (setup : SetupPoints G1 G2) (h1 : setup.g1Monomial.length = 4096)
    (ctx : DASContext K G1 G2) (hctx : (DASContext.new setup .no : Outcome Error (DASContext K G1 G2)) = .ok ctx)
    (lib : List UInt8 → Option (List (List UInt8) × List (List UInt8))) (v : CellsVector) (blob : List UInt8)
    (hlib : ProveEnds ctx blob (lib blob)) (expected : Option (List (List UInt8) × List (List UInt8)))
    (hb : HexString v.blob blob) (he : ExpectsLists v.output expected) :
    let right := expected = Consensus.computeCellsAndKzgProofs setup.g1Monomial blob
    (javaCompute (fun b => javaExpected (lib b)) v = true ↔ right) ∧ (nodeCompute lib v = true ↔ right) ∧
    (csCompute true lib v = true ↔ right) ∧
    ((∀ b cells proofs, lib b = some (cells, proofs) → Sized 2048 cells ∧ Sized 48 proofs) →
      (nimCompute (fun b => nimResult (lib b)) v = true ↔ right)) := by
  intro right
  have hnone : blob.length ≠ 131072 → Consensus.computeCellsAndKzgProofs setup.g1Monomial blob = none := by
    intro hl; unfold Consensus.computeCellsAndKzgProofs; rw [if_neg hl]
  have hr : lib blob = Consensus.computeCellsAndKzgProofs setup.g1Monomial blob := by
    rcases C72_prove hlib with ⟨hl, h⟩ | ⟨hl, h⟩
    · exact (conforms_unique (C49_cells_and_proofs setup h1 ctx hctx blob hl) _).1 (conforms_of_reports h)
    · rw [h, hnone hl]
  have hright : lib blob = expected ↔ right := by rw [hr]; exact eq_comm
  refine ⟨?_, ?_, ?_, fun hsz => ?_⟩
  · rw [C85_java_compute _ v blob expected hb he, ← hright]
    cases lib blob <;> cases expected <;> simp [javaExpected]
  · rw [C85_node_compute _ v blob expected hb he, hright]
  · rw [C85_csharp_compute _ _ v blob expected hb he, hright]
    simp
  · rw [C85_nim_compute _ (fun b c p h => hsz b c p (by
      cases hb : lib b with
      | none => rw [hb] at h; cases h
      | some a => rw [hb] at h; cases h; rfl)) v blob expected hb he, conforms_nimResult, hright]
    by_cases hl : blob.length = 131072
    · simp only [hl, ne_eq, not_true_eq_false, false_and, false_or, true_and]
    · simp only [hl, ne_eq, not_false_eq_true, true_and, false_and, or_false, right, hnone hl]

/-- C85: recovery in Java, C#, Node and Nim. -/
theorem C85_languages_recover (setup : SetupPoints G1 G2) (h1 : setup.g1Monomial.length = 4096)
    (ctx : DASContext K G1 G2) (hctx : (DASContext.new setup .no : Outcome Error (DASContext K G1 G2)) = .ok ctx)
    (lib : List Nat → List (List UInt8) → Option (List (List UInt8) × List (List UInt8))) (v : RecoverVector)
    (cells : List (List UInt8)) (hlib : RecoverEnds ctx v.indices cells (lib v.indices cells))
    (expected : Option (List (List UInt8) × List (List UInt8))) (hc : HexStrings v.cells cells) (he : ExpectsLists v.output expected)
    (hor : ¬ Spec.RecoveryWellFormed v.indices cells ∨ ∃ f, Spec.Consistent v.indices cells f) :
    let right := (¬ Sized 2048 cells ∧ expected = none) ∨
      (Sized 2048 cells ∧ expected = Consensus.recoverCellsAndKzgProofs setup.g1Monomial v.indices cells)
    (javaRecover (fun i b => javaExpected (lib i b)) v = true ↔ right) ∧ (nodeRecover lib v = true ↔ right) ∧
    (csRecover true lib v = true ↔ right) ∧
    ((∀ i b cells proofs, lib i b = some (cells, proofs) → Sized 2048 cells ∧ Sized 48 proofs) →
      (∀ i ∈ v.indices, i < 2 ^ 63) → (nimRecover (fun i b => nimResult (lib i b)) v = true ↔ right)) := by
  intro right
  have hright : lib v.indices cells = expected ↔ right := by
    rcases C72_recover hlib with ⟨hl, h⟩ | ⟨hl, h⟩
    · rw [(conforms_unique (C51_recover setup h1 ctx hctx v.indices cells hl hor) _).1 (conforms_of_reports h)]
      simp only [right, hl, not_true_eq_false, false_and, false_or, true_and]
      exact eq_comm
    · rw [h]
      simp only [right, hl, not_false_eq_true, false_and, or_false, true_and]
      exact eq_comm
  refine ⟨?_, ?_, ?_, fun hsz hi => ?_⟩
  · rw [C85_java_recover _ v cells expected hc he, ← hright]
    cases lib v.indices cells <;> cases expected <;> simp [javaExpected]
  · rw [C85_node_recover _ v cells expected hc he, hright]
  · rw [C85_csharp_recover _ _ v cells expected hc he, hright]
    simp
  · rw [C85_nim_recover _ (fun i b c p h => hsz i b c p (by
      cases hb : lib i b with
      | none => rw [hb] at h; cases h
      | some a => rw [hb] at h; cases h; rfl)) v hi cells expected hc he, conforms_nimResult, hright]
    by_cases hl : Sized 2048 cells <;> simp [right, hl]

/-- C85: verification in Java, C#, Node and Nim, for every hash function. -/
theorem C85_languages_verify [LawfulPairing G1 G2 GT] (setup : SetupPoints G1 G2) (up : UsePrecomp)
    (h1 : setup.g1Monomial.length = 4096)
    (ctx : DASContext K G1 G2) (hctx : (DASContext.new setup up : Outcome Error (DASContext K G1 G2)) = .ok ctx)
    (sha256 : List UInt8 → List UInt8)
    (lib : List (List UInt8) → List Nat → List (List UInt8) → List (List UInt8) → Option Bool) (v : VerifyVector)
    (commitments cells proofs : List (List UInt8))
    (hlib : VerifyEnds ctx sha256 commitments v.indices cells proofs (lib commitments v.indices cells proofs))
    (hcm : HexStrings v.commitments commitments) (hcl : HexStrings v.cells cells) (hpf : HexStrings v.proofs proofs) :
    let sized := Sized 48 commitments ∧ Sized 2048 cells ∧ Sized 48 proofs
    let right := (¬ sized ∧ v.output = none) ∨ (sized ∧ v.output = Consensus.verifyCellKzgProofBatch (GT := GT) sha256
      setup.g1Monomial setup.g2Monomial commitments v.indices cells proofs)
    (javaVerify (fun a b c d => javaExpected (lib a b c d)) v = true ↔ right) ∧ (nodeVerify lib v = true ↔ right) ∧
    (csVerify true lib v = true ↔ right) ∧
    ((∀ i ∈ v.indices, i < 2 ^ 63) → (nimVerify (fun a b c d => nimResult (lib a b c d)) v = true ↔ right)) := by
  intro sized right
  have hright : lib commitments v.indices cells proofs = v.output ↔ right := by
    obtain ⟨o, ho⟩ := verdict_exists (ctx.verifyCellKzgProofBatch sha256 commitments v.indices cells proofs)
    rcases C72_verify hlib o ho with ⟨hl, h⟩ | ⟨hl, h⟩
    · have hspec : lib commitments v.indices cells proofs = Consensus.verifyCellKzgProofBatch (GT := GT) sha256
          setup.g1Monomial setup.g2Monomial commitments v.indices cells proofs := by
        rcases C50_verify (GT := GT) setup up h1 ctx hctx sha256 commitments v.indices cells proofs hl.1 hl.2.1 hl.2.2 with
          ⟨hr, hs⟩ | ⟨hr, hs⟩ | ⟨e, hr, hne, hs⟩
        · rw [hr] at ho
          rw [hs]
          cases ho
          generalize lib commitments v.indices cells proofs = r at h
          cases h; rfl
        · rw [hr] at ho
          rw [hs]
          cases ho with
          | invalid _ =>
            generalize lib commitments v.indices cells proofs = r at h
            cases h; rfl
          | error _ hne => exact absurd rfl (hne _)
        · rw [hr] at ho
          rw [hs]
          cases ho with
          | invalid e => cases e; exact absurd rfl hne
          | error _ _ =>
            generalize lib commitments v.indices cells proofs = r at h
            cases h; rfl
      rw [hspec]
      have hl' : sized := hl
      simp only [right, hl', not_true_eq_false, false_and, false_or, true_and]
      exact eq_comm
    · have hl' : ¬ sized := hl
      rw [h]
      simp only [right, hl', not_false_eq_true, false_and, or_false, true_and]
      exact eq_comm
  refine ⟨?_, ?_, ?_, fun hi => ?_⟩
  · rw [C85_java_verify _ v commitments cells proofs hcm hcl hpf, ← hright]
    cases lib commitments v.indices cells proofs <;> cases v.output <;> simp [javaExpected]
  · rw [C85_node_verify _ v commitments cells proofs hcm hcl hpf, hright]
  · rw [C85_csharp_verify _ _ v commitments cells proofs hcm hcl hpf, hright]
    simp
  · rw [C85_nim_verify _ v hi commitments cells proofs hcm hcl hpf, conforms_nimResult, hright]
    change (¬ sized ∧ _) ∨ (sized ∧ _) ↔ _
    by_cases hl : sized <;> simp [right, hl]

end

/-! ### Vectors and gaps -/

/-- C85: there is a vector for every input and output, so the theorems above are about every input of the library. -/
theorem C85_vectors (blob : List UInt8) (bytes : Option (List UInt8)) (lists : Option (List (List UInt8) × List (List UInt8)))
    (indices : List Nat) (commitments cells proofs : List (List UInt8)) :
    (∃ v : BlobVector, HexString v.blob blob ∧ ExpectsBytes v.output bytes) ∧
    (∃ v : CellsVector, HexString v.blob blob ∧ ExpectsLists v.output lists) ∧
    (∃ v : RecoverVector, v.indices = indices ∧ HexStrings v.cells cells ∧ ExpectsLists v.output lists) ∧
    ∀ o, ∃ v : VerifyVector, v.indices = indices ∧ HexStrings v.commitments commitments ∧ HexStrings v.cells cells ∧
      HexStrings v.proofs proofs ∧ v.output = o := by
  have hb : ∃ o, ExpectsBytes o bytes := by
    cases bytes with
    | none => exact ⟨_, .null⟩
    | some b => exact ⟨_, .hex (hexString_hexOf b)⟩
  have hl : ∃ o, ExpectsLists o lists := by
    rcases lists with _ | ⟨c, p⟩
    · exact ⟨_, .null⟩
    · exact ⟨_, .lists (hexStrings_hexOf c) (hexStrings_hexOf p)⟩
  obtain ⟨ob, hb⟩ := hb
  obtain ⟨ol, hl⟩ := hl
  exact ⟨⟨⟨hexOf blob, ob⟩, hexString_hexOf blob, hb⟩, ⟨⟨hexOf blob, ol⟩, hexString_hexOf blob, hl⟩,
    ⟨⟨indices, cells.map hexOf, ol⟩, rfl, hexStrings_hexOf cells, hl⟩,
    fun o => ⟨⟨commitments.map hexOf, indices, cells.map hexOf, proofs.map hexOf, o⟩, rfl, hexStrings_hexOf _, hexStrings_hexOf _,
      hexStrings_hexOf _, rfl⟩⟩

/-- C85: a wrong library that the suites of Rust, Java and Node find, and those of C# (if caught assertions are not counted), Nim and Go do not:
it returns a commitment for a blob that the vector wants refused. -/
theorem C85_gap_commitment (blob : List UInt8) (hb : blob.length = 131072) :
    ∃ v : BlobVector, HexString v.blob blob ∧ v.output = none ∧ ∃ c : List UInt8,
      rustCommit (fun _ => (.ok c : Outcome Error _)) v = false ∧ javaCommit (fun _ => .returns c) v = false ∧
      nodeCommit (fun _ => some c) v = false ∧ csCommit true (fun _ => some c) v = false ∧
      csCommit false (fun _ => some c) v = true ∧ nimCommit (fun _ => (.ok c : Outcome Error _)) v = true ∧
      goTest (fun _ => (.ok c : Outcome Error _)) = true := by
  refine ⟨⟨hexOf blob, none⟩, hexString_hexOf blob, rfl, List.replicate 48 0, ?_, ?_, ?_, ?_, ?_, ?_, ?_⟩
  · rw [← Bool.not_eq_true, C85_rust_commitment _ _ blob none (hexString_hexOf blob) .null]
    simp [hb, Conforms]
  · rw [← Bool.not_eq_true, C85_java_commitment _ _ blob none (hexString_hexOf blob) .null]
    simp [javaExpected]
  · rw [← Bool.not_eq_true, C85_node_commitment _ _ blob none (hexString_hexOf blob) .null]
    simp
  · rw [← Bool.not_eq_true, C85_csharp_commitment _ _ _ blob none (hexString_hexOf blob) .null]
    simp
  · rw [C85_csharp_commitment _ _ _ blob none (hexString_hexOf blob) .null]
    simp
  · rw [C85_nim_commitment _ (fun _ _ h => by cases h; rfl) _ blob none (hexString_hexOf blob) .null]
    exact .inr ⟨hb, .inr ⟨rfl, _, rfl⟩⟩
  · rw [C85_go]
    simp

/-- C85: the Rust suite looks at a prefix only: with an output of two empty lists every library passes that does not refuse the blob, and
the suites of Java and Node find every library that returns a cell. -/
theorem C85_gap_prefix (blob : List UInt8) (hb : blob.length = 131072) (cells proofs : List (List UInt8)) (hc : cells ≠ []) :
    ∃ v : CellsVector, HexString v.blob blob ∧ v.output = some [[], []] ∧
      rustCompute (fun _ => (.ok (cells, proofs) : Outcome Error _)) v = true ∧
      javaCompute (fun _ => .returns (cells, proofs)) v = false ∧ nodeCompute (fun _ => some (cells, proofs)) v = false ∧
      csCompute false (fun _ => some (cells, proofs)) v = false := by
  have he : ExpectsLists (some [[], []]) (some ([], [])) := .lists .nil .nil
  refine ⟨⟨hexOf blob, some [[], []]⟩, hexString_hexOf blob, rfl, ?_, ?_, ?_, ?_⟩
  · rw [C85_rust_compute_prefix _ _ blob _ (hexString_hexOf blob) he]
    exact .inr ⟨hb, .inr ⟨_, _, rfl, rfl, List.nil_prefix, le_refl _, List.nil_prefix⟩⟩
  · rw [← Bool.not_eq_true, C85_java_compute _ _ blob _ (hexString_hexOf blob) he]
    simp [javaExpected, hc]
  · rw [← Bool.not_eq_true, C85_node_compute _ _ blob _ (hexString_hexOf blob) he]
    simp [hc]
  · rw [← Bool.not_eq_true, C85_csharp_compute _ _ _ blob _ (hexString_hexOf blob) he]
    simp [hc]

/-- Concrete: the hex string of two bytes, and what the readers make of it. -/
example : hexOf [0x1f, 0xa0] = [48, 120, 49, 102, 97, 48] ∧ bytesFromHex [48, 120, 49, 102, 97, 48] = some [0x1f, 0xa0] ∧
    nodeHex [48, 120, 49, 102, 97, 48, 103] = [0x1f, 0xa0] ∧ nimHex 2 [48, 120, 49, 102, 97, 48, 103] = some [0x1f, 0xa0] ∧
    bytesFromHex [48, 120, 49, 102, 97, 48, 103] = none := by decide

/-- Concrete: a file that expects an error for a blob of two bytes; a library that never refuses passes in Rust, where it is not called, and
fails in Java. -/
example : rustCommit (fun _ => (.ok [1] : Outcome Error _)) ⟨[48, 120, 49, 102, 97, 48], none⟩ = true ∧
    javaCommit (fun _ => .returns [1]) ⟨[48, 120, 49, 102, 97, 48], none⟩ = false := by decide

section
open Toy

/-- The theorems about the library apply: the toy context passes two right vectors for a concrete blob, one for its commitment and one for
its cells and proofs, and fails the vector that wants the blob refused. -/
example : ∃ (ctx : DASContext Fr Fr Fr) (v w : BlobVector) (u : CellsVector), (DASContext.new (setup 7) .no : Outcome Error _) = .ok ctx ∧
    HexString v.blob blob ∧ HexString u.blob blob ∧ v.output.isSome ∧ u.output.isSome ∧
    rustCommit ctx.blobToKzgCommitment v = true ∧ rustCompute ctx.computeCellsAndKzgProofs u = true ∧
    HexString w.blob blob ∧ w.output = none ∧ rustCommit ctx.blobToKzgCommitment w = false := by
  obtain ⟨ctx, hctx⟩ := context 7
  obtain ⟨c, h1⟩ : ∃ c, ctx.blobToKzgCommitment blob = .ok c :=
    ⟨_, C03_commitment (setup 7) .no 7 1 1 (powersOfTau 7) ctx hctx blob poly blob_poly⟩
  obtain ⟨cells, proofs, h2⟩ := C02_accepts (setup 7) (length_g1 7) ctx hctx blob blob_poly.2.1
    ((blobPoly_iff blob_poly.2.1).1 ⟨_, blob_poly⟩)
  have hs := computeCellsAndKzgProofs_sizes h2
  have hlib := C85_library_compute (setup 7) (length_g1 7) ctx hctx ⟨hexOf blob, some [cells.map hexOf, proofs.map hexOf]⟩ blob
    (some (cells, proofs)) (hexString_hexOf blob) (.lists (hexStrings_hexOf cells) (hexStrings_hexOf proofs))
    (fun c p h => by cases h; exact ⟨hs.1, hs.2.2.1⟩)
  refine ⟨ctx, ⟨hexOf blob, some (hexOf c)⟩, ⟨hexOf blob, none⟩, ⟨hexOf blob, some [cells.map hexOf, proofs.map hexOf]⟩, hctx,
    hexString_hexOf blob, hexString_hexOf blob, rfl, rfl, ?_, ?_, hexString_hexOf blob, rfl, ?_⟩
  · exact (C85_rust_commitment _ _ blob _ (hexString_hexOf blob) (.hex (hexString_hexOf _))).2
      (.inr ⟨blob_poly.2.1, .inl ⟨_, h1, rfl⟩⟩)
  · rw [hlib]
    rcases C49_cells_and_proofs (setup 7) (length_g1 7) ctx hctx blob blob_poly.2.1 with ⟨a, ha, hs⟩ | ⟨e, he, -⟩
    · rw [h2] at ha; cases ha; exact hs.symm
    · rw [h2] at he; cases he
  · rw [← Bool.not_eq_true, C85_rust_commitment _ _ blob none (hexString_hexOf blob) .null, h1]
    rintro (⟨h, -⟩ | ⟨-, ⟨a, -, h⟩ | ⟨e, h, -⟩⟩)
    · exact h blob_poly.2.1
    · cases h
    · cases h

/-- A call in Node and the suite of Node: a right vector passes, and so it does in the suites of Java, C# and Nim with that result. -/
example : ∃ (ctx : DASContext Fr Fr Fr) (lib : List UInt8 → Option (List UInt8)) (v : BlobVector),
    (DASContext.new (setup 7) .no : Outcome Error _) = .ok ctx ∧ Reports (blobToKzgCommitmentN ctx blob) (lib blob) ∧ v.output.isSome ∧
    nodeCommit lib v = true ∧ javaCommit (fun b => javaExpected (lib b)) v = true ∧ csCommit true lib v = true := by
  obtain ⟨ctx, hctx⟩ := context 7
  obtain ⟨c, h1⟩ : ∃ c, ctx.blobToKzgCommitment blob = .ok c :=
    ⟨_, C03_commitment (setup 7) .no 7 1 1 (powersOfTau 7) ctx hctx blob poly blob_poly⟩
  have hn : Reports (blobToKzgCommitmentN ctx blob) (some c) := by
    rw [((C34_node_blob ctx blob).2 blob_poly.2.1).1, h1]
    exact .value c
  have hspec : Consensus.blobToKzgCommitment _ blob = some c := ((conforms_unique
    (C48_commitment (setup 7) .no 7 1 1 (powersOfTau 7) _ (Toy.lagrangeSetup 7) ctx hctx blob blob_poly.2.1) _).1
      (.inl ⟨c, h1, rfl⟩)).symm
  obtain ⟨hj, hno, hcs, -⟩ := C85_languages_commitment (setup 7) .no 7 1 1 (powersOfTau 7) _ (Toy.lagrangeSetup 7) ctx hctx
    (fun _ => some c) ⟨hexOf blob, some (hexOf c)⟩ blob (.node hn) (some c) (hexString_hexOf blob) (.hex (hexString_hexOf c))
  exact ⟨ctx, fun _ => some c, ⟨hexOf blob, some (hexOf c)⟩, hctx, hn, rfl, hno.2 hspec.symm, hj.2 hspec.symm, hcs.2 hspec.symm⟩

/-- A vector of the verification suite that the library passes: the empty batch is valid. -/
example (ctx : DASContext Fr Fr Fr) (sha256 : List UInt8 → List UInt8) :
    rustVerify Error.invalidProof (ctx.verifyCellKzgProofBatch sha256) ⟨[], [], [], [], some true⟩ = true := by
  rw [C85_rust_verify _ _ ⟨[], [], [], [], some true⟩ [] [] [] .nil .nil .nil, verify_empty sha256 ctx]
  exact .inr ⟨⟨by simp [Sized], by simp [Sized], by simp [Sized]⟩, .valid⟩

end

end Verif.Tests
