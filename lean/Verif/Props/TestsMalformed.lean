import Verif.Props.Tests

/-!
C85, vectors that cannot be read: what the Rust and the Java tests of commitments say about a vector whose blob or output is not a hex
string.
-/
namespace Verif.Tests
open Verif.Spec

theorem bytesFromHex_none {s : List UInt8} (h : ∀ b, ¬ HexString s b) : bytesFromHex s = none := by
  rcases e : bytesFromHex s with _ | b
  · rfl
  · exact absurd ((text_iff s b).1 e) (h b)

theorem stripPrefix_not {s : List UInt8} {b : List UInt8} (hd : hexDecode s = some b) :
    HexString (48 :: 120 :: s) b := by
  refine (text_iff _ b).1 ?_
  show (stripPrefix0x (48 :: 120 :: s)).bind hexDecode = some b
  exact hd

theorem javaHex_bad {s : List UInt8} (h : ∀ b, ¬ HexString s b) (h' : ∀ b, ¬ HexString (48 :: 120 :: s) b) :
    javaHex s = .illegalArgument := by
  unfold javaHex
  rcases e : stripPrefix0x s with _ | t
  · dsimp only
    rcases hd : hexDecode s with _ | b
    · rfl
    · exact absurd (stripPrefix_not hd) (h' b)
  · dsimp only
    rcases hd : hexDecode t with _ | b
    · rfl
    · exact absurd ((text_iff s b).1 (by rw [e]; exact hd)) (h b)

/-- C85: a blob that is not a hex string. The Rust test fails with every library, also if the vector expects an error. The Java test passes
with every library if the vector expects an error, and fails with every library otherwise: the library is not called. -/
theorem C85_malformed_blob {ε : Type} (v : BlobVector) (expected : Option (List UInt8)) (he : ExpectsBytes v.output expected)
    (h : ∀ b, ¬ HexString v.blob b) (h' : ∀ b, ¬ HexString (48 :: 120 :: v.blob) b) :
    (∀ lib : List UInt8 → Outcome ε (List UInt8), rustCommit lib v = false) ∧
    ∀ lib : List UInt8 → JavaEnd (List UInt8), javaCommit lib v = expected.isNone := by
  constructor
  · intro lib
    unfold rustCommit
    rw [bytesFromHex_none h]
  · intro lib
    unfold javaCommit
    rw [javaHex_bad h h', javaBytes_of he]
    cases expected <;> rfl

/-- C85: an output that is neither null nor a hex string makes both tests fail with every library, so it is not taken for null. -/
theorem C85_malformed_output {ε : Type} (v : BlobVector) (blob : List UInt8) (hb : HexString v.blob blob) (s : List UInt8)
    (ho : v.output = some s) (h : ∀ b, ¬ HexString s b) (h' : ∀ b, ¬ HexString (48 :: 120 :: s) b) :
    (∀ lib : List UInt8 → Outcome ε (List UInt8), rustCommit lib v = false) ∧
    ∀ lib : List UInt8 → JavaEnd (List UInt8), javaCommit lib v = false := by
  constructor
  · intro lib
    unfold rustCommit
    rw [bytesFromHex_of hb, ho, rustBytes, bytesFromHex_none h]
    rfl
  · intro lib
    unfold javaCommit
    rw [javaHex_of hb, ho, javaBytes, javaHex_bad h h']
    simp only [bind, JavaEnd.bind]
    rcases lib blob with c | _ | _ <;> rfl

theorem not_hex_odd (c : UInt8) (b : List UInt8) : ¬ HexString [c] b ∧ ¬ HexString [48, 120, c] b := by
  refine ⟨fun h => ?_, fun h => ?_⟩
  · have := h.1
    simp only [List.length_cons, List.length_nil] at this
    omega
  · have := h.1
    simp only [List.length_cons, List.length_nil] at this
    omega

/-- the text `z` as the blob, with null as the output: Rust fails and Java passes; the text `z` as the output: both fail -/
example : rustCommit (fun _ => (.err () : Outcome Unit (List UInt8))) ⟨[122], none⟩ = false ∧
    javaCommit (fun _ => .otherThrowable) ⟨[122], none⟩ = true ∧
    rustCommit (fun _ => (.err () : Outcome Unit (List UInt8))) ⟨[48, 120], some [122]⟩ = false ∧
    javaCommit (fun _ => .illegalArgument) ⟨[48, 120], some [122]⟩ = false := by
  have h0 : HexString [48, 120] [] := ⟨rfl, rfl, rfl, fun i hi => absurd hi (Nat.not_lt_zero i)⟩
  have h1 := C85_malformed_blob (ε := Unit) ⟨[122], none⟩ none .null (fun b => (not_hex_odd 122 b).1) (fun b => (not_hex_odd 122 b).2)
  have h2 := C85_malformed_output (ε := Unit) ⟨[48, 120], some [122]⟩ [] h0 [122] rfl (fun b => (not_hex_odd 122 b).1)
    (fun b => (not_hex_odd 122 b).2)
  exact ⟨h1.1 _, h1.2 _, h2.1 _, h2.2 _⟩

end Verif.Tests
