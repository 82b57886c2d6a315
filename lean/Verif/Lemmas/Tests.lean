import Verif.Lemmas.TrustedSetup
import Verif.Spec.Tests

/-! Lemmas about the readers of the conformance tests. -/
namespace Verif.Tests
open Verif.Spec

theorem hexString_parts {s b : List UInt8} (h : HexString s b) : ∃ t, s = 48 :: 120 :: t ∧ hexDecode t = some b := by
  obtain ⟨t, ht, hd⟩ := Option.bind_eq_some_iff.1 ((text_iff s b).2 h)
  exact ⟨t, (stripPrefix_iff s t).1 ht, hd⟩

theorem bytesFromHex_of {s b : List UInt8} (h : HexString s b) : bytesFromHex s = some b := (text_iff s b).2 h

theorem javaHex_of {s b : List UInt8} (h : HexString s b) : javaHex s = .returns b := by
  obtain ⟨t, rfl, ht⟩ := hexString_parts h
  simp [javaHex, stripPrefix0x, ht]

theorem csHex_of {s b : List UInt8} (h : HexString s b) : csHex s = some b := by
  obtain ⟨t, rfl, ht⟩ := hexString_parts h
  simp [csHex, ht]

theorem bufferFromHex_of : ∀ (t b : List UInt8), hexDecode t = some b → bufferFromHex t = b
  | [], b, h => by
    simp [hexDecode, chunksExact] at h
    subst h; rfl
  | [x], b, h => by simp [hexDecode] at h
  | x :: y :: t, b, h => by
    rw [hexDecode_two] at h
    rcases hx : hexVal x with _ | u
    · rw [hx] at h; simp at h
    rcases hy : hexVal y with _ | v
    · rw [hx, hy] at h; simp at h
    rcases ht : hexDecode t with _ | c
    · rw [hx, hy, ht] at h; simp at h
    rw [hx, hy, ht] at h
    simp at h
    subst h
    simp [bufferFromHex, hx, hy, bufferFromHex_of t c ht]

theorem nodeHex_of {s b : List UInt8} (h : HexString s b) : nodeHex s = b := by
  obtain ⟨t, rfl, ht⟩ := hexString_parts h
  simp [nodeHex, stripPrefix0x, bufferFromHex_of t b ht]

theorem nimHex_of (size : Nat) {s b : List UInt8} (h : HexString s b) : nimHex size s = tryIntoArray size b := by
  have hl := h.1
  obtain ⟨t, rfl, ht⟩ := hexString_parts h
  have htl : t.length = 2 * b.length := by simp at hl; omega
  unfold nimHex tryIntoArray
  simp only [stripPrefix0x, List.length_cons]
  by_cases h1 : b.length = size
  · rw [if_neg (by omega), if_neg (by omega), if_pos h1, List.take_of_length_le (by omega), ht]
  · rw [if_neg h1]
    by_cases h2 : b.length > size
    · rw [if_pos (by omega)]
    · rw [if_neg (by omega), if_pos (by omega)]

theorem mapM_of {f : Str → Option (List UInt8)} (hf : ∀ {s b}, HexString s b → f s = some b) {l : List Str}
    {b : List (List UInt8)} (h : HexStrings l b) : l.mapM f = some b := by
  induction h with
  | nil => rfl
  | cons h _ ih => rw [List.mapM_cons, hf h, ih]; rfl

theorem mapM_nimHex (n : Nat) {l : List Str} {b : List (List UInt8)} (h : HexStrings l b) :
    l.mapM (nimHex n) = tryIntoArrays n b := by
  induction h with
  | nil => rfl
  | cons h _ ih => rw [List.mapM_cons, nimHex_of n h, ih, tryIntoArrays, tryIntoArrays, List.mapM_cons]

theorem map_nodeHex {l : List Str} {b : List (List UInt8)} (h : HexStrings l b) : l.map nodeHex = b := by
  induction h with
  | nil => rfl
  | cons h _ ih => rw [List.map_cons, nodeHex_of h, ih]

instance : LawfulMonad JavaEnd := LawfulMonad.mk'
  (id_map := fun x => by cases x <;> rfl)
  (pure_bind := fun _ _ => rfl)
  (bind_assoc := fun x _ _ => by cases x <;> rfl)

theorem javaHexes_of {l : List Str} {b : List (List UInt8)} (h : HexStrings l b) : javaHexes l = .returns b := by
  unfold javaHexes
  induction h with
  | nil => rfl
  | cons h _ ih => rw [List.mapM_cons, javaHex_of h, ih]; rfl

theorem tryIntoArrays_some {n : Nat} {l : List (List UInt8)} (h : Sized n l) : tryIntoArrays n l = some l := by
  unfold tryIntoArrays
  induction l with
  | nil => rfl
  | cons x l ih =>
    rw [List.mapM_cons, ih (fun y hy => h y (by simp [hy])), tryIntoArray, if_pos (h x (by simp))]; rfl

theorem tryIntoArrays_none {n : Nat} {l : List (List UInt8)} (h : ¬ Sized n l) : tryIntoArrays n l = none := by
  unfold tryIntoArrays
  induction l with
  | nil => exact absurd (fun _ hy => by simp at hy) h
  | cons x l ih =>
    rw [List.mapM_cons, tryIntoArray]
    by_cases hx : x.length = n
    · rw [ih (fun hl => h (fun y hy => by
        rcases List.mem_cons.1 hy with rfl | hy
        · exact hx
        · exact hl y hy)), if_pos hx]; rfl
    · rw [if_neg hx]; rfl

theorem rustBytes_of {o e} (h : ExpectsBytes o e) : rustBytes o = some e := by
  cases h with
  | null => rfl
  | hex h => simp [rustBytes, bytesFromHex_of h]

theorem rustLists_of {o e} (h : ExpectsLists o e) : rustLists o = some e := by
  cases h with
  | null => rfl
  | lists h1 h2 => simp [rustLists, yamlPair, mapM_of bytesFromHex_of h1, mapM_of bytesFromHex_of h2]

theorem javaBytes_of {o e} (h : ExpectsBytes o e) : javaBytes o = .returns e := by
  cases h with
  | null => rfl
  | hex h => simp [javaBytes, javaHex_of h, JavaEnd.bind]

theorem javaLists_of {o e} (h : ExpectsLists o e) : javaLists o = .returns e := by
  cases h with
  | null => rfl
  | lists h1 h2 => simp only [javaLists, javaHexes_of h1, javaHexes_of h2]; rfl

/-- a digit of a hex string -/
def hexDigitOf (d : Nat) : UInt8 := if d < 10 then UInt8.ofNat (48 + d) else UInt8.ofNat (87 + d)

/-- the hex string of a byte string -/
def hexOf (b : List UInt8) : Str := 48 :: 120 :: b.flatMap (fun x => [hexDigitOf (x.toNat / 16), hexDigitOf (x.toNat % 16)])

theorem hexVal_digits : ∀ n < 256, (do
    let h ← hexVal (hexDigitOf (n / 16))
    let l ← hexVal (hexDigitOf (n % 16))
    pure ((h <<< 4) ||| l)) = some (UInt8.ofNat n) := by decide +kernel

theorem hexString_hexOf (b : List UInt8) : HexString (hexOf b) b := by
  rw [← text_iff]
  show hexDecode _ = some b
  induction b with
  | nil => rfl
  | cons x b ih =>
    rw [List.flatMap_cons]
    simp only [List.cons_append, List.nil_append]
    have h := hexVal_digits x.toNat x.toNat_lt
    rw [hexDecode_two, ih]
    rcases hx : hexVal (hexDigitOf (x.toNat / 16)) with _ | u
    · rw [hx] at h; simp at h
    rcases hy : hexVal (hexDigitOf (x.toNat % 16)) with _ | w
    · rw [hx, hy] at h; simp at h
    rw [hx, hy] at h
    simp only [Option.pure_def, Option.bind_eq_bind, Option.bind_some, Option.some.injEq] at h ⊢
    rw [h]
    simp

theorem hexStrings_hexOf (l : List (List UInt8)) : HexStrings (l.map hexOf) l := by
  induction l with
  | nil => exact .nil
  | cons x l ih => exact .cons (hexString_hexOf x) ih

theorem isNone_bytes {o e} (h : ExpectsBytes o e) : o.isNone = e.isNone := by cases h <;> rfl
theorem isNone_lists {o e} (h : ExpectsLists o e) : o.isNone = e.isNone := by cases h <;> rfl

end Verif.Tests
