import Mathlib.Tactic.LinearCombination
import Verif.Lemmas.Domain
import Verif.Lemmas.Bytes
import Verif.Spec.Kzg

set_option linter.unusedSectionVars false
set_option exponentiation.threshold 5000

/-!
Evaluation of a polynomial of degree below `2^12` on a half of the extended domain, in bit-reversed order, on natural numbers. The
coefficients are the digits of one number to a large base, so that one addition and one multiplication halve the polynomial; digits
are reduced modulo the order of the field only at the end.
-/
namespace Verif.Packed
open Polynomial

/-- number of bits of a digit -/
def width : Nat := 3584

/-- the roots of unity of order `2^2, 2^3, …, 2^13` -/
def omegas : List Nat := [
  0x8d51ccce760304d0ec030002760300000001000000000000,
  0x345766f603fa66e78c0625cd70d77ce2b38b21c28713b7007228fd3397743f7a,
  0x20b1ce9140267af9dd1c0af834cec32c17beb312f20b6f7653ea61d87742bcce,
  0x50e0903a157988bab4bcd40e22f55448bf6e88fb4c38fb8a360c60997369df4e,
  0x45af6345ec055e4d14a1e27164d8fdbd2d967f4be2f951558140d032f0a9ee53,
  0x6898111413588742b7c68b4d7fdd60d098d0caac87f5713c5130c2c1660125be,
  0x4f9b4098e2e9f12e6b368121ac0cf4ad0a0865a899e8deff4935bd2f817f694b,
  0x95166525526a65439feec240d80689fd697168a3a6000fe4541b8ff2ee0434e,
  0x325db5c3debf77a18f4de02c0f776af3ea437f9626fc085e3c28d666a5c2d854,
  0x6d031f1b5c49c83409f1ca610a08f16655ea6811be9c622d4a838b5d59cd79e5,
  0x564c0a11a0f704f4fc3e8acfe0f8245f0ad1347b378fbf96e206da11a5d36306,
  0x485d512737b1da3d2ccddea2972e89ed146b58bc434906ac6fdd00bfc78c8967]

/-- the product of the roots of unity at the bits that are set -/
def twist : List Nat → List Bool → Nat
  | w :: ws, true :: p => w * twist ws p % frOrder
  | _ :: ws, false :: p => twist ws p
  | _, _ => 1

/-- the value of the last bits of `v`, in `2^d` digits of 256 bits with the highest first, are the values of the polynomial with the
digits of `n` on the points whose numbers begin with the bits `p` (given with the last bit first) -/
def evalCheck : Nat → List Bool → Nat → Nat → Bool
  | 0, _, n, v => Nat.beq (n % frOrder) v
  | d + 1, p, n, v =>
    let a := width * 2 ^ d
    let lo := n % 2 ^ a
    let hi := n / 2 ^ a
    let t := twist omegas p
    let s := 256 * 2 ^ d
    evalCheck d (false :: p) (lo + t * hi) (v / 2 ^ s) && evalCheck d (true :: p) (lo + (frOrder - t) * hi) (v % 2 ^ s)

/-- the same for `2^d` numbers with 64 digits each -/
def evalCells : Nat → List Bool → Nat → List Nat → Bool
  | 0, p, n, vs =>
    match vs with
    | [v] => evalCheck 6 p n v
    | _ => false
  | d + 1, p, n, vs =>
    let a := width * 2 ^ (d + 6)
    let lo := n % 2 ^ a
    let hi := n / 2 ^ a
    let t := twist omegas p
    evalCells d (false :: p) (lo + t * hi) (vs.take (2 ^ d)) && evalCells d (true :: p) (lo + (frOrder - t) * hi) (vs.drop (2 ^ d))

/-- the number with the given digits, the lowest first -/
def pack (w : Nat) : List Nat → Nat
  | [] => 0
  | c :: cs => c + 2 ^ w * pack w cs

/-- the same for lists in parts of `k` digits -/
def packs (w k : Nat) : List (List Nat) → Nat
  | [] => 0
  | c :: cs => pack w c + 2 ^ (w * k) * packs w k cs

theorem pack_append (w : Nat) (a b : List Nat) : pack w (a ++ b) = pack w a + 2 ^ (w * a.length) * pack w b := by
  induction a with
  | nil => simp [pack]
  | cons c a ih => rw [List.cons_append, pack, ih, pack, List.length_cons, mul_add w, mul_one, pow_add]; ring

theorem packs_eq (w k : Nat) (l : List (List Nat)) (h : ∀ c ∈ l, c.length = k) : packs w k l = pack w l.flatten := by
  induction l with
  | nil => rfl
  | cons c l ih =>
    rw [packs, List.flatten_cons, pack_append, ih fun c hc => h c (List.mem_cons_of_mem _ hc), h c List.mem_cons_self]

theorem pack_lt (w : Nat) (l : List Nat) (h : ∀ c ∈ l, c < 2 ^ w) : pack w l < 2 ^ (w * l.length) := by
  induction l with
  | nil => simp [pack]
  | cons c l ih =>
    have h1 := h c List.mem_cons_self
    have h2 := ih fun c hc => h c (List.mem_cons_of_mem _ hc)
    rw [pack, List.length_cons, mul_add, mul_one, pow_add, mul_comm (2 ^ (w * l.length))]
    calc c + 2 ^ w * pack w l < 2 ^ w + 2 ^ w * pack w l := by omega
      _ = 2 ^ w * (pack w l + 1) := by ring
      _ ≤ 2 ^ w * 2 ^ (w * l.length) := Nat.mul_le_mul_left _ h2

theorem pack_split (w : Nat) (a b : List Nat) (h : ∀ c ∈ a, c < 2 ^ w) :
    pack w (a ++ b) % 2 ^ (w * a.length) = pack w a ∧ pack w (a ++ b) / 2 ^ (w * a.length) = pack w b := by
  have h1 := pack_lt w a h
  rw [pack_append]
  constructor
  · rw [Nat.add_mul_mod_self_left, Nat.mod_eq_of_lt h1]
  · rw [Nat.add_mul_div_left _ _ (by positivity), Nat.div_eq_of_lt h1, zero_add]

/-- `a + t b`, digit by digit -/
def comb (t : Nat) (a b : List Nat) : List Nat := List.zipWith (fun x y => x + t * y) a b

theorem pack_comb (w t : Nat) : ∀ (a b : List Nat), a.length = b.length → pack w (comb t a b) = pack w a + t * pack w b
  | [], [], _ => rfl
  | x :: a, y :: b, h => by
    have ih := pack_comb w t a b (by simpa using h)
    unfold comb at ih ⊢
    rw [List.zipWith_cons_cons, pack, ih, pack, pack]
    ring
  | [], _ :: _, h => by cases h
  | _ :: _, [], h => by cases h

theorem comb_lt {t A : Nat} (ht : t < 2 ^ 256) : ∀ (a b : List Nat), (∀ c ∈ a, c < A) → (∀ c ∈ b, c < A) →
    ∀ c ∈ comb t a b, c < A * 2 ^ 257
  | [], _, _, _ => by simp [comb]
  | _ :: _, [], _, _ => by simp [comb]
  | x :: a, y :: b, ha, hb => by
    intro c hc
    unfold comb at hc
    rw [List.zipWith_cons_cons, List.mem_cons] at hc
    rcases hc with rfl | hc
    · have h1 := ha x List.mem_cons_self
      have h2 := hb y List.mem_cons_self
      calc x + t * y ≤ A + 2 ^ 256 * y := Nat.add_le_add h1.le (Nat.mul_le_mul_right _ ht.le)
        _ < A * 2 ^ 257 := by omega
    · exact comb_lt ht a b (fun c hc => ha c (List.mem_cons_of_mem _ hc)) (fun c hc => hb c (List.mem_cons_of_mem _ hc)) c hc

/-- the value at `x` -/
noncomputable def value (l : List Nat) (x : Fr) : Fr := (Spec.polyOf (l.map (Nat.cast : Nat → Fr))).eval x

theorem value_nil (x : Fr) : value [] x = 0 := by simp [value, Spec.polyOf]

theorem value_cons (c : Nat) (l : List Nat) (x : Fr) : value (c :: l) x = c + x * value l x := by
  unfold value
  rw [List.map_cons, Spec.polyOf, eval_add, eval_C, eval_mul, eval_X]

theorem value_append (a b : List Nat) (x : Fr) : value (a ++ b) x = value a x + x ^ a.length * value b x := by
  induction a with
  | nil => rw [value_nil]; simp
  | cons c a ih => rw [List.cons_append, value_cons, ih, value_cons, List.length_cons, pow_succ]; ring

theorem value_comb (t : Nat) (x : Fr) : ∀ (a b : List Nat), a.length = b.length → value (comb t a b) x = value a x + t * value b x
  | [], [], _ => by simp [comb, value_nil]
  | c :: a, e :: b, h => by
    have ih := value_comb t x a b (by simpa using h)
    unfold comb at ih ⊢
    rw [List.zipWith_cons_cons, value_cons, ih, value_cons, value_cons]
    push_cast
    ring
  | [], _ :: _, h => by cases h
  | _ :: _, [], h => by cases h

/-- the number with the given bits, the last bit first -/
def number : List Bool → Nat
  | [] => 0
  | b :: p => 2 * number p + b.toNat

theorem number_lt (p : List Bool) : number p < 2 ^ p.length := by
  induction p with
  | nil => simp [number]
  | cons b p ih =>
    have : b.toNat ≤ 1 := Bool.toNat_le b
    rw [number, List.length_cons, pow_succ]
    omega

theorem brev_number (b : Bool) (p : List Bool) :
    Spec.brev (p.length + 1) (number (b :: p)) = b.toNat * 2 ^ p.length + Spec.brev p.length (number p) := by
  have h1 : number (b :: p) % 2 = b.toNat := by
    have : b.toNat ≤ 1 := Bool.toNat_le b
    rw [number]; omega
  have h2 : number (b :: p) / 2 = number p := by
    have : b.toNat ≤ 1 := Bool.toNat_le b
    rw [number]; omega
  rw [Spec.brev, h1, h2]

theorem omegas_eq : omegas.length = 12 ∧ ∀ k < 12, ((omegas.getD k 0 : Nat) : Fr) = Spec.omega (k + 2) := by
  refine ⟨rfl, ?_⟩
  intro k hk
  unfold Spec.omega
  interval_cases k
  all_goals exact (pow_eq_of_powMod (b := 7) (by decide +kernel) (by decide +kernel)).symm

theorem twist_eq (p : List Bool) : ∀ k, p.length + k ≤ 12 →
    ((twist (omegas.drop k) p : Nat) : Fr) = Spec.omega (p.length + 1 + k) ^ Spec.brev p.length (number p) ∧
      twist (omegas.drop k) p < frOrder := by
  induction p with
  | nil =>
    intro k _
    have h : twist (omegas.drop k) [] = 1 := by
      cases omegas.drop k <;> rfl
    rw [h]
    exact ⟨by simp [Spec.brev], by decide +kernel⟩
  | cons b p ih =>
    intro k hk
    rw [List.length_cons] at hk ⊢
    have hk' : k < omegas.length := by rw [omegas_eq.1]; omega
    have hd : omegas.drop k = omegas.getD k 0 :: omegas.drop (k + 1) := by
      rw [List.drop_eq_getElem_cons hk', List.getD_eq_getElem?_getD, List.getElem?_eq_getElem hk', Option.getD_some]
    obtain ⟨h1, h2⟩ := ih (k + 1) (by omega)
    have hw := omegas_eq.2 k (by omega)
    have ho := omega_pow (k + 2) (p.length + 1 + 1 + k) (by omega) (by omega)
    rw [show p.length + 1 + 1 + k - (k + 2) = p.length by omega] at ho
    rw [brev_number, pow_add, mul_comm b.toNat, pow_mul, ho, hd]
    rw [show p.length + 1 + (k + 1) = p.length + 1 + 1 + k by omega] at h1
    cases b with
    | false =>
      rw [Bool.toNat_false, pow_zero, one_mul]
      exact ⟨h1, h2⟩
    | true =>
      rw [Bool.toNat_true, pow_one]
      refine ⟨?_, Nat.mod_lt _ frOrder_prime.pos⟩
      rw [twist, ZMod.natCast_mod, Nat.cast_mul, hw, h1]

/-- the points below a node: their powers are the constant of the node or its opposite -/
theorem point_pow (b : Bool) (p : List Bool) (d j : Nat) (hj : j < 2 ^ d) (hd : p.length + 1 + d = 13) :
    Spec.point 13 (number (b :: p) * 2 ^ d + j) ^ 2 ^ d =
      (if b then (frOrder - twist omegas p : Nat) else (twist omegas p : Nat) : Nat) := by
  obtain ⟨ht, hlt⟩ := twist_eq p 0 (by omega)
  rw [List.drop_zero, add_zero] at ht
  rw [List.drop_zero] at hlt
  have hc := Spec.brev_concat d (p.length + 1) j (number (b :: p)) hj
  rw [show d + (p.length + 1) = 13 by omega] at hc
  have h13 : Spec.omega 13 ^ 2 ^ 13 = 1 := (omega_primitive 13 (by norm_num)).pow_eq_one
  have hL := omega_pow (p.length + 1) 13 (by omega) (by norm_num)
  rw [show 13 - (p.length + 1) = d by omega] at hL
  unfold Spec.point
  rw [add_comm, mul_comm, hc, ← pow_mul, mul_comm _ (2 ^ d), mul_add, pow_add, pow_mul, hL, ← mul_assoc, ← pow_add,
    show d + (p.length + 1) = 13 by omega, pow_mul, h13, one_pow, mul_one, brev_number, pow_add, mul_comm b.toNat, pow_mul, ← ht]
  have h1 := omega_pow 1 (p.length + 1) (by omega) (by omega)
  rw [show p.length + 1 - 1 = p.length by omega] at h1
  rw [h1]
  have hm : Spec.omega 1 = -1 := IsPrimitiveRoot.eq_neg_one_of_two_right (omega_primitive 1 (by norm_num))
  rw [hm]
  cases b with
  | false => simp
  | true =>
    rw [Bool.toNat_true, pow_one, if_pos rfl, Nat.cast_sub hlt.le]
    have : ((frOrder : Nat) : Fr) = 0 := ZMod.natCast_self _
    rw [this]
    ring

theorem natToBE_add (a b v : Nat) : natToBE (a + b) v = natToBE a (v / 256 ^ b) ++ natToBE b v := by
  induction b generalizing v with
  | zero => simp [natToBE, natToLE]
  | succ b ih =>
    rw [← add_assoc, natToBE_succ, ih, natToBE_succ, List.append_assoc, Nat.div_div_eq_div_mul, pow_succ, mul_comm 256]

theorem natToBE_mod (b v : Nat) : natToBE b (v % 256 ^ b) = natToBE b v := by
  apply beToNat_inj (by simp)
  rw [beToNat_natToBE, beToNat_natToBE, Nat.mod_mod]

theorem width_step (d : Nat) (hd : d ≤ 12) : width - 257 * (d + 1) + 257 = width - 257 * d := by
  have : 3341 ≤ width := by decide
  omega

/-- the step from a node to the next two -/
theorem step {d : Nat} {p : List Bool} {l : List Nat} (hl : l.length = 2 ^ (d + 1)) {A : Nat} (hA : A * 2 ^ 257 ≤ 2 ^ width)
    (hb : ∀ c ∈ l, c < A) (hp : p.length + 1 + d = 13) (b : Bool) :
    ∃ m : List Nat, m.length = 2 ^ d ∧ (∀ c ∈ m, c < A * 2 ^ 257) ∧
      pack width m = pack width l % 2 ^ (width * 2 ^ d) +
        (if b then frOrder - twist omegas p else twist omegas p) * (pack width l / 2 ^ (width * 2 ^ d)) ∧
      ∀ j < 2 ^ d, value m (Spec.point 13 (number (b :: p) * 2 ^ d + j)) = value l (Spec.point 13 (number (b :: p) * 2 ^ d + j)) := by
  set t := if b then frOrder - twist omegas p else twist omegas p with ht
  have hlen : (l.take (2 ^ d)).length = 2 ^ d := by rw [List.length_take, hl, pow_succ]; omega
  have hlen' : (l.drop (2 ^ d)).length = 2 ^ d := by rw [List.length_drop, hl, pow_succ]; omega
  have hlt := (twist_eq p 0 (by omega)).2
  rw [List.drop_zero] at hlt
  have htlt : t < 2 ^ 256 := by
    have : frOrder < 2 ^ 256 := by decide +kernel
    rw [ht]
    split <;> omega
  have hAw : A ≤ 2 ^ width := le_trans (Nat.le_mul_of_pos_right _ (by positivity)) hA
  refine ⟨comb t (l.take (2 ^ d)) (l.drop (2 ^ d)), ?_, ?_, ?_, ?_⟩
  · unfold comb; rw [List.length_zipWith, hlen, hlen', min_self]
  · exact comb_lt htlt _ _ (fun c hc => hb c (List.mem_of_mem_take hc)) (fun c hc => hb c (List.mem_of_mem_drop hc))
  · rw [pack_comb _ _ _ _ (hlen.trans hlen'.symm)]
    have hs := pack_split width (l.take (2 ^ d)) (l.drop (2 ^ d)) fun c hc => (hb c (List.mem_of_mem_take hc)).trans_le hAw
    rw [List.take_append_drop, hlen] at hs
    rw [hs.1, hs.2]
  · intro j hj
    rw [value_comb _ _ _ _ (hlen.trans hlen'.symm)]
    conv_rhs => rw [← List.take_append_drop (2 ^ d) l, value_append, hlen, point_pow b p d j hj hp]

/-- the bytes of the values at consecutive points -/
noncomputable def bytesAt (l : List Nat) (start count : Nat) : List UInt8 :=
  ((List.range count).map fun j => scalarToBytesBE (value l (Spec.point 13 (start + j)))).flatten

theorem bytesAt_add (l : List Nat) (s a b : Nat) : bytesAt l s (a + b) = bytesAt l s a ++ bytesAt l (s + a) b := by
  unfold bytesAt
  rw [List.range_add, List.map_append, List.flatten_append, List.map_map]
  refine congrArg₂ (· ++ ·) rfl (congrArg List.flatten (List.map_congr_left fun j _ => ?_))
  rw [Function.comp_apply, add_assoc]

theorem bytesAt_congr {l m : List Nat} {s n : Nat} (h : ∀ j < n, value m (Spec.point 13 (s + j)) = value l (Spec.point 13 (s + j))) :
    bytesAt m s n = bytesAt l s n := by
  unfold bytesAt
  refine congrArg List.flatten (List.map_congr_left fun j hj => ?_)
  rw [h j (List.mem_range.1 hj)]

theorem evalCheck_sound (d : Nat) : ∀ (p : List Bool) (l : List Nat) (v : Nat), p.length + d = 13 → l.length = 2 ^ d →
    (∀ c ∈ l, c < 2 ^ (width - 257 * d)) → d ≤ 12 → evalCheck d p (pack width l) v = true →
    natToBE (32 * 2 ^ d) v = bytesAt l (number p * 2 ^ d) (2 ^ d) := by
  induction d with
  | zero =>
    intro p l v _ hl _ _ h
    obtain ⟨c, rfl⟩ := List.length_eq_one_iff.1 hl
    rw [evalCheck, Nat.beq_eq] at h
    rw [← h]
    unfold bytesAt scalarToBytesBE
    rw [pow_zero, List.range_one, List.map_singleton, List.flatten_singleton, value_cons, value_nil, mul_zero, add_zero,
      ZMod.val_natCast, pack, pack, mul_zero, add_zero, mul_one]
  | succ d ih =>
    intro p l v hp hl hb hd h
    rw [evalCheck, Bool.and_eq_true] at h
    have hA : 2 ^ (width - 257 * (d + 1)) * 2 ^ 257 = 2 ^ (width - 257 * d) := by
      rw [← pow_add, width_step _ (by omega)]
    have hA' : 2 ^ (width - 257 * (d + 1)) * 2 ^ 257 ≤ 2 ^ width := by
      rw [hA]
      exact Nat.pow_le_pow_right (by norm_num) (by omega)
    obtain ⟨m0, hl0, hb0, hp0, hv0⟩ := step hl hA' hb (p := p) (by omega) false
    obtain ⟨m1, hl1, hb1, hp1, hv1⟩ := step hl hA' hb (p := p) (by omega) true
    rw [hA] at hb0 hb1
    rw [if_neg Bool.false_ne_true] at hp0
    rw [if_pos rfl] at hp1
    have h0 := ih (false :: p) m0 _ (by rw [List.length_cons]; omega) hl0 hb0 (by omega) (by rw [hp0]; exact h.1)
    have h1 := ih (true :: p) m1 _ (by rw [List.length_cons]; omega) hl1 hb1 (by omega) (by rw [hp1]; exact h.2)
    rw [bytesAt_congr hv0] at h0
    rw [bytesAt_congr hv1] at h1
    have h256 : (2 : Nat) ^ (256 * 2 ^ d) = 256 ^ (32 * 2 ^ d) := by
      have e : (256 : Nat) ^ (32 * 2 ^ d) = (2 ^ 8) ^ (32 * 2 ^ d) := rfl
      rw [e, ← pow_mul, ← mul_assoc, show 8 * 32 = 256 from rfl]
    rw [h256] at h0 h1
    rw [natToBE_mod] at h1
    rw [pow_succ 2 d, mul_two, mul_add 32, natToBE_add, h0, h1, bytesAt_add]
    rw [show number (false :: p) * 2 ^ d = number p * (2 ^ d + 2 ^ d) by rw [number, Bool.toNat_false]; ring,
      show number (true :: p) * 2 ^ d = number p * (2 ^ d + 2 ^ d) + 2 ^ d by rw [number, Bool.toNat_true]; ring]

theorem evalCells_sound (d : Nat) : ∀ (p : List Bool) (l : List Nat) (vs : List Nat), p.length + (d + 6) = 13 →
    l.length = 2 ^ (d + 6) → (∀ c ∈ l, c < 2 ^ (width - 257 * (d + 6))) → d ≤ 6 → evalCells d p (pack width l) vs = true →
    vs.map (natToBE 2048) = (List.range (2 ^ d)).map fun k => bytesAt l (64 * (number p * 2 ^ d + k)) 64 := by
  induction d with
  | zero =>
    intro p l vs hp hl hb hd h
    match vs, h with
    | [v], h =>
      have := evalCheck_sound 6 p l v hp hl hb (by omega) h
      rw [List.map_singleton, pow_zero, List.range_one, List.map_singleton, mul_one, add_zero, mul_comm 64]
      exact congrArg (fun x => [x]) this
  | succ d ih =>
    intro p l vs hp hl hb hd h
    rw [evalCells, Bool.and_eq_true] at h
    rw [show d + 1 + 6 = (d + 6) + 1 by omega] at hl hb
    have hA : 2 ^ (width - 257 * (d + 6 + 1)) * 2 ^ 257 = 2 ^ (width - 257 * (d + 6)) := by
      rw [← pow_add, width_step _ (by omega)]
    have hA' : 2 ^ (width - 257 * (d + 6 + 1)) * 2 ^ 257 ≤ 2 ^ width := by
      rw [hA]
      exact Nat.pow_le_pow_right (by norm_num) (by omega)
    obtain ⟨m0, hl0, hb0, hp0, hv0⟩ := step hl hA' hb (p := p) (by omega) false
    obtain ⟨m1, hl1, hb1, hp1, hv1⟩ := step hl hA' hb (p := p) (by omega) true
    rw [hA] at hb0 hb1
    rw [if_neg Bool.false_ne_true] at hp0
    rw [if_pos rfl] at hp1
    have h0 := ih (false :: p) m0 _ (by rw [List.length_cons]; omega) hl0 hb0 (by omega) (by rw [hp0]; exact h.1)
    have h1 := ih (true :: p) m1 _ (by rw [List.length_cons]; omega) hl1 hb1 (by omega) (by rw [hp1]; exact h.2)
    rw [← List.take_append_drop (2 ^ d) vs, List.map_append, h0, h1, pow_succ 2 d, mul_two, List.range_add, List.map_append,
      List.map_map]
    refine congrArg₂ (· ++ ·) ?_ ?_
    · refine List.map_congr_left fun k hk => ?_
      have hk := List.mem_range.1 hk
      rw [show number (false :: p) * 2 ^ d = number p * (2 ^ d + 2 ^ d) by rw [number, Bool.toNat_false]; ring]
      refine bytesAt_congr fun j hj => ?_
      have := hv0 (64 * k + j) (by rw [pow_add]; omega)
      rw [show number (false :: p) * 2 ^ (d + 6) + (64 * k + j) = 64 * (number p * (2 ^ d + 2 ^ d) + k) + j by
        rw [number, Bool.toNat_false, pow_add]; ring] at this
      exact this
    · refine List.map_congr_left fun k hk => ?_
      have hk := List.mem_range.1 hk
      rw [Function.comp_apply, show number (true :: p) * 2 ^ d + k = number p * (2 ^ d + 2 ^ d) + (2 ^ d + k) by
        rw [number, Bool.toNat_true]; ring]
      refine bytesAt_congr fun j hj => ?_
      have := hv1 (64 * k + j) (by rw [pow_add]; omega)
      rw [show number (true :: p) * 2 ^ (d + 6) + (64 * k + j) = 64 * (number p * (2 ^ d + 2 ^ d) + (2 ^ d + k)) + j by
        rw [number, Bool.toNat_true, pow_add]; ring] at this
      exact this

end Verif.Packed
