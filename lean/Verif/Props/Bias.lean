import Verif.Props.OneError
import Verif.Props.Toy
import Verif.Lemmas.Bias

set_option linter.unusedSectionVars false

/-!
C97: the challenge that `compute_fiat_shamir_challenge` derives from a digest is not uniform in the scalar field, and what that costs. The
comment at /repo/cryptography/kzg_multi_open/src/fk20/verifier.rs lines 297 to 304 says that the bias is negligible "given we want a
uniformly random 128 bit integer" and that the zero challenge is not handled because it is improbable.
-/
namespace Verif
open Finset

theorem bias_val (b : List UInt8) : (reduceBytesToScalarBias b).val = beToNat b % frOrder := by
  unfold reduceBytesToScalarBias
  exact ZMod.val_natCast frOrder _

theorem bias_card (i : Nat) (hi : i < frOrder) :
    (univ.filter fun d : Spec.Digest => (reduceBytesToScalarBias d.bytes).val = i).card =
      if i < 256 ^ 32 - 2 * frOrder then 3 else 2 := by
  have e : (univ.filter fun d : Spec.Digest => (reduceBytesToScalarBias d.bytes).val = i) =
      univ.filter fun d : Spec.Digest => beToNat d.bytes % frOrder = i :=
    filter_congr fun d _ => by rw [bias_val]
  rw [e, bias_digests fun v => v % frOrder = i]
  exact Bias.card_fibre frOrder (256 ^ 32) i (by norm_num [frOrder]) (by norm_num [frOrder]) hi

theorem bias_lt (x : Fr) : x.val < frOrder := by
  have : NeZero frOrder := ⟨frOrder_prime.ne_zero⟩
  exact ZMod.val_lt x

/-- C97: a challenge comes from three digests if it is below `2^256 - 2 r`, and from two otherwise. -/
theorem C97_fibre (x : Fr) :
    (univ.filter fun d : Spec.Digest => reduceBytesToScalarBias d.bytes = x).card =
      if x.val < 2 ^ 256 - 2 * frOrder then 3 else 2 := by
  have : NeZero frOrder := ⟨frOrder_prime.ne_zero⟩
  have e : (univ.filter fun d : Spec.Digest => reduceBytesToScalarBias d.bytes = x) =
      univ.filter fun d : Spec.Digest => (reduceBytesToScalarBias d.bytes).val = x.val :=
    filter_congr fun d _ => (ZMod.val_injective frOrder).eq_iff.symm
  rw [e, bias_card _ (bias_lt x), show (256 : Nat) ^ 32 = 2 ^ 256 by norm_num]

/-- C97: the zero challenge, which the code does not handle, comes from exactly three digests. -/
theorem C97_zero : (univ.filter fun d : Spec.Digest => reduceBytesToScalarBias d.bytes = 0).card = 3 := by
  rw [C97_fibre, if_pos]
  rw [ZMod.val_zero]
  norm_num [frOrder]

/-- C97: as a distribution on the scalar field the challenge is not close to uniform. Its statistical distance from the uniform
distribution is `(2^256 - 2 r) (3 r - 2^256) / (r 2^256)`, which lies between 7.4 and 7.5 percent. -/
theorem C97_distance :
    let count : Nat → Nat := fun i => (univ.filter fun d : Spec.Digest => (reduceBytesToScalarBias d.bytes).val = i).card
    let δ : ℚ := (∑ i ∈ range frOrder, |(count i : ℚ) / 2 ^ 256 - 1 / frOrder|) / 2
    δ = (2 ^ 256 - 2 * frOrder) * (3 * frOrder - 2 ^ 256) / (frOrder * 2 ^ 256) ∧ 74 / 1000 < δ ∧ δ < 75 / 1000 := by
  intro count δ
  have h : δ = (2 ^ 256 - 2 * frOrder) * (3 * frOrder - 2 ^ 256) / (frOrder * 2 ^ 256) := by
    have h := Bias.distance frOrder (256 ^ 32) frOrder_prime.pos (by norm_num [frOrder]) (by norm_num [frOrder]) count fun i hi => bias_card i hi
    rw [show (((256 : Nat) ^ 32 : Nat) : ℚ) = 2 ^ 256 by norm_num] at h
    exact h
  refine ⟨h, ?_, ?_⟩
  · rw [h]
    norm_num [frOrder]
  · rw [h]
    norm_num [frOrder]

/-- C97: what the security argument needs holds all the same. Any set of challenges is hit by at most three digests for each member, so
with a probability of at most `|S| / 2^254`; a uniform integer of 128 bits would give up to `|S| / 2^128`. -/
theorem C97_guess (S : Finset Fr) :
    (univ.filter fun d : Spec.Digest => reduceBytesToScalarBias d.bytes ∈ S).card ≤ 3 * S.card ∧
    (((univ.filter fun d : Spec.Digest => reduceBytesToScalarBias d.bytes ∈ S).card : ℚ) / 2 ^ 256 ≤ S.card / 2 ^ 254) := by
  have h : (univ.filter fun d : Spec.Digest => reduceBytesToScalarBias d.bytes ∈ S).card ≤ 3 * S.card := by
    rw [bias_sum (fun d : Spec.Digest => reduceBytesToScalarBias d.bytes) S, mul_comm]
    refine sum_le_card_nsmul _ _ _ fun x hx => ?_
    rw [C97_fibre x]
    split <;> omega
  refine ⟨h, ?_⟩
  have h' : ((univ.filter fun d : Spec.Digest => reduceBytesToScalarBias d.bytes ∈ S).card : ℚ) ≤ 3 * S.card := by exact_mod_cast h
  have h0 : (0 : ℚ) ≤ S.card := Nat.cast_nonneg _
  rw [div_le_div_iff₀ (by positivity) (by positivity)]
  generalize ((univ.filter fun d : Spec.Digest => reduceBytesToScalarBias d.bytes ∈ S).card : ℚ) = m at h' ⊢
  rw [show (2 : ℚ) ^ 256 = 4 * 2 ^ 254 by norm_num]
  have : (0 : ℚ) < 2 ^ 254 := by positivity
  nlinarith

theorem bias_exact (S : Finset Fr) (hS : ∀ x ∈ S, x.val < 2 ^ 256 - 2 * frOrder) :
    (univ.filter fun d : Spec.Digest => reduceBytesToScalarBias d.bytes ∈ S).card = 3 * S.card := by
  rw [bias_sum (fun d : Spec.Digest => reduceBytesToScalarBias d.bytes) S, mul_comm]
  refine sum_const_nat fun x hx => ?_
  rw [C97_fibre, if_pos (hS x hx)]

section
variable {K G1 G2 : Type} {GT : outParam Type} {ε : Type} [Field K] [DecidableEq K] [AddCommGroup G1] [Module Fr G1] [DecidableEq G1]
  [Curve K G1] [PointCodec G1] [AddCommGroup G2] [Module Fr G2] [AddCommGroup GT] [DecidableEq GT]
  [Pairing G1 G2 GT] [LawfulPointCodec G1 48] [LawfulPairing G1 G2 GT]

/-- C97: the bound `3 (n - 1)` of C07 on the digests that let a false batch of `n` claims pass is attained for every `n` up to
`2^256 - 2 r + 1`: some batch of `n` well-formed claims, not all true, is accepted for exactly `3 (n - 1)` of the `2^256` digests. -/
theorem C97_attained (setup : SetupPoints G1 G2) (up : UsePrecomp) (τ : Fr)
    (P : G1) (hP : P ≠ 0) (H : G2) (hpt : Spec.PowersOfTau setup.g1Monomial setup.g2Monomial τ P H)
    (hnd : ∀ a : G1, pair a H = (0 : GT) → a = 0)
    (ctx : DASContext K G1 G2) (hctx : (DASContext.new setup up : Outcome ε (DASContext K G1 G2)) = .ok ctx)
    (n : Nat) (hn : n ≤ 2 ^ 256 - 2 * frOrder) :
    ∃ l : List Spec.CellClaim, l.length = n + 1 ∧ (∀ c ∈ l, c.Sized ∧ ¬ c.Malformed G1) ∧ (∃ c ∈ l, ¬ c.IsTrue τ P) ∧
      Set.ncard {d : Spec.Digest | verdict ctx (fun _ => d.bytes) l = .ok ()} = 3 * n := by
  have : NeZero frOrder := ⟨frOrder_prime.ne_zero⟩
  have hlt : ∀ i < n, i < frOrder := fun i hi => by
    have : 2 ^ 256 - 2 * frOrder < frOrder := by norm_num [frOrder]
    omega
  have hval : ∀ i < n, ((i : Nat) : Fr).val = i := fun i hi => ZMod.val_cast_of_lt (hlt i hi)
  set S : Finset Fr := (range n).image fun i => ((i : Nat) : Fr) with hS
  have hcard : S.card = n := by
    rw [hS, card_image_of_injOn, card_range]
    intro a ha b hb hab
    have ha' := mem_range.1 (mem_coe.1 ha)
    have hb' := mem_range.1 (mem_coe.1 hb)
    rw [← hval a ha', ← hval b hb']
    exact congrArg ZMod.val hab
  obtain ⟨l, h1, h2, h3, h4⟩ := C95_sharp setup up τ P hP H hpt hnd ctx hctx S
  refine ⟨l, by rw [h1, hcard], h2, h3, ?_⟩
  have hc : ∀ d : Spec.Digest, Spec.challengeOf (fun _ => d.bytes) l = reduceBytesToScalarBias d.bytes := by
    intro d
    unfold Spec.challengeOf Spec.challenge reduceBytesToScalarBias
    rw [beToNat_eq]
  have e := bias_ncard (fun d : Spec.Digest => reduceBytesToScalarBias d.bytes) S (fun d => verdict ctx (fun _ => d.bytes) l = .ok ())
    fun d => by rw [h4, hc]
  rw [e, bias_exact S, hcard]
  intro x hx
  obtain ⟨i, hi, rfl⟩ := mem_image.1 hx
  rw [hval i (mem_range.1 hi)]
  have := mem_range.1 hi
  omega

end

/-! ### Non-vacuity -/

/-- both cases of `C97_fibre` occur: the challenge one has three preimages, the challenge `-1` two -/
example : (univ.filter fun d : Spec.Digest => reduceBytesToScalarBias d.bytes = 1).card = 3 ∧
    (univ.filter fun d : Spec.Digest => reduceBytesToScalarBias d.bytes = -1).card = 2 := by
  have h1 : (1 : Fr).val = 1 := by decide +kernel
  have h2 : (-1 : Fr).val = frOrder - 1 := by decide +kernel
  rw [C97_fibre, C97_fibre, h1, h2]
  norm_num [frOrder]

open Toy in
/-- a batch of three claims that is accepted for six digests -/
example : ∃ ctx : DASContext Fr Fr Fr, (DASContext.new (setup 7) .no : Outcome Error _) = .ok ctx ∧
    ∃ l : List Spec.CellClaim, l.length = 3 ∧ (∀ c ∈ l, c.Sized ∧ ¬ c.Malformed Fr) ∧ (∃ c ∈ l, ¬ c.IsTrue (7 : Fr) (1 : Fr)) ∧
      Set.ncard {d : Spec.Digest | verdict ctx (fun _ => d.bytes) l = .ok ()} = 6 := by
  obtain ⟨ctx, hctx⟩ := context 7
  exact ⟨ctx, hctx, C97_attained (setup 7) .no 7 1 one_ne_zero 1 (powersOfTau 7) nondegenerate ctx hctx 2 (by norm_num [frOrder])⟩

end Verif
