import Verif.Props.TestVectors
import Verif.Props.SelfTest
import Verif.Lemmas.BlsUnchecked

set_option linter.unusedSectionVars false
set_option exponentiation.threshold 800

/-! C89 for the files of verify_cell_kzg_proof_batch. -/
namespace Verif
open Polynomial Bls TestVectors Tests Embedded Vectors Msm

/-- the coordinate in the files belongs to no point of the curve -/
theorem TestVectors.offCurve_refused : (fromCompressed offCurve : Option G1) = none := by
  have hv : Spec.beValue offCurve =
      0x8123456789abcdef0123456789abcdef0123456789abcdef0123456789abcdef0123456789abcdef0123456789abcde0 := by
    unfold offCurve
    rw [← beToNat_eq, beToNat_natToBE]
    decide +kernel
  refine C53_malformed _ (length_natToBE _ _) (.inr (.inr (.inr ⟨?_, ?_⟩)))
  · rw [hv]
    decide +kernel
  · rw [hv]
    rintro ⟨y, hy⟩
    have hx : (((0x8123456789abcdef0123456789abcdef0123456789abcdef0123456789abcdef0123456789abcdef0123456789abcde0 % 2 ^ 381 : Nat) : Fp)) ^ 3 + 4 =
        ((0x1c8b9713d037b06252cb4995ef11804bbbebfb11e559c259f9cde8d32dd436428b02e5353db745896b8bf7e79417937 : Nat) : Fp) := by
      have : ((((0x8123456789abcdef0123456789abcdef0123456789abcdef0123456789abcdef0123456789abcdef0123456789abcde0 % 2 ^ 381) ^ 3 + 4 : Nat)) : Fp) =
          ((0x1c8b9713d037b06252cb4995ef11804bbbebfb11e559c259f9cde8d32dd436428b02e5353db745896b8bf7e79417937 : Nat) : Fp) :=
        (ZMod.natCast_eq_natCast_iff' _ _ _).2 (by decide +kernel)
      rw [← this, Nat.cast_add, Nat.cast_pow]
      rfl
    rw [hx] at hy
    have h0 : ((0x1c8b9713d037b06252cb4995ef11804bbbebfb11e559c259f9cde8d32dd436428b02e5353db745896b8bf7e79417937 : Nat) : Fp) ≠ 0 := by
      rw [Ne, ZMod.natCast_eq_zero_iff]
      decide +kernel
    have hy0 : y ≠ 0 := by
      rintro rfl
      exact h0 (by rw [← hy]; simp)
    have e : ((0x1c8b9713d037b06252cb4995ef11804bbbebfb11e559c259f9cde8d32dd436428b02e5353db745896b8bf7e79417937 : Nat) : Fp) ^ ((fpOrder - 1) / 2) = 1 := by
      rw [← hy, ← pow_mul, show 2 * ((fpOrder - 1) / 2) = fpOrder - 1 by decide +kernel]
      exact ZMod.pow_card_sub_one_eq_one hy0
    have e2 : ((0x1c8b9713d037b06252cb4995ef11804bbbebfb11e559c259f9cde8d32dd436428b02e5353db745896b8bf7e79417937 ^ ((fpOrder - 1) / 2) : Nat) : Fp) =
        ((1 : Nat) : Fp) := by
      rw [Nat.cast_pow, Nat.cast_one]
      exact e
    rw [ZMod.natCast_eq_natCast_iff, Nat.ModEq, ← powMod_eq fpOrder 400 _ _ (by decide +kernel)] at e2
    revert e2
    decide +kernel

/-- a multiple of one point, from a computation on numbers -/
theorem TestVectors.multiple_point {m X Y Z c x y x' y' : Nat} {P : Curve1} (h0 : P ≠ 0) (ha : toAff P = (⟨x, y⟩ : Aff Fp)) (hc : c < 2 ^ 256)
    (hm : m + 1 = fpOrder) (hr : (horner fpOrder m .inf (single fpOrder m [⟨c, x, y⟩])).is X Y Z = true)
    (hs : same fpOrder X Y Z x' y' = true) : toAff (c • P) = (⟨x', y'⟩ : Aff Fp) := by
  have hv : Valid (4 : Fp) [⟨c, x, y⟩] := by
    intro i hi
    rw [List.mem_singleton.1 hi]
    exact ⟨P, h0, ha⟩
  obtain ⟨h1, h2, h3⟩ := same_spec hs
  have h := horner_sound (F := Fp) (b := 4) (CharP.cast_eq_zero Fp fpOrder) hm _ hv
    (fun i hi => by rw [List.mem_singleton.1 hi]; exact hc) (single fpOrder m _) (fun w hw => by
      obtain ⟨k, -, rfl⟩ := List.mem_map.1 hw
      rfl) (by
      unfold single
      rw [List.map_map]
      exact flatten_singles _) (Jc.is_eq hr) h1 h2 h3
  have hi : Item.point (4 : Fp) ⟨c, x, y⟩ = P := by
    rw [← LawfulCurve.ofAff_toAff (K := Fp) P, ha]
    rfl
  rwa [List.map_singleton, List.sum_singleton, hi] at h

/-- the other point in the files is on the curve and not in the subgroup -/
theorem TestVectors.offSubgroup_refused : (fromCompressed offSubgroup : Option G1) = none := by
  rw [C53_refuse offSubgroup (length_natToBE _ _)]
  rintro ⟨P, hP, ht⟩
  have hcurve : ((0xc15a1b5e4d33d69d5b38f528b4f0c9fe5ee2538426c867ec915689611d5da8335c4d106f0644d05c266e1dd74b3e61 : Nat) : Fp) ^ 2 =
      ((0x123456789abcdef0123456789abcdef0123456789abcdef0123456789abcdef0123456789abcdef0123456789abcdef : Nat) : Fp) ^ 3 + 4 := by
    have : ((0xc15a1b5e4d33d69d5b38f528b4f0c9fe5ee2538426c867ec915689611d5da8335c4d106f0644d05c266e1dd74b3e61 ^ 2 : Nat) : Fp) =
        ((0x123456789abcdef0123456789abcdef0123456789abcdef0123456789abcdef0123456789abcdef0123456789abcdef ^ 3 + 4 : Nat) : Fp) :=
      (ZMod.natCast_eq_natCast_iff' _ _ _).2 (by decide +kernel)
    rw [Nat.cast_pow, Nat.cast_add, Nat.cast_pow] at this
    exact this
  have hQ : Spec.EncodesG1 offSubgroup (.some _ _ (curve_nonsingular hcurve)) := by
    refine ⟨length_natToBE _ _, ?_⟩
    unfold offSubgroup
    rw [← beToNat_eq, beToNat_natToBE]
    have h0 : ((0xc15a1b5e4d33d69d5b38f528b4f0c9fe5ee2538426c867ec915689611d5da8335c4d106f0644d05c266e1dd74b3e61 : Nat) : Fp) ≠ 0 := by
      rw [Ne, ZMod.natCast_eq_zero_iff]
      decide +kernel
    show _ = 2 ^ 383 + (if (-(((0xc15a1b5e4d33d69d5b38f528b4f0c9fe5ee2538426c867ec915689611d5da8335c4d106f0644d05c266e1dd74b3e61 : Nat) : Fp))).val <
      (((0xc15a1b5e4d33d69d5b38f528b4f0c9fe5ee2538426c867ec915689611d5da8335c4d106f0644d05c266e1dd74b3e61 : Nat) : Fp)).val then 2 ^ 381 else 0) +
      (((0x123456789abcdef0123456789abcdef0123456789abcdef0123456789abcdef0123456789abcdef0123456789abcdef : Nat) : Fp)).val
    rw [ZMod.neg_val, if_neg h0, ZMod.val_natCast_of_lt (by decide +kernel), ZMod.val_natCast_of_lt (by decide +kernel)]
    decide +kernel
  obtain rfl := C53_injective hP hQ
  have hs := multiple_point (x := 0x123456789abcdef0123456789abcdef0123456789abcdef0123456789abcdef0123456789abcdef0123456789abcdef)
    (y := 0xc15a1b5e4d33d69d5b38f528b4f0c9fe5ee2538426c867ec915689611d5da8335c4d106f0644d05c266e1dd74b3e61)
    (m := 0x1a0111ea397fe69a4b1ba7b6434bacd764774b84f38512bf6730d2a0f6b0f6241eabfffeb153ffffb9feffffffffaaaa)
    (x' := 0x136786c60c7daa670c29654eba897c564d665b178fe4a608985297de55822aaf63fa87ce42b1d929a8e92810e70fbdf6)
    (y' := 0xf273da8dabf423fac8919f4c77af0871a9a62b955424cf3087a4db59f1a9ff6e81766508d9e31c85f84a72898739d0)
    (X := 0x1605cb6b956f90afd34af7da3c439d6c8a19d71ca5e9ca505f8637e188918f3f785b2df5f74d1092244ab4423e272da2)
    (Y := 0xf6312af6f3cb353b23063f16e2b8e585127b31df01a0378944705f8ce070f0824986bde1e05acc438fc1634ed1a1a17)
    (Z := 0x19c54f84e8a5c899a44f98ed397c65f82a75a25e3fc300990aa2ddbf27cc8b891d132cc41f59926e9c2c8e8d3a6073b5)
    (P := .some _ _ (curve_nonsingular hcurve)) (c := frOrder) (fun e => by cases e) rfl (by decide +kernel) (by decide +kernel)
    (by decide +kernel) (by decide +kernel)
  rw [ht] at hs
  have h0 : (0 : Fp) = _ := congrArg Aff.x hs
  rw [eq_comm, ZMod.natCast_eq_zero_iff] at h0
  revert h0
  decide +kernel

theorem TestVectors.infinity_decodes : (fromCompressed infinity : Option G1) = some 0 :=
  (C53_decode _ (length_natToBE _ _) _).2 (infinity_encodes (by decide +kernel))

theorem TestVectors.generator_encodes : Spec.EncodesG1 generatorBytes generator.1 := by
  obtain ⟨points, h, -, -, -, hP, -⟩ := C76_points
  obtain ⟨b, hb, he, -⟩ := forall₂_head h.g1 g1Numbers_head
  obtain rfl : generator = b := Option.some.inj (hP.symm.trans hb)
  exact he

section
variable {GT : Type} [AddCommGroup GT] [DecidableEq GT] [Pairing G1 G2 GT]

theorem TestVectors.refuse_file (ctx : DASContext Fp G1 G2) (sha256 : List UInt8 → List UInt8) (v : VerifyInput)
    (h : Spec.Sized 48 v.commitments → Spec.Sized 2048 v.cells → Spec.Sized 48 v.proofs →
      ¬ Spec.VerifyWellFormed G1 v.commitments v.indices v.cells v.proofs) :
    rustVerify Error.invalidProof (ctx.verifyCellKzgProofBatch sha256) (verifyFile v none) = true := by
  refine (C85_rust_verify _ _ _ v.commitments v.cells v.proofs (hexes_map _) (hexes_map _) (hexes_map _)).2 ?_
  by_cases hs : Spec.Sized 48 v.commitments ∧ Spec.Sized 2048 v.cells ∧ Spec.Sized 48 v.proofs
  · obtain ⟨s1, s2, s3⟩ := hs
    refine .inr ⟨⟨s1, s2, s3⟩, ?_⟩
    rcases C13_validation ctx sha256 v.commitments v.indices v.cells v.proofs s2 s1 s3 with ⟨hw, -⟩ | ⟨-, e, hd, he⟩
    · exact absurd hw (h s1 s2 s3)
    · show Spec.TestVerdict _ (ctx.verifyCellKzgProofBatch sha256 v.commitments v.indices v.cells v.proofs) none
      rw [he]
      refine .refused ?_
      cases hd <;> rfl
  · exact .inl ⟨hs, rfl⟩

/-- C89: all files of verify_cell_kzg_proof_batch that expect an error, with every setup, precomputation setting and hash function. -/
theorem C89_refused (ctx : DASContext Fp G1 G2) (sha256 : List UInt8 → List UInt8) :
    suite (rustVerify Error.invalidProof (ctx.verifyCellKzgProofBatch sha256)) (verifyRefused.map (verifyFile · none)) = true := by
  refine (C85_suite _ _).2 ⟨by unfold verifyRefused; exact List.cons_ne_nil _ _, fun w hw => ?_⟩
  obtain ⟨v, hv, rfl⟩ := List.mem_map.1 hw
  refine refuse_file ctx sha256 v ?_
  clear hw
  revert v
  obtain ⟨-, lB, lC, lD⟩ := lengths
  have one : ∀ {l : List Nat}, l.length = 128 → ∃ n, l.take 1 = [n] := fun hl =>
    List.length_eq_one_iff.1 (by rw [List.length_take, hl]; rfl)
  have pB : proofsB.length = 128 := by decide +kernel
  have pC : proofsC.length = 128 := by decide +kernel
  unfold verifyRefused
  refine List.forall_mem_cons.2 ⟨fun _ _ _ h => ?_, ?_⟩
  · exact absurd ((h.cells _ List.mem_cons_self) 7 (by decide)) (not_lt.2 cellOrder_spec.2)
  refine List.forall_mem_cons.2 ⟨fun _ _ _ h => ?_, ?_⟩
  · exact absurd ((h.cells _ List.mem_cons_self) 0 (by decide)) (not_lt.2 cellOnes_spec)
  refine List.forall_mem_cons.2 ⟨fun _ h _ _ => ?_, ?_⟩
  · obtain ⟨n, hn⟩ := one lD
    have := h ((natToBE 2048 n).take 2047) (by
      rw [hn]
      exact List.mem_cons_self)
    rw [List.length_take, length_natToBE] at this
    exact absurd this (by decide)
  refine List.forall_mem_cons.2 ⟨fun _ h _ _ => ?_, ?_⟩
  · obtain ⟨n, hn⟩ := one lC
    have := h (natToBE 2048 n ++ [0]) (by
      rw [hn]
      exact List.mem_cons_self)
    rw [List.length_append, length_natToBE] at this
    exact absurd this (by decide)
  refine List.forall_mem_cons.2 ⟨fun _ _ _ h => ?_, ?_⟩
  · exact absurd (h.inRange 128 List.mem_cons_self) (by decide)
  refine List.forall_mem_cons.2 ⟨fun h _ _ _ => ?_, ?_⟩
  · have := h _ List.mem_cons_self
    unfold generatorBytes at this
    rw [List.length_append, length_natToBE] at this
    exact absurd this (by decide)
  refine List.forall_mem_cons.2 ⟨fun h _ _ _ => ?_, ?_⟩
  · have := h _ List.mem_cons_self
    unfold generatorBytes at this
    rw [List.length_take, length_natToBE] at this
    exact absurd this (by decide)
  refine List.forall_mem_cons.2 ⟨fun _ _ _ h => ?_, ?_⟩
  · obtain ⟨P, hP⟩ := h.commitments _ List.mem_cons_self
    rw [offCurve_refused] at hP
    cases hP
  refine List.forall_mem_cons.2 ⟨fun _ _ _ h => ?_, ?_⟩
  · obtain ⟨P, hP⟩ := h.commitments _ List.mem_cons_self
    rw [offSubgroup_refused] at hP
    cases hP
  refine List.forall_mem_cons.2 ⟨fun _ _ _ h => ?_, ?_⟩
  · have : 2 = (bytes (cellsC.take 1)).length := h.lengths.2.1
    rw [TestVectors.bytes_length, List.length_take, lC] at this
    exact absurd this (by decide)
  refine List.forall_mem_cons.2 ⟨fun _ _ _ h => ?_, ?_⟩
  · exact absurd h.lengths.1 (by decide)
  refine List.forall_mem_cons.2 ⟨fun _ _ _ h => ?_, ?_⟩
  · exact absurd h.lengths.1 (by decide)
  refine List.forall_mem_cons.2 ⟨fun _ _ _ h => ?_, ?_⟩
  · have := h.lengths.2.2
    unfold proofBytes at this
    rw [List.length_map, List.length_take, pB] at this
    exact absurd this (by decide)
  refine List.forall_mem_cons.2 ⟨fun _ _ _ h => ?_, ?_⟩
  · obtain ⟨P, hP⟩ := h.proofs _ List.mem_cons_self
    rw [offCurve_refused] at hP
    cases hP
  refine List.forall_mem_cons.2 ⟨fun _ _ _ h => ?_, ?_⟩
  · obtain ⟨P, hP⟩ := h.proofs _ List.mem_cons_self
    rw [offSubgroup_refused] at hP
    cases hP
  refine List.forall_mem_cons.2 ⟨fun _ _ h _ => ?_, ?_⟩
  · have := h _ List.mem_cons_self
    unfold generatorBytes at this
    rw [List.length_take, length_natToBE] at this
    exact absurd this (by decide)
  refine List.forall_mem_cons.2 ⟨fun _ _ h _ => ?_, ?_⟩
  · have := h _ List.mem_cons_self
    unfold generatorBytes at this
    rw [List.length_append, length_natToBE] at this
    exact absurd this (by decide)
  exact fun v hv => absurd hv List.not_mem_nil

theorem TestVectors.constant_isCell {n : Nat} (hn : n < frOrder) (k : Nat) : Spec.IsCell (C (n : Fr)) k (constantCell n) := by
  rw [isCell_iff, constant_cellOf, ZMod.val_natCast, Nat.mod_eq_of_lt hn]

/-- C89: every batch of constant cells, whose commitments are the multiples of the first point and whose proofs are infinity, is accepted:
with every setup, bilinear pairing and hash function. -/
theorem C89_constant_verify [LawfulPairing G1 G2 GT] (points : SetupPoints G1 G2) (h1 : points.g1Monomial.length = 4096) (P : G1)
    (hP : points.g1Monomial[0]? = some P) (up : UsePrecomp) (ctx : DASContext Fp G1 G2)
    (hctx : (DASContext.new points up : Outcome Error (DASContext Fp G1 G2)) = .ok ctx) (sha256 : List UInt8 → List UInt8)
    (l : List (List UInt8 × Nat × Nat)) (hl : ∀ t ∈ l, Spec.EncodesG1 t.1 (t.2.1 • P : G1) ∧ t.2.1 < frOrder ∧ t.2.2 < 128) :
    ctx.verifyCellKzgProofBatch sha256 (l.map (·.1)) (l.map (·.2.2)) (l.map (constantCell ·.2.1))
      (l.map fun _ => 192 :: List.replicate 47 0) = .ok () := by
  by_cases hne : l = []
  · subst hne
    exact verify_empty sha256 ctx
  have hz : ∀ (c : Fr) (k : Nat), (C c : Fr[X]) /ₘ cellDivisor k = 0 := fun c k => by
    rw [divByMonic_eq_zero_iff (cellDivisor_monic k), cellDivisor_degree]
    exact lt_of_le_of_lt degree_C_le (by decide)
  obtain ⟨r, q, hq, hrun⟩ := verify_honest (GT := GT) points h1 up ctx hctx sha256
    (l.map fun t => (t.1, t.2.2, constantCell t.2.1, 192 :: List.replicate 47 0)) (l.map fun t => C ((t.2.1 : Nat) : Fr))
    (fun e => hne (List.map_eq_nil_iff.1 e)) (by
      rw [List.forall₂_map_left_iff, List.forall₂_map_right_iff, List.forall₂_same]
      intro t ht
      obtain ⟨he, hn, hk⟩ := hl t ht
      refine ⟨lt_of_le_of_lt degree_C_le (by decide), ?_, hk, ?_, ?_⟩
      · show t.1 = _
        rw [commitment_constant hP, Nat.cast_smul_eq_nsmul]
        exact Bls.encodes_iff.1 he
      · exact (isCell_iff _ _ _).1 (constant_isCell hn _)
      · show 192 :: List.replicate 47 0 = _
        rw [hz, TestVectors.commitment_zero, infinity_bytes]
        decide +kernel)
  rw [List.map_map, List.map_map, List.map_map, List.map_map] at hrun
  refine hrun.trans (if_pos ?_)
  have h0 : ∀ i < l.length, q i = 0 := fun i hi => by
    rw [hq i (by rwa [List.length_map]) _ _ (by rw [List.getElem?_map, List.getElem?_eq_getElem hi]; rfl)
      (by rw [List.getElem?_map, List.getElem?_eq_getElem hi]; rfl), hz]
  rw [List.length_map, Finset.sum_eq_zero, Finset.sum_eq_zero, pair_zero_left, pair_zero_left]
  · intro i hi
    rw [h0 i (Finset.mem_range.1 hi), mul_zero, TestVectors.commitment_zero, smul_zero]
  · intro i hi
    rw [h0 i (Finset.mem_range.1 hi), TestVectors.commitment_zero, smul_zero]

theorem TestVectors.g2_differ {points : SetupPoints G1 G2} (h : Points points) : points.g2Monomial.getD 64 0 - points.g2Monomial.getD 0 0 ≠ 0 := by
  have hl : points.g2Monomial.length = 65 := by rw [← h.g2.length_eq, Embedded.length_g2]
  have hn : g2Numbers.length = 65 := Embedded.length_g2
  have a := ((List.forall₂_iff_get.1 h.g2).2 64 (by omega) (by omega)).1
  have b := ((List.forall₂_iff_get.1 h.g2).2 0 (by omega) (by omega)).1
  rw [List.getD_eq_getElem _ _ (by omega), List.getD_eq_getElem _ _ (by omega)]
  intro he
  rw [List.get_eq_getElem, List.get_eq_getElem] at a b
  rw [sub_eq_zero.1 he, encodes2_iff, ← encodes2_iff.1 b] at a
  have := congrArg beToNat a
  rw [beToNat_natToBE, beToNat_natToBE] at this
  have key : (g2Numbers[64]?).map (· % 256 ^ 96) ≠ (g2Numbers[0]?).map (· % 256 ^ 96) := by decide +kernel
  rw [List.getElem?_eq_getElem (by omega), List.getElem?_eq_getElem (by omega)] at key
  exact key (congrArg some this)

/-- C89: the files of verify_cell_kzg_proof_batch with cells of constant blobs and all files that expect an error, with the embedded setup,
every precomputation setting and every hash function: accepted, invalid or refused as recorded, for every non-degenerate pairing. -/
theorem C89_verify [LawfulPairing G1 G2 GT] (hnd : (pair generator generator2 : GT) ≠ 0)
    (lagrange : List (List UInt8)) (up : UsePrecomp) (ctx : DASContext Fp G1 G2)
    (hctx : (DASContext.ofTrustedSetup (Embedded.setup lagrange) up : Outcome Error (DASContext Fp G1 G2)) = .ok ctx)
    (sha256 : List UInt8 → List UInt8) :
    suite (rustVerify Error.invalidProof (ctx.verifyCellKzgProofBatch sha256)) verifyVectors = true := by
  obtain ⟨points, hpts, -, -, -, hP, hQ⟩ := C76_points
  obtain ⟨hnew, h1⟩ := TestVectors.context hpts hctx
  have dbl : Spec.EncodesG1 doubleBytes (2 • generator : G1) := double
  have opp : Spec.EncodesG1 oppositeBytes ((frOrder - 1) • generator : G1) := opposite
  have inf : Spec.EncodesG1 infinity ((0 : Nat) • generator : G1) := by
    rw [zero_smul]
    exact infinity_encodes (by decide +kernel)
  have einf : infinity = 192 :: List.replicate 47 0 := by decide +kernel
  have accept : ∀ (l : List (List UInt8 × Nat × Nat)), (∀ t ∈ l, Spec.EncodesG1 t.1 (t.2.1 • generator : G1) ∧ t.2.1 < frOrder ∧ t.2.2 < 128) →
      rustVerify Error.invalidProof (ctx.verifyCellKzgProofBatch sha256)
        (verifyFile ⟨l.map (·.1), l.map (·.2.2), l.map (constantCell ·.2.1), l.map fun _ => infinity⟩ (some true)) = true := by
    intro l hl
    refine (C85_rust_verify _ _ _ _ _ _ (hexes_map _) (hexes_map _) (hexes_map _)).2 (.inr ⟨⟨?_, ?_, ?_⟩, ?_⟩)
    · intro c hc
      obtain ⟨t, ht, rfl⟩ := List.mem_map.1 hc
      exact (hl t ht).1.1
    · intro c hc
      obtain ⟨t, ht, rfl⟩ := List.mem_map.1 hc
      exact constantCell_length _
    · intro c hc
      obtain ⟨t, ht, rfl⟩ := List.mem_map.1 hc
      exact length_natToBE _ _
    · show Spec.TestVerdict _ (ctx.verifyCellKzgProofBatch sha256 (l.map (·.1)) (l.map (·.2.2)) (l.map (constantCell ·.2.1))
        (l.map fun _ => infinity)) _
      rw [einf, C89_constant_verify points h1 generator hP up ctx hnew sha256 l hl]
      exact .valid
  have all : ∀ {commitment : List UInt8} {n : Nat}, n < frOrder → Spec.EncodesG1 commitment (n • generator : G1) →
      rustVerify Error.invalidProof (ctx.verifyCellKzgProofBatch sha256)
        (verifyFile ⟨List.replicate 128 commitment, List.range 128, List.replicate 128 (constantCell n), infinities⟩ (some true)) = true := by
    intro commitment n hn he
    have := accept ((List.range 128).map fun k => (commitment, n, k)) (by
      intro c hc
      obtain ⟨k, hk, rfl⟩ := List.mem_map.1 hc
      exact ⟨he, hn, List.mem_range.1 hk⟩)
    rw [List.map_map, List.map_map, List.map_map, List.map_map] at this
    have e1 : ∀ {α : Type} (a : α), (List.range 128).map (fun _ => a) = List.replicate 128 a := fun a => by
      rw [List.map_const', List.length_range]
    have e2 : (List.range 128).map (fun k => k) = List.range 128 := List.map_id' _
    exact (congrArg (fun w => rustVerify Error.invalidProof (ctx.verifyCellKzgProofBatch sha256) (verifyFile w (some true)))
      (show VerifyInput.mk _ _ _ _ = _ from congr (congr (congr (congrArg VerifyInput.mk (e1 commitment)) e2) (e1 _)) (e1 infinity))).symm.trans this
  have reject : ∀ {commitment cell proof : List UInt8} {c p : G1} {n : Nat}, commitment.length = 48 → proof.length = 48 →
      fromCompressed commitment = some c → fromCompressed proof = some p → n < frOrder → cell = constantCell n →
      (pair p (points.g2Monomial.getD 64 0) + pair (c - n • generator + p) (-(points.g2Monomial.getD 0 0)) : GT) ≠ 0 →
      rustVerify Error.invalidProof (ctx.verifyCellKzgProofBatch sha256) (verifyFile ⟨[commitment], [0], [cell], [proof]⟩ (some false)) = true := by
    rintro commitment cell proof c p n s1 s3 d1 d2 hn rfl hv
    have q1 : Spec.Sized 48 [commitment] := List.forall_mem_singleton.2 s1
    have q2 : Spec.Sized 2048 [constantCell n] := List.forall_mem_singleton.2 (constantCell_length n)
    have q3 : Spec.Sized 48 [proof] := List.forall_mem_singleton.2 s3
    refine (C85_rust_verify _ _ _ _ _ _ (hexes_map _) (hexes_map _) (hexes_map _)).2 (.inr ⟨⟨q1, q2, q3⟩, ?_⟩)
    obtain ⟨h2, h3, hver⟩ := context_verifier points up h1 ctx hnew
    show Spec.TestVerdict _ (ctx.verifyCellKzgProofBatch sha256 [commitment] [0] [constantCell n] [proof]) _
    rw [verify_run (GT := GT) sha256 ctx points.g1Monomial points.g2Monomial (by omega) (by omega) hver _ _ _ _ q1 q3
      [⟨c, 0, C ((n : Nat) : Fr), p⟩] ⟨.cons d1 .nil, .cons ⟨rfl, show 0 < 128 by decide⟩ .nil,
        .cons ⟨lt_of_le_of_lt degree_C_le (by decide), constant_isCell hn 0⟩ .nil, .cons d2 .nil⟩ (List.cons_ne_nil _ _) _ rfl _ (fun _ => rfl)]
    rw [if_neg]
    · exact .invalid rfl
    · have h0 : Spec.point 13 (64 * 0) ^ 64 = 1 := by
        unfold Spec.point
        rw [mul_zero, show Spec.brev 13 0 = 0 by decide +kernel, pow_zero, one_pow]
      simp only [List.length_singleton, Finset.sum_range_one, pow_zero, one_smul, one_mul, List.getD_cons_zero, h0, commitment_constant hP,
        Nat.cast_smul_eq_nsmul]
      exact hv
  refine (C85_suite _ _).2 ⟨by unfold verifyVectors verifyRefused; exact List.cons_ne_nil _ _, fun w hw => ?_⟩
  replace hw := List.mem_append.1 hw
  rcases hw with hw | hw
  · replace hw := List.mem_append.1 hw
    rcases hw with hw | hw
    · exact ((C85_suite _ _).1 (C89_refused ctx sha256)).2 w hw
    · obtain ⟨v, hv, rfl⟩ := List.mem_map.1 hw
      suffices hv' : ∀ v ∈ verifyTrue, rustVerify Error.invalidProof (ctx.verifyCellKzgProofBatch sha256) (verifyFile v (some true)) = true
        from hv' v hv
      unfold verifyTrue
      refine List.forall_mem_cons.2 ⟨all (by decide +kernel) inf, ?_⟩
      refine List.forall_mem_cons.2 ⟨all (by decide +kernel) opp, ?_⟩
      refine List.forall_mem_cons.2 ⟨all (by decide +kernel) dbl, ?_⟩
      refine List.forall_mem_cons.2 ⟨?_, ?_⟩
      · refine accept [(infinity, 0, 0), (doubleBytes, 2, 0)] ?_
        refine List.forall_mem_cons.2 ⟨⟨inf, by decide +kernel, by decide⟩, ?_⟩
        refine List.forall_mem_cons.2 ⟨⟨dbl, by decide +kernel, by decide⟩, ?_⟩
        exact fun v hv => absurd hv List.not_mem_nil
      refine List.forall_mem_cons.2 ⟨accept [] fun v hv => absurd hv List.not_mem_nil, ?_⟩
      exact fun v hv => absurd hv List.not_mem_nil
  · obtain ⟨v, hv, rfl⟩ := List.mem_map.1 hw
    suffices hv' : ∀ v ∈ verifyFalse, rustVerify Error.invalidProof (ctx.verifyCellKzgProofBatch sha256) (verifyFile v (some false)) = true
      from hv' v hv
    unfold verifyFalse
    refine List.forall_mem_cons.2 ⟨reject (n := frOrder - 1) (length_natToBE _ _) (length_natToBE _ _) infinity_decodes infinity_decodes
      (by decide +kernel) rfl ?_, ?_⟩
    · rw [pair_zero_left, zero_add, add_zero, zero_sub, Ne, C74_nondegenerate hnd, neg_eq_zero, neg_eq_zero, List.getD_eq_getElem?_getD, hQ,
        ← Nat.cast_smul_eq_nsmul Fr, smul_eq_zero]
      rintro ((hz | hz) | hz)
      · exact absurd hz (by decide +kernel)
      · exact generator_ne hz
      · exact generator2_ne hz
    refine List.forall_mem_cons.2 ⟨reject (n := 0) (length_natToBE _ _) (length_natToBE _ _) infinity_decodes
      ((C53_decode _ (length_natToBE _ _) _).2 generator_encodes) (by decide +kernel) rfl ?_, ?_⟩
    · rw [zero_smul, sub_zero, zero_add, ← LawfulPairing.pair_add_right, ← sub_eq_add_neg, Ne, C74_nondegenerate hnd]
      rintro (hz | hz)
      · exact generator_ne hz
      · exact g2_differ hpts hz
    exact fun v hv => absurd hv List.not_mem_nil

end

/-- C89: all hypotheses hold together -/
example (lagrange : List (List UInt8)) (sha256 : List UInt8 → List UInt8) : let := logPairing2
    ∃ ctx, (DASContext.ofTrustedSetup (Embedded.setup lagrange) .no : Outcome Error (DASContext Fp G1 G2)) = .ok ctx ∧ verifyVectors.length = 24 ∧
      suite (rustVerify Error.invalidProof (ctx.verifyCellKzgProofBatch sha256)) verifyVectors = true := by
  intro inst
  have law : LawfulPairing G1 G2 Fr := lawful_logPairing2
  obtain ⟨points, h, -⟩ := C76_points
  obtain ⟨ctx, hctx, -⟩ := C76_default lagrange points h
  refine ⟨ctx, hctx, by decide +kernel, C89_verify ?_ lagrange .no ctx hctx sha256⟩
  show log generator * log2 generator2 ≠ 0
  rw [log_generator, log2_generator2, one_mul]
  exact one_ne_zero

end Verif
