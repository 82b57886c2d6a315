import Verif.Lemmas.ConsensusProver
import Verif.Lemmas.VerifyRun

set_option linter.unusedSectionVars false

/-! The verification functions of the consensus specification: which equation they check. -/
namespace Verif.Consensus
open Polynomial Finset

theorem multiply_const (c : Fr) (b : List Fr) (hb : b.length ≤ 64) :
    ∃ r, multiplyPolynomialcoeff [c] b = some r ∧ Spec.polyOf r = C c * Spec.polyOf b ∧ r.length ≤ 64 := by
  by_cases h : b = []
  · subst h
    refine ⟨[0], ?_, by simp [Spec.polyOf], by simp⟩
    simp [multiplyPolynomialcoeff, addPolynomialcoeff]
  · obtain ⟨r, h1, h2, h3⟩ := multiply_spec (a := [c]) (b := b) (by simp; omega) (by simp) h
    refine ⟨r, h1, ?_, by simp at h3; omega⟩
    rw [h2]; simp [Spec.polyOf]

/-- The weights of the different commitments: adding the weight of each entry to that of its commitment. -/
theorem weights_fold {G : Type} [AddCommGroup G] [Module Fr G] (D : List G) (rows : List Nat) (ρ : Nat → Fr) (n : Nat)
    (hr : ∀ k < n, rows.getD k 0 < D.length) (w : List Fr)
    (hw : w = (List.range n).foldl (fun w k => w.set (rows.getD k 0) (w.getD (rows.getD k 0) 0 + ρ k))
      (List.replicate D.length 0)) :
    w.length = D.length ∧
      ∑ j ∈ range D.length, w.getD j 0 • D.getD j 0 = ∑ k ∈ range n, ρ k • D.getD (rows.getD k 0) 0 := by
  subst hw
  refine foldl_range_inv (fun i (w : List Fr) => w.length = D.length ∧
    ∑ j ∈ range D.length, w.getD j 0 • D.getD j 0 = ∑ k ∈ range i, ρ k • D.getD (rows.getD k 0) 0) _ _ n ?_ ?_
  · refine ⟨by simp, ?_⟩
    rw [range_zero, sum_empty]
    apply sum_eq_zero
    intro j hj
    have hj := mem_range.1 hj
    rw [List.getD_eq_getElem _ _ (by simpa using hj), List.getElem_replicate, zero_smul]
  · rintro i hi w ⟨h1, h2⟩
    refine ⟨by rw [List.length_set, h1], ?_⟩
    have hlt := hr i hi
    rw [sum_range_succ, ← h2]
    have : ∀ j ∈ range D.length, (w.set (rows.getD i 0) (w.getD (rows.getD i 0) 0 + ρ i)).getD j 0 • D.getD j 0 =
        w.getD j 0 • D.getD j 0 + if j = rows.getD i 0 then ρ i • D.getD j 0 else 0 := by
      intro j hj
      have hj := mem_range.1 hj
      by_cases he : j = rows.getD i 0
      · rw [if_pos he, ← he, ← add_smul]
        congr 1
        rw [List.getD, List.getElem?_set_self (by omega), Option.getD_some]
      · rw [if_neg he, add_zero]
        congr 1
        rw [List.getD, List.getElem?_set_ne (by omega)]
        rfl
    rw [sum_congr rfl this, sum_add_distrib, Finset.sum_ite_eq' (range D.length) (rows.getD i 0),
      if_pos (mem_range.2 hlt)]

theorem coset_inj (k : Nat) : ∀ i < 64, ∀ j < 64, Spec.point 13 (64 * k + i) = Spec.point 13 (64 * k + j) → i = j := by
  intro i hi j hj h
  have h1 := point_coset k (Spec.brev 6 i) (Spec.brev_lt 6 i)
  have h2 := point_coset k (Spec.brev 6 j) (Spec.brev_lt 6 j)
  rw [Spec.brev_brev 6 i hi] at h1
  rw [Spec.brev_brev 6 j hj] at h2
  rw [h1, h2] at h
  have h0 : Spec.omega 13 ^ Spec.brev 7 k ≠ 0 := pow_ne_zero _ (omega_ne_zero 13 (by norm_num))
  have h3 := (omega_primitive 6 (by norm_num)).pow_inj (Spec.brev_lt 6 i) (Spec.brev_lt 6 j) (mul_left_cancel₀ h0 h)
  rw [← Spec.brev_brev 6 i hi, h3, Spec.brev_brev 6 j hj]

/-- The interpolation polynomial of one cell. -/
theorem interpolate_cell {k : Nat} {ev : List Fr} {I : Fr[X]} (hev : ev.length = 64) (hI : Interp k ev I) :
    ∃ r, interpolatePolynomialcoeff ((List.range 64).map (fun j => Spec.point 13 (64 * k + j))) ev = some r ∧
      r.length ≤ 64 ∧ Spec.polyOf r = I := by
  have hg : ∀ i < 64, ((List.range 64).map (fun j => Spec.point 13 (64 * k + j))).getD i 0 = Spec.point 13 (64 * k + i) :=
    fun i hi => (rep_map_range _ _).getD 0 hi
  obtain ⟨r, h1, h2, h3⟩ := interpolate_spec ((List.range 64).map (fun j => Spec.point 13 (64 * k + j))) ev
    (by simp [hev]) (by omega) (by omega) (by
      intro i hi j hj h
      have hi : i < 64 := by simpa using hi
      have hj : j < 64 := by simpa using hj
      rw [hg i hi, hg j hj] at h
      exact coset_inj k i hi j hj h)
  refine ⟨r, h1, by omega, ?_⟩
  refine Interp_unique (k := k) (ev := ev) ⟨by
    have := degree_polyOf_lt_of (a := r) (n := 64) (by omega)
    exact_mod_cast this, ?_⟩ hI
  intro j hj
  rw [← hg j hj, h3 j (by omega)]

section
variable {G1 G2 GT : Type} [AddCommGroup G1] [Module Fr G1] [PointCodec G1] [AddCommGroup G2] [Module Fr G2]
  [AddCommGroup GT] [DecidableEq GT] [Pairing G1 G2 GT]

theorem commitment_sum (g : List G1) (n : Nat) (f : Nat → Fr[X]) :
    Spec.commitment g (∑ i ∈ range n, f i) = ∑ i ∈ range n, Spec.commitment g (f i) := by
  induction n with
  | zero => simp [Spec.commitment]
  | succ n ih =>
    rw [sum_range_succ, sum_range_succ, ← ih]
    unfold Spec.commitment
    simp [add_smul, sum_add_distrib]

/-- The equation checked by `verify_cell_kzg_proof_batch_impl`. -/
theorem impl_eq (hash : List UInt8 → List UInt8) (g1 : List G1) (g2 : List G2) (hg1 : 64 ≤ g1.length)
    (cms : List (List UInt8 × G1)) (rows inds : List Nat) (evs : List (List Fr)) (pfs : List (List UInt8 × G1)) (n : Nat)
    (hrl : rows.length = n) (hil : inds.length = n) (hel : evs.length = n) (hpl : pfs.length = n)
    (hnd : (cms.map Prod.fst).Nodup) (hr : ∀ i ∈ rows, i < cms.length) (hi : ∀ k ∈ inds, k < 128)
    (he : ∀ e ∈ evs, e.length = 64) (I : Nat → Fr[X]) (hI : ∀ i < n, Interp (inds.getD i 0) (evs.getD i []) (I i)) (r : Fr)
    (hch : r = computeChallenge hash (cms.map Prod.fst) rows inds evs (pfs.map Prod.fst)) :
    verifyCellKzgProofBatchImpl (GT := GT) hash g1 g2 cms rows inds evs pfs = some (decide (
      pair (∑ i ∈ range n, r ^ i • (pfs.map Prod.snd).getD i 0) (g2.getD 64 0) +
        pair ((∑ i ∈ range n, r ^ i • (cms.map Prod.snd).getD (rows.getD i 0) 0 -
            ∑ i ∈ range n, r ^ i • Spec.commitment g1 (I i)) +
          ∑ i ∈ range n, (r ^ i * Spec.point 13 (64 * inds.getD i 0) ^ 64) • (pfs.map Prod.snd).getD i 0)
          (-(g2.getD 0 0)) = (0 : GT))) := by
  have hpow : ∀ k < n, (computePowers r n).getD k 0 = r ^ k := fun k hk => (rep_map_range _ _).getD 0 hk
  have hind : ∀ k < n, inds.getD k 0 < 128 := fun k hk => by
    rw [List.getD_eq_getElem _ _ (by omega)]; exact hi _ (List.getElem_mem _)
  unfold verifyCellKzgProofBatchImpl
  rw [if_pos ⟨by omega, by omega, by omega, hnd, hr⟩]
  simp only
  rw [← hch, hil]
  rw [bind_of (g1Lincomb_eq (pfs.map Prod.snd) (computePowers r n) n (by simp [hpl]) (by simp [computePowers]))]
  obtain ⟨w, hw⟩ : ∃ w : List Fr, w = (List.range n).foldl (fun w k =>
      w.set (rows.getD k 0) (w.getD (rows.getD k 0) 0 + (computePowers r n).getD k 0))
      (List.replicate cms.length 0) := ⟨_, rfl⟩
  have hcl : (cms.map Prod.snd).length = cms.length := List.length_map _
  rw [← hw]
  obtain ⟨w1, w2⟩ := weights_fold (cms.map Prod.snd) rows (fun k => (computePowers r n).getD k 0) n (fun k hk => by
    rw [hcl, List.getD_eq_getElem _ _ (by omega)]; exact hr _ (List.getElem_mem _)) w (by rw [hcl]; exact hw)
  rw [bind_of (g1Lincomb_eq (cms.map Prod.snd) w _ rfl w1), w2]
  obtain ⟨s, hs, hsl, hsp⟩ := foldlM_range_inv' (fun i (s : List Fr) => s.length = 64 ∧
      Spec.polyOf s = ∑ k ∈ range i, C (r ^ k) * I k) (fun sum k => do
      let coset ← cosetForCell (inds.getD k 0)
      let interpPolyCoeff ← interpolatePolynomialcoeff coset (evs.getD k [])
      let interpPolyScaledCoeff ← multiplyPolynomialcoeff [(computePowers r n).getD k 0] interpPolyCoeff
      pure (addPolynomialcoeff sum interpPolyScaledCoeff)) (List.replicate 64 0) n
    (by
      refine ⟨by simp, ?_⟩
      have := polyOf_shift 64 []
      rw [List.append_nil] at this
      rw [this]; simp [Spec.polyOf])
    (by
      rintro k hk s ⟨h1, h2⟩
      have hek : (evs.getD k []).length = 64 := by
        rw [List.getD_eq_getElem _ _ (by omega)]; exact he _ (List.getElem_mem _)
      obtain ⟨q, q1, q2, q3⟩ := interpolate_cell hek (hI k hk)
      obtain ⟨m, m1, m2, m3⟩ := multiply_const ((computePowers r n).getD k 0) q q2
      refine ⟨addPolynomialcoeff s m, ?_, ?_⟩
      · rw [bind_of (cosetForCell_eq (hind k hk)), bind_of q1, bind_of m1]
        rfl
      · obtain ⟨a1, a2⟩ := add_spec s m
        refine ⟨by rw [a2]; omega, ?_⟩
        rw [a1, h2, m2, q3, sum_range_succ, hpow k hk])
  rw [bind_of hs, bind_of (g1Lincomb_commitment g1 s 64 hsl hg1)]
  rw [bind_of (mapM_some (List.range n) _ (fun k => (computePowers r n).getD k 0 * Spec.point 13 (64 * inds.getD k 0) ^ 64)
    (fun k hk => bind_of (cosetShiftForCell_eq (hind k (List.mem_range.1 hk))) _))]
  rw [bind_of (g1Lincomb_eq (pfs.map Prod.snd) _ n (by simp [hpl]) (by simp))]
  have e1 : ∑ i ∈ range n, (computePowers r n).getD i 0 • (pfs.map Prod.snd).getD i 0 =
      ∑ i ∈ range n, r ^ i • (pfs.map Prod.snd).getD i 0 :=
    sum_congr rfl (fun i hi => by rw [hpow i (mem_range.1 hi)])
  have e2 : ∑ i ∈ range n, (computePowers r n).getD i 0 • (cms.map Prod.snd).getD (rows.getD i 0) 0 =
      ∑ i ∈ range n, r ^ i • (cms.map Prod.snd).getD (rows.getD i 0) 0 :=
    sum_congr rfl (fun i hi => by rw [hpow i (mem_range.1 hi)])
  have e3 : ∑ i ∈ range n, ((List.range n).map (fun k => (computePowers r n).getD k 0 *
      Spec.point 13 (64 * inds.getD k 0) ^ 64)).getD i 0 • (pfs.map Prod.snd).getD i 0 =
      ∑ i ∈ range n, (r ^ i * Spec.point 13 (64 * inds.getD i 0) ^ 64) • (pfs.map Prod.snd).getD i 0 :=
    sum_congr rfl (fun i hi => by
      rw [(rep_map_range _ _).getD 0 (mem_range.1 hi), hpow i (mem_range.1 hi)])
  have e4 : Spec.commitment g1 (Spec.polyOf s) = ∑ i ∈ range n, r ^ i • Spec.commitment g1 (I i) := by
    rw [hsp, commitment_sum]
    refine sum_congr rfl (fun i _ => ?_)
    generalize r ^ i = x
    unfold Spec.commitment
    simp [smul_sum, mul_smul]
  rw [e1, e2, e3, e4, sub_eq_add_neg]

/-! ### The whole function -/

theorem mapM_forall₂ {α β : Type} {f : α → Option β} {l : List α} {m : List β} (h : List.Forall₂ (fun a b => f a = some b) l m) :
    l.mapM f = some m := by
  induction h with
  | nil => rfl
  | cons h _ ih =>
    rw [List.mapM_cons, h, ih]
    rfl

theorem dedup_filter (l : List (List UInt8)) : ((List.range l.length).filter (fun i => l.idxOf (l.getD i []) = i)).map
    (fun i => l.getD i []) = l.eraseDups := by
  have ho : l.eraseDups.Pairwise (fun a b => l.idxOf a < l.idxOf b) := by
    have := eraseDups_order l
    rwa [beq_bytes] at this
  have hp : (((List.range l.length).filter (fun i => l.idxOf (l.getD i []) = i)).map (fun i => l.getD i [])).Pairwise
      (fun a b => l.idxOf a < l.idxOf b) := by
    rw [List.pairwise_map]
    have h1 : ((List.range l.length).filter (fun i => l.idxOf (l.getD i []) = i)).Pairwise (· < ·) :=
      List.pairwise_lt_range.filter _
    refine h1.imp_of_mem ?_
    intro a b ha hb hab
    have ha := (List.mem_filter.1 ha).2
    have hb := (List.mem_filter.1 hb).2
    simp only [decide_eq_true_eq] at ha hb
    rw [ha, hb]; exact hab
  have nd : ∀ m : List (List UInt8), m.Pairwise (fun a b => l.idxOf a < l.idxOf b) → m.Nodup := by
    intro m hm
    exact hm.imp (fun hab e => by rw [e] at hab; exact lt_irrefl _ hab)
  refine List.Perm.eq_of_pairwise (le := fun a b => l.idxOf a < l.idxOf b) ?_ hp ho ?_
  · intro a b _ _ h1 h2
    exact absurd h1 (by omega)
  · rw [List.perm_ext_iff_of_nodup (nd _ hp) (nd _ ho)]
    intro a
    rw [mem_eraseDups_bytes, List.mem_map]
    constructor
    · rintro ⟨i, hi, rfl⟩
      have hi := List.mem_range.1 (List.mem_filter.1 hi).1
      rw [List.getD_eq_getElem _ _ hi]
      exact List.getElem_mem _
    · intro ha
      have hlt := List.idxOf_lt_length_iff.2 ha
      have hg : l.getD (l.idxOf a) [] = a := by rw [List.getD_eq_getElem _ _ hlt, List.getElem_idxOf hlt]
      refine ⟨l.idxOf a, List.mem_filter.2 ⟨List.mem_range.2 hlt, ?_⟩, hg⟩
      rw [hg]; simp

theorem foldl_append_flatten {α β : Type} (l : List α) (f : α → List β) (h : List β) :
    l.foldl (fun h a => h ++ f a) h = h ++ (l.map f).flatten := by
  induction l generalizing h with
  | nil => simp
  | cons a l ih => rw [List.foldl_cons, ih]; simp

theorem u64be_eq' (v : Nat) : intToBytes 8 v = Spec.u64be v := by rw [intToBytes_eq, u64be_eq]

theorem challenge_eq (hash : List UInt8 → List UInt8) (commitments : List (List UInt8)) (inds : List Nat)
    (cells proofs : List (List UInt8)) (evs : List (List Fr)) (n : Nat) (hc : commitments.length = n) (hi : inds.length = n)
    (hce : cells.length = n) (hp : proofs.length = n) (hel : evs.length = n)
    (hev : ∀ k < n, cosetEvalsToCell (evs.getD k []) = cells.getD k []) :
    computeChallenge hash commitments.eraseDups (commitments.map (fun b => commitments.eraseDups.idxOf b)) inds evs proofs =
      Spec.challenge hash commitments inds cells proofs := by
  unfold computeChallenge Spec.challenge Spec.challengeInput
  simp only [u64be_eq']
  have e1 := foldl_append_flatten commitments.eraseDups id
  simp only [id_eq, List.map_id_fun] at e1
  rw [e1]
  have e2 := foldl_append_flatten (List.range evs.length) (fun k =>
      Spec.u64be ((commitments.map (fun b => commitments.eraseDups.idxOf b)).getD k 0) ++ Spec.u64be (inds.getD k 0) ++
      cosetEvalsToCell (evs.getD k []) ++ proofs.getD k [])
  simp only [← List.append_assoc] at e2
  rw [e2]
  congr 5
  refine List.ext_getElem (by simp; omega) ?_
  intro k h1 h2
  have hk : k < n := by simpa [hel] using h1
  rw [List.getElem_map, List.getElem_map, List.getElem_range]
  simp only [List.getElem_zip]
  rw [hev k hk, List.getD_eq_getElem inds _ (by omega), List.getD_eq_getElem cells _ (by omega),
    List.getD_eq_getElem proofs _ (by omega), List.getD_eq_getElem _ _ (by simp; omega), List.getElem_map]

/-- The equation checked by `verify_cell_kzg_proof_batch` on a batch which decodes. -/
theorem verify_eq (hash : List UInt8 → List UInt8) (g1 : List G1) (g2 : List G2) (hg1 : 64 ≤ g1.length)
    (commitments : List (List UInt8)) (inds : List Nat) (cells proofs : List (List UInt8))
    (hcm : ∀ c ∈ commitments, c.length = 48) (hpf : ∀ c ∈ proofs, c.length = 48) (items : List (Spec.Opening G1))
    (hd : Spec.Decodes commitments inds cells proofs items) (r : Fr)
    (hrr : r = Spec.challenge hash commitments inds cells proofs) (it : Nat → Spec.Opening G1)
    (hite : ∀ i, it i = items.getD i ⟨0, 0, 0, 0⟩) :
    verifyCellKzgProofBatch (GT := GT) hash g1 g2 commitments inds cells proofs = some (decide (
      pair (∑ i ∈ range items.length, r ^ i • (it i).proof) (g2.getD 64 0) +
          pair ((∑ i ∈ range items.length, r ^ i • (it i).commitment -
              ∑ i ∈ range items.length, r ^ i • Spec.commitment g1 (it i).interp) +
            ∑ i ∈ range items.length, (r ^ i * Spec.point 13 (64 * (it i).index) ^ 64) • (it i).proof) (-(g2.getD 0 0)) =
          (0 : GT))) := by
  obtain ⟨n, hn⟩ : ∃ n, items.length = n := ⟨_, rfl⟩
  have hlc : commitments.length = n := by rw [hd.commitments.length_eq, hn]
  have hli : inds.length = n := by rw [hd.indices.length_eq, hn]
  have hlce : cells.length = n := by rw [hd.cells.length_eq, hn]
  have hlp : proofs.length = n := by rw [hd.proofs.length_eq, hn]
  have hr : ∀ k ∈ inds, k < 128 := by
    intro k hk
    obtain ⟨i, hi, rfl⟩ := List.mem_iff_getElem.1 hk
    exact (forall₂_getElem hd.indices hi (by omega)).2
  have hc : ∀ c ∈ cells, c.length = 2048 := by
    intro k hk
    obtain ⟨i, hi, rfl⟩ := List.mem_iff_getElem.1 hk
    exact (forall₂_getElem hd.cells hi (by omega)).2.1
  have hit : ∀ i (hi : i < n), it i = items[i]'(by omega) := fun i hi => by
    rw [hite]; exact List.getD_eq_getElem _ _ (by omega)
  let pt : List UInt8 → G1 := fun b => (fromCompressed b).getD 0
  have hptc : ∀ b ∈ commitments.eraseDups, bytesToG1 b = some (b, pt b) := by
    intro b hb
    obtain ⟨i, hi, rfl⟩ := List.mem_iff_getElem.1 ((mem_eraseDups_bytes _ _).1 hb)
    have := forall₂_getElem hd.commitments hi (by omega)
    simp only [bytesToG1, pt, this, Option.map_some, Option.getD_some]
  have hptp : ∀ b ∈ proofs, bytesToG1 b = some (b, pt b) := by
    intro b hb
    obtain ⟨i, hi, rfl⟩ := List.mem_iff_getElem.1 hb
    have := forall₂_getElem hd.proofs hi (by omega)
    simp only [bytesToG1, pt, this, Option.map_some, Option.getD_some]
  obtain ⟨ev, hevd⟩ : ∃ ev : Spec.Opening G1 → List Fr, ∀ o, ev o =
    (List.range 64).map (fun j => o.interp.eval (Spec.point 13 (64 * o.index + j))) := ⟨_, fun _ => rfl⟩
  have hevs : cells.mapM cellToCosetEvals = some (items.map ev) := by
    apply mapM_forall₂
    rw [List.forall₂_map_right_iff]
    refine hd.cells.imp ?_
    intro c o ho
    rw [hevd]
    exact fields_some 64 c _ ho.2.2
  unfold verifyCellKzgProofBatch
  rw [if_pos ⟨by omega, by omega, by omega, hcm, hr, hc, hpf⟩]
  simp only
  rw [dedup_filter, bind_of (mapM_some _ _ _ hptc), bind_of hevs, bind_of (mapM_some _ _ _ hptp)]
  have hfst : ∀ l : List (List UInt8), (l.map (fun b => (b, pt b))).map Prod.fst = l := by
    intro l; rw [List.map_map]; exact List.map_id l
  have hsnd : ∀ l : List (List UInt8), (l.map (fun b => (b, pt b))).map Prod.snd = l.map pt := by
    intro l; rw [List.map_map]; rfl
  rw [hfst]
  have hnd : commitments.eraseDups.Nodup := by
    have := eraseDups_order commitments
    rw [beq_bytes] at this
    exact this.imp (fun hab e => by rw [e] at hab; exact lt_irrefl _ hab)
  have hevk : ∀ k (hk : k < n), (items.map ev).getD k [] = ev (it k) := by
    intro k hk
    rw [List.getD_eq_getElem _ _ (by simp; omega), List.getElem_map, hit k hk]
  have hcell : ∀ i (hi : i < n), (it i).interp.degree < 64 ∧ Spec.IsCell (it i).interp (it i).index (cells[i]'(by omega)) := by
    intro i hi
    rw [hit i hi]
    exact forall₂_getElem hd.cells (by omega) (by omega)
  have hinds : ∀ i < n, inds.getD i 0 = (it i).index := by
    intro i hi
    rw [List.getD_eq_getElem _ _ (by omega), hit i hi]
    exact (forall₂_getElem hd.indices (by omega) (by omega)).1
  have hch := challenge_eq hash commitments inds cells proofs (items.map ev) n hlc hli hlce hlp (by simp [hn]) (by
    intro k hk
    rw [hevk k hk, hevd, cosetEvalsToCell_eq, List.getD_eq_getElem _ _ (by omega)]
    exact ((isCell_iff _ _ _).1 (hcell k hk).2).symm)
  have := impl_eq (GT := GT) hash g1 g2 hg1 (commitments.eraseDups.map (fun b => (b, pt b)))
    (commitments.map (fun b => commitments.eraseDups.idxOf b)) inds (items.map ev) (proofs.map (fun b => (b, pt b))) n
    (by simp [hlc]) hli (by simp [hn]) (by simp [hlp]) (by rw [hfst]; exact hnd) (by
      intro i hi
      rw [List.length_map]
      exact rows_lt commitments i hi) hr (by
      intro e he
      obtain ⟨o, -, rfl⟩ := List.mem_map.1 he
      rw [hevd]; simp) (fun i => (it i).interp) (by
      intro i hi
      rw [hinds i hi, hevk i hi, hevd]
      exact ⟨(hcell i hi).1, fun j hj => by rw [(rep_map_range 64 _).getD 0 hj]⟩) r (by
      rw [hfst, hfst, hch]; exact hrr)
  rw [this, hsnd, hsnd]
  have p1 : ∀ i < n, (proofs.map pt).getD i 0 = (it i).proof := by
    intro i hi
    rw [List.getD_eq_getElem _ _ (by simp; omega), List.getElem_map, hit i hi]
    have := forall₂_getElem hd.proofs (i := i) (by omega) (by omega)
    simp only [pt, this, Option.getD_some]
  have p2 : ∀ i < n, (commitments.eraseDups.map pt).getD ((commitments.map (fun b => commitments.eraseDups.idxOf b)).getD i 0) 0 =
      (it i).commitment := by
    intro i hi
    have hlt : commitments.eraseDups.idxOf (commitments[i]'(by omega)) < commitments.eraseDups.length :=
      List.idxOf_lt_length_iff.2 ((mem_eraseDups_bytes _ _).2 (List.getElem_mem _))
    rw [List.getD_eq_getElem (commitments.map _) _ (by simp; omega), List.getElem_map, List.getD_eq_getElem _ _ (by simpa using hlt),
      List.getElem_map, List.getElem_idxOf hlt, hit i hi]
    have := forall₂_getElem hd.commitments (i := i) (by omega) (by omega)
    simp only [pt, this, Option.getD_some]
  have e1 : ∑ i ∈ range n, r ^ i • (proofs.map pt).getD i 0 = ∑ i ∈ range n, r ^ i • (it i).proof :=
    sum_congr rfl (fun i hi => by rw [p1 i (mem_range.1 hi)])
  have e2 : ∑ i ∈ range n, r ^ i • (commitments.eraseDups.map pt).getD
      ((commitments.map (fun b => commitments.eraseDups.idxOf b)).getD i 0) 0 = ∑ i ∈ range n, r ^ i • (it i).commitment :=
    sum_congr rfl (fun i hi => by rw [p2 i (mem_range.1 hi)])
  have e3 : ∑ i ∈ range n, (r ^ i * Spec.point 13 (64 * inds.getD i 0) ^ 64) • (proofs.map pt).getD i 0 =
      ∑ i ∈ range n, (r ^ i * Spec.point 13 (64 * (it i).index) ^ 64) • (it i).proof :=
    sum_congr rfl (fun i hi => by rw [p1 i (mem_range.1 hi), hinds i (mem_range.1 hi)])
  rw [e1, e2, e3, hn]

/-- A batch which is not well formed is rejected by an assertion. -/
theorem verify_none (hash : List UInt8 → List UInt8) (g1 : List G1) (g2 : List G2) (commitments : List (List UInt8))
    (inds : List Nat) (cells proofs : List (List UInt8))
    (h : ¬ Spec.VerifyWellFormed G1 commitments inds cells proofs) :
    verifyCellKzgProofBatch (GT := GT) hash g1 g2 commitments inds cells proofs = none := by
  unfold verifyCellKzgProofBatch
  split_ifs with hc
  · obtain ⟨h1, h2, h3, h4, h5, h6, h7⟩ := hc
    simp only
    rw [dedup_filter]
    by_cases hcm : ∀ b ∈ commitments, ∃ p : G1, fromCompressed b = some p
    swap
    · push Not at hcm
      obtain ⟨b, hb, hn⟩ := hcm
      refine bind_none (mapM_none _ _ b ((mem_eraseDups_bytes _ _).2 hb) ?_) _
      unfold bytesToG1
      rw [Option.eq_none_iff_forall_ne_some.2 hn]; rfl
    rw [bind_of (mapM_some _ _ (fun b => (b, (fromCompressed b).getD (0 : G1))) (fun b hb => by
      obtain ⟨p, hp⟩ := hcm b ((mem_eraseDups_bytes _ _).1 hb)
      unfold bytesToG1
      rw [hp]; rfl))]
    by_cases hcl : ∀ c ∈ cells, Spec.Canonical 64 c
    swap
    · push Not at hcl
      obtain ⟨c, hc, hn⟩ := hcl
      exact bind_none (mapM_none _ _ c hc (fields_none 64 c hn)) _
    have hpf : ¬ ∀ b ∈ proofs, ∃ p : G1, fromCompressed b = some p := fun hpf =>
      h ⟨⟨by omega, by omega, by omega⟩, h5, hcm, hpf, hcl⟩
    push Not at hpf
    obtain ⟨b, hb, hn⟩ := hpf
    cases cells.mapM cellToCosetEvals with
    | none => rfl
    | some evs =>
      rw [bind_of rfl]
      refine bind_none (mapM_none _ _ b hb ?_) _
      unfold bytesToG1
      rw [Option.eq_none_iff_forall_ne_some.2 hn]; rfl
  · rfl

end
end Verif.Consensus
