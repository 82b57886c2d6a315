import Verif.Lemmas.Context

/-! Decoding of cells and recovery of the polynomial. -/
namespace Verif
open Polynomial Finset

/-- Decoding of a list of cells: all canonical, or the first bad element is reported. -/
theorem deserializeCells_cases (cells : List (List UInt8)) (hl : ∀ c ∈ cells, c.length = 2048) :
    (∃ evs, deserializeCells cells = .ok evs ∧ evs.length = cells.length ∧ (∀ c ∈ cells, Spec.Canonical 64 c) ∧
      (∀ e ∈ evs, e.length = 64) ∧
      ∀ i (hi : i < cells.length) (hi' : i < evs.length), ∀ j < 64, Spec.Encodes (Spec.block 32 j cells[i]) (evs[i].getD j 0)) ∨
    ∃ pre c post i, cells = pre ++ c :: post ∧ (∀ d ∈ pre, Spec.Canonical 64 d) ∧ i < 64 ∧
      frOrder ≤ Spec.beValue (Spec.block 32 i c) ∧ (∀ j < i, Spec.beValue (Spec.block 32 j c) < frOrder) ∧
      deserializeCells cells = .err (.CouldNotDeserializeScalar (Spec.block 32 i c)) := by
  have hl' : ∀ c ∈ cells, c.length = 32 * 64 := hl
  have hcan : ∀ c, c.length = 32 * 64 → ∀ xs, deserializeCellToScalars c = .ok xs → Spec.Canonical 64 c := by
    intro c hc xs hxs
    rcases deserializeBytesToScalars_cases hc with ⟨_, _, h⟩ | ⟨i, _, _, _, h⟩
    · exact h
    · unfold deserializeCellToScalars at hxs
      rw [hxs] at h; cases h
  rcases mapM_cases (f := deserializeCellToScalars) (l := cells)
    (fun c hc => deserializeBytesToScalars_ne_panic (hl' c hc)) with ⟨evs, h⟩ | ⟨pre, c, post, e, hsplit, hpre, hx, herr⟩
  · left
    have hlen := mapM_length h
    have hget : ∀ i (hi : i < cells.length) (hi' : i < evs.length), deserializeCellToScalars cells[i] = .ok evs[i] :=
      fun i hi hi' => mapM_getElem h hi hi'
    refine ⟨evs, h, hlen, ?_, ?_, ?_⟩
    · intro c hc
      obtain ⟨i, hi, rfl⟩ := List.mem_iff_getElem.1 hc
      exact hcan _ (hl' _ hc) _ (hget i hi (by omega))
    · intro e he
      obtain ⟨i, hi, rfl⟩ := List.mem_iff_getElem.1 he
      exact ((deserializeBytesToScalars_ok (hl' _ (List.getElem_mem (by omega)))).1 (hget i (by omega) hi)).1
    · intro i hi hi' j hj
      exact ((deserializeBytesToScalars_ok (hl' _ (List.getElem_mem hi))).1 (hget i hi hi')).2 j hj
  · right
    have hcl : c.length = 32 * 64 := hl' c (by rw [hsplit]; simp)
    rcases deserializeBytesToScalars_cases hcl with ⟨_, h, _⟩ | ⟨i, hi, hbad, hfirst, h⟩
    · unfold deserializeCellToScalars at hx
      rw [hx] at h; cases h
    · refine ⟨pre, c, post, i, hsplit, ?_, hi, hbad, hfirst, ?_⟩
      · intro d hd
        obtain ⟨b, hb⟩ := hpre d hd
        exact hcan d (hl' d (by rw [hsplit]; simp [hd])) b hb
      · unfold deserializeCells
        rw [herr]
        unfold deserializeCellToScalars at hx
        rw [hx] at h
        cases h
        rfl

theorem dedup_length_eq {l : List Nat} : l.dedup.length = l.length ↔ l.Nodup := by
  constructor
  · intro h
    have := (List.dedup_sublist l).eq_of_length h
    rw [← this]; exact List.nodup_dedup l
  · intro h; rw [List.Nodup.dedup h]

theorem areCellIndicesUnique_iff (l : List Nat) : areCellIndicesUnique l = true ↔ l.Nodup := by
  unfold areCellIndicesUnique
  rw [beq_iff_eq, dedup_length_eq]

theorem nodup_length_le {l : List Nat} {n : Nat} (h : l.Nodup) (hlt : ∀ i ∈ l, i < n) : l.length ≤ n := by
  have h1 : l.toFinset ⊆ range n := by
    intro i hi
    exact mem_range.2 (hlt i (List.mem_toFinset.1 hi))
  have := card_le_card h1
  rwa [List.toFinset_card_of_nodup h, card_range] at this

theorem find_none_of {l : List Nat} (h : ∀ i ∈ l, i < 128) :
    l.find? (fun i => decide (i ≥ CELLS_PER_EXT_BLOB)) = none := by
  rw [List.find?_eq_none]
  intro i hi
  have : i < CELLS_PER_EXT_BLOB := h i hi
  simp only [decide_eq_true_eq]; omega

theorem validateRecover_ok {inds : List Nat} {cells : List (List UInt8)} (hl : inds.length = cells.length)
    (hlt : ∀ i ∈ inds, i < 128) (hc : ∀ c ∈ cells, c.length = 2048) (hnd : inds.Nodup) (h64 : 64 ≤ inds.length) :
    validateRecover inds cells = .ok () := by
  have hmax := nodup_length_le hnd hlt
  unfold validateRecover
  rw [if_neg (by simpa using hl), find_none_of hlt]
  simp only
  rw [assertP_true (by
    rw [List.all_eq_true]; intro c hcm; rw [beq_iff_eq]; exact hc c hcm), Outcome.ok_bind,
    if_neg (by rw [areCellIndicesUnique_iff]; simpa using hnd),
    if_neg (by show ¬ (_ < 64); omega), if_neg (by show ¬ (_ > 128); omega)]

theorem missing_mem (present : List Nat) (i : Nat) : i ∈ findMissingCellIndices present ↔ i < 128 ∧ i ∉ present := by
  unfold findMissingCellIndices
  rw [List.mem_filter, List.mem_range]
  simp only [List.contains_eq_mem, decide_not, Bool.not_eq_eq_eq_not, Bool.not_true, decide_eq_false_iff_not, decide_eq_true_eq]
  exact Iff.rfl

theorem missing_length (present : List Nat) (hnd : present.Nodup) (hlt : ∀ i ∈ present, i < 128) :
    (findMissingCellIndices present).length + present.length = 128 := by
  have hn : (findMissingCellIndices present).Nodup := List.nodup_range.filter _
  have h1 : (findMissingCellIndices present).toFinset = range 128 \ present.toFinset := by
    ext i
    rw [List.mem_toFinset, missing_mem, mem_sdiff, mem_range, List.mem_toFinset]
  have h2 : present.toFinset ⊆ range 128 := fun i hi => mem_range.2 (hlt i (List.mem_toFinset.1 hi))
  have h3 := card_sdiff_add_card_eq_card h2
  rw [← h1, List.toFinset_card_of_nodup hn, List.toFinset_card_of_nodup hnd, card_range] at h3
  exact h3

theorem brev_cell (k j : Nat) (hj : j < 64) : Spec.brev 13 (64 * k + j) = Spec.brev 7 k + 128 * Spec.brev 6 j := by
  have := Spec.brev_concat 6 7 j k hj
  rw [add_comm (64 * k) j]
  exact this

/-- What `recover_polynomial_coeff` returns on validated, canonical cells. -/
theorem recoverPolynomialCoeff_cases {inds : List Nat} {cells : List (List UInt8)} (hl : inds.length = cells.length)
    (hlt : ∀ i ∈ inds, i < 128) (hc : ∀ c ∈ cells, c.length = 2048) (hnd : inds.Nodup) (h64 : 64 ≤ inds.length)
    (hcan : ∀ c ∈ cells, Spec.Canonical 64 c) :
    ((∃ f, Spec.Consistent inds cells f ∧
      recoverPolynomialCoeff (rsOf 12 1 7) inds cells = .ok (Spec.coeffs 4096 f)) ∨
    ((¬ ∃ f, Spec.Consistent inds cells f) ∧ recoverPolynomialCoeff (rsOf 12 1 7) inds cells =
      .err (.Recovery (.ReedSolomon (.PolynomialHasInvalidLength 8192 4096))))) ∧
    ∀ f g, Spec.Consistent inds cells f → Spec.Consistent inds cells g → f = g := by
  rcases deserializeCells_cases cells hc with ⟨evs, hevs, hevl, -, hev64, henc⟩ | ⟨pre, c, post, i, hs, -, hi, hbad, -, -⟩
  swap
  · exact absurd (hcan c (by rw [hs]; simp) i hi) (by omega)
  obtain ⟨y, hy, hyl, hyv, hy0⟩ := recoverEvaluations_spec (ε := Error) 6 7 (by norm_num) inds evs (by omega)
    (by intro h; rw [h] at h64; simp at h64) hnd hlt hev64
  have hmnd : (inds.map (Spec.brev 7)).Nodup := by
    refine (List.nodup_map_iff_inj_on hnd).2 ?_
    intro a ha b hb hab
    exact Spec.brev_injOn 7 a b (hlt a ha) (hlt b hb) hab
  have hmlt : ∀ i ∈ inds.map (Spec.brev 7), i < 128 := by
    intro i hi
    obtain ⟨k, -, rfl⟩ := List.mem_map.1 hi
    exact Spec.brev_lt 7 k
  set er := findMissingCellIndices (inds.map (Spec.brev 7)) with her
  have hmem : ∀ p, p % 2 ^ 7 ∉ er ↔ ∃ k ∈ inds, Spec.brev 7 k = p % 2 ^ 7 := by
    intro p
    rw [her, missing_mem]
    have : p % 2 ^ 7 < 128 := Nat.mod_lt _ (by norm_num)
    rw [← List.mem_map]
    tauto
  have herlen : er.length ≤ 64 := by
    have := missing_length _ hmnd hmlt
    rw [← her, List.length_map] at this
    omega
  have hgd : ∀ i (hi : i < inds.length), ∀ j < 64,
      y.getD (Spec.brev 13 (64 * inds[i] + j)) 0 = (evs[i]'(by omega)).getD j 0 := by
    intro i hi j hj
    have := hyv i hi j hj
    rw [List.getD_eq_getElem?_getD, List.getD_eq_getElem?_getD]
    exact congrArg (fun o => o.getD 0) this
  have hiff : ∀ f, Agrees 12 1 7 y er f ↔ Spec.Consistent inds cells f := by
    intro f
    constructor
    · rintro ⟨hd, hag⟩
      refine ⟨by simpa using hd, ?_⟩
      rintro ⟨k, cell⟩ hp
      obtain ⟨i, hi, hik⟩ := List.mem_iff_getElem.1 hp
      rw [List.getElem_zip, Prod.mk.injEq] at hik
      obtain ⟨rfl, rfl⟩ := hik
      have hi1 : i < inds.length := by rw [List.length_zip] at hi; omega
      have hi2 : i < cells.length := by omega
      refine ⟨hc _ (List.getElem_mem hi2), ?_⟩
      intro j hj
      have h1 := henc i hi2 (by omega) j hj
      rw [← hgd i hi1 j hj] at h1
      have hbr := brev_cell inds[i] j hj
      have hb7 := Spec.brev_lt 7 inds[i]
      have h2 := hag (Spec.brev 13 (64 * inds[i] + j)) (Spec.brev_lt 13 _) (by
        rw [hmem]
        refine ⟨inds[i], List.getElem_mem hi1, ?_⟩
        rw [hbr]
        omega)
      rw [← h2] at h1
      exact h1
    · rintro ⟨hd, hcell⟩
      refine ⟨by simpa using hd, ?_⟩
      intro p hp hpe
      rw [hmem] at hpe
      obtain ⟨k, hk, hkp⟩ := hpe
      obtain ⟨i, hi, rfl⟩ := List.mem_iff_getElem.1 hk
      have hj : Spec.brev 6 (p / 128) < 64 := Spec.brev_lt 6 _
      have hpd : p / 128 < 2 ^ 6 := by omega
      have hpe : p = Spec.brev 13 (64 * inds[i] + Spec.brev 6 (p / 128)) := by
        rw [brev_cell _ _ hj, hkp, Spec.brev_brev 6 _ hpd]
        omega
      have hi2 : i < cells.length := by omega
      have h1 := henc i hi2 (by omega) _ hj
      have h2 := (hcell (inds[i], cells[i]) (by
        rw [List.mem_iff_getElem]
        exact ⟨i, by rw [List.length_zip]; omega, by simp⟩)).2 _ hj
      have h3 := encodes_inj h1 h2
      rw [← hgd i hi _ hj, ← hpe] at h3
      rw [h3]
      simp only [Spec.point]
      rw [← hpe]
  have hlt' : ∀ i ∈ er, i < 2 ^ 7 := fun i hi => ((missing_mem _ i).1 hi).1
  have hm : er.length ≤ (2 ^ (12 + 1) - 2 ^ 12) / 2 ^ (12 + 1 - 7) := by norm_num; exact herlen
  have hrun : recoverPolynomialCoeff (rsOf 12 1 7) inds cells =
      ((rsOf 12 1 7).recoverPolynomialCoefficient y er).mapErr (fun e => Error.Recovery (.ReedSolomon e)) := by
    unfold recoverPolynomialCoeff
    rw [validateRecover_ok hl hlt hc hnd h64, hevs]
    simp only [Outcome.mapErr, Outcome.ok_bind]
    have hy' : (recoverEvaluationsInDomainOrder FIELD_ELEMENTS_PER_EXT_BLOB inds evs : Outcome Error _) =
      .ok (some (inds.map (Spec.brev 7), y)) := hy
    rw [hy', Outcome.ok_bind]
    rfl
  refine ⟨?_, ?_⟩
  · rw [hrun]
    rcases rs_recover 12 1 7 (by norm_num) (by norm_num) y hyl er hlt' hm with ⟨f, hf, h⟩ | ⟨hne, h⟩
    · left
      refine ⟨f, (hiff f).1 hf, ?_⟩
      rw [h]; rfl
    · right
      refine ⟨?_, ?_⟩
      · rintro ⟨f, hf⟩
        exact hne ⟨f, (hiff f).2 hf⟩
      · rw [h]; rfl
  · intro f g hf hg
    exact agrees_unique 12 1 7 (by norm_num) (by norm_num) y er hlt' hm ((hiff f).2 hf) ((hiff g).2 hg)

/-- Exactly 64 canonical cells are always consistent. -/
theorem consistent_exists {inds : List Nat} {cells : List (List UInt8)} (hl : inds.length = cells.length)
    (hlt : ∀ i ∈ inds, i < 128) (hc : ∀ c ∈ cells, c.length = 2048) (hnd : inds.Nodup) (h64 : inds.length = 64)
    (hcan : ∀ c ∈ cells, Spec.Canonical 64 c) : ∃ f, Spec.Consistent inds cells f := by
  rcases deserializeCells_cases cells hc with ⟨evs, hevs, hevl, -, hev64, henc⟩ | ⟨pre, c, post, i, hs, -, hi, hbad, -, -⟩
  swap
  · exact absurd (hcan c (by rw [hs]; simp) i hi) (by omega)
  -- Lagrange interpolation on the 4096 given points
  classical
  let S : Finset Nat := range 4096
  let v : Nat → Fr := fun t => Spec.point 13 (64 * inds.getD (t / 64) 0 + t % 64)
  let w : Nat → Fr := fun t => (evs.getD (t / 64) []).getD (t % 64) 0
  have hinj : Set.InjOn v S := by
    intro s hs t ht hst
    have hs' : s < 4096 := mem_range.1 (by simpa [S] using hs)
    have ht' : t < 4096 := mem_range.1 (by simpa [S] using ht)
    have h1 : s / 64 < inds.length := by omega
    have h2 : t / 64 < inds.length := by omega
    have hst' : Spec.omega 13 ^ Spec.brev 13 (64 * inds.getD (s / 64) 0 + s % 64) =
      Spec.omega 13 ^ Spec.brev 13 (64 * inds.getD (t / 64) 0 + t % 64) := hst
    have h3 := (omega_primitive 13 (by norm_num)).pow_inj (Spec.brev_lt 13 _) (Spec.brev_lt 13 _) hst'
    rw [List.getD_eq_getElem _ _ h1, List.getD_eq_getElem _ _ h2] at h3
    have hb1 := hlt _ (List.getElem_mem h1)
    have hb2 := hlt _ (List.getElem_mem h2)
    have h4 := Spec.brev_injOn 13 _ _ (by norm_num; omega) (by norm_num; omega) h3
    have h5 : inds[s / 64] = inds[t / 64] := by omega
    have h6 := (List.Nodup.getElem_inj_iff hnd).1 h5
    omega
  refine ⟨Lagrange.interpolate S v w, ?_, ?_⟩
  · have := Lagrange.degree_interpolate_lt w hinj
    simpa [S] using this
  · rintro ⟨k, cell⟩ hp
    obtain ⟨i, hi, hik⟩ := List.mem_iff_getElem.1 hp
    rw [List.getElem_zip, Prod.mk.injEq] at hik
    obtain ⟨rfl, rfl⟩ := hik
    have hi1 : i < inds.length := by rw [List.length_zip] at hi; omega
    have hi2 : i < cells.length := by omega
    refine ⟨hc _ (List.getElem_mem hi2), ?_⟩
    intro j hj
    have hmem : 64 * i + j ∈ S := mem_range.2 (by omega)
    have := Lagrange.eval_interpolate_at_node w hinj hmem
    have e1 : (64 * i + j) / 64 = i := by omega
    have e2 : (64 * i + j) % 64 = j := by omega
    simp only [v, w, e1, e2] at this
    rw [List.getD_eq_getElem _ _ hi1, List.getD_eq_getElem _ _ (by omega : i < evs.length)] at this
    rw [this]
    exact henc i hi2 (by omega) j hj

end Verif
