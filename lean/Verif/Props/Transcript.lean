import Verif.Props.Verification

set_option linter.unusedSectionVars false

/-! C16: the Fiat-Shamir transcript binds every input. -/
namespace Verif
open Polynomial Finset

theorem flatten_inj {α : Type} {w : Nat} {l m : List (List α)} (hl : ∀ x ∈ l, x.length = w) (hm : ∀ x ∈ m, x.length = w)
    (hlen : l.length = m.length) (h : l.flatten = m.flatten) : l = m := by
  refine List.ext_getElem hlen ?_
  intro i h1 h2
  rw [← block_flatten hl h1, ← block_flatten hm h2, h]

theorem scalarToBytesBE_inj : Function.Injective scalarToBytesBE := fun s t h =>
  encodes_inj (encodes_scalarToBytesBE s) (by rw [h]; exact encodes_scalarToBytesBE t)

/-- two strings with header, two counters and two lists of fixed-width entries -/
theorem framed_inj {pre : List UInt8} {d d' n n' w w' : Nat} {D D' I I' : List (List UInt8)}
    (hd : d < 2 ^ 64) (hd' : d' < 2 ^ 64) (hn : n < 2 ^ 64) (hn' : n' < 2 ^ 64) (hD : D.length = d) (hD' : D'.length = d')
    (hI : I.length = n) (hI' : I'.length = n') (hw : ∀ x ∈ D, x.length = w) (hw' : ∀ x ∈ D', x.length = w)
    (hv : ∀ x ∈ I, x.length = w') (hv' : ∀ x ∈ I', x.length = w')
    (h : pre ++ natToBE 8 d ++ natToBE 8 n ++ D.flatten ++ I.flatten =
      pre ++ natToBE 8 d' ++ natToBE 8 n' ++ D'.flatten ++ I'.flatten) : D = D' ∧ I = I' := by
  simp only [List.append_assoc] at h
  have h := List.append_cancel_left h
  obtain ⟨h1, h⟩ := List.append_inj h (by simp)
  obtain ⟨h2, h⟩ := List.append_inj h (by simp)
  have e1 := natToBE_inj (n := 8) (by norm_num; omega) (by norm_num; omega) h1
  have e2 := natToBE_inj (n := 8) (by norm_num; omega) (by norm_num; omega) h2
  have hDl : D.length = D'.length := by omega
  obtain ⟨h3, h4⟩ := List.append_inj h (by rw [length_flatten_const hw, length_flatten_const hw', hDl])
  exact ⟨flatten_inj hw hw' hDl h3, flatten_inj hv hv' (by omega) h4⟩

section
variable {ε G1 G2 : Type} [AddCommGroup G1] [Module Fr G1] [DecidableEq G1] [PointCodec G1] [AddCommGroup G2]
  [Module Fr G2]

/-- C16, length: for every statement with lists of equal length and cells of the key's size the transcript is built, with the
precomputed length. -/
theorem C16_length [LawfulPointCodec G1 48] (vk : VerificationKey G1 G2) (dedup : List G1) (rows inds : List Nat)
    (evals : List (List Fr)) (proofs : List G1) (h1 : rows.length = proofs.length) (h2 : inds.length = proofs.length)
    (h3 : evals.length = proofs.length) (hev : ∀ e ∈ evals, e.length = vk.cosetSize) :
    ∃ b, (fiatShamirHashInput vk dedup rows inds evals proofs : Outcome ε (List UInt8)) = .ok b ∧
      b.length = 48 + 48 * dedup.length + proofs.length * (16 + 32 * vk.cosetSize + 48) := by
  refine ⟨_, fiatShamirHashInput_eq vk dedup rows inds evals proofs _ h1 h2 h3 rfl hev, ?_⟩
  unfold transcriptOf
  have hdl : DOMAIN_SEP.length = 16 := by decide
  simp only [List.length_append, length_natToBE, hdl]
  rw [length_flatten_map toCompressed dedup 48 (fun p _ => LawfulPointCodec.length_toCompressed p),
    length_flatten_map (itemBytes rows inds evals proofs) (List.range inds.length) (16 + vk.cosetSize * 32 + 48)
      (fun k hk => length_itemBytes rows inds evals proofs _ _ h3 hev (by rw [← h2]; exact List.mem_range.1 hk)),
    List.length_range, h2]
  ring

/-- C16: for a fixed key, statements with the same hash input are the same. -/
theorem C16_injective [LawfulPointCodec G1 48] (vk : VerificationKey G1 G2)
    (dedup dedup' : List G1) (rows rows' inds inds' : List Nat) (evals evals' : List (List Fr)) (proofs proofs' : List G1)
    (h1 : rows.length = proofs.length) (h2 : inds.length = proofs.length) (h3 : evals.length = proofs.length)
    (hev : ∀ e ∈ evals, e.length = vk.cosetSize)
    (h1' : rows'.length = proofs'.length) (h2' : inds'.length = proofs'.length) (h3' : evals'.length = proofs'.length)
    (hev' : ∀ e ∈ evals', e.length = vk.cosetSize)
    (hd : dedup.length < 2 ^ 64) (hd' : dedup'.length < 2 ^ 64) (hn : proofs.length < 2 ^ 64) (hn' : proofs'.length < 2 ^ 64)
    (hr : ∀ i ∈ rows, i < 2 ^ 64) (hr' : ∀ i ∈ rows', i < 2 ^ 64) (hi : ∀ i ∈ inds, i < 2 ^ 64) (hi' : ∀ i ∈ inds', i < 2 ^ 64)
    (h : (fiatShamirHashInput vk dedup rows inds evals proofs : Outcome ε (List UInt8)) =
      fiatShamirHashInput vk dedup' rows' inds' evals' proofs') :
    dedup = dedup' ∧ rows = rows' ∧ inds = inds' ∧ evals = evals' ∧ proofs = proofs' := by
  rw [fiatShamirHashInput_eq vk dedup rows inds evals proofs _ h1 h2 h3 rfl hev,
    fiatShamirHashInput_eq vk dedup' rows' inds' evals' proofs' _ h1' h2' h3' rfl hev', Outcome.ok.injEq] at h
  have hl : ∀ p : G1, (toCompressed p).length = 48 := LawfulPointCodec.length_toCompressed
  have hinj : Function.Injective (toCompressed : G1 → List UInt8) := by
    intro p q hpq
    have := LawfulPointCodec.fromCompressed_toCompressed p
    rw [hpq, LawfulPointCodec.fromCompressed_toCompressed] at this
    exact (Option.some.inj this).symm
  obtain ⟨hD, hI⟩ := framed_inj (pre := DOMAIN_SEP ++ natToBE 8 vk.numCoefficientsInPolynomial ++ natToBE 8 vk.cosetSize)
    hd hd' (by rw [h2]; exact hn) (by rw [h2']; exact hn') (List.length_map _) (List.length_map _)
    (by rw [List.length_map, List.length_range]) (by rw [List.length_map, List.length_range])
    (w := 48) (w' := 16 + vk.cosetSize * 32 + 48)
    (by intro x hx; obtain ⟨p, -, rfl⟩ := List.mem_map.1 hx; exact hl p)
    (by intro x hx; obtain ⟨p, -, rfl⟩ := List.mem_map.1 hx; exact hl p)
    (by intro x hx; obtain ⟨k, hk, rfl⟩ := List.mem_map.1 hx
        exact length_itemBytes rows inds evals proofs _ _ h3 hev (by rw [← h2]; exact List.mem_range.1 hk))
    (by intro x hx; obtain ⟨k, hk, rfl⟩ := List.mem_map.1 hx
        exact length_itemBytes rows' inds' evals' proofs' _ _ h3' hev' (by rw [← h2']; exact List.mem_range.1 hk)) h
  have hlen : inds.length = inds'.length := by
    have := congrArg List.length hI
    simpa using this
  have hitem : ∀ k < proofs.length, rows.getD k 0 = rows'.getD k 0 ∧ inds.getD k 0 = inds'.getD k 0 ∧
      evals.getD k [] = evals'.getD k [] ∧ proofs.getD k 0 = proofs'.getD k 0 := by
    intro k hk
    have hk1 : k < inds.length := by omega
    have he : itemBytes rows inds evals proofs k = itemBytes rows' inds' evals' proofs' k := by
      have : ((List.range inds.length).map (itemBytes rows inds evals proofs))[k]? =
          ((List.range inds'.length).map (itemBytes rows' inds' evals' proofs'))[k]? := by rw [hI]
      rwa [List.getElem?_map, List.getElem?_map, List.getElem?_range hk1, List.getElem?_range (by omega), Option.map_some,
        Option.map_some, Option.some.injEq] at this
    unfold itemBytes at he
    simp only [List.append_assoc] at he
    obtain ⟨a1, he⟩ := List.append_inj he (by simp)
    obtain ⟨a2, he⟩ := List.append_inj he (by simp)
    have l1 : (evals.getD k []).length = vk.cosetSize := by
      rw [List.getD_eq_getElem _ _ (by omega)]; exact hev _ (List.getElem_mem _)
    have l2 : (evals'.getD k []).length = vk.cosetSize := by
      rw [List.getD_eq_getElem _ _ (by omega)]; exact hev' _ (List.getElem_mem _)
    have l1' := length_flatten_map scalarToBytesBE (evals.getD k []) 32 (fun s _ => length_scalarToBytesBE s)
    have l2' := length_flatten_map scalarToBytesBE (evals'.getD k []) 32 (fun s _ => length_scalarToBytesBE s)
    obtain ⟨a3, a4⟩ := List.append_inj he (by rw [l1', l2', l1, l2])
    refine ⟨natToBE_inj (n := 8) ?_ ?_ a1, natToBE_inj (n := 8) ?_ ?_ a2, ?_, hinj a4⟩
    · rw [List.getD_eq_getElem _ _ (by omega)]; have := hr _ (List.getElem_mem (l := rows) (n := k) (by omega)); norm_num at *; omega
    · rw [List.getD_eq_getElem _ _ (by omega)]; have := hr' _ (List.getElem_mem (l := rows') (n := k) (by omega)); norm_num at *; omega
    · rw [List.getD_eq_getElem _ _ (by omega)]; have := hi _ (List.getElem_mem (l := inds) (n := k) (by omega)); norm_num at *; omega
    · rw [List.getD_eq_getElem _ _ (by omega)]; have := hi' _ (List.getElem_mem (l := inds') (n := k) (by omega)); norm_num at *; omega
    · have := flatten_inj (w := 32) (by intro x hx; obtain ⟨p, -, rfl⟩ := List.mem_map.1 hx; exact length_scalarToBytesBE p)
        (by intro x hx; obtain ⟨p, -, rfl⟩ := List.mem_map.1 hx; exact length_scalarToBytesBE p) (by rw [List.length_map, List.length_map, l1, l2]) a3
      exact List.map_injective_iff.2 scalarToBytesBE_inj this
  refine ⟨List.map_injective_iff.2 hinj hD, ?_, ?_, ?_, ?_⟩
  · refine List.ext_getElem (by omega) (fun k a b => ?_)
    have := (hitem k (by omega)).1
    rwa [List.getD_eq_getElem _ _ a, List.getD_eq_getElem _ _ b] at this
  · refine List.ext_getElem (by omega) (fun k a b => ?_)
    have := (hitem k (by omega)).2.1
    rwa [List.getD_eq_getElem _ _ a, List.getD_eq_getElem _ _ b] at this
  · refine List.ext_getElem (by omega) (fun k a b => ?_)
    have := (hitem k (by omega)).2.2.1
    rwa [List.getD_eq_getElem _ _ a, List.getD_eq_getElem _ _ b] at this
  · refine List.ext_getElem (by omega) (fun k a b => ?_)
    have := (hitem k (by omega)).2.2.2
    rwa [List.getD_eq_getElem _ _ a, List.getD_eq_getElem _ _ b] at this

end

/-- C16, at the public interface: two batches with the same challenge input (`Spec.challengeInput`, the string that is hashed by
`verify_cell_kzg_proof_batch` for decodable inputs) are the same batch. -/
theorem C16_batch_binding (commitments commitments' : List (List UInt8)) (inds inds' : List Nat)
    (cells cells' proofs proofs' : List (List UInt8))
    (h1 : commitments.length = proofs.length) (h2 : inds.length = proofs.length) (h3 : cells.length = proofs.length)
    (h1' : commitments'.length = proofs'.length) (h2' : inds'.length = proofs'.length) (h3' : cells'.length = proofs'.length)
    (hn : proofs.length < 2 ^ 64) (hn' : proofs'.length < 2 ^ 64)
    (hi : ∀ i ∈ inds, i < 2 ^ 64) (hi' : ∀ i ∈ inds', i < 2 ^ 64)
    (hcm : ∀ c ∈ commitments, c.length = 48) (hcm' : ∀ c ∈ commitments', c.length = 48)
    (hc : ∀ c ∈ cells, c.length = 2048) (hc' : ∀ c ∈ cells', c.length = 2048)
    (hp : ∀ c ∈ proofs, c.length = 48) (hp' : ∀ c ∈ proofs', c.length = 48)
    (h : Spec.challengeInput commitments inds cells proofs = Spec.challengeInput commitments' inds' cells' proofs') :
    commitments = commitments' ∧ inds = inds' ∧ cells = cells' ∧ proofs = proofs' := by
  have dl : ∀ l : List (List UInt8), l.eraseDups.length ≤ l.length := by
    intro l
    have hnd : l.eraseDups.Nodup := by
      have := eraseDups_order l
      rw [beq_bytes] at this
      exact this.imp (fun hab e => by rw [e] at hab; exact lt_irrefl _ hab)
    exact (hnd.subperm (fun x hx => (mem_eraseDups_bytes l x).1 hx)).length_le
  have d1 := dl commitments
  have d2 := dl commitments'
  unfold Spec.challengeInput at h
  simp only [← u64be_eq] at h
  obtain ⟨hD, hI⟩ := framed_inj (w := 48) (w' := 16 + 2048 + 48) (by omega) (by omega) (by omega) (by omega) rfl rfl
    (by rw [List.length_map]; simp only [List.length_zip]; omega)
    (by rw [List.length_map]; simp only [List.length_zip]; omega)
    (fun x hx => hcm x ((mem_eraseDups_bytes _ _).1 hx)) (fun x hx => hcm' x ((mem_eraseDups_bytes _ _).1 hx))
    (by
      intro x hx
      obtain ⟨q, hq, rfl⟩ := List.mem_map.1 hx
      have m2 := List.of_mem_zip (List.of_mem_zip (List.of_mem_zip hq).2).2
      simp only [List.length_append, length_natToBE, hc _ m2.1, hp _ m2.2])
    (by
      intro x hx
      obtain ⟨q, hq, rfl⟩ := List.mem_map.1 hx
      have m2 := List.of_mem_zip (List.of_mem_zip (List.of_mem_zip hq).2).2
      simp only [List.length_append, length_natToBE, hc' _ m2.1, hp' _ m2.2]) h
  have hlen : proofs.length = proofs'.length := by
    have := congrArg List.length hI
    simp only [List.length_map, List.length_zip] at this
    omega
  have hitem : ∀ k (hk : k < proofs.length), commitments[k] = commitments'[k] ∧ inds[k] = inds'[k] ∧
      cells[k] = cells'[k] ∧ proofs[k] = proofs'[k] := by
    intro k hk
    have he := congrArg (fun l => l[k]?) hI
    rw [List.getElem?_eq_getElem (by simp only [List.length_map, List.length_zip]; omega),
      List.getElem?_eq_getElem (by simp only [List.length_map, List.length_zip]; omega), Option.some.injEq] at he
    simp only [List.getElem_map, List.getElem_zip, List.append_assoc] at he
    obtain ⟨a1, he⟩ := List.append_inj he (by simp)
    obtain ⟨a2, he⟩ := List.append_inj he (by simp)
    obtain ⟨a3, a4⟩ := List.append_inj he (by rw [hc _ (List.getElem_mem _), hc' _ (List.getElem_mem _)])
    have lt1 : commitments.eraseDups.idxOf commitments[k] < commitments.eraseDups.length :=
      List.idxOf_lt_length_iff.2 ((mem_eraseDups_bytes _ _).2 (List.getElem_mem _))
    have lt2 : commitments'.eraseDups.idxOf commitments'[k] < commitments'.eraseDups.length :=
      List.idxOf_lt_length_iff.2 ((mem_eraseDups_bytes _ _).2 (List.getElem_mem _))
    have e1 := natToBE_inj (n := 8) (by norm_num; omega) (by norm_num; omega) a1
    refine ⟨?_, natToBE_inj (n := 8) ?_ ?_ a2, a3, a4⟩
    · have A := List.getElem?_eq_some_iff.2 ⟨lt1, List.getElem_idxOf lt1⟩
      have B := List.getElem?_eq_some_iff.2 ⟨lt2, List.getElem_idxOf lt2⟩
      rw [e1, hD, B] at A
      exact (Option.some.inj A).symm
    · have := hi _ (List.getElem_mem (l := inds) (n := k) (by omega)); norm_num at *; omega
    · have := hi' _ (List.getElem_mem (l := inds') (n := k) (by omega)); norm_num at *; omega
  exact ⟨List.ext_getElem (by omega) (fun k a b => (hitem k (by omega)).1),
    List.ext_getElem (by omega) (fun k a b => (hitem k (by omega)).2.1),
    List.ext_getElem (by omega) (fun k a b => (hitem k (by omega)).2.2.1),
    List.ext_getElem (by omega) (fun k a b => (hitem k (by omega)).2.2.2)⟩

/-! Non-vacuity: swapping the indices of two otherwise equal entries changes the hash input. -/
section
open Toy

example : Spec.challengeInput Toy.commitments [5, 6] [zeroCell, zeroCell] [toCompressed (0 : Fr), toCompressed (0 : Fr)] ≠
    Spec.challengeInput Toy.commitments [6, 5] [zeroCell, zeroCell] [toCompressed (0 : Fr), toCompressed (0 : Fr)] := by
  intro h
  have hl : ∀ x : Fr, (toCompressed x).length = 48 := LawfulPointCodec.length_toCompressed
  have hc : zeroCell.length = 2048 := cellOf_length 0 5
  have := (C16_batch_binding Toy.commitments Toy.commitments [5, 6] [6, 5] [zeroCell, zeroCell] [zeroCell, zeroCell]
    [toCompressed (0 : Fr), toCompressed (0 : Fr)] [toCompressed (0 : Fr), toCompressed (0 : Fr)] rfl rfl rfl rfl rfl rfl (by norm_num) (by norm_num) (by simp) (by simp)
    (by simp [Toy.commitments, hl]) (by simp [Toy.commitments, hl]) (by simp [hc]) (by simp [hc]) (by simp [hl]) (by simp [hl]) h).2.1
  simp at this
end
end Verif
