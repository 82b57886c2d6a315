import Verif.Model.CSharpArrays
import Verif.Lemmas.Outcome

/-! C65: the array helpers of the C# bindings are concatenation and its inverse. -/
namespace Verif

theorem csFlatten_loop (js : List (List UInt8)) (done : List UInt8) :
    js.foldlM (fun (st : List UInt8 × Nat) subArray => do
      let flat ← arrayCopy subArray 0 st.1 st.2 subArray.length
      pure (flat, st.2 + subArray.length)) (done ++ List.replicate js.flatten.length 0, done.length) =
      (.ok (done ++ js.flatten, (done ++ js.flatten).length) : Outcome CsArrayException (List UInt8 × Nat)) := by
  induction js generalizing done with
  | nil => simp
  | cons j js ih =>
    rw [List.foldlM_cons]
    have hc : arrayCopy j 0 (done ++ List.replicate (j :: js).flatten.length 0) done.length j.length =
        .ok ((done ++ j) ++ List.replicate js.flatten.length 0) := by
      unfold arrayCopy
      rw [if_pos (by simp)]
      congr 1
      simp [List.drop_append, List.take_append]
    simp only [hc, Outcome.ok_bind, Outcome.pure_eq]
    have := ih (done ++ j)
    simp only [List.length_append, Outcome.pure_eq] at this ⊢
    rw [this]
    simp [Nat.add_assoc]

theorem foldl_add_length (js : List (List UInt8)) (k : Nat) :
    js.foldl (fun total subArray => total + subArray.length) k = k + js.flatten.length := by
  induction js generalizing k with
  | nil => simp
  | cons j js ih => simp [ih]; omega

/-- C65: `FlattenArray` puts the arrays one after the other and never throws. -/
theorem C65_flatten (js : List (List UInt8)) : csFlattenArray js = .ok js.flatten := by
  unfold csFlattenArray
  simp only []
  rw [foldl_add_length, Nat.zero_add]
  have := csFlatten_loop js []
  simp only [List.nil_append, List.length_nil] at this
  rw [this]
  rfl

/-- C65: `DeflattenArray` gives the whole pieces of the given length in order and drops a shorter rest; it throws for the length zero. -/
theorem C65_deflatten (flat : List UInt8) (n : Nat) :
    (n = 0 → csDeflattenArray flat n = .err .divideByZero) ∧
    (0 < n → ∃ js, csDeflattenArray flat n = .ok js ∧ js.length = flat.length / n ∧ (∀ j ∈ js, j.length = n) ∧
      js.flatten <+: flat ∧ flat.length - js.flatten.length < n) := by
  constructor
  · rintro rfl
    rfl
  · intro hn
    have hm : csDeflattenArray flat n = .ok ((List.range (flat.length / n)).map (fun i => (flat.drop (i * n)).take n)) := by
      unfold csDeflattenArray
      rw [if_neg (by omega)]
      apply mapM_ok
      intro i hi
      rw [List.mem_range] at hi
      have hle : i * n + n ≤ flat.length := by
        have := Nat.mul_le_mul_right n (Nat.succ_le_of_lt hi)
        have h2 := Nat.div_mul_le_self flat.length n
        rw [Nat.succ_mul] at this
        omega
      unfold arrayCopy
      rw [if_pos ⟨hle, by simp⟩]
      simp
    have hlen : ∀ i < flat.length / n, ((flat.drop (i * n)).take n).length = n := by
      intro i hi
      have hle : i * n + n ≤ flat.length := by
        have := Nat.mul_le_mul_right n (Nat.succ_le_of_lt hi)
        have h2 := Nat.div_mul_le_self flat.length n
        rw [Nat.succ_mul] at this
        omega
      rw [List.length_take, List.length_drop]
      omega
    have hflat : ∀ m ≤ flat.length / n, ((List.range m).map (fun i => (flat.drop (i * n)).take n)).flatten = flat.take (m * n) := by
      intro m
      induction m with
      | zero => simp
      | succ m ih =>
        intro hm
        rw [List.range_succ, List.map_append, List.flatten_append, ih (by omega)]
        simp only [List.map_cons, List.map_nil, List.flatten_cons, List.flatten_nil, List.append_nil]
        rw [Nat.succ_mul, List.take_add]
    refine ⟨_, hm, by simp, ?_, ?_, ?_⟩
    · intro j hj
      rw [List.mem_map] at hj
      obtain ⟨i, hi, rfl⟩ := hj
      exact hlen i (List.mem_range.1 hi)
    · rw [hflat _ (Nat.le_refl _)]
      exact List.take_prefix _ _
    · rw [hflat _ (Nat.le_refl _), List.length_take]
      have h1 := Nat.div_add_mod flat.length n
      have h2 := Nat.mod_lt flat.length hn
      rw [Nat.mul_comm] at h1
      omega

theorem flatten_inj_of_length (n : Nat) : ∀ (as bs : List (List UInt8)), as.length = bs.length → (∀ a ∈ as, a.length = n) → (∀ b ∈ bs, b.length = n) →
    as.flatten = bs.flatten → as = bs
  | [], [], _, _, _, _ => rfl
  | a :: as, b :: bs, hl, ha, hb, h => by
    simp only [List.flatten_cons] at h
    have h1 := List.append_inj h (by rw [ha a (by simp), hb b (by simp)])
    rw [h1.1, flatten_inj_of_length n as bs (by simpa using hl) (fun x hx => ha x (by simp [hx])) (fun x hx => hb x (by simp [hx])) h1.2]

/-- C65: splitting undoes joining, for arrays of one positive length. -/
theorem C65_round_trip (js : List (List UInt8)) (n : Nat) (hn : 0 < n) (hj : ∀ j ∈ js, j.length = n) :
    (csFlattenArray js >>= fun flat => csDeflattenArray flat n) = .ok js := by
  rw [C65_flatten, Outcome.ok_bind]
  have hlen : js.flatten.length = js.length * n := by
    rw [List.length_flatten, List.map_congr_left hj]
    simp
  obtain ⟨ks, hk, hkl, hkn, hpre, -⟩ := (C65_deflatten js.flatten n).2 hn
  rw [hk]
  congr 1
  have hkl' : ks.length = js.length := by rw [hkl, hlen, Nat.mul_div_cancel _ hn]
  apply flatten_inj_of_length n ks js hkl' hkn hj
  apply hpre.eq_of_length
  rw [hlen, List.length_flatten, List.map_congr_left hkn]
  simp [hkl']

/-! Non-vacuity -/

example : csDeflattenArray [1, 2, 3, 4, 5] 2 = .ok [[1, 2], [3, 4]] := by decide +kernel

example : ∀ j ∈ [[1, 2], [3, (4 : UInt8)]], j.length = 2 := by decide

end Verif
