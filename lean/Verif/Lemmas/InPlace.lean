import Verif.Lemmas.Serialization
import Verif.Lemmas.VerifierApi
import Verif.Model.InPlace

set_option linter.unusedSectionVars false

/-! A method that reads memory while it changes does what it does with bytes that it has seen. -/
namespace Verif.InPlace
open Spec

variable {α β γ δ : Type}

/-- whatever the moment, `m` returns a value with `P` -/
def Yields (m : LookM α) (P : α → Prop) : Prop := ∀ t, ∃ a t', m t = .ok (a, t') ∧ P a

section sees
variable (H : MemHistory) (A : List (Nat × Nat))

/-- whatever the moment, `m` does what `v` does for some value with `P` -/
def Sees (m : LookM α) (P : β → Prop) (v : β → Outcome Error α) : Prop := ∀ t, ∃ b, P b ∧ SameAnswer H A (m t) (v b)

theorem bind_ok {m : LookM α} {k : α → LookM β} {t : Nat} {a : α} {t' : Nat} (h : m t = .ok (a, t')) : (m >>= k) t = k a t' := by
  show (m t >>= fun r => k r.1 r.2) = _
  rw [h]; rfl

theorem bind_err {m : LookM α} {k : α → LookM β} {t : Nat} {e : Error} (h : m t = .err e) : (m >>= k) t = .err e := by
  show (m t >>= fun r => k r.1 r.2) = _
  rw [h]; rfl

theorem bind_panic {m : LookM α} {k : α → LookM β} {t : Nat} (h : m t = .panic) : (m >>= k) t = .panic := by
  show (m t >>= fun r => k r.1 r.2) = _
  rw [h]; rfl

theorem pure_run (a : α) (t : Nat) : (pure a : LookM α) t = .ok (a, t) := rfl

theorem noLook_ok (a : α) (t : Nat) : (noLook (.ok a) : LookM α) t = .ok (a, t) := rfl
theorem noLook_err (e : Error) (t : Nat) : (noLook (.err e) : LookM α) t = .err e := rfl

/-! ### `Sees` -/

variable {H A}

theorem sees_noLook {P : β → Prop} (h : ∃ b, P b) (x : Outcome Error α) : Sees H A (noLook x) P (fun _ => x) := by
  intro t
  obtain ⟨b, hb⟩ := h
  refine ⟨b, hb, ?_⟩
  cases x with
  | ok a => exact .ok a t
  | err e => exact .err e e (.same e)
  | panic => exact .panic

theorem sees_pure {P : β → Prop} (h : ∃ b, P b) (a : α) : Sees H A (pure a) P (fun _ => .ok a) := sees_noLook h (.ok a)

theorem sees_bind {m : LookM γ} {k : γ → LookM α} {P : β → Prop} {Q : δ → Prop} {v : β → Outcome Error γ}
    {w : γ → δ → Outcome Error α} (hQ : ∃ d, Q d) (hm : Sees H A m P v) (hk : ∀ a, Sees H A (k a) Q (w a)) :
    Sees H A (m >>= k) (fun p : β × δ => P p.1 ∧ Q p.2) (fun p => v p.1 >>= fun a => w a p.2) := by
  intro t
  obtain ⟨b, hb, e⟩ := hm t
  obtain ⟨d0, hd0⟩ := hQ
  generalize h1 : m t = x, h2 : v b = y at e
  cases e with
  | ok a t' =>
    obtain ⟨d, hd, e2⟩ := hk a t'
    refine ⟨(b, d), ⟨hb, hd⟩, ?_⟩
    show SameAnswer H A ((m >>= k) t) (v b >>= fun a => w a d)
    rw [bind_ok h1, h2]; exact e2
  | err e e' he =>
    refine ⟨(b, d0), ⟨hb, hd0⟩, ?_⟩
    show SameAnswer H A ((m >>= k) t) (v b >>= fun a => w a d0)
    rw [bind_err h1, h2]; exact .err e e' he
  | panic =>
    refine ⟨(b, d0), ⟨hb, hd0⟩, ?_⟩
    show SameAnswer H A ((m >>= k) t) (v b >>= fun a => w a d0)
    rw [bind_panic h1, h2]; exact .panic

theorem sees_congr {m : LookM α} {P : β → Prop} {Q : δ → Prop} {v : β → Outcome Error α} {w : δ → Outcome Error α}
    (h : Sees H A m P v) (f : β → δ) (hf : ∀ b, P b → Q (f b) ∧ v b = w (f b)) : Sees H A m Q w := by
  intro t
  obtain ⟨b, hb, e⟩ := h t
  exact ⟨f b, (hf b hb).1, (hf b hb).2 ▸ e⟩

theorem sees_mapM {f : γ → LookM α} {P : γ → β → Prop} {v : β → Outcome Error α} (l : List γ) (hP : ∀ x, ∃ b, P x b)
    (hf : ∀ x ∈ l, Sees H A (f x) (P x) v) : Sees H A (l.mapM f) (List.Forall₂ P l) (fun bs => bs.mapM v) := by
  have hne : ∀ l : List γ, ∃ bs, List.Forall₂ P l bs := by
    intro l
    induction l with
    | nil => exact ⟨[], .nil⟩
    | cons x l ih =>
      obtain ⟨bs, h⟩ := ih
      obtain ⟨b, hb⟩ := hP x
      exact ⟨b :: bs, .cons hb h⟩
  induction l with
  | nil => exact fun t => ⟨[], .nil, .ok [] t⟩
  | cons x l ih =>
    rw [List.mapM_cons]
    refine sees_congr (sees_bind (hne l) (hf x (by simp)) (fun a =>
      sees_congr (sees_bind (Q := fun _ : Unit => True) ⟨(), trivial⟩ (ih fun y hy => hf y (by simp [hy]))
        (fun as => sees_pure ⟨(), trivial⟩ (a :: as)))
        (w := fun bs => bs.mapM v >>= fun as => .ok (a :: as)) (Q := List.Forall₂ P l) Prod.fst (fun b hb => ⟨hb.1, rfl⟩)))
      (fun p => p.1 :: p.2) ?_
    intro p hp
    refine ⟨.cons hp.1 hp.2, ?_⟩
    rw [List.mapM_cons]; rfl

/-- a computation that returns the same for all bytes that it may see -/
theorem sees_ok {m : LookM α} {P : β → Prop} {v : β → Outcome Error α} (h : Sees H A m P v) {a : α} (hv : ∀ b, P b → v b = .ok a)
    (t : Nat) : ∃ t', m t = .ok (a, t') := by
  obtain ⟨b, hb, e⟩ := h t
  rw [hv b hb] at e
  generalize h1 : m t = x at e
  cases e with
  | ok a t' => exact ⟨t', rfl⟩

end sees

/-! ### looks -/

variable (H : MemHistory) {A : List (Nat × Nat)}

theorem seenAt_bytesAt (t n p : Nat) : SeenAt H n p (bytesAt H t n p) := by
  refine ⟨by simp [bytesAt], fun j x hx => ⟨t, ?_⟩⟩
  by_cases hj : j < n
  · rw [bytesAt, List.getElem?_map, List.getElem?_range hj] at hx
    exact Option.some.inj hx
  · rw [bytesAt, List.getElem?_eq_none (by simp; omega)] at hx
    cases hx

theorem seenAt_exists (n p : Nat) : ∃ v, SeenAt H n p v := ⟨_, seenAt_bytesAt H 0 n p⟩

theorem lookBytes_run (n p t : Nat) :
    lookBytes H n p t = .ok ((List.range n).map (fun j => H (t + j) (p + j)), t + n) := by
  have key : ∀ (n s : Nat) (t : Nat), ((List.range' s n).mapM (fun j => lookByte H (p + j)) : LookM (List UInt8)) t =
      .ok ((List.range n).map (fun j => H (t + j) (p + (s + j))), t + n) := by
    intro n
    induction n with
    | zero => intro s t; rfl
    | succ n ih =>
      intro s t
      rw [List.range'_succ, List.mapM_cons]
      have h1 : lookByte H (p + s) t = .ok (H t (p + s), t + 1) := rfl
      rw [bind_ok h1, bind_ok (ih (s + 1) (t + 1)), pure_run, List.range_succ_eq_map, List.map_cons, List.map_map]
      congr 2
      · refine congrArg₂ List.cons rfl (List.map_congr_left fun j _ => ?_)
        show H (t + 1 + j) (p + (s + 1 + j)) = H (t + (j + 1)) (p + (s + (j + 1)))
        congr 1 <;> omega
      · omega
  have := key n 0 t
  rw [← List.range_eq_range'] at this
  simpa [lookBytes] using this

theorem lookBytes_yields (n p : Nat) : Yields (lookBytes H n p) (SeenAt H n p) := by
  intro t
  refine ⟨_, _, lookBytes_run H n p t, by simp, fun j x hx => ⟨t + j, ?_⟩⟩
  by_cases hj : j < n
  · rw [List.getElem?_map, List.getElem?_range hj] at hx
    exact Option.some.inj hx
  · rw [List.getElem?_eq_none (by simp; omega)] at hx
    cases hx

/-- the bytes that nobody writes -/
theorem lookBytes_unwritten {n p : Nat} (h : Unwritten H n p) (t : Nat) : lookBytes H n p t = .ok (bytesAt H 0 n p, t + n) := by
  rw [lookBytes_run]
  congr 2
  exact List.map_congr_left fun j hj => h _ _ (List.mem_range.1 hj)

theorem seenAt_unwritten {n p : Nat} (h : Unwritten H n p) {v : List UInt8} (hv : SeenAt H n p v) : v = bytesAt H 0 n p := by
  refine List.ext_getElem? fun j => ?_
  by_cases hj : j < n
  · have hl : j < v.length := by rw [hv.1]; exact hj
    obtain ⟨t, ht⟩ := hv.2 j v[j] (List.getElem?_eq_getElem hl)
    rw [List.getElem?_eq_getElem hl, bytesAt, List.getElem?_map, List.getElem?_range hj, ← ht, h t j hj]
    rfl
  · rw [List.getElem?_eq_none (by rw [hv.1]; omega), List.getElem?_eq_none (by simp [bytesAt]; omega)]

/-! ### decoding -/

theorem sees_scalar (p : Nat) (hA : Within A 32 p) : Sees H A (deserializeBytesToScalarP H p) (SeenAt H 32 p)
    (fun b => (deserializeBytesToScalar b).mapErr Error.Serialization) := by
  intro t
  obtain ⟨b, t', e, hb⟩ := lookBytes_yields H 32 p t
  refine ⟨b, hb, ?_⟩
  unfold deserializeBytesToScalarP deserializeBytesToScalar
  beta_reduce
  rw [bind_ok e, assertP_true hb.1, Outcome.ok_bind]
  cases h : scalarFromBytesBE b with
  | some s => exact .ok s t'
  | none =>
    obtain ⟨b', t'', e', hb'⟩ := lookBytes_yields H 32 p t'
    show SameAnswer H A ((lookBytes H 32 p >>= _) t') _
    rw [bind_ok e']
    exact .err _ _ (.scalar p b' b hA hb' hb)

theorem sees_point {G1 : Type} [PointCodec G1] (p : Nat) (hA : Within A 48 p) :
    Sees H A (deserializeCompressedG1P H p : LookM G1) (SeenAt H 48 p)
      (fun b => (deserializeCompressedG1 b).mapErr Error.Serialization) := by
  intro t
  obtain ⟨b, t', e, hb⟩ := lookBytes_yields H 48 p t
  refine ⟨b, hb, ?_⟩
  unfold deserializeCompressedG1P deserializeCompressedG1
  beta_reduce
  rw [bind_ok e, if_neg (not_not.2 hb.1)]
  cases h : (fromCompressed b : Option G1) with
  | some s => exact .ok s t'
  | none =>
    obtain ⟨b', t'', e', hb'⟩ := lookBytes_yields H 48 p t'
    show SameAnswer H A ((lookBytes H 48 p >>= _) t') _
    rw [bind_ok e']
    exact .err _ _ (.point p b' b hA hb' hb)

theorem mapErr_mapM {ε ε' : Type} (g : ε → ε') (f : α → Outcome ε β) (l : List α) :
    (l.mapM f).mapErr g = l.mapM (fun x => (f x).mapErr g) := by
  induction l with
  | nil => rfl
  | cons x l ih =>
    rw [List.mapM_cons, List.mapM_cons, ← ih]
    cases f x with
    | ok a => cases l.mapM f <;> rfl
    | err e => rfl
    | panic => rfl

theorem seenAt_flatten (w p : Nat) (n : Nat) (bs : List (List UInt8))
    (h : List.Forall₂ (fun k b => SeenAt H w (p + w * k) b) (List.range n) bs) : SeenAt H (w * n) p bs.flatten := by
  have hl : bs.length = n := by simpa using h.length_eq.symm
  have hw : ∀ (i : Nat) (hi : i < bs.length), SeenAt H w (p + w * i) bs[i] := by
    intro i hi
    have := (List.forall₂_iff_get.1 h).2 i (by simp; omega) hi
    simpa using this
  have hlen : ∀ l ∈ bs, l.length = w := by
    intro l hl
    obtain ⟨i, hi, rfl⟩ := List.getElem_of_mem hl
    exact (hw i hi).1
  have hfl : bs.flatten.length = w * n := by rw [length_flatten_const hlen, hl]
  refine ⟨hfl, fun j x hx => ?_⟩
  have hj : j < w * n := by
    rw [← hfl]
    by_contra hge
    rw [List.getElem?_eq_none (by omega)] at hx
    cases hx
  have hw0 : 0 < w := by
    rcases Nat.eq_zero_or_pos w with h0 | h0
    · rw [h0] at hj; omega
    · exact h0
  have hi : j / w < bs.length := by rw [hl]; exact Nat.div_lt_of_lt_mul hj
  have hb := block_flatten hlen hi
  have hg : bs[j / w][j % w]? = some x := by
    rw [← hb, getElem?_block (Nat.mod_lt _ hw0), Nat.div_add_mod]; exact hx
  obtain ⟨t, ht⟩ := (hw _ hi).2 _ _ hg
  refine ⟨t, ?_⟩
  rw [← ht, Nat.add_assoc, Nat.div_add_mod]

theorem sees_scalars (n p : Nat) (hA : (32 * n, p) ∈ A) : Sees H A (deserializeBytesToScalarsP H n p) (SeenAt H (32 * n) p)
    (fun b => (deserializeBytesToScalars b).mapErr Error.Serialization) := by
  refine sees_congr (sees_mapM (P := fun k b => SeenAt H 32 (p + 32 * k) b) (List.range n)
    (fun k => seenAt_exists H 32 _) (fun k hk => sees_scalar H _ ⟨_, hA, by
      have := List.mem_range.1 hk
      simp only
      omega⟩)) List.flatten ?_
  intro bs h
  have hs := seenAt_flatten H 32 p n bs h
  refine ⟨hs, ?_⟩
  have hl : bs.length = n := by simpa using h.length_eq.symm
  have hlen : ∀ l ∈ bs, l.length = 32 := by
    intro l hl'
    obtain ⟨i, hi, rfl⟩ := List.getElem_of_mem hl'
    have := (List.forall₂_iff_get.1 h).2 i (by simp; omega) hi
    exact this.1
  rw [← mapErr_mapM]
  congr 1
  unfold deserializeBytesToScalars
  rw [if_neg (by rw [hs.1]; simp [BYTES_PER_FIELD_ELEMENT])]
  congr 1
  rw [chunksExact_eq, hs.1]
  refine List.ext_getElem (by simp [hl, BYTES_PER_FIELD_ELEMENT]) ?_
  intro i h1 h2
  rw [List.getElem_map, List.getElem_range]
  exact (block_flatten hlen h1).symm

theorem sees_blob (p : Nat) (hA : (131072, p) ∈ A) : Sees H A (deserializeBlobToScalarsP H p) (SeenAt H 131072 p)
    (fun b => (deserializeBlobToScalars b).mapErr Error.Serialization) := by
  refine sees_congr (sees_scalars H 4096 p hA) id ?_
  intro b hb
  have hb' : SeenAt H 131072 p b := hb
  refine ⟨hb', ?_⟩
  show (deserializeBytesToScalars b).mapErr Error.Serialization = (deserializeBlobToScalars b).mapErr Error.Serialization
  unfold deserializeBlobToScalars
  rw [if_neg (show ¬ (b.length ≠ BYTES_PER_BLOB) from not_not.2 hb'.1)]

theorem sees_cells (ps : List Nat) (hA : ∀ p ∈ ps, (2048, p) ∈ A) : Sees H A (deserializeCellsP H ps) (List.Forall₂ (SeenAt H 2048) ps)
    (fun bs => (deserializeCells bs).mapErr Error.Serialization) := by
  refine sees_congr (sees_mapM (P := fun p b => SeenAt H 2048 p b) ps (fun p => seenAt_exists H _ _)
    (fun p hp => sees_scalars H 64 p (hA p hp))) id ?_
  intro bs h
  exact ⟨h, (mapErr_mapM _ _ _).symm⟩

theorem sees_points {G1 : Type} [PointCodec G1] (ps : List Nat) (hA : ∀ p ∈ ps, (48, p) ∈ A) :
    Sees H A (deserializeCompressedG1PointsP H ps : LookM (List G1)) (List.Forall₂ (SeenAt H 48) ps)
      (fun bs => (deserializeCompressedG1Points bs).mapErr Error.Serialization) := by
  refine sees_congr (sees_mapM (P := fun p b => SeenAt H 48 p b) ps (fun p => seenAt_exists H _ _)
    (fun p hp => sees_point H p ⟨_, hA p hp, le_refl _, le_refl _⟩)) id ?_
  intro bs h
  exact ⟨h, (mapErr_mapM _ _ _).symm⟩

theorem seen_all_exists (n : Nat) (ps : List Nat) : ∃ bs, List.Forall₂ (SeenAt H n) ps bs := by
  induction ps with
  | nil => exact ⟨[], .nil⟩
  | cons p ps ih =>
    obtain ⟨bs, h⟩ := ih
    exact ⟨_, .cons (seenAt_bytesAt H 0 n p) h⟩

theorem lengths_of_seen {n : Nat} {ps : List Nat} {bs : List (List UInt8)} (h : List.Forall₂ (SeenAt H n) ps bs) :
    ∀ b ∈ bs, b.length = n := by
  induction h with
  | nil => simp
  | cons h1 _ ih =>
    intro b hb
    rcases List.mem_cons.1 hb with rfl | hb
    · exact h1.1
    · exact ih b hb

/-! ### deduplication -/

variable (M : HashChoices)

theorem yields_bind {m : LookM α} {k : α → LookM β} {P : α → Prop} {Q : β → Prop} (hm : Yields m P)
    (hk : ∀ a, P a → Yields (k a) Q) : Yields (m >>= k) Q := by
  intro t
  obtain ⟨a, t', e, ha⟩ := hm t
  obtain ⟨b, t'', e', hb⟩ := hk a ha t'
  exact ⟨b, t'', by rw [bind_ok e, e'], hb⟩

theorem yields_pure {P : α → Prop} {a : α} (h : P a) : Yields (pure a : LookM α) P := fun t => ⟨a, t, rfl, h⟩

theorem yields_mono {m : LookM α} {P Q : α → Prop} (h : Yields m P) (hPQ : ∀ a, P a → Q a) : Yields m Q := by
  intro t
  obtain ⟨a, t', e, ha⟩ := h t
  exact ⟨a, t', e, hPQ a ha⟩

theorem yields_mapM {f : α → LookM β} {R : α → β → Prop} (l : List α) (h : ∀ x ∈ l, Yields (f x) (R x)) :
    Yields (l.mapM f) (List.Forall₂ R l) := by
  induction l with
  | nil => exact yields_pure .nil
  | cons x l ih =>
    rw [List.mapM_cons]
    refine yields_bind (h x (by simp)) fun b hb => yields_bind (ih fun y hy => h y (by simp [hy])) fun bs hbs => yields_pure ?_
    exact .cons hb hbs

theorem hashP_yields (p : Nat) : Yields (hashP H M p) (fun _ => True) :=
  yields_bind (lookBytes_yields H 48 p) fun _ _ => yields_pure trivial

theorem eqP_yields (p q : Nat) : Yields (eqP H p q) (fun b => b = true → SameSeen H 48 p q) := by
  refine yields_bind (lookBytes_yields H 48 p) fun a ha => yields_bind (lookBytes_yields H 48 q) fun b hb => yields_pure ?_
  intro h
  have : a = b := of_decide_eq_true h
  exact ⟨a, ha, this ▸ hb⟩

theorem findEntry_yields (h item : Nat) (es : List MapEntry) :
    Yields (findEntry H M h item es) (fun r => ∀ i, r = some i → ∃ e, es[i]? = some e ∧ SameSeen H 48 e.key item) := by
  induction es with
  | nil =>
    refine yields_pure ?_
    intro i hi; cases hi
  | cons e es ih =>
    unfold findEntry
    have h1 : Yields (entryMatches H M h item e) (fun b => b = true → SameSeen H 48 e.key item) := by
      unfold entryMatches
      split
      · exact eqP_yields H _ _
      · exact yields_pure (by simp)
    refine yields_bind h1 fun b hb => ?_
    cases b with
    | true =>
      refine yields_pure ?_
      intro i hi
      cases hi
      exact ⟨e, rfl, hb rfl⟩
    | false =>
      refine yields_bind ih fun r hr => yields_pure ?_
      intro i hi
      cases r with
      | none => cases hi
      | some j =>
        cases hi
        obtain ⟨e', h1, h2⟩ := hr j rfl
        exact ⟨e', by simpa using h1, h2⟩

/-- the entries of the map lead to addresses that are linked to their keys -/
def EntriesOk (unique : List Nat) (es : List MapEntry) : Prop :=
  ∀ e ∈ es, ∃ u, unique[e.value]? = some u ∧ Linked H 48 e.key u

theorem mapGet_yields {unique : List Nat} {es : List MapEntry} (hes : EntriesOk H unique es) (item : Nat) :
    Yields (mapGet H M es item) (fun r => ∀ i, r = some i → ∃ u, unique[i]? = some u ∧ Linked H 48 item u) := by
  unfold mapGet
  split
  · refine yields_pure ?_
    intro i hi; cases hi
  · refine yields_bind (hashP_yields H M item) fun h _ => yields_bind (findEntry_yields H M h item es) fun r hr => yields_pure ?_
    intro i hi
    cases r with
    | none => cases hi
    | some j =>
      obtain ⟨e, he, hs⟩ := hr j rfl
      rw [Option.bind_some, he, Option.map_some] at hi
      obtain ⟨u, hu, hl⟩ := hes e (List.mem_of_getElem? he)
      rw [← Option.some.inj hi]
      obtain ⟨v, h1, h2⟩ := hs
      exact ⟨u, hu, Relation.ReflTransGen.head ⟨v, h2, h1⟩ hl⟩

theorem mapInsert_yields {unique : List Nat} {es : List MapEntry} (hes : EntriesOk H unique es) (item : Nat) :
    Yields (mapInsert H M es item unique.length) (fun es' => EntriesOk H (unique ++ [item]) es') := by
  unfold mapInsert
  refine yields_bind (hashP_yields H M item) fun h _ => ?_
  have old : ∀ e ∈ es, ∃ u, (unique ++ [item])[e.value]? = some u ∧ Linked H 48 e.key u := by
    intro e he
    obtain ⟨u, hu, hl⟩ := hes e he
    have hlt : e.value < unique.length := by
      by_contra hge
      rw [List.getElem?_eq_none (by omega)] at hu
      cases hu
    exact ⟨u, by rw [List.getElem?_append_left hlt]; exact hu, hl⟩
  have h1 : Yields (reserve H M es) (EntriesOk H (unique ++ [item])) := by
    unfold reserve
    split
    · refine yields_mono (yields_mapM (R := fun e e' : MapEntry => e'.key = e.key ∧ e'.value = e.value) es fun e _ =>
        yields_bind (hashP_yields H M e.key) fun h _ => yields_pure ⟨rfl, rfl⟩) ?_
      intro es' hes' e' he'
      obtain ⟨i, hi, rfl⟩ := List.getElem_of_mem he'
      have hi2 : i < es.length := by rw [hes'.length_eq]; exact hi
      obtain ⟨h1, h2⟩ := (List.forall₂_iff_get.1 hes').2 i hi2 hi
      simp only [List.get_eq_getElem] at h1 h2
      rw [h1, h2]
      exact old _ (List.getElem_mem hi2)
    · exact yields_pure old
  refine yields_bind h1 fun es' hes' => yields_bind (findEntry_yields H M h item es') fun r hr => ?_
  have new : (unique ++ [item])[unique.length]? = some item := by simp
  cases r with
  | none =>
    refine yields_pure ?_
    intro e he
    rcases List.mem_cons.1 he with rfl | he
    · exact ⟨item, new, Relation.ReflTransGen.refl⟩
    · exact hes' e he
  | some i =>
    refine yields_pure ?_
    obtain ⟨e0, he0, hs⟩ := hr i rfl
    intro e he
    obtain ⟨j, hj⟩ := List.getElem?_of_mem he
    rw [List.getElem?_modify] at hj
    by_cases hij : i = j
    · subst hij
      simp only [he0, if_true, Option.map_eq_map, Option.map_some, Option.some.injEq] at hj
      subst hj
      exact ⟨item, new, Relation.ReflTransGen.single hs⟩
    · simp only [hij, if_false, Option.map_eq_map, Option.map_id'] at hj
      exact hes' e (List.mem_of_getElem? hj)

/-- the state after the rows `pre` -/
structure LoopOk (pre : List Nat) (st : List Nat × List MapEntry × List Nat) : Prop where
  sub : st.1.Sublist pre
  entries : EntriesOk H st.1 st.2.1
  rows : List.Forall₂ (fun p i => ∃ u, st.1[i]? = some u ∧ Linked H 48 p u) pre st.2.2

theorem dedup_yields (input : List Nat) : Yields (deduplicateWithIndicesP H M input)
    (fun r => r.1.Sublist input ∧ List.Forall₂ (fun p i => ∃ u, r.1[i]? = some u ∧ Linked H 48 p u) input r.2) := by
  unfold deduplicateWithIndicesP
  have key : ∀ (l pre : List Nat) (st : List Nat × List MapEntry × List Nat), LoopOk H pre st →
      Yields (l.foldlM (fun (st : List Nat × List MapEntry × List Nat) item => do
        match ← mapGet H M st.2.1 item with
        | some index => pure (st.1, st.2.1, st.2.2 ++ [index])
        | none => do
          let newIndex := st.1.length
          let indexMap ← mapInsert H M st.2.1 item newIndex
          pure (st.1 ++ [item], indexMap, st.2.2 ++ [newIndex])) st : LookM _) (LoopOk H (pre ++ l)) := by
    intro l
    induction l with
    | nil =>
      intro pre st h
      rw [List.append_nil]
      exact yields_pure h
    | cons x l ih =>
      intro pre st h
      rw [List.foldlM_cons]
      have e : pre ++ x :: l = (pre ++ [x]) ++ l := by simp
      rw [e]
      refine yields_bind (P := LoopOk H (pre ++ [x])) ?_ (fun st' h' => ih _ _ h')
      refine yields_bind (mapGet_yields H M h.entries x) fun r hr => ?_
      cases r with
      | some i =>
        refine yields_pure ⟨?_, h.entries, ?_⟩
        · exact h.sub.trans (List.sublist_append_left _ _)
        · exact List.rel_append h.rows (.cons (hr i rfl) .nil)
      | none =>
        refine yields_bind (mapInsert_yields H M h.entries x) fun es hes => yields_pure ⟨?_, hes, ?_⟩
        · exact h.sub.append (List.Sublist.refl _)
        · refine List.rel_append (h.rows.imp ?_) (.cons ⟨x, by simp, Relation.ReflTransGen.refl⟩ .nil)
          rintro p i ⟨u, hu, hl⟩
          have hlt : i < st.1.length := by
            by_contra hge
            rw [List.getElem?_eq_none (by omega)] at hu
            cases hu
          exact ⟨u, by rw [List.getElem?_append_left hlt]; exact hu, hl⟩
  refine yields_bind (key input [] ([], [], []) ⟨List.Sublist.refl _, by intro e he; simp at he, .nil⟩) fun st hst => yields_pure ?_
  rw [List.nil_append] at hst
  exact ⟨hst.sub, hst.rows⟩

/-! ### deduplication of commitments that nobody writes -/

/-- the bytes at an address at the start -/
abbrev start (p : Nat) : List UInt8 := bytesAt H 0 48 p

/-- entries of keys that nobody writes, stored with their hashes -/
def EntriesFixed (es : List MapEntry) : Prop := ∀ e ∈ es, e.hash = M.hash (start H e.key) ∧ Unwritten H 48 e.key

/-- the map from contents to values -/
def assoc (es : List MapEntry) : List (List UInt8 × Nat) := es.map (fun e => (start H e.key, e.value))

theorem hashP_fixed {p : Nat} (h : Unwritten H 48 p) (t : Nat) : ∃ t', hashP H M p t = .ok (M.hash (start H p), t') := by
  unfold hashP
  exact ⟨_, by rw [bind_ok (lookBytes_unwritten H h t), pure_run]⟩

theorem eqP_fixed {p q : Nat} (hp : Unwritten H 48 p) (hq : Unwritten H 48 q) (t : Nat) :
    ∃ t', eqP H p q t = .ok (decide (start H p = start H q), t') := by
  unfold eqP
  exact ⟨_, by rw [bind_ok (lookBytes_unwritten H hp t), bind_ok (lookBytes_unwritten H hq _), pure_run]⟩

theorem entryMatches_fixed {item : Nat} (hi : Unwritten H 48 item) {e : MapEntry}
    (he : e.hash = M.hash (start H e.key) ∧ Unwritten H 48 e.key) (t : Nat) :
    ∃ t', entryMatches H M (M.hash (start H item)) item e t = .ok (decide (start H e.key = start H item), t') := by
  unfold entryMatches
  by_cases hp : M.probes (M.hash (start H item)) e.hash = true
  · rw [if_pos hp]
    exact eqP_fixed H he.2 hi t
  · rw [if_neg hp]
    refine ⟨t, ?_⟩
    rw [pure_run, decide_eq_false]
    intro h
    rw [he.1, h] at hp
    exact hp (M.probes_self _)

theorem findEntry_fixed {item : Nat} (hi : Unwritten H 48 item) {es : List MapEntry} (hes : EntriesFixed H M es) (t : Nat) :
    ∃ r t', findEntry H M (M.hash (start H item)) item es t = .ok (r, t') ∧
      (r.bind (fun i => (es[i]?).map MapEntry.value)) = (assoc H es).lookup (start H item) ∧
      (r = none ↔ (assoc H es).lookup (start H item) = none) := by
  induction es generalizing t with
  | nil => exact ⟨none, t, rfl, rfl, by simp [assoc]⟩
  | cons e es ih =>
    obtain ⟨t1, h1⟩ := entryMatches_fixed H M hi (hes e (by simp)) t
    unfold findEntry
    rw [bind_ok h1]
    by_cases hc : start H e.key = start H item
    · refine ⟨some 0, t1, ?_, ?_, ?_⟩
      · rw [decide_eq_true hc]; rfl
      · simp [assoc, hc]
      · simp [assoc, hc]
    · obtain ⟨r, t2, h2, h3, h4⟩ := ih (fun e he => hes e (by simp [he])) t1
      have hbeq : (start H item == start H e.key) = false := by
        rw [beq_eq_false_iff_ne]; exact fun h => hc h.symm
      have hl : (assoc H (e :: es)).lookup (start H item) = (assoc H es).lookup (start H item) := by
        show List.lookup (start H item) ((start H e.key, e.value) :: assoc H es) = _
        rw [List.lookup_cons, hbeq]
      refine ⟨r.map (· + 1), t2, ?_, ?_, ?_⟩
      · rw [decide_eq_false hc]
        show (findEntry H M _ item es >>= _) t1 = _
        rw [bind_ok h2]; rfl
      · rw [hl, ← h3]
        cases r <;> simp
      · rw [hl, ← h4]
        cases r <;> simp

theorem mapGet_fixed {item : Nat} (hi : Unwritten H 48 item) {es : List MapEntry} (hes : EntriesFixed H M es) (t : Nat) :
    ∃ t', mapGet H M es item t = .ok ((assoc H es).lookup (start H item), t') := by
  unfold mapGet
  cases es with
  | nil => exact ⟨t, rfl⟩
  | cons e es =>
    rw [if_neg (by simp)]
    obtain ⟨t1, h1⟩ := hashP_fixed H M hi t
    obtain ⟨r, t2, h2, h3, -⟩ := findEntry_fixed H M hi hes t1
    exact ⟨t2, by rw [bind_ok h1, bind_ok h2, pure_run, h3]⟩

theorem reserve_fixed {es : List MapEntry} (hes : EntriesFixed H M es) (t : Nat) : ∃ t', reserve H M es t = .ok (es, t') := by
  unfold reserve
  split
  · clear * - hes
    induction es generalizing t with
    | nil => exact ⟨t, rfl⟩
    | cons e es ih =>
      obtain ⟨he, hu⟩ := hes e (by simp)
      obtain ⟨t1, h1⟩ := hashP_fixed H M hu t
      obtain ⟨t2, h2⟩ := ih (fun e he => hes e (by simp [he])) t1
      refine ⟨t2, ?_⟩
      rw [List.mapM_cons]
      have h3 : (do
          let h ← hashP H M e.key
          pure ({ e with hash := h } : MapEntry) : LookM MapEntry) t = .ok (e, t1) := by
        rw [bind_ok h1, pure_run, ← he]
      rw [bind_ok h3, bind_ok h2, pure_run]
  · exact ⟨t, rfl⟩

theorem mapInsert_fixed {item : Nat} (hi : Unwritten H 48 item) {es : List MapEntry} (hes : EntriesFixed H M es)
    (hn : (assoc H es).lookup (start H item) = none) (value t : Nat) :
    ∃ t', mapInsert H M es item value t = .ok (⟨M.hash (start H item), item, value⟩ :: es, t') := by
  unfold mapInsert
  obtain ⟨t1, h1⟩ := hashP_fixed H M hi t
  obtain ⟨t2, h2⟩ := reserve_fixed H M hes t1
  obtain ⟨r, t3, h3, -, h4⟩ := findEntry_fixed H M hi hes t2
  obtain rfl := h4.2 hn
  exact ⟨t3, by rw [bind_ok h1, bind_ok h2, bind_ok h3]; rfl⟩

theorem dedup_fixed (input : List Nat) (hin : ∀ p ∈ input, Unwritten H 48 p) (t : Nat) :
    ∃ U rows t', deduplicateWithIndicesP H M input t = .ok ((U, rows), t') ∧ U.Sublist input ∧
      (U.map (start H), rows) = deduplicateWithIndices (input.map (start H)) := by
  unfold deduplicateWithIndicesP
  rw [dedup_eq_foldl]
  have key : ∀ (l pre : List Nat) (st : List Nat × List MapEntry × List Nat)
      (st' : List (List UInt8) × List (List UInt8 × Nat) × List Nat) (t : Nat), (∀ p ∈ l, Unwritten H 48 p) → EntriesFixed H M st.2.1 →
      st.1.Sublist pre →
      (st.1.map (start H), assoc H st.2.1, st.2.2) = st' →
      ∃ (r : List Nat × List MapEntry × List Nat) (t' : Nat),
      (l.foldlM (fun (st : List Nat × List MapEntry × List Nat) item => do
        match ← mapGet H M st.2.1 item with
        | some index => pure (st.1, st.2.1, st.2.2 ++ [index])
        | none => do
          let newIndex := st.1.length
          let indexMap ← mapInsert H M st.2.1 item newIndex
          pure (st.1 ++ [item], indexMap, st.2.2 ++ [newIndex])) st : LookM _) t = .ok (r, t') ∧ r.1.Sublist (pre ++ l) ∧
        (r.1.map (start H), assoc H r.2.1, r.2.2) = (l.map (start H)).foldl dedupStep st' := by
    intro l
    induction l with
    | nil =>
      intro pre st st' t _ _ hsub h
      exact ⟨st, t, rfl, by simpa using hsub, h⟩
    | cons x l ih =>
      intro pre st st' t hl hes hsub h
      rw [List.foldlM_cons, List.map_cons, List.foldl_cons]
      have hx := hl x (by simp)
      obtain ⟨t1, h1⟩ := mapGet_fixed H M hx hes t
      have e : pre ++ x :: l = (pre ++ [x]) ++ l := by simp
      rw [e]
      have hlk : st'.2.1 = assoc H st.2.1 := by rw [← h]
      cases hg : (assoc H st.2.1).lookup (start H x) with
      | some i =>
        rw [hg] at h1
        have hstep : dedupStep st' (start H x) = (st'.1, st'.2.1, st'.2.2 ++ [i]) := by
          have hg' : @List.lookup _ _ instBEqOfDecidableEq (start H x) st'.2.1 = some i := by rw [beq_bytes, hlk]; exact hg
          unfold dedupStep; rw [hg']
        obtain ⟨r, t2, h2, h3, h4⟩ := ih (pre ++ [x]) (st.1, st.2.1, st.2.2 ++ [i]) (dedupStep st' (start H x)) t1 (fun p hp => hl p (by simp [hp])) hes
          (hsub.trans (List.sublist_append_left _ _)) (by rw [hstep, ← h])
        refine ⟨r, t2, ?_, h3, h4⟩
        refine (bind_ok (a := (st.1, st.2.1, st.2.2 ++ [i])) (t' := t1) ?_).trans h2
        rw [bind_ok h1]; rfl
      | none =>
        rw [hg] at h1
        obtain ⟨t2, h2⟩ := mapInsert_fixed H M hx hes hg st.1.length t1
        have hstep : dedupStep st' (start H x) =
            (st'.1 ++ [start H x], (start H x, st'.1.length) :: st'.2.1, st'.2.2 ++ [st'.1.length]) := by
          have hg' : @List.lookup _ _ instBEqOfDecidableEq (start H x) st'.2.1 = none := by rw [beq_bytes, hlk]; exact hg
          unfold dedupStep; rw [hg']
        obtain ⟨r, t3, h3, h4, h5⟩ := ih (pre ++ [x]) (st.1 ++ [x], ⟨M.hash (start H x), x, st.1.length⟩ :: st.2.1,
          st.2.2 ++ [st.1.length]) (dedupStep st' (start H x)) t2 (fun p hp => hl p (by simp [hp])) (by
            intro e he
            rcases List.mem_cons.1 he with rfl | he
            · exact ⟨rfl, hx⟩
            · exact hes e he)
          (hsub.append (List.Sublist.refl _)) (by rw [hstep, ← h]; simp [assoc])
        refine ⟨r, t3, ?_, h4, h5⟩
        refine (bind_ok (a := (st.1 ++ [x], ⟨M.hash (start H x), x, st.1.length⟩ :: st.2.1, st.2.2 ++ [st.1.length])) (t' := t2) ?_).trans h3
        rw [bind_ok h1]
        show (mapInsert H M st.2.1 x st.1.length >>= _) t1 = _
        rw [bind_ok h2]; rfl
  obtain ⟨r, t', h1, h2, h3⟩ := key input [] ([], [], []) ([], [], []) t hin (by intro e he; simp at he) (List.Sublist.refl _) rfl
  refine ⟨r.1, r.2.2, t', ?_, by simpa using h2, ?_⟩
  · exact bind_ok h1
  · rw [← h3]

/-! ### the methods -/

theorem sliceOfLength_length (n : Nat) (ps : List Nat) : (sliceOfLength n ps).length = ps.length := by simp [sliceOfLength]

theorem validateRecover_seen (inds : List Nat) {ps : List Nat} {bs : List (List UInt8)} (h : List.Forall₂ (SeenAt H 2048) ps bs) :
    validateRecover inds (sliceOfLength 2048 ps) = validateRecover inds bs := by
  have h1 : (sliceOfLength 2048 ps).all (fun c => c.length == BYTES_PER_CELL) = true := by
    rw [List.all_eq_true]
    intro c hc
    obtain ⟨p, _, rfl⟩ := List.mem_map.1 hc
    rw [List.length_replicate]; rfl
  have h2 : bs.all (fun c => c.length == BYTES_PER_CELL) = true := by
    rw [List.all_eq_true]
    intro c hc
    rw [lengths_of_seen H h c hc]; rfl
  unfold validateRecover
  rw [h1, h2, sliceOfLength_length, h.length_eq]

theorem validateVerify_length {u u' c c' p p' : List (List UInt8)} (hu : u.length = u'.length) (hc : c.length = c'.length)
    (hp : p.length = p'.length) (rows inds : List Nat) : validateVerify u rows inds c p = validateVerify u' rows inds c' p' := by
  unfold validateVerify
  rw [hu, hc, hp]

end Verif.InPlace
