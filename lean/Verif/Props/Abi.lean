import Verif.Spec.Abi
import Verif.Lemmas.Bytes
import Verif.Lemmas.Nim
import Verif.Props.Nim
import Verif.Props.Codec

/-! C66: the declarations of the bindings agree with the exported functions. -/
namespace Verif
open Spec (IntAt LaidOut Represents Value Carries CsPointsLike NimPointsLike DeclAgrees escapeCs escapeNim JavaAgrees methodDescriptor TypescriptAgrees consensusConstants Holds Extends OutOfMemory GetsText AnswersText)

theorem alignUp_isLeast (n : Nat) {a : Nat} (ha : 0 < a) : IsLeast {o | n ≤ o ∧ a ∣ o} (alignUp n a) := by
  refine ⟨⟨?_, Dvd.intro_left _ rfl⟩, ?_⟩
  · have := Nat.lt_div_mul_add (a := n + a - 1) ha
    unfold alignUp; omega
  · rintro o ⟨h1, ⟨k, rfl⟩⟩
    unfold alignUp
    rw [mul_comm a k]
    refine Nat.mul_le_mul_right _ ?_
    rw [← Nat.lt_succ_iff, Nat.div_lt_iff_lt_mul ha, Nat.succ_mul, mul_comm k a]
    omega

theorem laidOut_eq {n : Nat} {sizes offs : List Nat} (h : LaidOut n sizes offs) (hp : ∀ s ∈ sizes, 0 < s) :
    offs = fieldOffsets n sizes := by
  induction h with
  | nil => rfl
  | @cons n size off sizes offs hl _ ih =>
    have := hl.unique (alignUp_isLeast n (hp size (by simp)))
    subst this
    rw [fieldOffsets, ih (fun s hs => hp s (by simp [hs]))]

theorem readInt_of_intAt {t : Target} {bytes : List UInt8} {off size v : Nat} (h : IntAt t.bigEndian bytes off size v) :
    t.readInt ((bytes.drop off).take size) = v := by
  obtain ⟨b, hl, hp, rfl⟩ := h
  rw [List.prefix_iff_eq_take, hl] at hp
  rw [← hp, Target.readInt]
  cases t.bigEndian <;> simp [beToNat_eq]

theorem readFields_of_represents {t : Target} {sizes : List Nat} {bytes : List UInt8} {vals : List Nat} (hp : ∀ s ∈ sizes, 0 < s)
    (h : Represents t sizes bytes vals) : t.readFields sizes bytes = vals := by
  obtain ⟨offs, hl, hv⟩ := h
  rw [Target.readFields, ← laidOut_eq hl hp]
  generalize offs.zip sizes = l at hv
  induction hv with
  | nil => rfl
  | cons h _ ih => rw [List.map_cons, ih, readInt_of_intAt h]

theorem rust_fields_pos {t : Target} (ht : t.Supported) (ty : RustTy) : ∀ s ∈ ty.fields t, 0 < s := by
  have : 0 < t.pointerBytes := by rcases ht with h | h <;> omega
  cases ty <;> simp [RustTy.fields, this]

theorem carries_of_eq {t : Target} (ht : t.Supported) {ty : RustTy} {src dst : List Nat} (h1 : src = ty.fields t) (h2 : dst = ty.fields t) :
    Carries t ty src dst := by
  subst h1 h2
  exact fun _ _ _ h => readFields_of_represents (rust_fields_pos ht ty) h

/-- C66, C#: on every machine, every declaration in `native_methods.g.cs` agrees with the exported function of the same symbol, and every
exported function is declared. -/
theorem C66_csharp_declarations (t : Target) (ht : t.Supported) :
    List.Forall₂ (DeclAgrees t (CsTy.fields t) (CsPointsLike t) escapeCs) csharpFns exportedFns := by
  unfold csharpFns exportedFns
  repeat' (first | apply List.Forall₂.nil | refine List.Forall₂.cons ?_ ?_)
  all_goals
    refine ⟨rfl, by decide +kernel, ?_, carries_of_eq ht rfl rfl, by simp [CsPointsLike, CsTy.fields, RustTy.fields]⟩
    repeat' (first | apply List.Forall₂.nil | refine List.Forall₂.cons ?_ ?_)
  all_goals exact ⟨carries_of_eq ht rfl rfl, by simp [CsPointsLike, CsTy.fields, RustTy.fields]⟩

/-- the first byte and the message of a represented `CResult` -/
theorem cResult_bytes {t : Target} (ht : t.Supported) {bytes : List UInt8} {status msg : Nat}
    (h : Represents t (RustTy.fields t .cResult) bytes [status, msg]) :
    ∃ b0 b1 b2 b3 rest, bytes = b0 :: b1 :: b2 :: b3 :: rest ∧
      status = beToNat (if t.bigEndian then [b0, b1, b2, b3] else [b3, b2, b1, b0]) ∧
      t.readFields (NimTy.fields t .cResult) bytes = [b0.toNat, msg] := by
  have hr := readFields_of_represents (rust_fields_pos ht .cResult) h
  have ho : fieldOffsets 0 (RustTy.fields t .cResult) = [0, t.pointerBytes] ∧
      fieldOffsets 0 (NimTy.fields t .cResult) = [0, t.pointerBytes] := by
    rcases ht with h | h <;> simp only [RustTy.fields, NimTy.fields, h] <;> decide
  obtain ⟨offs, hl, hv⟩ := h
  have he := laidOut_eq hl (rust_fields_pos ht .cResult)
  rw [ho.1] at he
  subst he
  have hi : IntAt t.bigEndian bytes 0 4 status := by
    cases hv with
    | cons h _ => exact h
  obtain ⟨b, hb, hp, hs⟩ := hi
  match b, hb with
  | [b0, b1, b2, b3], _ =>
    obtain ⟨rest, hrest⟩ := hp
    rw [List.drop_zero] at hrest
    refine ⟨b0, b1, b2, b3, rest, by simp [← hrest], ?_, ?_⟩
    · rw [hs, beToNat_eq]
      cases t.bigEndian <;> rfl
    · rw [Target.readFields, ho.1] at hr
      rw [Target.readFields, ho.2]
      simp only [RustTy.fields, NimTy.fields, List.zip_cons_cons, List.zip_nil_right, List.map_cons, List.map_nil, List.cons.injEq, and_true]
        at hr ⊢
      refine ⟨?_, hr.2⟩
      rw [← hrest]
      simp [Target.readInt, beToNat]

/-- C66, Nim, the part that holds: on every little-endian machine, every declaration in `header.nim` agrees with the exported function of the
same symbol, and every exported function is declared. Missing for the property: big-endian machines, where it is false
(`C66_nim_declarations_refuted`). -/
theorem C66_nim_declarations_partial (t : Target) (ht : t.Supported) (hle : t.bigEndian = false) :
    List.Forall₂ (DeclAgrees t (NimTy.fields t) (NimPointsLike t) escapeNim) nimFns exportedFns := by
  have hres : Carries t .cResult (RustTy.fields t .cResult) (NimTy.fields t .cResult) := by
    rintro bytes vals ⟨p, -, h⟩ hr
    obtain ⟨status, hs, rfl⟩ : ∃ status < 2, vals = [status, p] := by
      rcases h with rfl | rfl
      exacts [⟨0, by omega, rfl⟩, ⟨1, by omega, rfl⟩]
    obtain ⟨b0, b1, b2, b3, rest, -, h1, h2⟩ := cResult_bytes ht hr
    rw [h2]
    rw [hle] at h1
    simp [beToNat] at h1
    have : b0.toNat = status := by omega
    rw [this]
  unfold nimFns exportedFns
  repeat' (first | apply List.Forall₂.nil | refine List.Forall₂.cons ?_ ?_)
  all_goals
    refine ⟨rfl, by decide +kernel, ?_, (by first | exact carries_of_eq ht rfl rfl | exact hres),
      by simp [NimPointsLike, NimTy.fields, RustTy.fields]⟩
    repeat' (first | apply List.Forall₂.nil | refine List.Forall₂.cons ?_ ?_)
  all_goals exact ⟨carries_of_eq ht rfl rfl, by simp [NimPointsLike, NimTy.fields, RustTy.fields]⟩

/-- C66, Nim: on a little-endian machine, what Nim sees of a result is the result. This is what the model of the Nim wrapper (C42, C43) uses. -/
theorem C66_nim_result (t : Target) (ht : t.Supported) (hle : t.bigEndian = false) (res : CResult) (bytes : List UInt8)
    (h : Represents t [4, t.pointerBytes] bytes [if res.status = .Ok then 0 else 1, res.errorMsg]) : nimSees t bytes = res := by
  obtain ⟨b0, b1, b2, b3, rest, -, h1, h2⟩ := cResult_bytes ht h
  rw [hle] at h1
  simp [beToNat] at h1
  rw [nimSees, h2]
  rcases res with ⟨_ | _, m⟩
  · have : b0.toNat = 0 := by simp at h1; omega
    simp [this]
  · have : b0.toNat = 1 := by simp at h1; omega
    simp [this]

/-- C66, Nim: refuted on every big-endian machine. The enumeration of `header.nim` has one byte, that of the library four, so Nim reads the
most significant byte of the status, which is zero: every result looks like a success, and no declaration with such a result agrees. -/
theorem C66_nim_declarations_refuted (t : Target) (ht : t.Supported) (hbe : t.bigEndian = true) :
    (∀ bytes msg, Represents t [4, t.pointerBytes] bytes [1, msg] → nimSees t bytes = ⟨.Ok, msg⟩) ∧
    (∀ decl ∈ nimFns, decl.ret = .cResult → ∀ fn ∈ exportedFns, ¬ DeclAgrees t (NimTy.fields t) (NimPointsLike t) escapeNim decl fn) := by
  have key : ∀ bytes status msg, status < 2 → Represents t [4, t.pointerBytes] bytes [status, msg] →
      t.readFields (NimTy.fields t .cResult) bytes = [0, msg] := by
    intro bytes status msg hs h
    obtain ⟨b0, b1, b2, b3, rest, -, h1, h2⟩ := cResult_bytes ht h
    rw [hbe] at h1
    simp [beToNat] at h1
    have : b0.toNat = 0 := by omega
    rw [h2, this]
  refine ⟨fun bytes msg h => by rw [nimSees, key bytes 1 msg (by omega) h]; rfl, ?_⟩
  intro decl hd hret fn hf ha
  have hfn : fn.ret = .cResult := by
    have : ∀ decl ∈ nimFns, decl.ret = .cResult → ∀ fn ∈ exportedFns, decl.symbol = fn.symbol → fn.ret = .cResult := by decide +kernel
    exact this decl hd hret fn hf ha.symbol
  have hc := ha.result.1
  rw [hfn, hret] at hc
  have hp : 0 < t.pointerBytes := by rcases ht with h | h <;> omega
  have hrep : Represents t [4, t.pointerBytes] ([0, 0, 0, 1] ++ List.replicate (t.pointerBytes - 4) 0 ++ List.replicate t.pointerBytes 0) [1, 0] := by
    refine ⟨[0, t.pointerBytes], ?_, ?_⟩
    · refine .cons ⟨⟨le_rfl, dvd_zero _⟩, fun _ h => h.1⟩ (.cons ⟨⟨?_, dvd_rfl⟩, ?_⟩ (.nil _))
      · rcases ht with h | h <;> omega
      · rintro o ⟨h1, h2⟩
        exact Nat.le_of_dvd (by omega) h2
    · refine .cons ⟨[0, 0, 0, 1], rfl,
        ⟨List.replicate (t.pointerBytes - 4) 0 ++ List.replicate t.pointerBytes 0, by simp⟩, ?_⟩ (.cons ⟨List.replicate t.pointerBytes 0, by simp, ?_, ?_⟩ .nil)
      · rw [hbe, if_pos rfl]; decide +kernel
      · rcases ht with h | h <;> rw [h] <;> simp [List.replicate]
      · rcases ht with h | h <;> rw [h, hbe, if_pos rfl] <;> decide +kernel
  have := hc _ [1, 0] ⟨0, by positivity, .inr rfl⟩ hrep
  rw [key _ 1 0 (by omega) hrep] at this
  simp at this

/-- C66, Java: every native method agrees with the exported function in which the virtual machine looks for it, every exported function
belongs to a method, no two methods share a name (so none is overloaded), and the generated header has the descriptors of the methods. -/
theorem C66_java_natives :
    List.Forall₂ JavaAgrees javaNatives jniFns ∧ (javaNatives.map FnDecl.symbol).Nodup ∧ (jniFns.map FnDecl.symbol).Nodup ∧
    jniHeader = javaNatives.map (fun m => (m.symbol, methodDescriptor m)) := by
  refine ⟨?_, by decide +kernel, by decide +kernel, by decide +kernel⟩
  unfold javaNatives jniFns
  repeat' (first | apply List.Forall₂.nil | refine List.Forall₂.cons ?_ ?_)
  all_goals
    refine ⟨by decide +kernel, by decide +kernel, rfl, ?_⟩
    repeat' (first | apply List.Forall₂.nil | refine List.Forall₂.cons ?_ ?_)
  all_goals decide +kernel

/-- C66, Java: the address of a context survives its stay in a `long` of a Java object, on every machine. -/
theorem C66_java_handle (t : Target) (ht : t.Supported) (p : Nat) (hp : p < 256 ^ t.pointerBytes) :
    jlongToPointer t (pointerToJlong p) = p := by
  have h8 : 256 ^ t.pointerBytes ≤ 2 ^ 64 := by rcases ht with h | h <;> rw [h] <;> norm_num
  have h : (pointerToJlong p).toUInt64 = UInt64.ofNat p := rfl
  rw [jlongToPointer, h, UInt64.toNat_ofNat_of_lt' (by simpa [UInt64.size] using lt_of_lt_of_le hp h8), Nat.mod_eq_of_lt hp]

/-- C66, Node: every declaration in `index.d.ts` agrees with the function of `lib.rs` it stands for; none is missing, and no two share a name. -/
theorem C66_typescript_declarations :
    List.Forall₂ TypescriptAgrees typescriptFns napiFns ∧ (typescriptFns.map FnDecl.symbol).Nodup := by
  refine ⟨?_, by decide +kernel⟩
  unfold typescriptFns napiFns
  repeat' (first | apply List.Forall₂.nil | refine List.Forall₂.cons ?_ ?_)
  all_goals
    refine ⟨by decide +kernel, ?_, ⟨_, by repeat constructor, rfl⟩⟩
    repeat' (first | apply List.Forall₂.nil | refine List.Forall₂.cons ?_ ?_)
  all_goals exact ⟨by decide +kernel, by repeat constructor⟩

/-- C66: every binding declares the constants of the consensus specification, which are those of the library and those its C interface
reports. -/
theorem C66_constants :
    (∀ c ∈ [csharpConstants, goConstants, javaConstants, jniHeaderConstants, nimConstants, nodeConstants], c = consensusConstants) ∧
    consensusConstants = ⟨BYTES_PER_COMMITMENT, BYTES_PER_COMMITMENT, BYTES_PER_FIELD_ELEMENT, BYTES_PER_BLOB, CELLS_PER_EXT_BLOB, BYTES_PER_CELL⟩ ∧
    ethKzgConstantBytesPerCell = consensusConstants.bytesPerCell ∧ ethKzgConstantBytesPerProof = consensusConstants.bytesPerProof ∧
    ethKzgConstantCellsPerExtBlob = consensusConstants.maxNumColumns := by
  decide +kernel

section
variable {K G1 G2 GT : Type} [Field K] [DecidableEq K] [AddCommGroup G1] [Module Fr G1] [DecidableEq G1]
  [Curve K G1] [PointCodec G1] [AddCommGroup G2] [Module Fr G2] [AddCommGroup GT] [DecidableEq GT]
  [Pairing G1 G2 GT] [LawfulPointCodec G1 48]

/-- What `header.nim` makes of a result on the machine `t`: some bytes represent the result as the library writes it (there are many, since
padding is arbitrary), and the caller reads them. -/
def SeesWithNim (t : Target) (see : CResult → CResult) : Prop :=
  ∀ res : CResult, res.errorMsg < 256 ^ t.pointerBytes →
    ∃ bytes, Represents t [4, t.pointerBytes] bytes [if res.status = .Ok then 0 else 1, res.errorMsg] ∧ see res = nimSees t bytes

/-- C66, Nim: on a little-endian machine with 8-byte pointers the wrapper, with what `header.nim` makes of a result, does what C42 says. -/
theorem C66_nim_blob_to_kzg_commitment_partial (t : Target) (ht : t.pointerBytes = 8) (hle : t.bigEndian = false) (see : CResult → CResult)
    (hsee : SeesWithNim t see) (H : Heap (DASContext K G1 G2)) (A : Allocator (DASContext K G1 G2)) (dollar : CResult → List UInt8)
    (s : CState (DASContext K G1 G2)) (ctxp : Nat) (ctx : DASContext K G1 G2) (h0 : ctxp ≠ 0) (hctx : s.ctxs ctxp = some ctx)
    (blob : Nat) (bytes : List UInt8) (hl : bytes.length = 131072) (hb0 : blob ≠ 0) (hb : Holds s.mem blob bytes) :
    AnswersText H A s [48] (ctx.blobToKzgCommitment bytes) dollar (nimBlobToKZGCommitmentSeen see H A dollar ctxp blob) := by
  have hs : ∀ res : CResult, res.errorMsg < 2 ^ 64 → see res = res := by
    intro res hp
    obtain ⟨b, h1, h2⟩ := hsee res (by rw [ht]; norm_num at hp ⊢; exact hp)
    rw [h2]
    exact C66_nim_result t (.inr ht) hle res b h1
  have hbind : ∀ (call : CM (DASContext K G1 G2) Empty CResult) (s₁ : CState (DASContext K G1 G2)) (f : Unit → CM _ NimError (List UInt8)),
      (∀ r s', call s₁ = .ok r s' → r.errorMsg < 2 ^ 64) →
      (callC call >>= fun r => verifyResultNim dollar (see r) >>= f) s₁ = (callC call >>= fun r => verifyResultNim dollar r >>= f) s₁ := by
    intro call s₁ f h
    rcases hc : call s₁ with ⟨r, s'⟩ | ⟨e, -⟩ | _ | _
    · rw [CM.bind_ok (callC_ok hc), CM.bind_ok (callC_ok hc), hs r (h r s' hc)]
    · exact e.elim
    · rw [CM.bind_panic (callC_panic hc), CM.bind_panic (callC_panic hc)]
    · simp [Bind.bind, callC, hc]
  unfold nimBlobToKZGCommitmentSeen AnswersText
  refine newArray_bind (P := GetsText A s (ctx.blobToKzgCommitment bytes) dollar) H A (List.replicate 48 0) List.length_replicate ?_
  intro out s₁ h1 _ _
  have hm := mapped_of_holds h1.holds
  rw [List.length_replicate] at hm
  obtain ⟨t1, t2, t3⟩ := C32_blob_to_kzg_commitment A s₁ ctxp blob out ctx h0 (by rw [h1.ext.ctxs, hctx]) bytes hl
    hb0 (holds_mono h1.ext hb) h1.ne hm
  rw [hbind]
  · rcases hr : ctx.blobToKzgCommitment bytes with c | e | _
    · right
      obtain ⟨⟨s', hs', hw, hc, hst⟩, hcl⟩ := t1 c hr
      refine ⟨s', (verifyResultNim_ok hs' _).trans (readBytes_ok' hcl (hw.1 _ (List.mem_singleton.2 rfl))), ?_⟩
      refine extends_of_wrote h1.ext hw hc hst ?_
      intro r hrm
      rw [List.mem_singleton] at hrm
      subst hrm
      have := h1.unmapped
      rwa [List.length_replicate, ← hcl] at this
    · rcases verifyResultNim_err H A (t2 e hr) (fun _ => readBytes out 48) with h' | ⟨p, hp, h'⟩
      · exact .inl h'
      · exact .inr ⟨p, s₁, hp, h', h1.ext⟩
    · exact .inr (verifyResultNim_panic (t3 hr) _)
  · intro r s' hc
    rcases hr : ctx.blobToKzgCommitment bytes with c | e | _
    · obtain ⟨⟨s'', hs', -⟩, -⟩ := t1 c hr
      rw [hs'] at hc
      cases hc
      norm_num
    · rcases t2 e hr with ⟨-, h3⟩ | ⟨p, s'', h2, -, -, hlt, -⟩
      · rw [h3] at hc; cases hc
      · rw [h2] at hc
        cases hc
        show p < 2 ^ 64
        omega
    · rw [t3 hr] at hc; cases hc

/-- C66, Nim: what follows from the refutation. On a big-endian machine with 8-byte pointers, the wrapper returns a string of 48 zero bytes as
the commitment of every blob the library refuses, instead of an error, and leaks the error message. -/
theorem C66_nim_error_lost_refuted (t : Target) (ht : t.pointerBytes = 8) (hbe : t.bigEndian = true) (see : CResult → CResult)
    (hsee : SeesWithNim t see) (H : Heap (DASContext K G1 G2)) (A : Allocator (DASContext K G1 G2)) (dollar : CResult → List UInt8)
    (s : CState (DASContext K G1 G2)) (ctxp : Nat) (ctx : DASContext K G1 G2) (h0 : ctxp ≠ 0) (hctx : s.ctxs ctxp = some ctx)
    (blob : Nat) (bytes : List UInt8) (hl : bytes.length = 131072) (hb0 : blob ≠ 0) (hb : Holds s.mem blob bytes)
    (e : Error) (he : ctx.blobToKzgCommitment bytes = .err e) :
    (OutOfMemory H A s [48] (some (e.debug.length + 1)) ∧ nimBlobToKZGCommitmentSeen see H A dollar ctxp blob s = .panic) ∨
    ∃ s' p, nimBlobToKZGCommitmentSeen see H A dollar ctxp blob s = .ok (List.replicate 48 0) s' ∧
      s.strings p = none ∧ s'.strings p = some (e.debug.length + 1) := by
  have hs : ∀ p, p < 2 ^ 64 → see ⟨.Err, p⟩ = ⟨.Ok, p⟩ := by
    intro p hp
    obtain ⟨b, h1, h2⟩ := hsee ⟨.Err, p⟩ (by rw [ht]; norm_num at hp ⊢; exact hp)
    rw [h2]
    exact (C66_nim_declarations_refuted t (.inr ht) hbe).1 b p (by simpa using h1)
  unfold nimBlobToKZGCommitmentSeen
  refine newArray_bind (P := fun o => ∃ s' p, o = .ok (List.replicate 48 0) s' ∧ s.strings p = none ∧
    s'.strings p = some (e.debug.length + 1)) H A (List.replicate 48 0) List.length_replicate ?_
  intro out s₁ h1 _ he₁
  have hm := mapped_of_holds h1.holds
  rw [List.length_replicate] at hm
  have t2 := (C32_blob_to_kzg_commitment A s₁ ctxp blob out ctx h0 (by rw [h1.ext.ctxs, hctx]) bytes hl
    hb0 (holds_mono h1.ext hb) h1.ne hm).2.1 e he
  rcases t2 with ⟨h2, h3⟩ | ⟨p, s', h2, hpl, -, hlt, -, hst, hmem, -, -, hfree⟩
  · left
    exact ⟨.message h2, CM.bind_panic (callC_panic h3)⟩
  · right
    refine ⟨s', p, (CM.bind_ok (callC_ok h2)).trans ?_, ?_, hst⟩
    · rw [hs p (by omega)]
      refine readBytes_ok' List.length_replicate ?_
      intro i b hib
      have h := h1.holds i b hib
      rw [hmem _ (by rw [h]; simp), h]
    · rw [← h1.ext.strings]
      exact (A.fresh _ _ _ hpl).2.2.1

end

/-- what a big-endian machine makes of results, with zeros as padding -/
def bigEndianSees (res : CResult) : CResult := nimSees ⟨8, true⟩
  ([0, 0, 0, if res.status = .Ok then 0 else 1] ++ [0, 0, 0, 0] ++ (wordBytes res.errorMsg).reverse)

/-- The hypothesis on `see` is met on a big-endian machine. -/
theorem bigEndianSees_sees : SeesWithNim ⟨8, true⟩ bigEndianSees := by
  intro res hr
  refine ⟨_, ⟨[0, 8], .cons ⟨⟨le_rfl, dvd_zero _⟩, fun _ h => h.1⟩ (.cons ⟨⟨by norm_num, dvd_rfl⟩, ?_⟩ (.nil _)), ?_⟩, rfl⟩
  · rintro o ⟨h1, h2⟩
    simp only at h1 h2
    omega
  · refine .cons ⟨[0, 0, 0, if res.status = .Ok then 0 else 1], rfl, ⟨[0, 0, 0, 0] ++ (wordBytes res.errorMsg).reverse, rfl⟩, ?_⟩
      (.cons ⟨(wordBytes res.errorMsg).reverse, by simp [wordBytes], ⟨[], by simp⟩, ?_⟩ .nil)
    · cases res.status <;> decide +kernel
    · rw [if_pos rfl, ← beToNat_eq]
      generalize res.errorMsg = p at hr
      simp only [wordBytes, List.range_succ, List.range_zero]
      simp [beToNat]
      norm_num at hr
      omega

open Toy in
/-- `C66_nim_error_lost_refuted` on a concrete machine, process and blob: Nim returns a commitment for a blob with an element that is not
reduced. -/
example (dollar : CResult → List UInt8) (ctx : DASContext Fr Fr Fr) :
    ∃ s', nimBlobToKZGCommitmentSeen bigEndianSees (ToyHeap.heap _) (ToyHeap.allocator _) dollar 16 4096 (ToyHeap.start ctx badBlob) =
      .ok (List.replicate 48 0) s' := by
  rcases C66_nim_error_lost_refuted ⟨8, true⟩ rfl rfl bigEndianSees bigEndianSees_sees (ToyHeap.heap _) (ToyHeap.allocator _) dollar
    (ToyHeap.start ctx badBlob) 16 ctx (by decide) (by simp [ToyHeap.start]) 4096 badBlob length_badBlob (by decide)
    (ToyHeap.start_holds _ _) _ (badBlob_rejected ctx) with ⟨ho, -⟩ | ⟨s', p, h, -⟩
  · refine absurd ho (ToyHeap.not_outOfMemory (ToyHeap.start_top _ _) ?_)
    rw [length_badBlob]
    have : (Error.Serialization (.CouldNotDeserializeScalar orderBytes)).debug.length ≤ 1000 := by decide +kernel
    simp only [List.map_cons, List.map_nil, List.sum_cons, List.sum_nil, Option.getD_some]
    omega
  · exact ⟨s', h⟩

example : bigEndianSees ⟨.Err, 12345⟩ = ⟨.Ok, 12345⟩ := by decide +kernel

/-- and on a little-endian machine with junk as padding -/
example : nimSees ⟨8, false⟩ ([1, 0, 0, 0] ++ [17, 18, 19, 20] ++ wordBytes 12345) = ⟨.Err, 12345⟩ := by decide +kernel

/-- Representations exist: a failing result on a little-endian machine with 4-byte pointers. -/
example : Represents ⟨4, false⟩ (RustTy.fields ⟨4, false⟩ .cResult) [1, 0, 0, 0, 57, 48, 0, 0] [1, 12345] := by
  refine ⟨[0, 4], .cons ⟨⟨le_rfl, dvd_zero _⟩, fun _ h => h.1⟩ (.cons ⟨⟨le_rfl, dvd_rfl⟩, fun o h => h.1⟩ (.nil _)), ?_⟩
  refine .cons ⟨[1, 0, 0, 0], rfl, ⟨[57, 48, 0, 0], rfl⟩, by decide +kernel⟩ (.cons ⟨[57, 48, 0, 0], rfl, ⟨[], rfl⟩, by decide +kernel⟩ .nil)

/-- A declaration with a `bool` marshalled in the default way would not agree: the library reads one of its four bytes. -/
example : ¬ Carries ⟨8, true⟩ .bool (CsTy.fields ⟨8, true⟩ .bool) (RustTy.fields ⟨8, true⟩ .bool) := by
  intro h
  have := h [0, 0, 0, 1] [1] (.inr rfl) ⟨[0], .cons ⟨⟨le_rfl, dvd_zero _⟩, fun _ h => h.1⟩ (.nil _),
    .cons ⟨[0, 0, 0, 1], rfl, ⟨[], rfl⟩, by decide +kernel⟩ .nil⟩
  revert this
  decide +kernel

end Verif
