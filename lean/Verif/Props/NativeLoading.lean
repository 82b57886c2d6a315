import Verif.Model.NativeLoading
import Verif.Spec.Platforms

/-! C63: the loaders of the bindings look for the library where the build scripts put it. -/
namespace Verif
open Spec

theorem asciiLower_append (a b : Name) : asciiLower (a ++ b) = asciiLower a ++ asciiLower b := List.map_append

theorem javaContains_append_left (a b t : Name) (h : t <:+: a) : javaContains (a ++ b) t = true :=
  decide_eq_true (h.trans (List.prefix_append a b).isInfix)

theorem asciiLower_of_upToCase {name lower : Name} (h : UpToCase name lower) (hl : asciiLower lower = lower) : asciiLower name = lower := by
  induction h with
  | nil => rfl
  | @cons a b as bs hab _ ih =>
    simp only [asciiLower, List.map_cons, List.cons.injEq] at hl ih ⊢
    refine ⟨?_, ih hl.2⟩
    rcases hab with rfl | ⟨h1, h2, rfl⟩
    · exact hl.1
    · have e : b - 32 + 32 = b := by rw [UInt8.sub_add_cancel]
      rw [UInt8.le_iff_toNat_le] at h1 h2
      have e' : (b - 32).toNat = b.toNat - 32 := UInt8.toNat_sub_of_le _ _ (by rw [UInt8.le_iff_toNat_le]; exact le_trans (by decide) h1)
      rw [if_pos, e]
      rw [UInt8.le_iff_toNat_le, UInt8.le_iff_toNat_le, e']
      have : (97 : UInt8).toNat = 97 := rfl
      have : (122 : UInt8).toNat = 122 := rfl
      have : (65 : UInt8).toNat = 65 := rfl
      have : (90 : UInt8).toNat = 90 := rfl
      omega

theorem normalizedArch (arch : Arch) (name : Name) (h : JavaOsArch arch name) :
    getNormalizedArchitecture name = match arch with
      | .x64 => ascii "x86_64"
      | .arm64 => ascii "aarch64" := by
  cases arch <;> rcases h with h | h <;>
  · have := asciiLower_of_upToCase h (by decide +kernel)
    simp only [getNormalizedArchitecture, this]
    decide +kernel

/-- C63: on every platform the Java loader asks for the resource of that platform, and refuses Windows on ARM. -/
theorem C63_java (os : Os) (arch : Arch) (name archName file : Name) (hn : JavaOsName os name) (ha : JavaOsArch arch archName) :
    javaLibraryResourcePath name archName file = (triple os arch).map (fun t => ascii "/" ++ t ++ ascii "/" ++ file) := by
  have harch := normalizedArch arch archName ha
  unfold javaLibraryResourcePath
  simp only [harch]
  cases os with
  | linux =>
    simp only [JavaOsName] at hn
    subst hn
    have h1 : javaContains (asciiLower (ascii "Linux")) (ascii "win") = false := by decide +kernel
    have h2 : javaContains (asciiLower (ascii "Linux")) (ascii "mac") = false := by decide +kernel
    have h3 : javaContains (asciiLower (ascii "Linux")) (ascii "linux") = true := by decide +kernel
    rw [h1, h2, h3]
    cases arch
    · have h4 : javaContains (ascii "x86_64") (ascii "x86_64") = true := by decide +kernel
      simp only [h4, triple]; rfl
    · have h4 : javaContains (ascii "aarch64") (ascii "x86_64") = false := by decide +kernel
      have h5 : javaContains (ascii "aarch64") (ascii "aarch64") = true := by decide +kernel
      simp only [h4, h5, triple]; rfl
  | macos =>
    simp only [JavaOsName] at hn
    subst hn
    have h1 : javaContains (asciiLower (ascii "Mac OS X")) (ascii "win") = false := by decide +kernel
    have h2 : javaContains (asciiLower (ascii "Mac OS X")) (ascii "mac") = true := by decide +kernel
    rw [h1, h2]
    cases arch
    · have h4 : javaContains (ascii "x86_64") (ascii "x86_64") = true := by decide +kernel
      simp only [h4, triple]; rfl
    · have h4 : javaContains (ascii "aarch64") (ascii "x86_64") = false := by decide +kernel
      have h5 : javaContains (ascii "aarch64") (ascii "aarch64") = true := by decide +kernel
      simp only [h4, h5, triple]; rfl
  | windows =>
    obtain ⟨v, rfl⟩ := hn
    have h1 : javaContains (asciiLower (ascii "Windows" ++ v)) (ascii "win") = true := by
      rw [asciiLower_append]
      exact javaContains_append_left _ _ _ (by decide +kernel)
    rw [h1]
    cases arch
    · have h4 : javaContains (ascii "x86_64") (ascii "x86_64") = true := by decide +kernel
      simp only [h4, triple]; rfl
    · have h4 : javaContains (ascii "aarch64") (ascii "x86_64") = false := by decide +kernel
      have h5 : javaContains (ascii "aarch64") (ascii "x86") = false := by decide +kernel
      simp only [h4, h5, triple]; simp

/-- C63: whatever the JVM reports, the Java loader asks for one of the five libraries or refuses; it refuses every system whose name has
none of the three words. -/
theorem C63_java_any (name archName file : Name) :
    (∀ p, javaLibraryResourcePath name archName file = some p →
      ∃ os arch t, triple os arch = some t ∧ p = ascii "/" ++ t ++ ascii "/" ++ file) ∧
    ((¬ ascii "win" <:+: asciiLower name ∧ ¬ ascii "mac" <:+: asciiLower name ∧ ¬ ascii "linux" <:+: asciiLower name) →
      javaLibraryResourcePath name archName file = none) := by
  constructor
  · intro p hp
    unfold javaLibraryResourcePath at hp
    simp only [] at hp
    split_ifs at hp <;> simp only [Option.some.injEq] at hp <;> subst hp
    · exact ⟨.windows, .x64, _, rfl, rfl⟩
    · exact ⟨.macos, .x64, _, rfl, rfl⟩
    · exact ⟨.macos, .arm64, _, rfl, rfl⟩
    · exact ⟨.linux, .x64, _, rfl, rfl⟩
    · exact ⟨.linux, .arm64, _, rfl, rfl⟩
  · rintro ⟨h1, h2, h3⟩
    unfold javaLibraryResourcePath javaContains
    simp [h1, h2, h3]

/-- C63: with the resource of the platform on the class path, that resource or nothing is loaded; without it, the library path of the JVM
is searched; on a platform without a library nothing is loaded. -/
theorem C63_java_load (os : Os) (arch : Arch) (name archName file : Name) (hn : JavaOsName os name) (ha : JavaOsArch arch archName)
    (resource copyAndLoad : Name → Bool) (loadLibrary : Bool) :
    (∀ t, triple os arch = some t → resource (ascii "/" ++ t ++ ascii "/" ++ file) = true →
      javaLoadNativeLibrary name archName file resource loadLibrary copyAndLoad =
        if copyAndLoad (ascii "/" ++ t ++ ascii "/" ++ file) then .fromResource (ascii "/" ++ t ++ ascii "/" ++ file) else .failed) ∧
    (∀ t, triple os arch = some t → resource (ascii "/" ++ t ++ ascii "/" ++ file) = false →
      javaLoadNativeLibrary name archName file resource loadLibrary copyAndLoad =
        if loadLibrary then .fromLibraryPath else .notFound) ∧
    (triple os arch = none → javaLoadNativeLibrary name archName file resource loadLibrary copyAndLoad = .unsupported) := by
  unfold javaLoadNativeLibrary
  rw [C63_java os arch name archName file hn ha]
  refine ⟨?_, ?_, ?_⟩
  · intro t ht hr
    rw [ht]
    simp only [Option.map_some, hr]
    simp
  · intro t ht hr
    rw [ht]
    simp only [Option.map_some, hr]
    simp
  · intro ht
    rw [ht]
    rfl

/-- how .NET sees a platform -/
def csOs : Os → OSPlatform
  | .linux => .linux
  | .macos => .osx
  | .windows => .windows

def csArch : Arch → CsArchitecture
  | .x64 => .x64
  | .arm64 => .arm64

/-- C63: the C# loader loads the file of the platform if it exists, and nothing otherwise. On Windows on ARM it looks for a file directly
below an empty directory name, which no build makes. -/
theorem C63_csharp (os : Os) (arch : Arch) (base : Name) (exists_ : Name → Bool) :
    (∀ t, triple os arch = some t →
      let file := base ++ ascii "runtimes/" ++ t ++ ascii "/" ++ dynamicFile os (ascii "c_eth_kzg")
      csLoadNativeLibrary (csOs os) (csArch arch) base (ascii "c_eth_kzg") exists_ = if exists_ file then some file else none) ∧
    (triple os arch = none → exists_ (base ++ ascii "runtimes//" ++ dynamicFile os (ascii "c_eth_kzg")) = false →
      csLoadNativeLibrary (csOs os) (csArch arch) base (ascii "c_eth_kzg") exists_ = none) := by
  have hl : ¬ (asciiLower (ascii "c_eth_kzg") ≠ ascii "c_eth_kzg") := by decide +kernel
  unfold csLoadNativeLibrary
  rw [if_neg hl]
  constructor
  · intro t ht
    cases os <;> cases arch <;> simp only [triple, Option.some.injEq, reduceCtorEq] at ht <;> subst ht
    · exact congrArg (fun p => if exists_ p = true then some p else none) (by simp [csTarget, csOs, csArch, csExtension, dynamicFile]; rfl)
    · exact congrArg (fun p => if exists_ p = true then some p else none) (by simp [csTarget, csOs, csArch, csExtension, dynamicFile]; rfl)
    · exact congrArg (fun p => if exists_ p = true then some p else none) (by simp [csTarget, csOs, csArch, csExtension, dynamicFile]; rfl)
    · exact congrArg (fun p => if exists_ p = true then some p else none) (by simp [csTarget, csOs, csArch, csExtension, dynamicFile]; rfl)
    · exact congrArg (fun p => if exists_ p = true then some p else none) (by simp [csTarget, csOs, csArch, csExtension, dynamicFile, ascii])
  · intro ht he
    cases os <;> cases arch <;> simp only [triple, reduceCtorEq] at ht
    have hp : base ++ ascii "runtimes//" ++ dynamicFile Os.windows (ascii "c_eth_kzg") =
        base ++ ascii "runtimes/" ++ csTarget .windows .arm64 ++ ascii "/" ++ ascii "" ++ ascii "c_eth_kzg" ++ ascii "." ++ csExtension .windows := by
      simp only [List.append_assoc]
      congr 1
    rw [hp] at he
    simp only [csOs, csArch]
    have h1 : ¬ (csExtension .windows = ascii "") := by decide +kernel
    simp only [h1, reduceCtorEq, or_self, if_false, he, Bool.false_eq_true]

/-- C63: the C# loader leaves every other library and every other operating system to others. -/
theorem C63_csharp_other (os : OSPlatform) (arch : CsArchitecture) (base path : Name) (exists_ : Name → Bool)
    (h : asciiLower path ≠ ascii "c_eth_kzg" ∨ os = .other) : csLoadNativeLibrary os arch base path exists_ = none := by
  unfold csLoadNativeLibrary
  by_cases hp : asciiLower path ≠ ascii "c_eth_kzg"
  · rw [if_pos hp]
  · rw [if_neg hp]
    rcases h with h | rfl
    · exact absurd h hp
    · rfl

/-- C63: on every platform with a library, apart from Linux on ARM, `compile.sh` compiles the Rust target of the platform and puts the
dynamic library where the Java and C# loaders look for it, and the archive where Go and Nim link it. On a Mac the archive for Nim holds
both targets. -/
theorem C63_builds (os : Os) (arch : Arch) (t name : Name) (ht : triple os arch = some t) (hn : UnameS os name)
    (hl : ¬ (os = .linux ∧ arch = .arm64)) :
    compileJava name (unameM os arch) = some ([t], [t ++ ascii "/" ++ dynamicFile os (ascii "java_eth_kzg")]) ∧
    compileCsharp name (unameM os arch) = some ([t], [t ++ ascii "/" ++ dynamicFile os (ascii "c_eth_kzg")]) ∧
    compileGolang name (unameM os arch) = some ([t], [t ++ ascii "/libc_eth_kzg.a"]) ∧
    goArchive (goos os) (goarch arch) = some (ascii "./build/" ++ t ++ ascii "/libc_eth_kzg.a") ∧
    (∃ targets files dir, compileNim name (unameM os arch) = some (targets, files) ∧ t ∈ targets ∧
      nimDirectory os arch = some dir ∧ dir ++ ascii "/libc_eth_kzg.a" ∈ files ∧
      nimLibpath (nimDefined os arch) = some (ascii "build/" ++ dir ++ ascii "/libc_eth_kzg.a")) := by
  cases os with
  | linux =>
    simp only [UnameS] at hn
    subst hn
    cases arch
    · simp only [triple, Option.some.injEq] at ht
      subst ht
      exact ⟨by decide +kernel, by decide +kernel, by decide +kernel, by decide +kernel,
        _, _, _, rfl, by decide +kernel, rfl, by decide +kernel, by decide +kernel⟩
    · exact absurd ⟨rfl, rfl⟩ hl
  | macos =>
    simp only [UnameS] at hn
    subst hn
    cases arch
    · simp only [triple, Option.some.injEq] at ht
      subst ht
      exact ⟨by decide +kernel, by decide +kernel, by decide +kernel, by decide +kernel,
        _, _, _, rfl, by decide +kernel, rfl, by decide +kernel, by decide +kernel⟩
    · simp only [triple, Option.some.injEq] at ht
      subst ht
      exact ⟨by decide +kernel, by decide +kernel, by decide +kernel, by decide +kernel,
        _, _, _, rfl, by decide +kernel, rfl, by decide +kernel, by decide +kernel⟩
  | windows =>
    have ht' : arch = .x64 ∧ t = ascii "x86_64-pc-windows-gnu" := by
      cases arch
      · simp only [triple, Option.some.injEq] at ht
        exact ⟨rfl, ht.symm⟩
      · simp [triple] at ht
    obtain ⟨rfl, rfl⟩ := ht'
    have hd : name ≠ ascii "Darwin" ∧ name ≠ ascii "Linux" := by
      rcases hn with ⟨v, rfl⟩ | ⟨v, rfl⟩ <;> exact ⟨by simp [ascii], by simp [ascii]⟩
    have hw : ascii "MINGW64_NT-" <+: name ∨ ascii "CYGWIN_NT-" <+: name ∨ name = ascii "Windows" := by
      rcases hn with ⟨v, rfl⟩ | ⟨v, rfl⟩
      · exact Or.inl (List.prefix_append _ _)
      · exact Or.inr (Or.inl (List.prefix_append _ _))
    have hs : ∀ lib, scriptTarget name (unameM .windows .x64) lib =
        some (ascii "x86_64-pc-windows-gnu", ascii "lib" ++ lib ++ ascii ".a", lib ++ ascii ".dll") := by
      intro lib
      unfold scriptTarget
      simp only [unameM, ne_eq, not_true_eq_false, and_false, if_false, hd.1, hd.2, hw, if_true]
    have hu : unameM .windows .x64 ≠ ascii "universal" := by decide +kernel
    have hds : ¬ (ascii "dynamic" = ascii "static" ∨ ascii "dynamic" = ascii "both") := by decide +kernel
    have hss : ¬ (ascii "static" = ascii "dynamic" ∨ ascii "static" = ascii "both") := by decide +kernel
    refine ⟨?_, ?_, ?_, by decide +kernel, ?_⟩
    · simp [compileJava, scriptFiles, hs, hu, hds, dynamicFile]
    · simp [compileCsharp, scriptFiles, hs, hu, hds, dynamicFile]
    · simp [compileGolang, scriptFiles, hs, hu, hss]
      rfl
    · refine ⟨[ascii "x86_64-pc-windows-gnu"], [ascii "x86_64-pc-windows-gnu" ++ ascii "/libc_eth_kzg.a"], _, ?_, by simp, rfl,
        by simp, by decide +kernel⟩
      simp [compileNim, scriptFiles, hs, hu, hss, hd.1]
      rfl

/-- C63: on Linux on ARM `uname -m` prints `aarch64`, which the script refuses for every binding. Called with the name `arm64` it makes
the files of the platform. -/
theorem C63_builds_linux_arm :
    (compileJava (ascii "Linux") (unameM .linux .arm64) = none ∧ compileCsharp (ascii "Linux") (unameM .linux .arm64) = none ∧
      compileGolang (ascii "Linux") (unameM .linux .arm64) = none ∧ compileNim (ascii "Linux") (unameM .linux .arm64) = none) ∧
    ∀ t, triple .linux .arm64 = some t →
      compileJava (ascii "Linux") (ascii "arm64") = some ([t], [t ++ ascii "/" ++ dynamicFile .linux (ascii "java_eth_kzg")]) ∧
      compileCsharp (ascii "Linux") (ascii "arm64") = some ([t], [t ++ ascii "/" ++ dynamicFile .linux (ascii "c_eth_kzg")]) ∧
      compileGolang (ascii "Linux") (ascii "arm64") = some ([t], [t ++ ascii "/libc_eth_kzg.a"]) ∧
      compileNim (ascii "Linux") (ascii "arm64") = some ([t], [t ++ ascii "/libc_eth_kzg.a"]) ∧
      goArchive (goos .linux) (goarch .arm64) = some (ascii "./build/" ++ t ++ ascii "/libc_eth_kzg.a") ∧
      nimLibpath (nimDefined .linux .arm64) = some (ascii "build/" ++ t ++ ascii "/libc_eth_kzg.a") := by
  refine ⟨by decide +kernel, ?_⟩
  intro t ht
  simp only [triple, Option.some.injEq] at ht
  subst ht
  exact ⟨by decide +kernel, by decide +kernel, by decide +kernel, by decide +kernel, by decide +kernel, by decide +kernel⟩

section Node
variable {Binding JsError : Type}

/-- the binding comes from the local file or the package of this name -/
def NodeFrom (fs : NodeFs Binding JsError) (name : Name) (b : Binding) : Prop :=
  (fs.existsSync (ascii "node-eth-kzg." ++ name ++ ascii ".node") = true ∧
    fs.require (ascii "./node-eth-kzg." ++ name ++ ascii ".node") = .ok b) ∨
  (fs.existsSync (ascii "node-eth-kzg." ++ name ++ ascii ".node") = false ∧
    fs.require (ascii "@crate-crypto/node-eth-kzg-" ++ name) = .ok b)

theorem tryLoad_ok {fs : NodeFs Binding JsError} {name : Name} {b : Binding} (h : fs.tryLoad name = .ok b) : NodeFrom fs name b := by
  unfold NodeFs.tryLoad at h
  split_ifs at h with he
  · exact Or.inl ⟨he, h⟩
  · exact Or.inr ⟨by simpa using he, h⟩

theorem loadOrThrow_loaded {fs : NodeFs Binding JsError} {name : Name} {b : Binding} (h : fs.loadOrThrow name = .loaded b) :
    NodeFrom fs name b := by
  unfold NodeFs.loadOrThrow at h
  cases ht : fs.tryLoad name with
  | ok b' => rw [ht] at h; simp only [NodeLoad.loaded.injEq] at h; subst h; exact tryLoad_ok ht
  | error e => rw [ht] at h; simp at h

/-- C63: whatever Node reports, a binding that was loaded comes from a file whose name starts with the platform, followed by the processor
or, on a Mac, by `universal`. -/
theorem C63_node_any (platform arch : Name) (isMusl : Bool) (fs : NodeFs Binding JsError) (b : Binding)
    (h : nodeLoad platform arch isMusl fs = .loaded b) :
    ∃ rest, (arch <+: rest ∨ platform = ascii "darwin" ∧ rest = ascii "universal") ∧
      NodeFrom fs (platform ++ ascii "-" ++ rest) b := by
  have key : ∀ (p a rest : Name), a <+: rest → fs.loadOrThrow (p ++ ascii "-" ++ rest) = .loaded b →
      ∃ rest, (a <+: rest ∨ p = ascii "darwin" ∧ rest = ascii "universal") ∧ NodeFrom fs (p ++ ascii "-" ++ rest) b :=
    fun p a rest hr hl => ⟨rest, Or.inl hr, loadOrThrow_loaded hl⟩
  unfold nodeLoad at h
  by_cases hp : platform = ascii "android"
  · rw [if_pos hp] at h
    subst hp
    by_cases ha : arch = ascii "arm64"
    · rw [if_pos ha] at h
      subst ha
      exact key _ _ (ascii "arm64") (by decide +kernel) h
    rw [if_neg ha] at h
    clear ha
    by_cases ha : arch = ascii "arm"
    · rw [if_pos ha] at h
      subst ha
      exact key _ _ (ascii "arm-eabi") (by decide +kernel) h
    rw [if_neg ha] at h
    clear ha
    exact nomatch h
  rw [if_neg hp] at h
  clear hp
  by_cases hp : platform = ascii "win32"
  · rw [if_pos hp] at h
    subst hp
    by_cases ha : arch = ascii "x64"
    · rw [if_pos ha] at h
      subst ha
      exact key _ _ (ascii "x64-msvc") (by decide +kernel) h
    rw [if_neg ha] at h
    clear ha
    by_cases ha : arch = ascii "ia32"
    · rw [if_pos ha] at h
      subst ha
      exact key _ _ (ascii "ia32-msvc") (by decide +kernel) h
    rw [if_neg ha] at h
    clear ha
    by_cases ha : arch = ascii "arm64"
    · rw [if_pos ha] at h
      subst ha
      exact key _ _ (ascii "arm64-msvc") (by decide +kernel) h
    rw [if_neg ha] at h
    clear ha
    exact nomatch h
  rw [if_neg hp] at h
  clear hp
  by_cases hp : platform = ascii "darwin"
  · rw [if_pos hp] at h
    subst hp
    cases ht : fs.tryLoad (ascii "darwin-universal") with
    | ok b' =>
      rw [ht] at h
      simp only [NodeLoad.loaded.injEq] at h
      subst h
      exact ⟨ascii "universal", Or.inr ⟨rfl, rfl⟩, tryLoad_ok ht⟩
    | error e =>
      rw [ht] at h
      simp only [] at h
      by_cases ha : arch = ascii "x64"
      · rw [if_pos ha] at h
        subst ha
        exact key _ _ (ascii "x64") (by decide +kernel) h
      rw [if_neg ha] at h
      clear ha
      by_cases ha : arch = ascii "arm64"
      · rw [if_pos ha] at h
        subst ha
        exact key _ _ (ascii "arm64") (by decide +kernel) h
      rw [if_neg ha] at h
      clear ha
      exact nomatch h
  rw [if_neg hp] at h
  clear hp
  by_cases hp : platform = ascii "freebsd"
  · rw [if_pos hp] at h
    subst hp
    by_cases ha : arch = ascii "x64"
    · rw [if_neg (not_not.2 ha)] at h
      subst ha
      exact key _ _ (ascii "x64") (by decide +kernel) h
    rw [if_pos ha] at h
    exact nomatch h
  rw [if_neg hp] at h
  clear hp
  by_cases hp : platform = ascii "linux"
  · rw [if_pos hp] at h
    subst hp
    by_cases ha : arch = ascii "x64"
    · rw [if_pos ha] at h
      subst ha
      cases isMusl
      · exact key _ _ (ascii "x64-gnu") (by decide +kernel) h
      · exact key _ _ (ascii "x64-musl") (by decide +kernel) h
    rw [if_neg ha] at h
    clear ha
    by_cases ha : arch = ascii "arm64"
    · rw [if_pos ha] at h
      subst ha
      cases isMusl
      · exact key _ _ (ascii "arm64-gnu") (by decide +kernel) h
      · exact key _ _ (ascii "arm64-musl") (by decide +kernel) h
    rw [if_neg ha] at h
    clear ha
    by_cases ha : arch = ascii "arm"
    · rw [if_pos ha] at h
      subst ha
      cases isMusl
      · exact key _ _ (ascii "arm-gnueabihf") (by decide +kernel) h
      · exact key _ _ (ascii "arm-musleabihf") (by decide +kernel) h
    rw [if_neg ha] at h
    clear ha
    by_cases ha : arch = ascii "riscv64"
    · rw [if_pos ha] at h
      subst ha
      cases isMusl
      · exact key _ _ (ascii "riscv64-gnu") (by decide +kernel) h
      · exact key _ _ (ascii "riscv64-musl") (by decide +kernel) h
    rw [if_neg ha] at h
    clear ha
    by_cases ha : arch = ascii "s390x"
    · rw [if_pos ha] at h
      subst ha
      exact key _ _ (ascii "s390x-gnu") (by decide +kernel) h
    rw [if_neg ha] at h
    clear ha
    exact nomatch h
  rw [if_neg hp] at h
  clear hp
  exact nomatch h

/-- C63: on every platform the package of that platform is loaded, the local file first; on a Mac only after the package for both
processors could not be loaded. -/
theorem C63_node (os : Os) (arch : Arch) (fs : NodeFs Binding JsError)
    (hu : os = .macos → ∃ e, fs.tryLoad (ascii "darwin-universal") = .error e) (b : Binding) :
    nodeLoad (nodePlatform os) (nodeArch arch) false fs = .loaded b ↔ NodeFrom fs (nodePackage os arch) b := by
  have hk : ∀ name, fs.loadOrThrow name = .loaded b ↔ NodeFrom fs name b := by
    intro name
    refine ⟨loadOrThrow_loaded, ?_⟩
    unfold NodeFs.loadOrThrow NodeFs.tryLoad
    rintro (⟨h1, h2⟩ | ⟨h1, h2⟩)
    · rw [h1, if_pos rfl, h2]
    · rw [h1, if_neg (by simp), h2]
  have hm : nodeLoad (nodePlatform os) (nodeArch arch) false fs = fs.loadOrThrow (nodePackage os arch) := by
    cases os with
    | macos =>
      obtain ⟨e, he⟩ := hu rfl
      have : nodeLoad (nodePlatform .macos) (nodeArch arch) false fs = (match fs.tryLoad (ascii "darwin-universal") with
        | .ok b => .loaded b
        | .error _ => fs.loadOrThrow (nodePackage .macos arch)) := by cases arch <;> rfl
      rw [this, he]
    | linux => cases arch <;> rfl
    | windows => cases arch <;> rfl
  rw [hm, hk]

/-- C63: after an installation, Node loads the package which the package manager chose for the machine, and loads nothing if there is none; for
all strings the system reports. -/
theorem C63_node_installed (e : JsError) (platform arch : Name) (isMusl : Bool) (p : NpmPackage) :
    nodeLoad platform arch isMusl (npmFs e platform arch isMusl) = .loaded p ↔
      p ∈ npmPackages ∧ p.os = platform ∧ p.cpu = arch ∧ (p.libc = none ∨ p.libc = some (if isMusl then ascii "musl" else ascii "glibc")) := by
  have hi : ∀ p : NpmPackage, p.installs platform arch isMusl = true ↔
      p.os = platform ∧ p.cpu = arch ∧ (p.libc = none ∨ p.libc = some (if isMusl then ascii "musl" else ascii "glibc")) := by
    intro p
    simp [NpmPackage.installs, and_assoc]
  constructor
  · intro h
    obtain ⟨rest, -, ⟨h1, -⟩ | ⟨-, h2⟩⟩ := C63_node_any platform arch isMusl _ p h
    · exact nomatch h1
    · unfold npmFs at h2
      simp only at h2
      split at h2
      · rename_i q hq
        cases h2
        refine ⟨List.mem_of_find?_eq_some hq, (hi p).1 ?_⟩
        have := List.find?_some hq
        simp only [Bool.and_eq_true] at this
        exact this.1
      · exact nomatch h2
  · rintro ⟨hm, rfl, rfl, hl⟩
    clear hi
    simp only [npmPackages, List.mem_cons, List.not_mem_nil, or_false] at hm
    rcases hm with rfl | rfl | rfl | rfl | rfl | rfl
    · cases isMusl <;> rfl
    · cases isMusl <;> rfl
    · cases isMusl
      · rfl
      · exact absurd hl (by decide +kernel)
    · cases isMusl
      · rfl
      · exact absurd hl (by decide +kernel)
    · cases isMusl <;> rfl
    · cases isMusl <;> rfl

/-- C63: the packages are those of the platforms, each with the file a local build of that platform makes. -/
theorem C63_node_packages (os : Os) (arch : Arch) :
    ∃ p ∈ npmPackages, p.os = nodePlatform os ∧ p.cpu = nodeArch arch ∧ p.name = ascii "@crate-crypto/node-eth-kzg-" ++ nodePackage os arch ∧
      p.main = ascii "node-eth-kzg." ++ nodePackage os arch ++ ascii ".node" ∧ (p.libc = if os = .linux then some (ascii "glibc") else none) := by
  cases os <;> cases arch <;> decide +kernel

/-- every way to end is one of three -/
theorem nodeLoad_cases (P : NodeLoad Binding JsError → Prop) (fs : NodeFs Binding JsError) (hu : P .unsupported)
    (hb : ∀ b, P (.loaded b)) (hl : ∀ name, P (fs.loadOrThrow name)) (platform arch : Name) (isMusl : Bool) :
    P (nodeLoad platform arch isMusl fs) := by
  have ite : ∀ (c : Prop) [Decidable c] (x y : NodeLoad Binding JsError), P x → P y → P (if c then x else y) :=
    fun c _ x y hx hy => by by_cases hc : c <;> simp [hc, hx, hy]
  unfold nodeLoad
  refine ite _ _ _ (ite _ _ _ (hl _) (ite _ _ _ (hl _) hu)) (ite _ _ _ (ite _ _ _ (hl _) (ite _ _ _ (hl _) (ite _ _ _ (hl _) hu)))
    (ite _ _ _ ?_ (ite _ _ _ (ite _ _ _ hu (hl _)) (ite _ _ _ (ite _ _ _ (hl _) (ite _ _ _ (hl _) (ite _ _ _ (hl _)
      (ite _ _ _ (hl _) (ite _ _ _ (hl _) hu))))) hu))))
  cases fs.tryLoad (ascii "darwin-universal") with
  | ok b => exact hb b
  | error e => exact ite _ _ _ (hl _) (ite _ _ _ (hl _) hu)

/-- C63: an error of `require` is passed on, and platforms that are not listed are refused without loading anything. -/
theorem C63_node_errors (platform arch : Name) (isMusl : Bool) (fs : NodeFs Binding JsError) :
    (∀ e, nodeLoad platform arch isMusl fs = .rethrown e → ∃ path, fs.require path = .error e) ∧
    (platform ∉ [ascii "android", ascii "win32", ascii "darwin", ascii "freebsd", ascii "linux"] →
      nodeLoad platform arch isMusl fs = .unsupported) := by
  constructor
  · intro e
    refine nodeLoad_cases (fun r => r = .rethrown e → ∃ path, fs.require path = .error e) fs (fun h => nomatch h)
      (fun _ h => nomatch h) ?_ platform arch isMusl
    intro name h
    unfold NodeFs.loadOrThrow at h
    cases ht : fs.tryLoad name with
    | ok b => rw [ht] at h; exact nomatch h
    | error e' =>
      rw [ht] at h
      simp only [NodeLoad.rethrown.injEq] at h
      subst h
      unfold NodeFs.tryLoad at ht
      split_ifs at ht
      · exact ⟨_, ht⟩
      · exact ⟨_, ht⟩
  · intro h
    simp only [List.mem_cons, List.not_mem_nil, or_false, not_or] at h
    unfold nodeLoad
    rw [if_neg h.1, if_neg h.2.1, if_neg h.2.2.1, if_neg h.2.2.2.1, if_neg h.2.2.2.2]

end Node

/-! ### Releases -/

/-- C63: the release scripts accept exactly the Rust targets of the platforms with a library, and compile for each the target itself into
the file of the platform in the directory of the target. -/
theorem C63_release_target (target : Name) :
    (∀ os arch, triple os arch = some target →
      releaseJava target = some ([target], [target ++ ascii "/" ++ dynamicFile os (ascii "java_eth_kzg")]) ∧
      releaseCsharp target = some ([target], [target ++ ascii "/" ++ dynamicFile os (ascii "c_eth_kzg")])) ∧
    ((∀ os arch, triple os arch ≠ some target) → releaseJava target = none ∧ releaseCsharp target = none) := by
  constructor
  · intro os arch h
    cases os <;> cases arch <;> simp only [triple, Option.some.injEq, reduceCtorEq] at h <;> subst h <;>
      exact ⟨by decide +kernel, by decide +kernel⟩
  · intro h
    have hc : releaseCase target = none := by
      unfold releaseCase
      rw [if_neg (fun e => h .linux .x64 (by rw [e]; rfl)), if_neg (fun e => h .linux .arm64 (by rw [e]; rfl)),
        if_neg (fun e => h .macos .arm64 (by rw [e]; rfl)), if_neg (fun e => h .macos .x64 (by rw [e]; rfl)),
        if_neg (fun e => h .windows .x64 (by rw [e]; rfl))]
    unfold releaseJava releaseCsharp releaseFiles
    rw [hc]
    exact ⟨rfl, rfl⟩

/-- C63: the two scripts for all targets make the same files as the releases, for each platform with a library once. -/
theorem C63_release_all :
    (∀ os arch t, triple os arch = some t → releaseAllC.count (some ([t], [t ++ ascii "/" ++ dynamicFile os (ascii "c_eth_kzg")])) = 1) ∧
    ∀ r ∈ releaseAllC, ∃ os arch t, triple os arch = some t ∧ r = some ([t], [t ++ ascii "/" ++ dynamicFile os (ascii "c_eth_kzg")]) := by
  constructor
  · intro os arch t h
    cases os <;> cases arch <;> simp only [triple, Option.some.injEq, reduceCtorEq] at h <;> subst h <;> decide +kernel
  · have h : releaseAllC = [(Os.macos, Arch.arm64), (.macos, .x64), (.windows, .x64), (.linux, .x64), (.linux, .arm64)].map
        (fun p => (triple p.1 p.2).map (fun t => ([t], [t ++ ascii "/" ++ dynamicFile p.1 (ascii "c_eth_kzg")]))) := by decide +kernel
    rw [h]
    intro r hr
    simp only [List.map_cons, List.map_nil, triple, Option.map_some, List.mem_cons, List.not_mem_nil, or_false] at hr
    rcases hr with rfl | rfl | rfl | rfl | rfl
    · exact ⟨.macos, .arm64, _, rfl, rfl⟩
    · exact ⟨.macos, .x64, _, rfl, rfl⟩
    · exact ⟨.windows, .x64, _, rfl, rfl⟩
    · exact ⟨.linux, .x64, _, rfl, rfl⟩
    · exact ⟨.linux, .arm64, _, rfl, rfl⟩

/-- C63: with the files of a release as the only resources, Java loads the resource of its platform or fails while loading it, on every
platform with a library; on Windows on ARM it reports that the platform is not supported. It never searches the library path. -/
theorem C63_release_java (os : Os) (arch : Arch) (name archName : Name) (hn : JavaOsName os name) (ha : JavaOsArch arch archName)
    (copyAndLoad : Name → Bool) (loadLibrary : Bool) :
    let file := dynamicFile os (ascii "java_eth_kzg")
    javaLoadNativeLibrary name archName file (fun path => decide (∃ f ∈ publishedFiles releaseJava, path = ascii "/" ++ f)) loadLibrary
        copyAndLoad =
      match triple os arch with
      | some t =>
        if copyAndLoad (ascii "/" ++ t ++ ascii "/" ++ file) then .fromResource (ascii "/" ++ t ++ ascii "/" ++ file) else .failed
      | none => .unsupported := by
  intro file
  obtain ⟨h1, _, h3⟩ := C63_java_load os arch name archName file hn ha
    (fun path => decide (∃ f ∈ publishedFiles releaseJava, path = ascii "/" ++ f)) copyAndLoad loadLibrary
  cases ht : triple os arch with
  | none => exact h3 ht
  | some t =>
    refine h1 t ht (decide_eq_true ⟨t ++ ascii "/" ++ file, ?_, by simp only [List.append_assoc]⟩)
    cases os <;> cases arch <;> simp only [triple, Option.some.injEq, reduceCtorEq] at ht <;> subst ht <;> decide +kernel

/-- C63: with the files of a release as the only files, the C# loader loads the file of its platform, and nothing on Windows on ARM. -/
theorem C63_release_csharp (os : Os) (arch : Arch) (base : Name) :
    csLoadNativeLibrary (csOs os) (csArch arch) base (ascii "c_eth_kzg")
        (fun path => decide (∃ f ∈ publishedFiles releaseCsharp, path = base ++ ascii "runtimes/" ++ f)) =
      (triple os arch).map (fun t => base ++ ascii "runtimes/" ++ t ++ ascii "/" ++ dynamicFile os (ascii "c_eth_kzg")) := by
  obtain ⟨h1, h2⟩ := C63_csharp os arch base
    (fun path => decide (∃ f ∈ publishedFiles releaseCsharp, path = base ++ ascii "runtimes/" ++ f))
  cases ht : triple os arch with
  | none =>
    refine h2 ht (decide_eq_false ?_)
    rintro ⟨f, hf, he⟩
    have hs : ascii "runtimes//" = ascii "runtimes/" ++ ascii "/" := by decide +kernel
    rw [hs] at he
    simp only [List.append_assoc, List.append_cancel_left_eq] at he
    subst he
    cases os <;> cases arch <;> simp only [triple, reduceCtorEq] at ht
    exact absurd hf (by decide +kernel)
  | some t =>
    have := h1 t ht
    simp only at this
    rw [this, if_pos]
    · rfl
    · refine decide_eq_true ⟨t ++ ascii "/" ++ dynamicFile os (ascii "c_eth_kzg"), ?_, by simp only [List.append_assoc]⟩
      cases os <;> cases arch <;> simp only [triple, Option.some.injEq, reduceCtorEq] at ht <;> subst ht <;> decide +kernel

/-- C63: the jobs that build the Node binding cover the targets of all packages, each once, and no other target. -/
theorem C63_release_node :
    nodeReleaseMatrix.Nodup ∧ (∀ os arch, nodeTriple os arch ∈ nodeReleaseMatrix) ∧
    ∀ t ∈ nodeReleaseMatrix, ∃ os arch, t = nodeTriple os arch ∧
      ∃ p ∈ npmPackages, p.main = ascii "node-eth-kzg." ++ nodePackage os arch ++ ascii ".node" := by
  refine ⟨by decide +kernel, fun os arch => by cases os <;> cases arch <;> decide +kernel, ?_⟩
  intro t ht
  have : ∃ os arch, t = nodeTriple os arch := by
    simp only [nodeReleaseMatrix, List.mem_cons, List.not_mem_nil, or_false] at ht
    rcases ht with rfl | rfl | rfl | rfl | rfl | rfl
    · exact ⟨.macos, .x64, rfl⟩
    · exact ⟨.macos, .arm64, rfl⟩
    · exact ⟨.linux, .x64, rfl⟩
    · exact ⟨.linux, .arm64, rfl⟩
    · exact ⟨.windows, .x64, rfl⟩
    · exact ⟨.windows, .arm64, rfl⟩
  obtain ⟨os, arch, h⟩ := this
  obtain ⟨p, hp, _, _, _, hm, _⟩ := C63_node_packages os arch
  exact ⟨os, arch, h, p, hp, hm⟩

/-! Non-vacuity -/

example : JavaOsName .windows (ascii "Windows 11") ∧ JavaOsArch .x64 (ascii "AMD64") ∧ UnameS .windows (ascii "MINGW64_NT-10.0-20348") :=
  ⟨⟨ascii " 11", by decide +kernel⟩, Or.inl (by unfold UpToCase; decide +kernel), Or.inl ⟨ascii "10.0-20348", by decide +kernel⟩⟩

example : javaLibraryResourcePath (ascii "Mac OS X") (ascii "aarch64") (ascii "libjava_eth_kzg.dylib") =
    some (ascii "/aarch64-apple-darwin/libjava_eth_kzg.dylib") := by decide +kernel

/-- a release on a machine for which `compile.sh` makes nothing -/
example : javaLoadNativeLibrary (ascii "Linux") (ascii "aarch64") (ascii "libjava_eth_kzg.so")
    (fun path => decide (∃ f ∈ publishedFiles releaseJava, path = ascii "/" ++ f)) false (fun _ => true) =
    .fromResource (ascii "/aarch64-unknown-linux-gnu/libjava_eth_kzg.so") := by decide +kernel

example : releaseJava (ascii "x86_64-pc-windows-msvc") = none ∧ releaseJava (ascii "x86_64-pc-windows-gnu") =
    some ([ascii "x86_64-pc-windows-gnu"], [ascii "x86_64-pc-windows-gnu/java_eth_kzg.dll"]) := by decide +kernel

/-- the name `Darwin`, which no JVM reports for a Mac, would be taken for Windows -/
example : javaLibraryResourcePath (ascii "Darwin") (ascii "x86_64") (ascii "libjava_eth_kzg.dylib") =
    some (ascii "/x86_64-pc-windows-gnu/libjava_eth_kzg.dylib") := by decide +kernel

/-- a file system with the local file for Linux and no packages -/
def onlyLocalFs : NodeFs Nat Unit where
  existsSync p := p = ascii "node-eth-kzg.linux-x64-gnu.node"
  require p := if p = ascii "./node-eth-kzg.linux-x64-gnu.node" then .ok 7 else .error ()

example : nodeLoad (ascii "linux") (ascii "x64") false onlyLocalFs = .loaded 7 :=
  (C63_node .linux .x64 onlyLocalFs (fun h => nomatch h) 7).2 (Or.inl ⟨by decide +kernel, rfl⟩)

example : ∃ e, onlyLocalFs.tryLoad (ascii "darwin-universal") = .error e := ⟨(), rfl⟩

end Verif
