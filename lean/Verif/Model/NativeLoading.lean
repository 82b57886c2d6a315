import Verif.Model.Debug

/-! Where the bindings look for the compiled library and where the build scripts put it: the loaders of the Java, C# and Node bindings, the
link options of the Go and Nim bindings, `scripts/compile.sh` with `scripts/compile_to_native.sh`, and the release scripts with the
targets of the release workflows.

File names are byte strings. The file system, the JVM, the .NET runtime and the module loader of Node are parameters. Not modelled: the
messages the scripts and loaders print, the compilation itself, and the checks that a Rust target is installed. -/
namespace Verif

/-- a name of a file, of an operating system or of a processor -/
abbrev Name := List UInt8

/-- `s.contains(t)` of a Java string -/
def javaContains (s t : Name) : Bool := decide (t <:+: s)

/-- `s.toLowerCase()`, for ASCII strings. (The Turkish locales differ on the letter I, which the names in `Spec/Platforms` do not have.) -/
def asciiLower (s : Name) : Name := s.map (fun c => if 65 ≤ c ∧ c ≤ 90 then c + 32 else c)

/-! ### Java, `LibEthKZG.java` -/

/-- `getNormalizedArchitecture`, LibEthKZG.java:158-167; the argument is the property `os.arch` -/
def getNormalizedArchitecture (osArchProperty : Name) : Name :=
  let osArch := asciiLower osArchProperty
  if osArch = ascii "x86_64" ∨ osArch = ascii "amd64" then ascii "x86_64"
  else if osArch = ascii "aarch64" ∨ osArch = ascii "arm64" then ascii "aarch64"
  else osArch

/-- `libraryResourcePath` of `loadNativeLibrary`, LibEthKZG.java:172-196. `libraryFile` is `System.mapLibraryName("java_eth_kzg")`. -/
def javaLibraryResourcePath (osNameProperty osArchProperty libraryFile : Name) : Option Name :=
  let osName := asciiLower osNameProperty
  let osArch := getNormalizedArchitecture osArchProperty
  if javaContains osName (ascii "win") then
    if javaContains osArch (ascii "x86_64") then some (ascii "/x86_64-pc-windows-gnu/" ++ libraryFile)
    else if javaContains osArch (ascii "x86") then none
    else if javaContains osArch (ascii "aarch64") then none
    else none
  else if javaContains osName (ascii "mac") then
    if javaContains osArch (ascii "x86_64") then some (ascii "/x86_64-apple-darwin/" ++ libraryFile)
    else if javaContains osArch (ascii "aarch64") then some (ascii "/aarch64-apple-darwin/" ++ libraryFile)
    else none
  else if javaContains osName (ascii "linux") then
    if javaContains osArch (ascii "x86_64") then some (ascii "/x86_64-unknown-linux-gnu/" ++ libraryFile)
    else if javaContains osArch (ascii "aarch64") then some (ascii "/aarch64-unknown-linux-gnu/" ++ libraryFile)
    else none
  else none

/-- what `loadNativeLibrary` ends with -/
inductive JLoad where
  /-- the library was loaded: from a copy of the resource, or from the library path of the JVM -/
  | fromResource (path : Name)
  | fromLibraryPath
  /-- `UnsupportedOperationException`, `RuntimeException`, `UncheckedIOException` or `UnsatisfiedLinkError` -/
  | unsupported
  | notFound
  | failed
  deriving DecidableEq

/-- `loadNativeLibrary`, LibEthKZG.java:170-227. `resource` tells whether the class path has a resource, `loadLibrary` whether
`System.loadLibrary` succeeds, `copyAndLoad` whether copying the resource to a temporary file and loading that file succeeds. -/
def javaLoadNativeLibrary (osName osArch libraryFile : Name) (resource : Name → Bool) (loadLibrary : Bool)
    (copyAndLoad : Name → Bool) : JLoad :=
  match javaLibraryResourcePath osName osArch libraryFile with
  | none => .unsupported
  | some path =>
    if ¬ resource path then if loadLibrary then .fromLibraryPath else .notFound
    else if copyAndLoad path then .fromResource path else .failed

/-! ### C#, `native_methods.loading.cs` -/

/-- the operating systems the code asks for (`OSPlatform`) -/
inductive OSPlatform where
  | linux | osx | windows | other
  deriving DecidableEq

/-- `Architecture`; the code asks for the first two -/
inductive CsArchitecture where
  | x64 | arm64 | other
  deriving DecidableEq

/-- `target`, native_methods.loading.cs:26-35 -/
def csTarget (os : OSPlatform) (arch : CsArchitecture) : Name :=
  if os = .linux ∧ arch = .x64 then ascii "x86_64-unknown-linux-gnu"
  else if os = .linux ∧ arch = .arm64 then ascii "aarch64-unknown-linux-gnu"
  else if os = .osx ∧ arch = .x64 then ascii "x86_64-apple-darwin"
  else if os = .osx ∧ arch = .arm64 then ascii "aarch64-apple-darwin"
  else if os = .windows ∧ arch = .x64 then ascii "x86_64-pc-windows-gnu"
  else ascii ""

/-- `extension`, native_methods.loading.cs:37-40 -/
def csExtension (os : OSPlatform) : Name :=
  if os = .linux then ascii "so" else if os = .osx then ascii "dylib" else if os = .windows then ascii "dll" else ascii ""

/-- `LoadNativeLibrary`, native_methods.loading.cs:17-62: the file that is loaded, `none` for `IntPtr.Zero`. `baseDirectory` ends with a
separator, so that `Path.Combine` puts the two parts next to each other. -/
def csLoadNativeLibrary (os : OSPlatform) (arch : CsArchitecture) (baseDirectory path : Name) (exists_ : Name → Bool) : Option Name :=
  if asciiLower path ≠ ascii "c_eth_kzg" then none
  else
    let target := csTarget os arch
    let extension := csExtension os
    if extension = ascii "" then none
    else
      let pre := if os = .linux ∨ os = .osx then ascii "lib" else ascii ""
      let libraryPath := baseDirectory ++ ascii "runtimes/" ++ target ++ ascii "/" ++ pre ++ path ++ ascii "." ++ extension
      if exists_ libraryPath then some libraryPath else none

/-! ### Go and Nim -/

/-- the archive of the `#cgo` lines, golang/prover.go:4-8, relative to `bindings/golang`; the arguments are `GOOS` and `GOARCH` -/
def goArchive (goos goarch : Name) : Option Name :=
  if goos = ascii "darwin" ∧ goarch = ascii "amd64" then some (ascii "./build/x86_64-apple-darwin/libc_eth_kzg.a")
  else if goos = ascii "darwin" ∧ goarch = ascii "arm64" then some (ascii "./build/aarch64-apple-darwin/libc_eth_kzg.a")
  else if goos = ascii "linux" ∧ goarch = ascii "amd64" then some (ascii "./build/x86_64-unknown-linux-gnu/libc_eth_kzg.a")
  else if goos = ascii "linux" ∧ goarch = ascii "arm64" then some (ascii "./build/aarch64-unknown-linux-gnu/libc_eth_kzg.a")
  else if goos = ascii "windows" then some (ascii "./build/x86_64-pc-windows-gnu/libc_eth_kzg.a")
  else none

/-- `getInstallDir`, nim_eth_kzg/build_utils.nim:10-29; the argument tells which symbols are defined. `none` is an exception during
compilation. -/
def nimInstallDir (defined : String → Bool) : Option Name :=
  if defined "macosx" then
    if defined "aarch64" || defined "amd64" || defined "arm64" then some (ascii "build/universal-apple-darwin") else none
  else if defined "windows" then
    if defined "amd64" then some (ascii "build/x86_64-pc-windows-gnu") else none
  else if defined "linux" then
    if defined "amd64" then some (ascii "build/x86_64-unknown-linux-gnu")
    else if defined "aarch64" || defined "arm64" then some (ascii "build/aarch64-unknown-linux-gnu")
    else none
  else none

/-- `libpath`, nim_eth_kzg/bindings.nim:7-17, relative to the project; both branches of `libName` are the same -/
def nimLibpath (defined : String → Bool) : Option Name :=
  (nimInstallDir defined).map (fun dir => dir ++ ascii "/" ++ ascii "libc_eth_kzg.a")

/-! ### Scripts -/

/-- `TARGET_NAME`, `STATIC_LIB_NAME` and `DYNAMIC_LIB_NAME`, compile_to_native.sh:70-136; `none` is `exit 1` -/
def scriptTarget (os arch libName : Name) : Option (Name × Name × Name) :=
  let lib := ascii "lib" ++ libName
  if (os = ascii "MINGW64_NT" ∨ os = ascii "CYGWIN_NT") ∧ arch ≠ ascii "x86_64" then none
  else if os = ascii "Darwin" then
    if arch = ascii "arm64" then some (ascii "aarch64-apple-darwin", lib ++ ascii ".a", lib ++ ascii ".dylib")
    else if arch = ascii "x86_64" then some (ascii "x86_64-apple-darwin", lib ++ ascii ".a", lib ++ ascii ".dylib")
    else if arch = ascii "universal" then some (ascii "universal-apple-darwin", lib ++ ascii ".a", lib ++ ascii ".dylib")
    else none
  else if os = ascii "Linux" then
    if arch = ascii "arm64" then some (ascii "aarch64-unknown-linux-gnu", lib ++ ascii ".a", lib ++ ascii ".so")
    else if arch = ascii "x86_64" then some (ascii "x86_64-unknown-linux-gnu", lib ++ ascii ".a", lib ++ ascii ".so")
    else none
  else if ascii "MINGW64_NT-" <+: os ∨ ascii "CYGWIN_NT-" <+: os ∨ os = ascii "Windows" then
    some (ascii "x86_64-pc-windows-gnu", lib ++ ascii ".a", libName ++ ascii ".dll")
  else none

/-- The Rust targets that are compiled and the files that are put below `OUT_DIR`, compile_to_native.sh:138-180, for the library types
`static` and `dynamic`. A universal build makes both files. -/
def scriptFiles (os arch libName libType : Name) : Option (List Name × List Name) :=
  (scriptTarget os arch libName).map (fun (target, staticLib, dynamicLib) =>
    if arch = ascii "universal" then
      ([ascii "x86_64-apple-darwin", ascii "aarch64-apple-darwin"],
        [target ++ ascii "/" ++ staticLib, target ++ ascii "/" ++ dynamicLib])
    else
      ([target], (if libType = ascii "static" ∨ libType = ascii "both" then [target ++ ascii "/" ++ staticLib] else []) ++
        (if libType = ascii "dynamic" ∨ libType = ascii "both" then [target ++ ascii "/" ++ dynamicLib] else [])))

/-- `compile_java`, compile.sh:21-27; files below `java_code/src/main/resources` -/
def compileJava (os arch : Name) : Option (List Name × List Name) :=
  scriptFiles os arch (ascii "java_eth_kzg") (ascii "dynamic")

/-- `compile_csharp`, compile.sh:30-36; files below `EthKZG.bindings/runtimes` -/
def compileCsharp (os arch : Name) : Option (List Name × List Name) :=
  scriptFiles os arch (ascii "c_eth_kzg") (ascii "dynamic")

/-- `compile_golang`, compile.sh:39-47; files below `golang/build` -/
def compileGolang (os arch : Name) : Option (List Name × List Name) :=
  scriptFiles os arch (ascii "c_eth_kzg") (ascii "static")

/-- `compile_nim`, compile.sh:50-65; files below `nim_code/build` -/
def compileNim (os arch : Name) : Option (List Name × List Name) :=
  scriptFiles os (if os = ascii "Darwin" then ascii "universal" else arch) (ascii "c_eth_kzg") (ascii "static")

/-! ### Release scripts -/

/-- the `case` of `compile_all_targets_java.sh`, lines 18-39, and of `compile_all_targets_c_sharp_new.sh`, lines 20-41: the operating system
and the processor given to `compile_to_native.sh`; `none` is `exit 1`. The build tool, `zigbuild` for all but Windows, does not change where
files go. -/
def releaseCase (target : Name) : Option (Name × Name) :=
  if target = ascii "x86_64-unknown-linux-gnu" then some (ascii "Linux", ascii "x86_64")
  else if target = ascii "aarch64-unknown-linux-gnu" then some (ascii "Linux", ascii "arm64")
  else if target = ascii "aarch64-apple-darwin" then some (ascii "Darwin", ascii "arm64")
  else if target = ascii "x86_64-apple-darwin" then some (ascii "Darwin", ascii "x86_64")
  else if target = ascii "x86_64-pc-windows-gnu" then some (ascii "Windows", ascii "x86_64")
  else none

/-- what the scripts compile for a target and the files they put below `OUT_DIR` -/
def releaseFiles (libName target : Name) : Option (List Name × List Name) :=
  (releaseCase target).bind (fun (os, arch) => scriptFiles os arch libName (ascii "dynamic"))

/-- `compile_all_targets_java.sh`; files below `java_code/src/main/resources` -/
def releaseJava (target : Name) : Option (List Name × List Name) := releaseFiles (ascii "java_eth_kzg") target

/-- `compile_all_targets_c_sharp_new.sh`; files below `EthKZG.bindings/runtimes` -/
def releaseCsharp (target : Name) : Option (List Name × List Name) := releaseFiles (ascii "c_eth_kzg") target

/-- the calls of `compile_all_targets_c.sh`, lines 17-21 (files below `c/build`), and of `compile_all_targets_c_sharp.sh`, lines 10-14 -/
def releaseAllC : List (Option (List Name × List Name)) :=
  [(ascii "Darwin", ascii "arm64"), (ascii "Darwin", ascii "x86_64"), (ascii "Windows", ascii "x86_64"), (ascii "Linux", ascii "x86_64"),
    (ascii "Linux", ascii "arm64")].map (fun (os, arch) => scriptFiles os arch (ascii "c_eth_kzg") (ascii "dynamic"))

/-- the targets of the jobs that build, release-java-bindings.yml:35-45 and release-csharp-bindings.yml:35-45 -/
def releaseMatrix : List Name :=
  [ascii "x86_64-unknown-linux-gnu", ascii "aarch64-unknown-linux-gnu", ascii "aarch64-apple-darwin", ascii "x86_64-apple-darwin",
    ascii "x86_64-pc-windows-gnu"]

/-- The files the publishing job finds below `OUT_DIR` (release-java-bindings.yml:68-72 and 122-125, release-csharp-bindings.yml:68-72 and
127-130). The job of a target uploads the directory of that name, and the publishing job puts it back under the same name. What Gradle and
`dotnet pack` then take into the package is not modelled. -/
def publishedFiles (script : Name → Option (List Name × List Name)) : List Name :=
  releaseMatrix.flatMap (fun target => match script target with
    | some (_, files) => files.filter (fun file => (target ++ ascii "/").isPrefixOf file)
    | none => [])

/-- the targets of the jobs that build, release-node-bindings.yml:39-51 -/
def nodeReleaseMatrix : List Name :=
  [ascii "x86_64-apple-darwin", ascii "aarch64-apple-darwin", ascii "x86_64-unknown-linux-gnu", ascii "aarch64-unknown-linux-gnu",
    ascii "x86_64-pc-windows-msvc", ascii "aarch64-pc-windows-msvc"]

/-! ### Node, `index.js` -/

/-- how the module ends: with a binding, with the error of `require`, or with the error for an unknown platform or architecture. The error
of line 310 is not reachable, because every block sets one of the two variables. -/
inductive NodeLoad (Binding JsError : Type) where
  | loaded (b : Binding)
  | rethrown (e : JsError)
  | unsupported

section
variable {Binding JsError : Type}

/-- `existsSync` and `require` -/
structure NodeFs (Binding JsError : Type) where
  existsSync : Name → Bool
  require : Name → Except JsError Binding

/-- one `try` block, for example index.js:35-44: the local file if there is one, the package otherwise -/
def NodeFs.tryLoad (fs : NodeFs Binding JsError) (name : Name) : Except JsError Binding :=
  if fs.existsSync (ascii "node-eth-kzg." ++ name ++ ascii ".node") then
    fs.require (ascii "./node-eth-kzg." ++ name ++ ascii ".node")
  else fs.require (ascii "@crate-crypto/node-eth-kzg-" ++ name)

/-- a `try` block that keeps the error in `loadError`, with the end of the module, index.js:305-310 -/
def NodeFs.loadOrThrow (fs : NodeFs Binding JsError) (name : Name) : NodeLoad Binding JsError :=
  match fs.tryLoad name with
  | .ok b => .loaded b
  | .error e => .rethrown e

/-- the `switch` of index.js:31-303. A module that was loaded is an object and therefore counts as true. -/
def nodeLoad (platform arch : Name) (isMusl : Bool) (fs : NodeFs Binding JsError) : NodeLoad Binding JsError :=
  if platform = ascii "android" then
    if arch = ascii "arm64" then fs.loadOrThrow (ascii "android-arm64")
    else if arch = ascii "arm" then fs.loadOrThrow (ascii "android-arm-eabi")
    else .unsupported
  else if platform = ascii "win32" then
    if arch = ascii "x64" then fs.loadOrThrow (ascii "win32-x64-msvc")
    else if arch = ascii "ia32" then fs.loadOrThrow (ascii "win32-ia32-msvc")
    else if arch = ascii "arm64" then fs.loadOrThrow (ascii "win32-arm64-msvc")
    else .unsupported
  else if platform = ascii "darwin" then
    match fs.tryLoad (ascii "darwin-universal") with
    | .ok b => .loaded b
    | .error _ =>
      if arch = ascii "x64" then fs.loadOrThrow (ascii "darwin-x64")
      else if arch = ascii "arm64" then fs.loadOrThrow (ascii "darwin-arm64")
      else .unsupported
  else if platform = ascii "freebsd" then
    if arch ≠ ascii "x64" then .unsupported else fs.loadOrThrow (ascii "freebsd-x64")
  else if platform = ascii "linux" then
    if arch = ascii "x64" then fs.loadOrThrow (if isMusl then ascii "linux-x64-musl" else ascii "linux-x64-gnu")
    else if arch = ascii "arm64" then fs.loadOrThrow (if isMusl then ascii "linux-arm64-musl" else ascii "linux-arm64-gnu")
    else if arch = ascii "arm" then fs.loadOrThrow (if isMusl then ascii "linux-arm-musleabihf" else ascii "linux-arm-gnueabihf")
    else if arch = ascii "riscv64" then fs.loadOrThrow (if isMusl then ascii "linux-riscv64-musl" else ascii "linux-riscv64-gnu")
    else if arch = ascii "s390x" then fs.loadOrThrow (ascii "linux-s390x-gnu")
    else .unsupported
  else .unsupported

/-- a package with a compiled binding: name, the systems it is installed on, the file it loads -/
structure NpmPackage where
  name : Name
  os : Name
  cpu : Name
  libc : Option Name
  main : Name
  deriving DecidableEq

/-- `bindings/node/npm/*/package.json` -/
def npmPackages : List NpmPackage := [
  ⟨ascii "@crate-crypto/node-eth-kzg-darwin-arm64", ascii "darwin", ascii "arm64", none, ascii "node-eth-kzg.darwin-arm64.node"⟩,
  ⟨ascii "@crate-crypto/node-eth-kzg-darwin-x64", ascii "darwin", ascii "x64", none, ascii "node-eth-kzg.darwin-x64.node"⟩,
  ⟨ascii "@crate-crypto/node-eth-kzg-linux-arm64-gnu", ascii "linux", ascii "arm64", some (ascii "glibc"), ascii "node-eth-kzg.linux-arm64-gnu.node"⟩,
  ⟨ascii "@crate-crypto/node-eth-kzg-linux-x64-gnu", ascii "linux", ascii "x64", some (ascii "glibc"), ascii "node-eth-kzg.linux-x64-gnu.node"⟩,
  ⟨ascii "@crate-crypto/node-eth-kzg-win32-arm64-msvc", ascii "win32", ascii "arm64", none, ascii "node-eth-kzg.win32-arm64-msvc.node"⟩,
  ⟨ascii "@crate-crypto/node-eth-kzg-win32-x64-msvc", ascii "win32", ascii "x64", none, ascii "node-eth-kzg.win32-x64-msvc.node"⟩]

/-- whether a package manager installs an optional package on a machine: the fields `os`, `cpu` and `libc` of `package.json` -/
def NpmPackage.installs (platform arch : Name) (isMusl : Bool) (p : NpmPackage) : Bool :=
  p.os = platform && p.cpu = arch && (p.libc = none || p.libc = some (if isMusl then ascii "musl" else ascii "glibc"))

/-- `node_modules` after an installation, without local builds: `require` finds the packages installed on the machine, and fails with the
error `e` otherwise -/
def npmFs (e : JsError) (platform arch : Name) (isMusl : Bool) : NodeFs NpmPackage JsError where
  existsSync _ := false
  require path := match npmPackages.find? (fun p => p.installs platform arch isMusl && p.name = path) with
    | some p => .ok p
    | none => .error e

end

end Verif
