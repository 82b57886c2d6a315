import Verif.Model.Debug

/-! The platforms of the bindings, the names the outside world gives them, and the file that holds the library. Not derived from the code
of the bindings: target names are those of the Rust compiler, file names those of the dynamic linkers. -/
namespace Verif.Spec

inductive Os where
  | linux | macos | windows
  deriving DecidableEq

inductive Arch where
  | x64 | arm64
  deriving DecidableEq

/-- the Rust target for a platform; the library is not made for Windows on ARM -/
def triple : Os → Arch → Option (List UInt8)
  | .linux, .x64 => some (ascii "x86_64-unknown-linux-gnu")
  | .linux, .arm64 => some (ascii "aarch64-unknown-linux-gnu")
  | .macos, .x64 => some (ascii "x86_64-apple-darwin")
  | .macos, .arm64 => some (ascii "aarch64-apple-darwin")
  | .windows, .x64 => some (ascii "x86_64-pc-windows-gnu")
  | .windows, .arm64 => none

/-- the file of a dynamic library, also the value of `System.mapLibraryName` -/
def dynamicFile (os : Os) (lib : List UInt8) : List UInt8 := match os with
  | .linux => ascii "lib" ++ lib ++ ascii ".so"
  | .macos => ascii "lib" ++ lib ++ ascii ".dylib"
  | .windows => lib ++ ascii ".dll"

/-- the values of the Java property `os.name` -/
def JavaOsName : Os → List UInt8 → Prop
  | .linux, name => name = ascii "Linux"
  | .macos, name => name = ascii "Mac OS X"
  | .windows, name => ∃ version, name = ascii "Windows" ++ version

/-- `name` is `lower` with some of the small letters replaced by capital letters -/
def UpToCase (name lower : List UInt8) : Prop :=
  List.Forall₂ (fun a b => a = b ∨ (97 ≤ b ∧ b ≤ 122 ∧ a = b - 32)) name lower

/-- the values of the Java property `os.arch`, in any case -/
def JavaOsArch : Arch → List UInt8 → Prop
  | .x64, name => UpToCase name (ascii "amd64") ∨ UpToCase name (ascii "x86_64")
  | .arm64, name => UpToCase name (ascii "aarch64") ∨ UpToCase name (ascii "arm64")

/-- what `uname` prints; on Windows that of MSYS or Cygwin -/
def UnameS : Os → List UInt8 → Prop
  | .linux, name => name = ascii "Linux"
  | .macos, name => name = ascii "Darwin"
  | .windows, name => (∃ version, name = ascii "MINGW64_NT-" ++ version) ∨ ∃ version, name = ascii "CYGWIN_NT-" ++ version

/-- what `uname -m` prints -/
def unameM : Os → Arch → List UInt8
  | _, .x64 => ascii "x86_64"
  | .linux, .arm64 => ascii "aarch64"
  | .macos, .arm64 => ascii "arm64"
  | .windows, .arm64 => ascii "aarch64"

/-- `GOOS` and `GOARCH` -/
def goos : Os → List UInt8
  | .linux => ascii "linux"
  | .macos => ascii "darwin"
  | .windows => ascii "windows"

def goarch : Arch → List UInt8
  | .x64 => ascii "amd64"
  | .arm64 => ascii "arm64"

/-- the symbols the Nim compiler defines for a platform, out of those of operating systems and processors -/
def nimDefined (os : Os) (arch : Arch) (symbol : String) : Bool := match os, arch with
  | .linux, .x64 => symbol = "linux" || symbol = "amd64"
  | .linux, .arm64 => symbol = "linux" || symbol = "arm64"
  | .macos, .x64 => symbol = "macosx" || symbol = "amd64"
  | .macos, .arm64 => symbol = "macosx" || symbol = "arm64"
  | .windows, .x64 => symbol = "windows" || symbol = "amd64"
  | .windows, .arm64 => symbol = "windows" || symbol = "arm64"

/-- the directory that holds the archive for Nim: one for both processors of a Mac -/
def nimDirectory (os : Os) (arch : Arch) : Option (List UInt8) := match os with
  | .macos => some (ascii "universal-apple-darwin")
  | _ => triple os arch

/-- `process.platform` and `process.arch` of Node -/
def nodePlatform : Os → List UInt8
  | .linux => ascii "linux"
  | .macos => ascii "darwin"
  | .windows => ascii "win32"

def nodeArch : Arch → List UInt8
  | .x64 => ascii "x64"
  | .arm64 => ascii "arm64"

/-- the packages below `bindings/node/npm`, with the GNU library on Linux -/
def nodePackage : Os → Arch → List UInt8
  | .linux, .x64 => ascii "linux-x64-gnu"
  | .linux, .arm64 => ascii "linux-arm64-gnu"
  | .macos, .x64 => ascii "darwin-x64"
  | .macos, .arm64 => ascii "darwin-arm64"
  | .windows, .x64 => ascii "win32-x64-msvc"
  | .windows, .arm64 => ascii "win32-arm64-msvc"

/-- the Rust target of a Node package; Windows with the Microsoft linker -/
def nodeTriple : Os → Arch → List UInt8
  | .linux, .x64 => ascii "x86_64-unknown-linux-gnu"
  | .linux, .arm64 => ascii "aarch64-unknown-linux-gnu"
  | .macos, .x64 => ascii "x86_64-apple-darwin"
  | .macos, .arm64 => ascii "aarch64-apple-darwin"
  | .windows, .x64 => ascii "x86_64-pc-windows-msvc"
  | .windows, .arm64 => ascii "aarch64-pc-windows-msvc"

end Verif.Spec
