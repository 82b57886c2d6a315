import Verif.Model.Parallel
import Verif.Model.JavaBinding
import Verif.Model.NodeBinding

/-! The options with which the bindings create a context: precomputation or not, and the number of threads. The flag for the
precomputation is an argument of the constructors in the models of the bindings; the thread counts and the defaults are here. -/
namespace Verif

/-- `DEFAULT_NUM_THREADS` and the mode of `DASContext::default`, eip7594/src/lib.rs:107-114 -/
def rustDefaultOptions : UsePrecomp × ThreadCount := (.no, .single)

/-- the thread count passed on by `eth_kzg_das_context_new`, c/lib.rs:76 -/
def cThreads (numThreads : UInt32) : ThreadCount := .multi numThreads.toNat

/-- the thread count of `LibEthKZG(usePrecomp, numThreads)`, LibEthKZG.java:49-52, java/rust_code/src/lib.rs:17-18 -/
def javaThreads (numThreads : Int64) : ThreadCount := cThreads (numThreadsJ numThreads)

/-- the arguments used by `LibEthKZG()`, LibEthKZG.java:36-41 -/
def javaDefaultOptions : Bool × Int64 := (true, 1)

/-- the thread count of the constructor of `EthKZG`, ethkzg.cs:29-32 -/
def csThreads (numThreads : UInt32) : ThreadCount := cThreads numThreads

/-- the default arguments of that constructor, ethkzg.cs:29 -/
def csDefaultOptions : Bool × UInt32 := (true, 1)

/-- the arguments used by `NewProverContext`, prover.go:49 -/
def goOptions : Bool × UInt32 := (true, 1)

/-- the thread count of `newKZGCtx`, nim_eth_kzg.nim:87-90 -/
def nimThreads (numThreads : UInt32) : ThreadCount := cThreads numThreads

/-- the default arguments of `newKZGCtx`, nim_eth_kzg.nim:87 -/
def nimDefaultOptions : Bool × UInt32 := (true, 1)

/-- the thread count of `DASContextJs::create`, node/src/lib.rs:82 -/
def nodeThreads (options : DASContextOptions) : ThreadCount := .multi options.numThreads.toNat

end Verif
