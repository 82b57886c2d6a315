import Verif.Lemmas.Aliasing
import Verif.Lemmas.AnySize
import Verif.Lemmas.Api
import Verif.Lemmas.Barycentric
import Verif.Lemmas.BatchAddition
import Verif.Lemmas.BatchInverse
import Verif.Lemmas.Benches
import Verif.Lemmas.Bias
import Verif.Lemmas.Binding
import Verif.Lemmas.Bindings
import Verif.Lemmas.BlsCertificate
import Verif.Lemmas.BlsCertificate2
import Verif.Lemmas.BlsChain2
import Verif.Lemmas.BlsCodec
import Verif.Lemmas.BlsCodec2
import Verif.Lemmas.BlsGroup
import Verif.Lemmas.BlsGroup2
import Verif.Lemmas.BlsPrime
import Verif.Lemmas.BlsUnchecked
import Verif.Lemmas.Booth
import Verif.Lemmas.Bytes
import Verif.Lemmas.CAliasing
import Verif.Lemmas.CBinding
import Verif.Lemmas.CPool
import Verif.Lemmas.CProcess
import Verif.Lemmas.CSharpArguments
import Verif.Lemmas.CThreads
import Verif.Lemmas.ConsensusFft
import Verif.Lemmas.ConsensusPoly
import Verif.Lemmas.ConsensusProver
import Verif.Lemmas.ConsensusRecovery
import Verif.Lemmas.ConsensusVerify
import Verif.Lemmas.Context
import Verif.Lemmas.Cosets
import Verif.Lemmas.CurveInstance
import Verif.Lemmas.Debug
import Verif.Lemmas.DebugText
import Verif.Lemmas.Domain
import Verif.Lemmas.Embedded
import Verif.Lemmas.EmbeddedCheck
import Verif.Lemmas.EmbeddedG1Part0
import Verif.Lemmas.EmbeddedG1Part1
import Verif.Lemmas.EmbeddedG1Part2
import Verif.Lemmas.EmbeddedG1Part3
import Verif.Lemmas.EmbeddedG1Part4
import Verif.Lemmas.EmbeddedG1Part5
import Verif.Lemmas.EmbeddedG1Part6
import Verif.Lemmas.EmbeddedG1Part7
import Verif.Lemmas.EmbeddedG2Part
import Verif.Lemmas.EmbeddedRoots
import Verif.Lemmas.ErrorMessages
import Verif.Lemmas.Exchange
import Verif.Lemmas.Fft
import Verif.Lemmas.Fk20
import Verif.Lemmas.InPlace
import Verif.Lemmas.JacMsm
import Verif.Lemmas.Jacobian
import Verif.Lemmas.JavaArguments
import Verif.Lemmas.JavaLoading
import Verif.Lemmas.Jni
import Verif.Lemmas.JniMarks
import Verif.Lemmas.Lifecycle
import Verif.Lemmas.Lincomb
import Verif.Lemmas.LongKey
import Verif.Lemmas.Managed
import Verif.Lemmas.Msm
import Verif.Lemmas.Naive
import Verif.Lemmas.NaiveToeplitz
import Verif.Lemmas.NaiveVerify
import Verif.Lemmas.Nim
import Verif.Lemmas.NoErr
import Verif.Lemmas.NodeAsync
import Verif.Lemmas.Outcome
import Verif.Lemmas.PackedEval
import Verif.Lemmas.PairCount
import Verif.Lemmas.Parallel
import Verif.Lemmas.Pocklington
import Verif.Lemmas.PolyCoeff
import Verif.Lemmas.Precomp
import Verif.Lemmas.PrecompPanic
import Verif.Lemmas.PrecompWitness
import Verif.Lemmas.Quotient
import Verif.Lemmas.RandomOracle
import Verif.Lemmas.Reassembly
import Verif.Lemmas.Recovery
import Verif.Lemmas.RecoveryApi
import Verif.Lemmas.ReedSolomon
import Verif.Lemmas.Rep
import Verif.Lemmas.Sampling
import Verif.Lemmas.Serialization
import Verif.Lemmas.Tests
import Verif.Lemmas.Threshold
import Verif.Lemmas.Toeplitz
import Verif.Lemmas.TrustedSetup
import Verif.Lemmas.VectorA
import Verif.Lemmas.VectorACoeffs
import Verif.Lemmas.VectorASum0
import Verif.Lemmas.VectorASum1
import Verif.Lemmas.VectorB
import Verif.Lemmas.VectorBCoeffs
import Verif.Lemmas.VectorBSum0
import Verif.Lemmas.VectorBSum1
import Verif.Lemmas.VectorBytes
import Verif.Lemmas.VectorC
import Verif.Lemmas.VectorCCoeffs
import Verif.Lemmas.VectorCSum0
import Verif.Lemmas.VectorCSum1
import Verif.Lemmas.VectorCheck
import Verif.Lemmas.VectorD
import Verif.Lemmas.VectorDCoeffs
import Verif.Lemmas.VectorDSum0
import Verif.Lemmas.VectorDSum1
import Verif.Lemmas.VectorQ
import Verif.Lemmas.VectorQCoeffs
import Verif.Lemmas.VectorQSum0
import Verif.Lemmas.VectorQSum1
import Verif.Lemmas.Verifier
import Verif.Lemmas.VerifierApi
import Verif.Lemmas.VerifyRun
import Verif.Lemmas.WordSize
import Verif.Model.Abi
import Verif.Model.Api
import Verif.Model.BatchAddition
import Verif.Model.BatchInverse
import Verif.Model.Benches
import Verif.Model.BindingTests
import Verif.Model.Bls12381
import Verif.Model.Bls12381G1
import Verif.Model.Bls12381G2
import Verif.Model.BlstMsm
import Verif.Model.Booth
import Verif.Model.Bytes
import Verif.Model.CAliasing
import Verif.Model.CBinding
import Verif.Model.CSharpArguments
import Verif.Model.CSharpArrays
import Verif.Model.CSharpBinding
import Verif.Model.CSharpThreads
import Verif.Model.CThreads
import Verif.Model.Constants
import Verif.Model.ContextOptions
import Verif.Model.Cosets
import Verif.Model.Debug
import Verif.Model.Domain
import Verif.Model.EmbeddedSetup
import Verif.Model.Errors
import Verif.Model.Fft
import Verif.Model.Field
import Verif.Model.Fk20Prover
import Verif.Model.Fk20Verifier
import Verif.Model.GoBinding
import Verif.Model.InPlace
import Verif.Model.Ints
import Verif.Model.JavaArguments
import Verif.Model.JavaBinding
import Verif.Model.JavaCellsAndProofs
import Verif.Model.JavaLoading
import Verif.Model.JavaThreads
import Verif.Model.Jni
import Verif.Model.Managed
import Verif.Model.Msm
import Verif.Model.Naive
import Verif.Model.NativeLoading
import Verif.Model.NimBinding
import Verif.Model.NodeAsync
import Verif.Model.NodeBinding
import Verif.Model.Outcome
import Verif.Model.Parallel
import Verif.Model.PolyCoeff
import Verif.Model.ReedSolomon
import Verif.Model.Serialization
import Verif.Model.TestVectors
import Verif.Model.TestVectorsData
import Verif.Model.Tests
import Verif.Model.Toeplitz
import Verif.Model.TrustedSetup
import Verif.Model.UnitTests
import Verif.Model.WordSize
import Verif.Props.Abi
import Verif.Props.Algebra
import Verif.Props.AnySize
import Verif.Props.Benches
import Verif.Props.Bias
import Verif.Props.Binding
import Verif.Props.BindingTests
import Verif.Props.Bindings
import Verif.Props.BlackBox
import Verif.Props.Bls
import Verif.Props.BlsG2
import Verif.Props.BlstMsm
import Verif.Props.CAliasing
import Verif.Props.CApi
import Verif.Props.CProcess
import Verif.Props.CSharp
import Verif.Props.CSharpArguments
import Verif.Props.CSharpArrays
import Verif.Props.CSharpGc
import Verif.Props.CSharpGcRecover
import Verif.Props.CSharpGcVerify
import Verif.Props.CSharpThreads
import Verif.Props.CThreads
import Verif.Props.Change
import Verif.Props.Codec
import Verif.Props.Columns
import Verif.Props.CommitKey
import Verif.Props.Consensus
import Verif.Props.DataLength
import Verif.Props.DomainSizes
import Verif.Props.Embedded
import Verif.Props.EmbeddedNetwork
import Verif.Props.EmbeddedSecret
import Verif.Props.ErasureCode
import Verif.Props.ErrorMessages
import Verif.Props.ErrorText
import Verif.Props.Exchange
import Verif.Props.Go
import Verif.Props.Groupings
import Verif.Props.InPlace
import Verif.Props.JavaArguments
import Verif.Props.JavaLoading
import Verif.Props.JavaResult
import Verif.Props.Jni
import Verif.Props.Lifecycle
import Verif.Props.Linear
import Verif.Props.Msm
import Verif.Props.Naive
import Verif.Props.NativeLoading
import Verif.Props.Nim
import Verif.Props.NodeAsync
import Verif.Props.OneError
import Verif.Props.Options
import Verif.Props.Parallel
import Verif.Props.Precomp
import Verif.Props.Precomputed
import Verif.Props.Proofs
import Verif.Props.ProverCells
import Verif.Props.RandomOracle
import Verif.Props.Reassembly
import Verif.Props.Recovery
import Verif.Props.Sampling
import Verif.Props.SelfTest
import Verif.Props.ShortPolynomial
import Verif.Props.TestVectors
import Verif.Props.Tests
import Verif.Props.TestsMalformed
import Verif.Props.ThreadsExact
import Verif.Props.Threshold
import Verif.Props.ToeplitzSizes
import Verif.Props.Toy
import Verif.Props.ToyHeap
import Verif.Props.Transcript
import Verif.Props.Transforms
import Verif.Props.TrustedSetup
import Verif.Props.UnitTests
import Verif.Props.UnitTestsBls
import Verif.Props.UnitTestsCosets
import Verif.Props.UnitTestsKzg
import Verif.Props.UnitTestsRs
import Verif.Props.Verification
import Verif.Props.VerifyVectors
import Verif.Props.WordLength
import Verif.Props.WordSize
import Verif.Props.WrongCells
import Verif.Spec.Abi
import Verif.Spec.Addition
import Verif.Spec.Aliasing
import Verif.Spec.AnySize
import Verif.Spec.Benches
import Verif.Spec.Binding
import Verif.Spec.Bindings
import Verif.Spec.BitRev
import Verif.Spec.BlackBox
import Verif.Spec.Booth
import Verif.Spec.Bytes
import Verif.Spec.CAliasing
import Verif.Spec.CApi
import Verif.Spec.CProcess
import Verif.Spec.CSharpArguments
import Verif.Spec.CSharpThreads
import Verif.Spec.CThreads
import Verif.Spec.Change
import Verif.Spec.Columns
import Verif.Spec.Consensus
import Verif.Spec.Dft
import Verif.Spec.ErrorMessages
import Verif.Spec.ErrorText
import Verif.Spec.Exchange
import Verif.Spec.G1
import Verif.Spec.G2
import Verif.Spec.Groupings
import Verif.Spec.InPlace
import Verif.Spec.JavaArguments
import Verif.Spec.JavaCalls
import Verif.Spec.Jni
import Verif.Spec.Kzg
import Verif.Spec.Lifecycle
import Verif.Spec.Linear
import Verif.Spec.Managed
import Verif.Spec.Memory
import Verif.Spec.NodeAsync
import Verif.Spec.OneError
import Verif.Spec.Platforms
import Verif.Spec.Poly
import Verif.Spec.Precomp
import Verif.Spec.RandomOracle
import Verif.Spec.Recovery
import Verif.Spec.Sampling
import Verif.Spec.SelfTest
import Verif.Spec.Setup
import Verif.Spec.Srs
import Verif.Spec.Tests
import Verif.Spec.Toeplitz
import Verif.Spec.Verify
import Verif.Spec.WordSize
import Verif.Spec.WrongCells
