# Formal model of rust-eth-kzg (EIP-7594) in Lean 4

The source is read as text in `/repo`; nothing of it is built or run. The model lives in `lean/Verif/`.
Model definitions sit in `lean/Verif/Model/*.lean`, each with a comment citing file and lines. Specifications that do not use
the model's helpers sit in `lean/Verif/Spec/*.lean`. Supporting lemmas sit in `lean/Verif/Lemmas/*.lean`. The property
theorems, with the non-vacuity examples, sit in `lean/Verif/Props/*.lean`.

## 1. Modelling conventions

* **Outcome.** A Rust function that can fail returns `Outcome ε α`, with constructors `ok a` (normal return), `err e`
  (`Err(e)`) and `panic` (assert, unwrap/expect on None/Err, index or slice out of bounds, division by zero, arithmetic
  underflow). Panic freedom is therefore a theorem and not an assumption.
* **Mutation.** `&mut [T]` parameters become a `List T` argument and a `List T` result. In-place loops are folds
  (`foldl`, `foldlM`) or recursive functions over an explicit state, with the same loop bounds, index expressions and order as the
  code.
* **Integers.** `usize`/`u64` values are `Nat`. Where the code truncates (`len() as u32`, `value as u64`) or uses machine width
  (`u32` Booth windows, `reverse_bits`), the truncation is modelled by `% 2^k` or by explicit bit operations. Arithmetic that
  would overflow 64 bits needs slices longer than 2^58 bytes; it is out of these models. `Model/WordSize` has verification and
  recovery again with a `usize` of any width and both overflow modes for everything that depends on the input (C60); the fixed sizes
  need 18 bits, so 32 and 64 bits are the cases that exist. The truncated `u64` lengths of the C interface are not part of it.
* **Scalars.** `Scalar` of blstrs is the field `Fr = ZMod r`, with r the concrete 255-bit BLS12-381 modulus, proved prime.
  Algorithm models are generic over a field `F` where this costs nothing. The API model is at `Fr`.
* **Groups.** `G1`, `G2`, `GT` are abstract `Fr`-vector spaces with a bilinear pairing. The theorems about the pairing check
  assume that the pairing with the G2 generator is injective on G1. This is the prime-order-subgroup contract of blst.
  `from_compressed` includes the subgroup check, so every decoded value lies in the order-r group, on which `Fr` acts.
* **Affine coordinates.** Batch addition and the precomputed MSM work on coordinates. They are modelled over an arbitrary field
  `K` of coordinates and related to Mathlib's `WeierstrassCurve.Affine.Point` group for y² = x³ + b.
* **SHA-256** is an arbitrary function from byte lists to byte lists. All theorems hold for every such function. C61 counts over all
  functions from a finite set of strings to digests (the random oracle).
* **Parallel code.** `maybe_rayon` loops are modelled twice: as the sequential loop in the function models, and as tasks with
  private outputs in `Model/Parallel`, where C36 proves that every schedule, with any number of workers and any panicking task, ends
  with the result of the sequential loop.
* **C boundary.** `Model/CBinding` has a state with three maps: address → byte, address → live context, address → live error message.
  An access outside the maps, a null or unaligned slice and a free of something that is not live give `fault` (undefined behaviour); a
  panic that reaches `extern "C"` ends the process. The allocator of error messages is a parameter that may fail and may choose any
  free address. The Rust heap behind a context is not modelled. The references that these functions create, and two proposals for Rust's
  aliasing rules (Stacked Borrows, Tree Borrows; without protectors, two-phase borrows and interior mutability), are in
  `Model/CAliasing` and `Spec/Aliasing`.
* **Managed callers.** `Model/Managed` adds a heap for the arrays of C#, Go and Nim: placement is a parameter that may fail and may
  choose any free address. C# additionally takes a garbage collector that may move any array that is not pinned, at the points where
  one can run. JNI and N-API are modelled at the level of the values they hand over (lengths, integers, exceptions), without addresses;
  `Model/Jni` has the Java methods again with every call to the virtual machine, any of which may fail, with pending exceptions and
  local references (C70), and `Model/JavaArguments` once more with arrays that other threads write during the call (C81).
* **Memory that changes.** `Model/InPlace` is the API once more on memory that other threads write during the call, with the hash map of
  the deduplication as it works on references (C82). Rust gives no meaning to such programs: the model takes every read in the source
  as a read of memory at that moment.
* **Point codec.** `to_compressed`/`from_compressed` are parameters. The laws assumed about them are listed in a structure
  (`decode (encode P) = some P`, encodings have 48 bytes); where canonicity is used it is stated as a hypothesis.
* **BLS12-381.** The abstract parameters are also instantiated at the real groups. `Model/Bls12381G1` has the curve
  y² = x³ + 4 over the field of 381 bits, its subgroup of order r, the generator and the 48-byte encoding with its flags, square
  root and subgroup test. C52 and C53 prove for it what the other theorems assume (prime modulus, group law, order, a single
  generator, canonical encoding), and C54 states the main theorems without these assumptions. The pairing remains a parameter:
  bilinear, and not zero on the two generators. The primality of the 381-bit modulus is proved with the certificate in
  `Lemmas/BlsCertificate` (an elliptic-curve primality proof, checked by the kernel). `Model/Bls12381G2` does the same for G2: the
  field of p² elements, the curve y² = x³ + 4(1+u), its generator and the 96-byte encoding (C73). C74 shows that nothing about the
  pairing matters beyond bilinearity and non-triviality on the generators, and C75 goes from the text of the setup to the answers.
  `Model/EmbeddedSetup` has the strings of the embedded setup file; C76 checks every point of it in the kernel.
  What remains assumed about the group layer is that blst computes these groups and encodings and some such pairing. Miller loop and
  final exponentiation are not modelled.

## 2. Trusted base

1. Lean's kernel and the three standard axioms `propext`, `Classical.choice`, `Quot.sound` (`#print axioms` output is in
   `AXIOMS.txt`).
2. The reading of the Rust code, i.e. the faithfulness of `Verif/Model`. The citations allow a line-by-line review. The numbers in
   `Model/EmbeddedSetup` were copied from the JSON file by a script, which also compared them with it.
3. blst/blstrs compute the field, the group, the pairing and the point codec that are modelled (for G1 and G2: those of `Model/Bls12381G1` and `Model/Bls12381G2`;
   blst is not in the repository, and its format is taken from its public description), and the SHA-256 implementation, rayon, serde_json, hex and the
   allocator behave as their interfaces say. The memory that `blst_p1s_mult_wbits` and its precomputation touch is stated in `Model/BlstMsm`
   and used only for C78.
4. For the bindings: the sizes of scalars in the C ABI and in the languages of the bindings (`Model/Abi`; that the declarations then agree is
   C66), P/Invoke and cgo marshalling, JNI and N-API as documented, the calls that the functions of the `jni` crate make (listed in `Model/Jni`). The C header of the Go binding is generated at build time and not in
   the repository. The memory model of the bindings has 8-byte little-endian words. `$` of Nim on a `CResult` is an arbitrary
   function of the two fields.
5. Not modelled: timing and side channels, exhaustion of the Rust heap, the thread pool beyond schedules of independent tasks,
   aliasing inside the library and in the JNI and N-API bindings, tracing spans, Criterion itself, and tests (apart from the reference implementations in `Model/Naive`, the unit tests in `Model/UnitTests`, the bodies of the benchmarks in `Model/Benches`, the two binding tests in `Model/BindingTests` and the conformance tests in `Model/Tests`,
   of which reading files and YAML and the test frameworks are not modelled: JUnit and Tuweni, NUnit, Jest, unittest2 and stew behave as their
   documentation says, `assert` is enabled in Java, and whether NUnit counts caught assertions is a parameter).

Parts of the code, with the model modules:

| code | model |
|----|----|
| `cryptography/polynomial` (`domain`, `fft`, `coset_fft`, `poly_coeff`) | Fft, Domain, Cosets, PolyCoeff |
| `cryptography/bls12_381` (`batch_addition`, `batch_inversion`, `booth_encoding`, `fixed_base_msm*`, `lincomb`) | BatchAddition, BatchInverse, Booth, Msm, BlstMsm |
| `cryptography/erasure_codes` | ReedSolomon |
| `cryptography/kzg_multi_open` (`commit_key`, `verification_key`, `fk20/*`) | Fk20Prover, Fk20Verifier, Toeplitz, Cosets |
| the same, compiled for tests only (`naive`, `fk20/naive`, matrices of `fk20/toeplitz`, `generate_cosets`, test keys; `ErasurePattern::Random`) | Naive, ReedSolomon |
| `eip7594` (`constants`, `errors`, `serialization`, `recovery`, `prover`, `verifier`, `trusted_setup`, `lib`) | Constants, Errors, Debug, Bytes, Serialization, Api, TrustedSetup; WordSize |
| external: G1 and G2 of blst/blstrs and their encodings | Bls12381, Bls12381G1, Bls12381G2 |
| `eip7594/data/trusted_setup_4096.json` (`g1_monomial`, `g2_monomial`) | EmbeddedSetup |
| `maybe_rayon` | Parallel |
| `bindings/c` | CBinding, CThreads, CAliasing |
| `bindings/{java,node,csharp,golang,nim}` | JavaBinding, JavaCellsAndProofs, JavaThreads, Jni, NodeBinding, NodeAsync, CSharpBinding, CSharpArrays, CSharpThreads, CSharpArguments, GoBinding, NimBinding, ContextOptions |
| finding the native library (Java, C#, Node loaders, Go and Nim link lines, `scripts/compile.sh`, `scripts/compile_to_native.sh`, `.github/scripts`, targets and artifacts of the release workflows) | NativeLoading, JavaLoading |
| unit tests of the crates (`mod tests` in `cryptography/*` and `eip7594`) | UnitTests |
| tests of the bindings that are not about test vectors (`LibEthKZGTest.java:31-55`, `prover_test.go`) | BindingTests |
| benchmarks (`*/benches/benchmark.rs`) | Benches |
| `eip7594/tests`, the tests with vectors in `bindings/{java,csharp,node,nim,golang}` | Tests |
| declarations of the exported functions in C#, Nim, Java and TypeScript; constants of all bindings | Abi |

`Spec/Consensus.lean` is not a model of the repository but a transliteration of the Python functions which the Rust comments name
(consensus-specs at commit 13ac373a2c284dc66b48ddd2ef0a10537e4e0de6), written from the published text; its deviations from Python are
listed at its head. C48 to C51 compare the model with it.

## 3. Properties: what is modelled and how it is proved

| id | modelled code | proof idea |
|----|----|----|
| C01 | serialization, bit reversal, ifft, fft, chunking | from C02: brev13(i) = 2·brev12(i) for i < 4096, w8192² = w4096, then codec round trip |
| C02 | same | `fft` = DFT (C19), polynomial identification with `Polynomial Fr` |
| C03 | commit, CommitKey, lincomb | interpolation gives the coefficients; the sum is `eval tau` |
| C04 | FK20 prover, Toeplitz, batch MSM without precomputation | circulant convolution, index calculation, quotient formula q = Σ cⁱ·shift |
| C05 | prover and verifier API | C03, C04, C06 with all defects zero |
| C06 | verifier API, pairing check | bilinearity, coset-ifft interpolation = remainder of division by X^64 − h^64 |
| C07 | pairing equation of C06 | non-zero polynomial of degree < n obtained by a linear functional; each residue has at most three digests |
| C08 | pairing equation of C06 | root counting of (X^64−h^64)q − f + I |
| C09 | recovery API | C10 and uniqueness of interpolation |
| C10 | recovery, Reed–Solomon | P = qZ iff quotient on coset has degree < 4096; with tables, from C25 up to a panic |
| C11 | recovery | C10 characterises the result by a set of pairs |
| C12, C13 | validation functions | case analysis on the model, stated with independent predicates |
| C14 | error enums | case analysis over all return paths |
| C15 | `deduplicate_with_indices` | loop invariant |
| C16 | transcript builder | lengths determine the parsing, big-endian injectivity |
| C17 | scalar codec | digits of base-256 numbers |
| C18 | all asserts of the four calls | every API theorem is an equation whose right-hand side is `ok`/`err` |
| C19, C20 | `fft_inplace`, `Domain`, `CosetFFT` | loop invariants for the butterfly stages, roots-of-unity orthogonality; all domain sizes and all input lengths in `Props/DomainSizes` |
| C21 | `ReedSolomon` with generic parameters, also the test-only decoder for erasures in arbitrary places | as C10 |
| C22 | `get_booth_index` with u32 arithmetic | telescoping sum of signed digits |
| C23 | `batch_addition.rs` | chord/tangent formulas against Mathlib's group law |
| C24 | `fixed_base_msm*.rs`, `lincomb.rs` | C22, C23, Horner |
| C25 | API with both MSM variants | C24 |
| C26 | `lincomb.rs` | list induction |
| C27 | `batch_inversion.rs` | prefix product invariant |
| C28 | `cosets.rs` | swap-loop invariant; lengths of 2^32 and above are covered, where the code moves only the leading part |
| C29 | `toeplitz.rs`, `batch_toeplitz.rs` | convolution theorem; the constructor and matrices of any size in `Props/ToeplitzSizes` |
| C30 | `poly_coeff.rs` | identification with `Polynomial F` |
| C31 | `FK20Prover::new` | positive part is C04; concrete counterexample for a longer key |
| C32 | C binding over an address → byte map | frame reasoning on writes |
| C33, C34 | conversions and size checks of Java, Node, C# | case analysis; concrete counterexample for Node |
| C35 | Go wrapper | concrete counterexample, positive part for valid blobs |
| C36 | parallel map as interleaved task execution | invariant over arbitrary schedules |
| C37 | constants | Lucas primality certificate checked by the kernel |
| C38 | hex parsing, point parsing | case analysis |
| C39 | `recover_evaluations_in_domain_order` | loop invariant and bit-reversal arithmetic; all sizes and repeated indices in `Props/Reassembly` |
| C40 | prover API | polynomial with too many roots |
| C41 | C# `ComputeCellsAndKZGProofs`, `RecoverCellsAndKZGProofs`, `VerifyCellKZGProofBatch` with a moving collector | concrete collectors; verification judges what the old addresses hold; the positive parts are for collectors that move nothing |
| C42 | Nim procedures over C32 | frame reasoning; the outputs are in memory that was free before |
| C43 | Nim `verify_result` | allocator that reuses an address: same text for two reasons |
| C44 | `Debug` of the error types | the text is parsed back field by field; compared with strings written by Lean's `toString` |
| C45 | `eth_kzg_das_context_new/free`, Java `destroy`, C# `Dispose`, Nim `=destroy` | invariant over all sequences of calls |
| C46 | Java threads (`Model/JavaThreads`): one step per access to the field | three interleavings; invariants without `destroy` and without overlapping calls; exactly the sets of calls with `destroy` and another call can go wrong |
| C47 | Go wrapper with a finalizer | concrete schedule |
| C48 | commitment against the consensus specification (`Spec/Consensus`) | both sides are `f(τ)`; Lagrange interpolation |
| C49 | cells and proofs against the consensus specification | both sides reduce to evaluations and quotients of one polynomial |
| C50 | verification against the consensus specification | both sides check the same pairing equation |
| C51 | recovery against the consensus specification | both sides interpolate `f Z`; the case without `f` differs; with tables, from C25 up to a panic |
| C52 | G1 of BLS12-381 | chain of 386 affine steps in the kernel gives `r • g = 0`; at most 2p+1 points gives primality and one generator |
| C53 | encoding of G1 points | p ≡ 3 mod 4 square root; `y ≠ 0` in odd order; flags by exhaustion of a byte |
| C54 | the API over G1 of BLS12-381, with and without tables | C03, C06, C18, C49, C50, C51 with C52 and C53; with tables C25 |
| C55 | constructors of all bindings, `with_threads` | unfolding; 64-bit arithmetic for Java |
| C56 | verifier, two different cells for one commitment and index | reduction to the bilinear strong Diffie-Hellman problem: `D(τ)/Z(τ)` times `Z/(X-x)` minus the polynomial part |
| C57 | verifier and recovery together | Lagrange weights turn 64 accepted proofs into `(C - f(τ)P) / N(τ)` with `N` of degree 4096; else C56; with tables C25 on the one polynomial the cells determine |
| C58 | asynchronous Node methods (`Model/NodeAsync`): a worker reads the caller's buffers piece by piece | invariant over all runs; a run that tears a blob, told apart by C01 |
| C59 | Java class `CellsAndProofs` (`Model/JavaCellsAndProofs`) | 32-bit wrapping sums; a wrapped capacity is too small for the puts |
| C60 | verification and recovery with `usize` of any width (`Model/WordSize`) | no conversion or sum leaves the range; a wrapped transcript size fails the assertion |
| C61 | verification, with the hash as a random table on a finite set of strings (`Spec/RandomOracle`) | transcripts are injective (C16), so each string has at most 3 (n - 1) bad digests (C07); induction on the attacker over tables agreeing with the answers so far |
| C62 | the reference implementations of the tests (`Model/Naive`) | synthetic division, interpolation, convolution theorem; both sides equal the specification of C04 |
| C63 | loaders and build scripts as functions of the strings the system reports and of the content of the file system (`Model/NativeLoading`); names of platforms in `Spec/Platforms` | case analysis on platforms; for arbitrary strings on the branches |
| C64 | double-checked locking (`Model/JavaLoading`): one step per access to the flag, the lock, the library; sequentially consistent, as the flag is volatile | invariant over interleavings; a measure that every step decreases |
| C65 | array helpers of C# (`Model/CSharpArrays`), `Array.Copy` with its bounds | induction on the arrays |
| C66 | tables of the declarations (`Model/Abi`), representation of C values as bytes, for both byte orders and pointer sizes; layout rule and agreement in `Spec/Abi` | layout is unique; then per function. Refuted for Nim on big-endian machines |
| C67 | C# threads (`Model/CSharpThreads`): one step per access to the field `_context` and per step of a native function | four interleavings; three phases of the object while `Dispose` runs alone; invariant for calls only; exactly which sets of calls can go wrong or abort |
| C68 | calls of the C API as trees of memory accesses (`Model/CThreads`), pools of threads, allocation anywhere; validity, footprints and races in `Spec/CThreads` | a small logic with footprints (`Lemmas/CThreads`), its soundness for pools (`Lemmas/CPool`), then per function; running a tree alone is the model of C32 |
| C69 | the C functions with the references they create (`Model/CAliasing`), over an interface for aliasing rules; Stacked Borrows and Tree Borrows per byte in `Spec/Aliasing` | laws that both rules satisfy (`Lemmas/Aliasing`), then the functions once for all rules with these laws (`Lemmas/CAliasing`); the violations from the stack of a single byte; erasing the references gives the model of C32 |
| C70 | the native Java methods as sequences of JNI calls (`Model/Jni`); events, rule on pending exceptions, guaranteed references in `Spec/Jni` | one invariant for all steps (`Runs`): either no call fails and the result is that of C34, or one fails and is reported; closed under sequencing |
| C71 | the C# methods over the two reads of every item (`Model/CSharpArguments`), `none` = null | both reads equal: the functions of C34 by rewriting; different: the functions of C34 on windows at the new addresses; a null pointer in the list of pointers faults |
| C72 | inductive specification of what a caller gets in each language (`Spec/Exchange`), over the models of all bindings | each constructor is reduced to the library function by C32, C34, C35, C42; agreement by C25, acceptance by C05, recovery by C09 |
| C73 | G2 as a subgroup of the curve over `QuadraticAlgebra Fp (-1) 0` (`Model/Bls12381G2`), encoding as one integer (`Spec/G2`) | order of the generator and of a point of order ℓ (a 448-bit prime by Pocklington) by computed addition chains; r² ∤ #E′ since r²·ℓ exceeds the number of points; y ≠ 0 since −4(1+u) is no cube |
| C74 | pairings of G1 and G2 as parameters | both groups are cyclic of order r, so a pairing is determined by its value on the generators |
| C75 | setup texts over both curves | C38 with C53 and C73; C54 |
| C76 | the numbers of the embedded file (`Model/EmbeddedSetup`) | per point, on integers: curve equation with the second coordinate as witness, and a ladder in Jacobian coordinates (`Lemmas/Jacobian`, `Lemmas/EmbeddedCheck`); for G1 z²·P = −(βx, y) implies r·P = 0 since r = z⁴ − z² + 1 and 1 + φ + φ² = 0; for G2 (r−1)·Q = −Q; with tables: point 4032 is not ω·G for any 128th root of unity ω (`Lemmas/EmbeddedRoots`), hence no FK20 base point is at infinity (`C76_no_identity`, `C76_precomp`) |
| C77 | the error messages in the state of the C API, for arbitrary arguments; programs in C#, Nim and Go (`Spec/ErrorMessages`) | every step other than the allocation of a message keeps the messages (`Lemmas/ErrorMessages`); the checks of C# and Nim settle what a call owes; in Go the set of messages grows by one element |
| C78 | `FixedBaseMSMPrecompBLST` with the two blst functions it calls as parameters that fault outside their buffers (`Model/BlstMsm`) | the table has n·2^(w-1) elements and its first multiples are the generators; the read of the first missing pointer faults |
| C79 | programs that create, use and free contexts and messages while calls of C68 are in progress (`Spec/CProcess`); undefined behaviour is an outcome of the step relation | an invariant with ghost state per call (its message, its context), kept by each action (`Lemmas/CProcess`); safety of a call from C68, restricted to its own context |
| C80 | uniqueness of each part of a claim given the others, stated on bytes (`EncodesG1`, `Canonical`, blocks of 32 bytes), for contexts made from the embedded file | the equation of C06 is solved for each part; the secret is outside the evaluation points because point 4032 of the file is no 128-th root of unity times the generator (kernel computation of C76); assumed: the points of the file are powers of some number |
| C81 | Java arrays as references into a heap that changes at will (`Spec/JavaArguments`): what can be seen of an array; a native method equals that of C70 on the arguments seen | `Sees` (`Lemmas/JavaArguments`): a computation that looks at the heap equals one on fixed values; closed under sequencing and loops |
| C82 | histories of memory (`Spec/InPlace`): strings that can be seen in a slice, addresses linked by equal strings, results equal up to quoted bytes | `Sees` and `Yields` (`Lemmas/InPlace`): reads give seen strings, closed under sequencing and loops; the loop of the deduplication keeps the entries linked to their addresses; for unwritten keys the hash map is an association list |
| C83 | requests as embeddings of `k` into 128 columns, replies, collections of received columns (`Spec/Sampling`), on top of the random oracle of C61 | requests of `m` clients within 63 columns are counted (`Lemmas/Sampling`); true claims of several batches make one batch of true claims, to which C57 applies; false batches are counted by C61 |
| C84 | columns with one cell and proof per blob, checked per column (`Spec/Columns`); blobs that reveal the secret | true claims in columns are true claims in rows, so that C83's argument applies to each blob; two blobs with one commitment differ by a polynomial with the secret as a root |
| C85 | `Model/Tests` (the programs that run the test vectors, in six languages, for an arbitrary library); what a file says in `Spec/Tests` | the hex readers agree on hex strings; case analysis; C48–C51 and C72 for the library itself |
| C86 | claims one by one and batches put together from them (`Spec/Groupings`); the same for the embedded setup in `Props/EmbeddedNetwork` | C05–C07, C14 and C61 per claim; the error of a refused batch is that of its first bad entry |
| C87 | the verification equation for an arbitrary list of points (`Spec/SelfTest`) | honest commitments, cells and proofs turn the equation into one between commitments of the quotient and of X^64 times the quotient, which is linear; blobs with quotient X^j give the converse; logarithms on BLS12-381 for the shape and the ceremony |
| C88 | decision trees of questions about products of pairings of combinations of setup points (`Spec/BlackBox`) | a question is whether the secret is a root of a polynomial of degree at most 4095 + 64; away from the roots of the nonzero ones the path is fixed; then C08, C57 and C86 for the result. Tight: the polynomial with the given roots, divided by that of the cell |
| C89 | what a file says in `Spec/Tests`; the files in `Model/TestVectors` and `Model/TestVectorsData`, written down as numbers | constant blobs by C01, C02 and uniqueness of quotients. Recorded blobs: their coefficients are given, their values at all 8192 points are computed in the kernel by evaluating packed polynomials (`Lemmas/PackedEval`) and the commitments by Jacobian sums over groups of bits (`Lemmas/JacMsm`); `Lemmas/Vector*` hold one computation each. Recovery by C09, C12 and C17. Verification by C13 and the pairing equation for arbitrary setups (`Lemmas/VerifyRun`): constant cells have quotient zero, and the two wrong files fail because the pairing is not degenerate and two points of the setup differ |
| C90 | `Spec/Linear`: bytes that hold combinations of field elements, cells, points and claims | evaluation, division by a monic polynomial and the commitment are linear; recovery by uniqueness of the consistent polynomial (C10); verification through the defect of the KZG equation, which is linear in the claim (C86) |
| C91 | `Model/UnitTests` (the unit tests of the crates as programs with their data as parameters); what they should find is said by the specifications of the tested functions (`Spec/Dft`, `Spec/Poly`, `Spec/Addition`, …) | the exact results of the tested functions (C20 to C35, C62), case analysis of the assertions; the keys of the tests are those of a setup with secret -1 |
| C92 | `Model/BindingTests` (the two tests as programs); when a blob is canonical is said by `Spec/Kzg`, Java bytes by `Spec/Bindings` | C34, C35, C45, C47: exact results of the wrappers; the contexts are placed at different addresses since allocators give unused ones |
| C93 | sets of blobs and their cardinality (`Set.ncard`), stated with the results of the library; canonical cells and powers of tau are those of `Spec/Kzg` | interpolation: prescribing the values of a polynomial at m points leaves r^(n-m) of those of degree below n; the proof of a cell is fixed by the cell and the value at the secret |
| C94 | `Model/Benches` (what one measured iteration evaluates to, random draws as parameters); the scalars of the even tables and the collision of last bytes are written out in `Spec/Benches` | erasure decoder: a polynomial through the word `-(p+1)` would give one of the same degree that vanishes on 6048 points and is 128 at zero. FK20 with secret `-1`: neighbouring base points are opposite, so equal digits of neighbouring scalars meet in the batch addition and its inversion gets a zero. The map from polynomials to the scalars of the 64 even tables is injective (discrete Fourier transform), so counting residues of pairs modulo 256 (`Lemmas/PairCount`) bounds the polynomials without such a pair. API: C02, C05, C09, C25 |
| C95 | none new: the verifier of C06 on lists of claims (`Spec/Groupings`), altered claims in `Spec/OneError` | the combination of a concatenation is the one of the first part plus a power of the challenge times the one of the second (`err_combined_append`). Alterations: uniqueness of proof, commitment and cell element at a secret outside the coset (as for C80). Sharpness: claims whose defects are the coefficients of the product of `X - s` |
| C96 | none new: recovery of C10; wrong cells and elements in `Spec/WrongCells` | two polynomials of degree below 4096 that agree in 4096 points are equal; beyond the bound the product of `X - x` over the points of the right elements is added. Counting: the accepted contents are the image of the polynomials of degree below 4096 |
| C97 | `reduceBytesToScalarBias` of C06; digests of `Spec/RandomOracle` | the digests are the integers below `2^256` (`bias_digests`); those with a given remainder are counted for any modulus `n` with `2 n ≤ N ≤ 3 n` (`Lemmas/Bias`); the attained bound comes from C95_sharp |
| C98 | none new: the prover of C02 to C04; changed and kept elements in `Spec/Change` | a nonzero polynomial of degree below 4096 has fewer than 4096 roots, and the product of `X - x` has exactly those wanted; the barycentric formula on the roots of unity (`Lemmas/Barycentric`); quotients of polynomials with the same remainder |
| C99 | `FK20Verifier::new`, `verify_multi_opening` of C06 at other sizes; claims, defects and the hash input at sizes `e`, `k`, `s` in `Spec/AnySize` | the proof of C06 with the three sizes as variables (`Lemmas/AnySize`), the counting argument of C07, and C31_exact for the prover |
| C100 | `FK20Prover`, `compute_h_poly_commitments` of C03 and C31 on lists of coefficients of other lengths | the circulants of one monomial written out (as for long keys in C31); C31_exact for the padded lists |
| C101 | `FK20Prover::commit` and `compute_multi_opening_proofs` of C03 on data of other lengths | arithmetic of bit reversal, uniqueness of interpolation, C31_exact |

C31, C33 (Node), C35, C41, C43, C46, C47, C66 (Nim) and C67 state something that the code does not do. Their theorems prove the negation with a concrete witness;
the part that does hold is proved beside it.

## 4. Check of the model against the test vectors

Apart from the proofs, the model was run on all 67 vectors in `/repo/test_vectors` (commitments, cells and proofs, recovery, verification,
valid and invalid). The driver is a scratch program outside this project: it instantiates the model with executable Jacobian arithmetic for
G1 and G2, a pairing, SHA-256 and the trusted setup of the repository, and compares result or kind of error with the expected output. The
models were used as they are, except that a power in `Domain.computeGeneratorForSize` was computed by squaring. All 67 agree; the seven
valid vectors for cells and proofs also agree with tables of width 8 in the prover. This is
evidence for point 2 of the trusted base, not a proof, and no theorem depends on it. C89 proves in the kernel what can be had without
a pairing and without computing all proofs: all recorded commitments, cells and refusals of the three kinds of files without verification, and 24 of the 30 verification files for every non-degenerate bilinear pairing. That
`Model/TestVectors` says what the files say was checked by printing its 61 vectors and comparing them with the files.
